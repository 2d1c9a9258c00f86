import Verif.Props.Aero3
import Verif.Props.Constraint
import Mathlib.Analysis.SpecialFunctions.Trigonometric.Bounds
import Mathlib.Analysis.Real.Pi.Bounds

/-
Property C100: the induced drag factor of the leading-edge suction method.
-/

namespace Verif.Props
open Verif Verif.Aircraft Verif.Units Verif.Spec

noncomputable section

/-! ### The suction curves -/

/-- `tan u ≤ u / (1 - u²/2)` on the range needed. -/
theorem tan_le_quot {u : ℝ} (h0 : 0 ≤ u) (h1 : u ≤ 1) : Real.tan u ≤ u / (1 - u ^ 2 / 2) := by
  have hc := Real.one_sub_sq_div_two_le_cos (x := u)
  have hp : 0 < 1 - u ^ 2 / 2 := by nlinarith
  rw [Real.tan_eq_sin_div_cos, div_le_div_iff₀ (by linarith) hp]
  have hs := Real.sin_le h0
  have : 0 ≤ u := h0
  nlinarith

theorem tan_ge {u : ℝ} (h0 : 0 ≤ u) (h1 : u ≤ 1) : u ≤ Real.tan u := by
  rcases h0.eq_or_lt with rfl | h0
  · simp
  · exact (Real.lt_tan h0 (by linarith [Real.pi_gt_three])).le

theorem exp_0195 : Real.exp 0.195 ≤ 1.216 := by
  have h : Real.exp 0.195 = Real.exp (0.195 / 100) ^ 100 := by
    rw [← Real.exp_nat_mul]; congr 1; norm_num
  rw [h]
  have h1 : Real.exp (0.195 / 100) ≤ 1 / (1 - 0.195 / 100) :=
    Real.exp_bound_div_one_sub_of_interval (by norm_num) (by norm_num)
  calc _ ≤ (1 / (1 - 0.195 / 100 : ℝ)) ^ 100 := by gcongr
    _ ≤ 1.216 := by norm_num

theorem exp_017 : Real.exp 0.17 ≤ 1.186 := by
  have h : Real.exp 0.17 = Real.exp (0.17 / 100) ^ 100 := by
    rw [← Real.exp_nat_mul]; congr 1; norm_num
  rw [h]
  have h1 : Real.exp (0.17 / 100) ≤ 1 / (1 - 0.17 / 100) :=
    Real.exp_bound_div_one_sub_of_interval (by norm_num) (by norm_num)
  calc _ ≤ (1 / (1 - 0.17 / 100 : ℝ)) ^ 100 := by gcongr
    _ ≤ 1.186 := by norm_num

/-- The curve for a design lift coefficient of 0.3. -/
theorem y03_eq (x : ℝ) : y_suction x 0.3 22.5 1.95 0
    = 22.5 * (1 - x) * Real.exp (-1.95 * (x - 0.1)) * Real.tan (0.1 * (x + 0.34)) := by
  unfold y_suction
  simp only []
  rw [show ((-0.5 * (0.3:ℝ) ^ 2) - (0.25 * 0.3) - 0.22) = -0.34 by norm_num]
  rw [show x - -0.34 = x + 0.34 by ring]
  ring

/-- The curve for a design lift coefficient of 0.8. -/
theorem y08_eq (x : ℝ) : y_suction x 0.8 5.77 1 (-1.29)
    = 5.77 * (1.9546 - x) * Real.exp (-1 * (x - 0.1)) * Real.tan (0.1 * (x + 0.74)) := by
  unfold y_suction
  simp only []
  rw [show ((-0.5 * (0.8:ℝ) ^ 2) - (0.25 * 0.8) - 0.22) = -0.74 by norm_num]
  rw [show x - -0.74 = x + 0.74 by ring, show (1 + -1.29 * -0.74 : ℝ) = 1.9546 by norm_num]
  ring

theorem y03_range {x : ℝ} (h0 : -0.34 ≤ x) (h1 : x ≤ 1) :
    0 ≤ y_suction x 0.3 22.5 1.95 0 ∧ y_suction x 0.3 22.5 1.95 0 ≤ 0.94 := by
  rw [y03_eq]
  norm_num at h0
  have hu0 : 0 ≤ 0.1 * (x + 0.34) := by norm_num; linarith
  have hu1 : 0.1 * (x + 0.34) ≤ 0.134 := by norm_num; linarith
  have ht0 := tan_ge hu0 (by norm_num at hu1 ⊢; linarith)
  have ht1 := tan_le_quot hu0 (by norm_num at hu1 ⊢; linarith)
  have he := Real.exp_pos (-1.95 * (x - 0.1))
  have hx : 0 ≤ 1 - x := by linarith
  have htn : 0 ≤ Real.tan (0.1 * (x + 0.34)) := hu0.trans ht0
  refine ⟨by positivity, ?_⟩
  have ht : Real.tan (0.1 * (x + 0.34)) ≤ 1.0091 * (0.1 * (x + 0.34)) := by
    refine ht1.trans ?_
    rw [div_le_iff₀ (by nlinarith)]
    nlinarith [mul_nonneg hu0 (sub_nonneg.mpr hu1)]
  have hexp : Real.exp (-1.95 * (x - 0.1)) * (1 + 1.95 * x) ≤ 1.216 := by
    have e : Real.exp (-1.95 * (x - 0.1)) = Real.exp 0.195 / Real.exp (1.95 * x) := by
      rw [← Real.exp_sub]; congr 1; ring
    rw [e, div_mul_eq_mul_div, div_le_iff₀ (Real.exp_pos _)]
    have := Real.add_one_le_exp (1.95 * x)
    have h2 := Real.exp_pos (0.195 : ℝ)
    have h3 := Real.exp_pos (1.95 * x)
    calc _ ≤ Real.exp 0.195 * Real.exp (1.95 * x) := by
          apply mul_le_mul_of_nonneg_left (by linarith) h2.le
      _ ≤ _ := by apply mul_le_mul_of_nonneg_right exp_0195 h3.le
  have hg : (1 - x) * (x + 0.34) ≤ 0.3401 * (1 + 1.95 * x) := by nlinarith [sq_nonneg (x + 0.0016)]
  calc 22.5 * (1 - x) * Real.exp (-1.95 * (x - 0.1)) * Real.tan (0.1 * (x + 0.34))
      ≤ 22.5 * (1 - x) * Real.exp (-1.95 * (x - 0.1)) * (1.0091 * (0.1 * (x + 0.34))) := by
        apply mul_le_mul_of_nonneg_left ht (by positivity)
    _ = 2.270475 * Real.exp (-1.95 * (x - 0.1)) * ((1 - x) * (x + 0.34)) := by ring
    _ ≤ 2.270475 * Real.exp (-1.95 * (x - 0.1)) * (0.3401 * (1 + 1.95 * x)) := by
        apply mul_le_mul_of_nonneg_left hg (by positivity)
    _ = 0.7721885475 * (Real.exp (-1.95 * (x - 0.1)) * (1 + 1.95 * x)) := by ring
    _ ≤ 0.7721885475 * 1.216 := by apply mul_le_mul_of_nonneg_left hexp (by norm_num)
    _ ≤ 0.94 := by norm_num

theorem y08_range {x : ℝ} (h0 : -0.74 ≤ x) (h1 : x ≤ 1.9546) :
    0 ≤ y_suction x 0.8 5.77 1 (-1.29) ∧ y_suction x 0.8 5.77 1 (-1.29) ≤ 0.94 := by
  rw [y08_eq]
  norm_num at h0 h1
  have hu0 : 0 ≤ 0.1 * (x + 0.74) := by norm_num; linarith
  have hu1 : 0.1 * (x + 0.74) ≤ 0.27 := by norm_num; linarith
  have ht0 := tan_ge hu0 (by norm_num at hu1 ⊢; linarith)
  have ht1 := tan_le_quot hu0 (by norm_num at hu1 ⊢; linarith)
  have he := Real.exp_pos (-1 * (x - 0.1))
  have hx : 0 ≤ 1.9546 - x := by norm_num; linarith
  have htn : 0 ≤ Real.tan (0.1 * (x + 0.74)) := hu0.trans ht0
  refine ⟨by positivity, ?_⟩
  have hd : 0 < 1 - (0.1 * (x + 0.74)) ^ 2 / 2 := by nlinarith
  have hexp : Real.exp (-1 * (x - 0.1)) * (1.07 + x) ≤ 1.186 := by
    have e : Real.exp (-1 * (x - 0.1)) = Real.exp 0.17 / Real.exp (x + 0.07) := by
      rw [← Real.exp_sub]; congr 1; ring
    rw [e, div_mul_eq_mul_div, div_le_iff₀ (Real.exp_pos _)]
    have := Real.add_one_le_exp (x + 0.07)
    have h2 := Real.exp_pos (0.17 : ℝ)
    have h3 := Real.exp_pos (x + 0.07)
    calc _ ≤ Real.exp 0.17 * Real.exp (x + 0.07) := by
          apply mul_le_mul_of_nonneg_left (by linarith) h2.le
      _ ≤ _ := by apply mul_le_mul_of_nonneg_right exp_017 h3.le
  have hg : (1.9546 - x) * (x + 0.74) ≤ 1.3735 * (1.07 + x) * (1 - (0.1 * (x + 0.74)) ^ 2 / 2) := by
    nlinarith [sq_nonneg (x + 0.07), sq_nonneg x, mul_nonneg (by linarith : (0:ℝ) ≤ x + 37/50) (by linarith : (0:ℝ) ≤ 9773/5000 - x),
      mul_nonneg (mul_nonneg (by linarith : (0:ℝ) ≤ x + 37/50) (by linarith : (0:ℝ) ≤ x + 37/50)) (by linarith : (0:ℝ) ≤ 9773/5000 - x)]
  calc 5.77 * (1.9546 - x) * Real.exp (-1 * (x - 0.1)) * Real.tan (0.1 * (x + 0.74))
      ≤ 5.77 * (1.9546 - x) * Real.exp (-1 * (x - 0.1)) * (0.1 * (x + 0.74) / (1 - (0.1 * (x + 0.74)) ^ 2 / 2)) := by
        apply mul_le_mul_of_nonneg_left ht1 (by positivity)
    _ = 0.577 * Real.exp (-1 * (x - 0.1)) * ((1.9546 - x) * (x + 0.74) / (1 - (0.1 * (x + 0.74)) ^ 2 / 2)) := by ring
    _ ≤ 0.577 * Real.exp (-1 * (x - 0.1)) * (1.3735 * (1.07 + x)) := by
        apply mul_le_mul_of_nonneg_left _ (by positivity)
        rw [div_le_iff₀ hd]; exact hg
    _ = 0.7925095 * (Real.exp (-1 * (x - 0.1)) * (1.07 + x)) := by ring
    _ ≤ 0.7925095 * 1.186 := by apply mul_le_mul_of_nonneg_left hexp (by norm_num)
    _ ≤ 0.94 := by norm_num

theorem y03_zero : 0.92 ≤ y_suction 0 0.3 22.5 1.95 0 := by
  rw [y03_eq]
  have h1 := Real.quadratic_le_exp_of_nonneg (x := 0.195) (by norm_num)
  have h2 := tan_ge (u := 0.034) (by norm_num) (by norm_num)
  rw [show -1.95 * ((0:ℝ) - 0.1) = 0.195 by norm_num, show 0.1 * ((0:ℝ) + 0.34) = 0.034 by norm_num]
  have h3 : 1.214 * 0.034 ≤ Real.exp 0.195 * Real.tan 0.034 := by
    apply mul_le_mul (le_trans (by norm_num) h1) h2 (by norm_num) (Real.exp_pos _).le
  norm_num at h3 ⊢; linarith

theorem y08_zero : 0.92 ≤ y_suction 0 0.8 5.77 1 (-1.29) := by
  rw [y08_eq]
  have h1 := Real.quadratic_le_exp_of_nonneg (x := 0.1) (by norm_num)
  have h2 := tan_ge (u := 0.074) (by norm_num) (by norm_num)
  rw [show -1 * ((0:ℝ) - 0.1) = 0.1 by norm_num, show 0.1 * ((0:ℝ) + 0.74) = 0.074 by norm_num]
  have h3 : 1.105 * 0.074 ≤ Real.exp 0.1 * Real.tan 0.074 := by
    apply mul_le_mul (le_trans (by norm_num) h1) h2 (by norm_num) (Real.exp_pos _).le
  norm_num at h3 ⊢; linarith

/-- Outside the ranges the curves are negative. -/
theorem y03_neg {x : ℝ} (h : (-10 ≤ x ∧ x < -0.34) ∨ (1 < x ∧ x ≤ 10)) : y_suction x 0.3 22.5 1.95 0 < 0 := by
  rw [y03_eq]
  have he := Real.exp_pos (-1.95 * (x - 0.1))
  have hpi := Real.pi_gt_three
  rcases h with ⟨h0, h1⟩ | ⟨h0, h1⟩
  · have : Real.tan (0.1 * (x + 0.34)) < 0 := by
      apply Real.tan_neg_of_neg_of_pi_div_two_lt
      · norm_num at h1 ⊢; linarith
      · norm_num; linarith
    have h2 : 0 < 22.5 * (1 - x) := by norm_num at h1 ⊢; linarith
    exact mul_neg_of_pos_of_neg (by positivity) this
  · have : 0 < Real.tan (0.1 * (x + 0.34)) := by
      apply Real.tan_pos_of_pos_of_lt_pi_div_two
      · norm_num; linarith
      · norm_num; linarith
    have h2 : 22.5 * (1 - x) < 0 := by norm_num; linarith
    exact mul_neg_of_neg_of_pos (mul_neg_of_neg_of_pos h2 he) this

/-- Half way between the curves, below the cruise lift coefficient. -/
theorem yMid_neg {x : ℝ} (h0 : -0.74 ≤ x) (h1 : x ≤ -0.45) :
    y_suction x 0.3 22.5 1.95 0 + y_suction x 0.8 5.77 1 (-1.29) < 0 := by
  rw [y03_eq, y08_eq]
  norm_num at h0 h1
  have hu0 : 0 ≤ 0.1 * (x + 0.74) := by norm_num; linarith
  have hu1 : 0.1 * (x + 0.74) ≤ 0.03 := by norm_num; linarith
  have ht1 := tan_le_quot hu0 (by norm_num at hu1 ⊢; linarith)
  have ht : Real.tan (0.1 * (x + 0.74)) ≤ 1.001 * (0.1 * (x + 0.74)) := by
    refine ht1.trans ?_
    rw [div_le_iff₀ (by nlinarith)]
    nlinarith [mul_nonneg hu0 (sub_nonneg.mpr hu1)]
  have hv0 : 0 ≤ 0.1 * (-x - 0.34) := by norm_num; linarith
  have hv := tan_ge hv0 (by norm_num; linarith)
  have htan : Real.tan (0.1 * (x + 0.34)) ≤ 0.1 * (x + 0.34) := by
    rw [show 0.1 * (x + 0.34) = -(0.1 * (-x - 0.34)) by ring, Real.tan_neg]; linarith
  have he := Real.exp_pos (-1 * (x - 0.1))
  have hexp : Real.exp (-1.95 * (x - 0.1)) = Real.exp (-1 * (x - 0.1)) * Real.exp (-0.95 * (x - 0.1)) := by
    rw [← Real.exp_add]; congr 1; ring
  have hadd := Real.add_one_le_exp (-0.95 * (x - 0.1))
  have hE : 1.095 - 0.95 * x ≤ Real.exp (-0.95 * (x - 0.1)) := by norm_num at hadd ⊢; linarith
  rw [hexp]
  have a1 : 22.5 * (1 - x) * Real.exp (-0.95 * (x - 0.1)) * Real.tan (0.1 * (x + 0.34))
      ≤ 22.5 * (1 - x) * (1.095 - 0.95 * x) * (0.1 * (x + 0.34)) := by
    have p1 : 0 ≤ 22.5 * (1 - x) := by norm_num; linarith
    have n1 : 0.1 * (x + 0.34) ≤ 0 := by norm_num; linarith
    calc _ ≤ 22.5 * (1 - x) * Real.exp (-0.95 * (x - 0.1)) * (0.1 * (x + 0.34)) :=
          mul_le_mul_of_nonneg_left htan (by positivity)
      _ ≤ _ := mul_le_mul_of_nonpos_right (mul_le_mul_of_nonneg_left hE p1) n1
  have a2 : 5.77 * (1.9546 - x) * Real.tan (0.1 * (x + 0.74)) ≤ 5.77 * (1.9546 - x) * (1.001 * (0.1 * (x + 0.74))) :=
    mul_le_mul_of_nonneg_left ht (by norm_num; linarith)
  have hpoly : 22.5 * (1 - x) * (1.095 - 0.95 * x) * (0.1 * (x + 0.34)) + 5.77 * (1.9546 - x) * (1.001 * (0.1 * (x + 0.74))) < 0 := by
    nlinarith [mul_nonneg (by linarith : (0:ℝ) ≤ x + 37/50) (by linarith : (0:ℝ) ≤ -9/20 - x),
      mul_nonneg (mul_nonneg (by linarith : (0:ℝ) ≤ x + 37/50) (by linarith : (0:ℝ) ≤ -9/20 - x)) (by linarith : (0:ℝ) ≤ -9/20 - x)]
  calc _ = Real.exp (-1 * (x - 0.1)) * (22.5 * (1 - x) * Real.exp (-0.95 * (x - 0.1)) * Real.tan (0.1 * (x + 0.34))
        + 5.77 * (1.9546 - x) * Real.tan (0.1 * (x + 0.74))) := by ring
    _ < 0 := mul_neg_of_pos_of_neg he (by linarith)

/-! ### C100 -/

/-- The cruise lift coefficient at a wing loading; 0.6 where cruise speed or altitude are not given. -/
def CruiseCl (c : Concept) (w x : ℝ) : Prop :=
  match c.cruisespeed_ktas, c.cruisealt_m with
  | some v, some h => ∃ q, Atmos.dynamicpressure_pa c.designatm (kts2mps v) h = .ok q ∧ x = w * pyNum c.cruise_weight_fraction / q
  | _, _ => x = 0.6

/-- The induced drag factor with full leading-edge suction: that of an elliptical wing up to Mach 1, that without suction
from the sonic leading edge on, and in between between the elliptical one and that without suction at the
sonic leading edge. -/
def FullSuction (ar ms m k0 k0s k : ℝ) : Prop :=
  (m < 1 → k = 1 / (Real.pi * ar)) ∧ (1 ≤ m → ms ≤ m → k = k0) ∧ (1 ≤ m → m < ms → Between (1 / (Real.pi * ar)) k k0s)

/-- How much of the factor is that of Oswald: all of it at rest, none at a sonic leading edge. -/
def OswaldPart (ms m t : ℝ) : Prop :=
  0 ≤ t ∧ (m ≤ 0 → t = 1) ∧ (0 ≤ m → m ≤ ms → t ^ 5 = 1 - m / ms) ∧ (ms ≤ m → t = 0)

/-- The part of the suction that is realised at a lift coefficient `x` above the cruise lift coefficient `cc`. -/
def SuctionPart (cc x s : ℝ) : Prop :=
  (x = 0 → 0.92 ≤ s ∧ s ≤ 0.94) ∧ (-0.34 ≤ x → x ≤ 1 → 0 ≤ s ∧ s ≤ 0.94) ∧
  (0.8 ≤ cc → -0.74 ≤ x → x ≤ 1.9546 → 0 ≤ s ∧ s ≤ 0.94)

theorem cruiseWeight (cc : ℝ) : 0 ≤ npInterp2 cc 0.3 0.8 1 0 ∧ npInterp2 cc 0.3 0.8 1 0 ≤ 1 ∧
    (cc ≤ 0.3 → npInterp2 cc 0.3 0.8 1 0 = 1) ∧ (0.8 ≤ cc → npInterp2 cc 0.3 0.8 1 0 = 0) ∧
    (0.3 ≤ cc → cc ≤ 0.8 → npInterp2 cc 0.3 0.8 1 0 = 1.6 - 2 * cc) := by
  unfold npInterp2
  refine ⟨?_, ?_, fun h => by rw [if_pos h], fun h => ?_, fun h1 h2 => ?_⟩
  · split
    · norm_num
    · split
      · norm_num
      · rename_i a b; norm_num at a b ⊢; linarith
  · split
    · norm_num
    · split
      · norm_num
      · rename_i a b; norm_num at a b ⊢; linarith
  · rw [if_neg (by norm_num at h ⊢; linarith), if_pos h]
  · split
    · rename_i a; norm_num at a h1 ⊢; linarith
    · split
      · rename_i a b; norm_num at a b h2 ⊢; linarith
      · norm_num; ring

theorem oswaldPart_interp (ms m : ℝ) (hms : 0 < ms) : OswaldPart ms m ((npInterp2 m 0 ms 1 0) ^ (0.2 : ℝ)) := by
  have h0 : 0 ≤ npInterp2 m 0 ms 1 0 := by
    unfold npInterp2
    split
    · norm_num
    · split
      · norm_num
      · rename_i a b
        rw [show (1:ℝ) + (0 - 1) / (ms - 0) * (m - 0) = 1 - m / ms by ring, sub_nonneg, div_le_one hms]; linarith
  refine ⟨Real.rpow_nonneg h0 _, fun h => ?_, fun h h' => ?_, fun h => ?_⟩
  · unfold npInterp2; rw [if_pos h]; simp
  · rw [← Real.rpow_natCast, ← Real.rpow_mul h0]
    norm_num
    unfold npInterp2
    rcases h.eq_or_lt with rfl | hp
    · simp
    · rw [if_neg (by linarith)]
      split
      · have : m = ms := by linarith
        rw [this, div_self hms.ne']; norm_num
      · ring
  · unfold npInterp2
    rw [if_neg (by linarith), if_pos h]
    exact Real.zero_rpow (by norm_num)

/-- The blended factor in terms of the specification. -/
theorem kBlend_spec (ko k0 k1 ms m x cc : ℝ) (hms : 0 < ms) : ∃ s t, OswaldPart ms m t ∧ SuctionPart cc x s ∧
    t = (npInterp2 m 0 ms 1 0) ^ (0.2 : ℝ) ∧
    s = npInterp2 cc 0.3 0.8 1 0 * y_suction x 0.3 22.5 1.95 0 + (1 - npInterp2 cc 0.3 0.8 1 0) * y_suction x 0.8 5.77 1 (-1.29) ∧
    kBlend ko k0 k1 ms m x cc = t * ko + (1 - t) * (s * k1 + (1 - s) * k0) := by
  obtain ⟨p0, p1, p2, p3, -⟩ := cruiseWeight cc
  refine ⟨_, _, oswaldPart_interp ms m hms, ?_, rfl, rfl, by unfold kBlend; ring⟩
  generalize npInterp2 cc 0.3 0.8 1 0 = p at p0 p1 p2 p3
  have hq : 0 ≤ 1 - p := by linarith
  refine ⟨?_, ?_, ?_⟩
  · rintro rfl
    have a1 := y03_zero
    have a2 := y08_zero
    have b1 := (y03_range (x := 0) (by norm_num) (by norm_num)).2
    have b2 := (y08_range (x := 0) (by norm_num) (by norm_num)).2
    constructor <;> nlinarith
  · intro h0 h1
    obtain ⟨a1, b1⟩ := y03_range h0 h1
    obtain ⟨a2, b2⟩ := y08_range (x := x) (by norm_num at h0 ⊢; linarith) (by norm_num; linarith)
    constructor
    · positivity
    · nlinarith
  · intro hc h0 h1
    rw [p3 hc]
    have := y08_range h0 h1
    simpa using this

/-- What the factors are that the method averages. -/
theorem kFactors_spec {X : Ext} {c : Concept} {m ko k0 k1 : ℝ} (h : kFactors X c m = .ok (ko, k0, k1))
    (hms : 0 < Real.cos c.sweep_le_rad) :
    ∃ ls lss, induceddragfact c (some 24) (some (min m 0.6)) = .ok ko ∧ liftslope_prad X c (some m) = .ok ls ∧
      liftslope_prad X c (some (1 / Real.cos c.sweep_le_rad)) = .ok lss ∧ k0 = 1 / ls ∧
      FullSuction (pyNum c.aspectratio) (1 / Real.cos c.sweep_le_rad) m (1 / ls) (1 / lss) k1 := by
  obtain ⟨ls, lss, h1, h2, h3, h4⟩ := C73_used X c m h
  simp only [kFactors, bind_ok_iff, pure_ok_iff] at h
  obtain ⟨ko', hk, _, _, _, _, h'⟩ := h
  cases h'
  refine ⟨ls, lss, hk, h1, h2, h3, fun hm => ?_, fun hm hm' => ?_, fun hm hm' => ?_⟩
  · rw [h4]; exact C73_subsonic _ _ _ _ _ hm
  · rw [h4]; exact C73_supersonic _ _ _ _ _ hm hm'
  · obtain ⟨f, e1, -, -, -, e2⟩ := C73_between (pyNum c.aspectratio) (1 / Real.cos c.sweep_le_rad) (1 / lss) (1 / ls) (by linarith)
    rw [h4, e1 m hm hm']; exact e2 m hm hm'.le

/-- The induced drag factor is a weighted mean: of Oswald's factor with a weight falling from one at rest to zero at
the sonic leading edge Mach number, and of the factors with full and without suction, of which 92 to 94 % is
suction at the cruise lift coefficient and between nothing and 94 % for lift coefficients at most 0.34 below and 1
above it (wider for a cruise lift coefficient from 0.8 on). -/
theorem C100_mean {X : Ext} {c : Concept} {m : ℝ} {ws ks : List ℝ} {g : ℝ → ℝ} (hms : 0 < Real.cos c.sweep_le_rad)
    (h : induceddragfact_lesm X c (some ws) (some (ws.map g)) (some m) = .ok ks) :
    ∃ ko ls lss k1 t, induceddragfact c (some 24) (some (min m 0.6)) = .ok ko ∧ liftslope_prad X c (some m) = .ok ls ∧
      liftslope_prad X c (some (1 / Real.cos c.sweep_le_rad)) = .ok lss ∧
      FullSuction (pyNum c.aspectratio) (1 / Real.cos c.sweep_le_rad) m (1 / ls) (1 / lss) k1 ∧
      OswaldPart (1 / Real.cos c.sweep_le_rad) m t ∧ ks.length = ws.length ∧
      ∀ (i : ℕ) w, ws[i]? = some w → ∃ cc s, CruiseCl c w cc ∧ SuctionPart cc (g w - cc) s ∧
        ks[i]? = some (t * ko + (1 - t) * (s * k1 + (1 - s) * (1 / ls))) := by
  rcases lesm_point X c m with ⟨e, he⟩ | ⟨K, ⟨ko, k0, k1, clc, h1, h2, h3⟩, hK⟩
  · rw [he] at h; cases h
  · rw [hK] at h
    cases h
    obtain ⟨ls, lss, a1, a2, a3, rfl, a5⟩ := kFactors_spec h1 hms
    have hpos : 0 < 1 / Real.cos c.sweep_le_rad := by positivity
    obtain ⟨-, t, ht, -, et, -⟩ := kBlend_spec ko (1 / ls) k1 _ m 0 0 hpos
    refine ⟨ko, ls, lss, k1, t, a1, a2, a3, a5, ht, by simp, fun i w hi => ?_⟩
    obtain ⟨s, t', -, hs, et', -, e⟩ := kBlend_spec ko (1 / ls) k1 _ m (g w - clc w) (clc w) hpos
    rw [← et] at et'
    refine ⟨clc w, s, ?_, hs, ?_⟩
    · unfold CruiseCl
      rcases h3 with ⟨hn, h3⟩ | ⟨vc, hc, qc, e1, e2, e3, h3⟩
      · rcases hn with hn | hn <;> rw [hn]
        · exact h3 w
        · cases c.cruisespeed_ktas <;> exact h3 w
      · rw [e1, e2]; exact ⟨qc, e3, h3 w⟩
    · rw [List.getElem?_map, hi, Option.map_some, h2]
      unfold machstar_le
      rw [e, et']

/-- The example aircraft: lift coefficient 0.168 in cruise at 500 Pa. -/
theorem exC_cruiseCl (w cc : ℝ) (h : CruiseCl exC w cc) : cc = w / (0.5 * 1 * kts2mps 150 ^ 2) := by
  obtain ⟨q, hq, rfl⟩ := h
  unfold Atmos.dynamicpressure_pa at hq
  have hd : Atmos.dens1 exC.designatm 3000 = .ok 1 := exAtm_dens 3000 (by norm_num) (by norm_num)
  rw [hd] at hq
  cases hq
  norm_num [exC, pyNum]

theorem exC_lesm (X : Ext) (m : ℝ) (ws : List ℝ) (g : ℝ → ℝ) :
    ∃ K : ℝ → ℝ, induceddragfact_lesm X exC (some ws) (some (ws.map g)) (some m) = .ok (ws.map K) := by
  obtain ⟨K, hK⟩ := KFun.exists X exC m (by intro alt h; cases h; exact exAtm_env 3000 (by norm_num) (by norm_num))
  exact ⟨_, hK.lesm ws g⟩

theorem exC_cos : 0 < Real.cos exC.sweep_le_rad := by
  simp [Concept.sweep_le_rad, exC, pyNum, Atmos.deg2rad]

example (X : Ext) : 0 < Real.cos exC.sweep_le_rad ∧
    ∃ ks, induceddragfact_lesm X exC (some [500, 1000]) (some ([500, 1000].map (fun w => w / 2000))) (some 0.4) = .ok ks :=
  ⟨exC_cos, (exC_lesm X 0.4 [500, 1000] _).imp' _ fun _ h => h⟩

/-- So for moderate lift coefficients it lies between the least and the greatest of the three factors. -/
theorem C100_between {X : Ext} {c : Concept} {m w cl k lo hi : ℝ} (hms : 0 < Real.cos c.sweep_le_rad) (hm : 0 ≤ m)
    (h : induceddragfact_lesm X c (some [w]) (some [cl]) (some m) = .ok [k])
    (hcl : ∀ cc, CruiseCl c w cc → -0.34 ≤ cl - cc ∧ cl - cc ≤ 1)
    (hko : ∀ ko, induceddragfact c (some 24) (some (min m 0.6)) = .ok ko → lo ≤ ko ∧ ko ≤ hi)
    (hk0 : ∀ ls, liftslope_prad X c (some m) = .ok ls → lo ≤ 1 / ls ∧ 1 / ls ≤ hi)
    (hk1 : ∀ ls lss k1, liftslope_prad X c (some m) = .ok ls →
      liftslope_prad X c (some (1 / Real.cos c.sweep_le_rad)) = .ok lss →
      FullSuction (pyNum c.aspectratio) (1 / Real.cos c.sweep_le_rad) m (1 / ls) (1 / lss) k1 → lo ≤ k1 ∧ k1 ≤ hi) :
    lo ≤ k ∧ k ≤ hi := by
  obtain ⟨ko, ls, lss, k1, t, a1, a2, a3, a4, ⟨t0, -, t2, t3⟩, -, a7⟩ := C100_mean (g := fun _ => cl) hms h
  obtain ⟨cc, s, b1, ⟨-, b2, -⟩, b3⟩ := a7 0 w rfl
  obtain ⟨s0, s1⟩ := b2 (hcl cc b1).1 (hcl cc b1).2
  have hk : k = t * ko + (1 - t) * (s * k1 + (1 - s) * (1 / ls)) := by
    simpa using b3
  have t1 : t ≤ 1 := by
    rcases le_total m (1 / Real.cos c.sweep_le_rad) with hm' | hm'
    · have h5 := t2 hm hm'
      have : 0 ≤ m / (1 / Real.cos c.sweep_le_rad) := by positivity
      by_contra hc
      have := one_lt_pow₀ (not_le.mp hc) (n := 5) (by norm_num)
      linarith
    · rw [t3 hm']; norm_num
  obtain ⟨o1, o2⟩ := hko ko a1
  obtain ⟨z1, z2⟩ := hk0 ls a2
  obtain ⟨f1, f2⟩ := hk1 ls lss k1 a2 a3 a4
  norm_num at s1
  have u1 : lo ≤ s * k1 + (1 - s) * (1 / ls) := by nlinarith
  have u2 : s * k1 + (1 - s) * (1 / ls) ≤ hi := by nlinarith
  rw [hk]
  constructor <;> nlinarith

-- at 1000 Pa and a lift coefficient of 0.5
example (X : Ext) : (∃ k, induceddragfact_lesm X exC (some [1000]) (some [0.5]) (some 0.4) = .ok [k]) ∧
    ∀ cc, CruiseCl exC 1000 cc → -0.34 ≤ 0.5 - cc ∧ 0.5 - cc ≤ 1 := by
  obtain ⟨K, hK⟩ := exC_lesm X 0.4 [1000] (fun _ => 0.5)
  refine ⟨⟨K 1000, hK⟩, fun cc h => ?_⟩
  rw [exC_cruiseCl _ _ h]
  norm_num [kts2mps]

/-- It is not a fraction of the suction outside that range: for a cruise lift coefficient up to 0.3 and a lift coefficient
more than 1 above it (or more than 0.34 below it), and for a cruise lift coefficient of 0.55 and lift coefficients
of 0.1 and less, the suction is negative, and the factor of a subsonic wing exceeds even the mean of Oswald's
factor and the factor without any suction. -/
theorem C100_suction_violated {X : Ext} {c : Concept} {m w cl k cc : ℝ} (hms : 0 < Real.cos c.sweep_le_rad) (hm0 : 0 < m)
    (hm1 : m < 1) (h : induceddragfact_lesm X c (some [w]) (some [cl]) (some m) = .ok [k]) (hcc : CruiseCl c w cc)
    (hr : (cc ≤ 0.3 ∧ (1 < cl - cc ∧ cl - cc ≤ 10 ∨ -10 ≤ cl - cc ∧ cl - cc < -0.34)) ∨
      (cc = 0.55 ∧ -0.19 ≤ cl ∧ cl ≤ 0.1)) :
    ∃ ko ls t, induceddragfact c (some 24) (some (min m 0.6)) = .ok ko ∧ liftslope_prad X c (some m) = .ok ls ∧ 0 ≤ t ∧ t < 1 ∧
      (1 / (Real.pi * pyNum c.aspectratio) < 1 / ls → t * ko + (1 - t) * (1 / ls) < k) := by
  have h' : induceddragfact_lesm X c (some [w]) (some ([w].map (fun _ => cl))) (some m) = .ok [k] := h
  rcases lesm_point X c m with ⟨e, he⟩ | ⟨K, ⟨ko, k0, k1, clc, h1, h2, h3⟩, hK⟩
  · rw [he] at h'; cases h'
  · rw [hK] at h'
    have hk : K w cl = k := by simpa using h'
    obtain ⟨ls, lss, a1, a2, a3, rfl, a5, -, -⟩ := kFactors_spec h1 hms
    have hpos : 0 < 1 / Real.cos c.sweep_le_rad := by positivity
    have hms1 : 1 ≤ 1 / Real.cos c.sweep_le_rad := by
      rw [le_div_iff₀ hms]; linarith [Real.cos_le_one c.sweep_le_rad]
    obtain ⟨s, t, ⟨t0, -, t2, -⟩, -, -, es, e⟩ := kBlend_spec ko (1 / ls) k1 _ m (cl - clc w) (clc w) hpos
    have ecc : clc w = cc := by
      unfold CruiseCl at hcc
      rcases h3 with ⟨hn, h3⟩ | ⟨vc, hc, qc, e1, e2, e3, h3⟩
      · rw [h3 w]
        rcases hn with hn | hn <;> rw [hn] at hcc
        · exact hcc.symm
        · cases hv : c.cruisespeed_ktas <;> rw [hv] at hcc <;> exact hcc.symm
      · rw [e1, e2] at hcc
        obtain ⟨q, eq, ex⟩ := hcc
        rw [e3] at eq; cases eq
        rw [h3 w, ex]
    rw [ecc] at es e
    have hs : s < 0 := by
      obtain ⟨-, -, p2, -, p4⟩ := cruiseWeight cc
      rcases hr with ⟨hc, hx⟩ | ⟨rfl, hx0, hx1⟩
      · rw [es, p2 hc]
        have := y03_neg (x := cl - cc) (by tauto)
        linarith
      · rw [es, p4 (by norm_num) (by norm_num)]
        have := yMid_neg (x := cl - 0.55) (by norm_num at hx0 ⊢; linarith) (by norm_num at hx1 ⊢; linarith)
        norm_num at this ⊢; linarith
    have t1 : t < 1 := by
      have h5 := t2 hm0.le (by linarith)
      have : 0 < m / (1 / Real.cos c.sweep_le_rad) := by positivity
      by_contra hc
      have := one_le_pow₀ (not_lt.mp hc) (n := 5)
      linarith
    refine ⟨ko, ls, t, a1, a2, t0, t1, fun hlt => ?_⟩
    have e' : K w cl = t * ko + (1 - t) * (s * k1 + (1 - s) * (1 / ls)) := by
      rw [h2, ecc]; exact e
    rw [← hk, e', a5 hm1]
    nlinarith [mul_pos (sub_pos.mpr t1) (mul_pos (neg_pos.mpr hs) (sub_pos.mpr hlt))]

-- the example aircraft at 500 Pa and a lift coefficient of 1.3, all hypotheses and the comparison of the factors
example (X : Ext) : ∃ k cc ls, induceddragfact_lesm X exC (some [500]) (some [1.3]) (some 0.3) = .ok [k] ∧ CruiseCl exC 500 cc ∧
    cc ≤ 0.3 ∧ 1 < 1.3 - cc ∧ liftslope_prad X exC (some 0.3) = .ok ls ∧ 1 / (Real.pi * pyNum exC.aspectratio) < 1 / ls := by
  obtain ⟨K, hK⟩ := exC_lesm X 0.3 [500] (fun _ => 1.3)
  obtain ⟨ko, ls, lss, k1, t, -, a2, -, -, -, -, a7⟩ := C100_mean exC_cos hK
  obtain ⟨cc, s, b1, -, -⟩ := a7 0 500 rfl
  have e := exC_cruiseCl _ _ b1
  refine ⟨K 500, cc, ls, hK, b1, ?_, ?_, a2, ?_⟩
  · rw [e]; norm_num [kts2mps]
  · rw [e]; norm_num [kts2mps]
  · obtain ⟨sub, tr, h1, h2, h3⟩ := C71_estimates X exC (some 0.3)
    rw [h3, (C71_ranges _ _ _ _).1 (by norm_num)] at a2
    cases a2
    obtain ⟨b, hb, pb, hle⟩ := C72_subsonic exC_isWing (by norm_num : (0:ℝ) ≤ 0.3) (by norm_num)
    have h1' : a_subsonic exC 0.3 = .ok ls := h1
    rw [hb] at h1'; cases h1'
    have h6 : (0.9:ℝ) ≤ √(1 - 0.3 ^ 2) := by
      apply Real.le_sqrt_of_sq_le; norm_num
    rw [le_div_iff₀ (lt_of_lt_of_le (by norm_num) h6)] at hle
    have h5 : pyNum exC.a_0i = 6 := rfl
    have h7 : pyNum exC.aspectratio = 9 := rfl
    rw [h5] at hle
    rw [h7]
    apply one_div_lt_one_div_of_lt pb
    have h8 : ls * 0.9 ≤ 6 := le_trans (mul_le_mul_of_nonneg_left h6 pb.le) hle
    norm_num at h8
    linarith [Real.pi_gt_three]

theorem broadcast2_single (f : ℝ → ℝ → ℝ) (a : ℝ) (l : List ℝ) : broadcast2 f [a] l = .ok (l.map (f a)) := by
  unfold broadcast2
  split
  · rename_i hl
    obtain ⟨x, rfl⟩ := List.length_eq_one_iff.mp hl.symm
    rfl
  · rfl

/-- Without a lift coefficient the cruise lift coefficient is taken, without a Mach number 0.3, and without a wing
loading the weight over the wing area. -/
theorem C100_defaults (X : Ext) (c : Concept) (m : Option ℝ) :
    (∀ w cc, CruiseCl c w cc →
      induceddragfact_lesm X c (some [w]) none m = induceddragfact_lesm X c (some [w]) (some [cc]) m) ∧
    (∀ ws ccs, c.cruisespeed_ktas ≠ none → c.cruisealt_m ≠ none → List.Forall₂ (CruiseCl c) ws ccs →
      induceddragfact_lesm X c (some ws) none m = induceddragfact_lesm X c (some ws) (some ccs) m) ∧
    (∀ ws cl, induceddragfact_lesm X c ws cl none = induceddragfact_lesm X c ws cl (some 0.3)) ∧
    (∀ W S cl, c.weight_n = some W → c.wingarea_m2 = some S →
      induceddragfact_lesm X c none cl m = induceddragfact_lesm X c (some [W / S]) cl m) ∧
    ∀ cl, (c.weight_n = none ∨ c.wingarea_m2 = none) → induceddragfact_lesm X c none cl m = .error .valueError := by
  refine ⟨?_, ?_, fun _ _ => rfl, fun W S cl h1 h2 => ?_, fun cl h => ?_⟩
  · intro w cc hc
    have : clCruise c [w] = .ok [cc] := by
      unfold CruiseCl at hc
      unfold clCruise
      split at hc
      · rename_i v h e1 e2
        obtain ⟨q, hq, rfl⟩ := hc
        simp only [e1, e2, hq, bind_ok]; rfl
      · rename_i hne
        split
        · rename_i v h e1 e2; exact absurd e2 (hne v h e1)
        · rw [hc]
    simp only [induceddragfact_lesm, lesmWingloading, bind_ok, this]
    congr 1
    funext r
    simp only [broadcast2_single, pure, Except.pure, bind_ok, List.map_cons, List.map_nil, sub_self]
  · intro ws ccs hv hh hf
    obtain ⟨v, ev⟩ := Option.ne_none_iff_exists'.mp hv
    obtain ⟨h, eh⟩ := Option.ne_none_iff_exists'.mp hh
    cases hq : Atmos.dynamicpressure_pa c.designatm (kts2mps v) h with
    | error e => simp only [induceddragfact_lesm, lesmWingloading, bind_ok, clCruise, ev, eh, hq, bind_error]
    | ok q =>
      have e1 : ccs = ws.map (fun w => w * pyNum c.cruise_weight_fraction / q) := by
        induction hf with
        | nil => rfl
        | cons a _ ih =>
          unfold CruiseCl at a
          rw [ev, eh] at a
          obtain ⟨q', e, rfl⟩ := a
          rw [hq] at e; cases e
          rw [List.map_cons, ih]
      have : clCruise c ws = .ok ccs := by
        simp only [clCruise, ev, eh, hq, bind_ok]; rw [e1]; rfl
      simp only [induceddragfact_lesm, lesmWingloading, bind_ok, this]
      congr 1
      funext r
      obtain ⟨ko, k0, k1⟩ := r
      simp only [e1, broadcast2_map_map, bind_ok, pure, Except.pure, broadcast2_single, List.map_map, sub_self]
      rfl
  · simp only [induceddragfact_lesm, lesmWingloading, h1, h2]
  · unfold induceddragfact_lesm lesmWingloading
    rcases h with h | h
    · simp only [h, bind_error]
    · cases c.weight_n <;> simp only [h, bind_error]

example : exC.cruisespeed_ktas ≠ none ∧ exC.cruisealt_m ≠ none ∧
    ∃ ccs, List.Forall₂ (CruiseCl exC) [500, 1000] ccs := by
  have hd : Atmos.dens1 exC.designatm 3000 = .ok 1 := exAtm_dens 3000 (by norm_num) (by norm_num)
  have h : ∀ w, ∃ cc, CruiseCl exC w cc := fun w => ⟨_, 0.5 * 1 * kts2mps 150 ^ 2, by
    unfold Atmos.dynamicpressure_pa; rw [hd]; rfl, rfl⟩
  obtain ⟨a, ha⟩ := h 500
  obtain ⟨b, hb⟩ := h 1000
  exact ⟨by simp [exC], by simp [exC], [a, b], .cons ha (.cons hb .nil)⟩

end

end Verif.Props
