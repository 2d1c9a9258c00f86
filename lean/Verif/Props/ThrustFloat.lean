import Verif.Lemmas.ThrustFloat
import Verif.Props.ConstraintFloat

/-
Property C144: the thrust and power factors in floating point.
-/

namespace Verif.Props
open Verif Verif.Fl

variable (F : Rounding) (M : Libm F)

/-- How far the total temperature exceeds the throttle ratio. -/
def excess (θ tr : ℝ) : ℝ := max (θ - tr) 0

theorem excess_lip (θ θ' tr : ℝ) : |excess θ' tr - excess θ tr| ≤ |θ' - θ| := by
  unfold excess
  have := abs_max_sub_max_le_abs (θ' - tr) (θ - tr) 0
  rwa [sub_sub_sub_cancel_right] at this

theorem excess_bounds {θ tr : ℝ} (h0 : 0 ≤ tr) (h1 : 0 ≤ θ) : 0 ≤ excess θ tr ∧ excess θ tr ≤ θ := by
  unfold excess
  exact ⟨le_max_right _ _, max_le (by linarith) h1⟩

/-- The excess computed, in either branch. -/
theorem excess_ab {F : Rounding} {θh θ tr : ℝ} (h : Ab F 48.3 θh θ) :
    (tr < θh → Ab F 48.3 (θh - tr) (excess θ tr)) ∧ (θh ≤ tr → Ab F 48.3 0 (excess θ tr)) := by
  have := (excess_lip θ θh tr).trans h
  constructor
  · intro hlt
    have e : excess θh tr = θh - tr := by unfold excess; rw [max_eq_left]; linarith
    rwa [e] at this
  · intro hle
    have e : excess θh tr = 0 := by unfold excess; rw [max_eq_right]; linarith
    rwa [e] at this

theorem theta_ab {t m : ℝ} (h0 : -100 ≤ t) (h1 : t ≤ 60) (m0 : 0 < m) (m1 : m ≤ 2) :
    Ab F 48.3 (Fl.tempratio F M t m) (Atmos.tempratio t m) := by
  obtain ⟨b0, b1⟩ := tempratio_bounds t m h0 h1 m0 m1
  exact (Ab.of_acc (acc_tempratio M t m h0 h1 m0) (by norm_num) (B := 2.1) (by rw [abs_of_nonneg (by linarith)]; exact b1)).weaken (by norm_num)

theorem lit_ab (x B : ℝ) (h : |x| ≤ B) : Ab F (2 * B) (F.rd x) x :=
  (Ab.of_acc (Acc.rd F x) (by norm_num) h).weaken (by norm_num)

theorem sqrt_le_mach {m : ℝ} (m1 : m ≤ 2) : √m ≤ 1.4143 := by
  rw [Real.sqrt_le_left (by norm_num)]; norm_num at *; linarith

theorem root_ab (a A m : ℝ) (m1 : m ≤ 2) (ha : 0 ≤ a) (hA : a * 1.4143 ≤ A) :
    Ab F (4 * A) (F.rd (F.rd a * F.rd √m)) (a * √m) ∧ 0 ≤ a * √m ∧ a * √m ≤ A := by
  have hs := sqrt_le_mach m1
  have h0 := Real.sqrt_nonneg m
  have b0 : 0 ≤ a * √m := by positivity
  have b1 : a * √m ≤ A := le_trans (by gcongr) hA
  exact ⟨(Ab.of_acc (((Acc.rd F a).mul (Acc.rd F √m)).round) (by norm_num) (B := A) (by rw [abs_of_nonneg b0]; exact b1)).weaken (by norm_num),
    b0, b1⟩

theorem lessRoot_ab (a A m : ℝ) (m1 : m ≤ 2) (ha : 0 ≤ a) (hA : a * 1.4143 ≤ A) (hA1 : A ≤ 1) :
    Ab F (4.01 * A + 1) (lessRoot F a m) (1 - a * √m) := by
  obtain ⟨h1, h2, h3⟩ := root_ab F a A m m1 ha hA
  have := ((Ab.refl 1).sub h1).rd (B := 1) (by rw [abs_le]; constructor <;> linarith)
  unfold lessRoot
  have hA0 : 0 ≤ A := h2.trans h3
  exact this.weaken (by norm_num; nlinarith)

/-- Three times the excess over a denominator. -/
theorem excess_rd {F : Rounding} {θh θ tr : ℝ} (h : Ab F 48.3 θh θ) (h0 : 0 ≤ tr) (hθ : 0 ≤ θ) (h1 : θ ≤ 2.1) (hlt : tr < θh) :
    Ab F 50.41 (F.rd (θh - tr)) (excess θ tr) := by
  obtain ⟨b0, b1⟩ := excess_bounds (tr := tr) h0 hθ
  exact (((excess_ab h).1 hlt).rd (B := 2.1) (by rw [abs_of_nonneg b0]; linarith)).weaken (by norm_num)

theorem bracket_size {a b A B Z : ℝ} (a0 : 0 ≤ a) (a1 : a ≤ A) (b0 : 0 ≤ b) (b1 : b ≤ B) (h1 : A + B ≤ Z + 1) (h2 : 1 ≤ Z) :
    |1 - a - b| ≤ Z := by
  rw [abs_le]; constructor <;> linarith

theorem high_bracket (t m tr : ℝ) (h0 : -100 ≤ t) (h1 : t ≤ 60) (m0 : 0 < m) (m1 : m ≤ 2) (r0 : 0 ≤ tr) :
    let z := 1 - 0.49 * √m - 3 * excess (Atmos.tempratio t m) tr / (1.5 + m)
    |z| ≤ 5.2 ∧ (Fl.tempratio F M t m ≤ tr → Ab F 131.3 (lessRoot F 0.49 m) z) ∧
    (tr < Fl.tempratio F M t m → Ab F 131.3 (F.rd (lessRoot F 0.49 m -
      F.rd (F.rd (3 * F.rd (Fl.tempratio F M t m - tr)) / F.rd (F.rd 1.5 + m)))) z) := by
  intro z
  have hθ := theta_ab F M h0 h1 m0 m1
  obtain ⟨t0, t1⟩ := tempratio_bounds t m h0 h1 m0 m1
  have t0' : 0 ≤ Atmos.tempratio t m := le_trans (by norm_num) t0
  obtain ⟨x0, x1⟩ := excess_bounds r0 t0'
  obtain ⟨_, s0, s1⟩ := root_ab F 0.49 0.7 m m1 (by norm_num) (by norm_num)
  have a1 := (lessRoot_ab F 0.49 0.7 m m1 (by norm_num) (by norm_num) (by norm_num)).weaken (b := 3.81) (by norm_num)
  have hd : (1.5 + m)⁻¹ ≤ 0.667 := by
    rw [inv_le_comm₀ (by linarith) (by norm_num)]; norm_num; linarith
  have hq0 : 0 ≤ 3 * excess (Atmos.tempratio t m) tr / (1.5 + m) := by positivity
  have hq1 : 3 * excess (Atmos.tempratio t m) tr / (1.5 + m) ≤ 4.21 := by
    rw [div_eq_mul_inv]
    have := mul_le_mul (show 3 * excess (Atmos.tempratio t m) tr ≤ 6.3 by linarith) hd (by positivity) (by norm_num)
    exact this.trans (by norm_num)
  have hz : |z| ≤ 5.2 := bracket_size s0 s1 hq0 hq1 (by norm_num) (by norm_num)
  refine ⟨hz, fun hle => ?_, fun hlt => ?_⟩
  · have e := (excess_ab hθ).2 hle
    have a2 : Ab F 97 0 (3 * excess (Atmos.tempratio t m) tr / (1.5 + m)) := by
      have := ((Ab.refl (F := F) (3 / (1.5 + m))).mul e (B := 2.001) (C := 2.1)
        (by rw [abs_of_nonneg (by positivity), div_eq_mul_inv]; linarith) (by rw [abs_of_nonneg x0]; linarith)).weaken (b := 97) (by norm_num)
      rwa [mul_zero, div_mul_eq_mul_div] at this
    have := (a1.sub a2).weaken (b := 131.3) (by norm_num)
    rwa [sub_zero] at this
  · have e := excess_rd hθ r0 t0' t1 hlt
    have a2 := (((Ab.refl (F := F) 3).mul e (B := 3) (C := 2.1) (by norm_num) (by rw [abs_of_nonneg x0]; linarith)).rd (B := 6.3)
      (by rw [abs_of_nonneg (by positivity)]; linarith)).weaken (b := 157.6) (by norm_num)
    have a3 : Acc F 2 (F.rd (F.rd 1.5 + m)) (1.5 + m) := ((Acc.rd F 1.5).add (Acc.refl (F := F) m) (by norm_num) m0.le).round
    have a4 := ((a2.div_acc a3 (by norm_num) (B := 6.3) (C := 0.667) (by rw [abs_of_nonneg (by positivity)]; linarith) (by positivity) hd).rd
      (B := 4.21) (by rw [abs_of_nonneg hq0]; exact hq1)).weaken (b := 122.1) (by norm_num)
    exact ((a1.sub a4).rd hz).weaken (by norm_num)

/-- One less a multiple of the excess over the total temperature: low bypass engines. -/
theorem low_bracket (a t m tr : ℝ) (h0 : -100 ≤ t) (h1 : t ≤ 60) (m0 : 0 < m) (m1 : m ≤ 2) (r0 : 0 ≤ tr) (a0 : 1 ≤ a) (a1 : a ≤ 3.8) :
    let z := 1 - a * excess (Atmos.tempratio t m) tr / Atmos.tempratio t m
    |z| ≤ 2.8 ∧ (Fl.tempratio F M t m ≤ tr → Ab F 674 1 z) ∧
    (tr < Fl.tempratio F M t m → Ab F 674 (F.rd (1 - F.rd (F.rd (F.rd a * F.rd (Fl.tempratio F M t m - tr)) / Fl.tempratio F M t m))) z) := by
  intro z
  have hθ := theta_ab F M h0 h1 m0 m1
  have hacc := acc_tempratio M t m h0 h1 m0
  obtain ⟨t0, t1⟩ := tempratio_bounds t m h0 h1 m0 m1
  have tpos : 0 < Atmos.tempratio t m := lt_of_lt_of_le (by norm_num) t0
  obtain ⟨x0, x1⟩ := excess_bounds r0 tpos.le
  have hd : (Atmos.tempratio t m)⁻¹ ≤ 1.67 := by
    rw [inv_le_comm₀ tpos (by norm_num)]; exact le_trans (by norm_num) t0
  have hq0 : 0 ≤ a * excess (Atmos.tempratio t m) tr / Atmos.tempratio t m := by positivity
  have hq1 : a * excess (Atmos.tempratio t m) tr / Atmos.tempratio t m ≤ 3.8 := by
    rw [div_le_iff₀ tpos]
    exact mul_le_mul a1 x1 x0 (by norm_num)
  have hz : |z| ≤ 2.8 := by
    show |1 - _| ≤ _
    rw [abs_le]; constructor <;> linarith
  refine ⟨hz, fun hle => ?_, fun hlt => ?_⟩
  · have e := (excess_ab hθ).2 hle
    have ha : |a / Atmos.tempratio t m| ≤ 6.35 := by
      rw [abs_of_nonneg (by positivity), div_eq_mul_inv]
      exact (mul_le_mul a1 hd (by positivity) (by norm_num)).trans (by norm_num)
    have a2 := ((Ab.refl (F := F) (a / Atmos.tempratio t m)).mul e (B := 6.35) (C := 2.1) ha
      (by rw [abs_of_nonneg x0]; linarith)).weaken (b := 310) (by norm_num)
    rw [mul_zero, div_mul_eq_mul_div] at a2
    have := ((Ab.refl (F := F) 1).sub a2).weaken (b := 674) (by norm_num)
    rwa [sub_zero] at this
  · have e := excess_rd hθ r0 tpos.le t1 hlt
    have ha : |a| ≤ 3.8 := by rw [abs_of_nonneg (by linarith)]; exact a1
    have hm : |a * excess (Atmos.tempratio t m) tr| ≤ 7.98 := by
      rw [abs_of_nonneg (by positivity)]
      exact (mul_le_mul a1 (x1.trans t1) x0 (by norm_num)).trans (by norm_num)
    have a2 := (((lit_ab F a 3.8 ha).mul e ha (C := 2.1) (by rw [abs_of_nonneg x0]; linarith)).rd hm).weaken (b := 215.6) (by norm_num)
    have a4 := ((a2.div_acc hacc (by norm_num) hm tpos hd).rd (B := 3.8) (by rw [abs_of_nonneg hq0]; exact hq1)).weaken (b := 670.6) (by norm_num)
    exact (((Ab.refl (F := F) 1).sub a4).rd hz).weaken (by norm_num)

/-- The bracket of the dry turbojet. -/
theorem dry_bracket (t m tr : ℝ) (h0 : -100 ≤ t) (h1 : t ≤ 60) (m0 : 0 < m) (m1 : m ≤ 2) (r0 : 0 ≤ tr) :
    let z := 1 - 0.16 * √m - 24 * excess (Atmos.tempratio t m) tr / ((9 + m) * Atmos.tempratio t m)
    |z| ≤ 2.7 ∧ (Fl.tempratio F M t m ≤ tr → Ab F 477 (lessRoot F 0.16 m) z) ∧
    (tr < Fl.tempratio F M t m → Ab F 477 (F.rd (lessRoot F 0.16 m -
      F.rd (F.rd (24 * F.rd (Fl.tempratio F M t m - tr)) / F.rd (F.rd (9 + m) * Fl.tempratio F M t m)))) z) := by
  intro z
  have hθ := theta_ab F M h0 h1 m0 m1
  have hacc := acc_tempratio M t m h0 h1 m0
  obtain ⟨t0, t1⟩ := tempratio_bounds t m h0 h1 m0 m1
  have tpos : 0 < Atmos.tempratio t m := lt_of_lt_of_le (by norm_num) t0
  obtain ⟨x0, x1⟩ := excess_bounds r0 tpos.le
  obtain ⟨_, s0, s1⟩ := root_ab F 0.16 0.23 m m1 (by norm_num) (by norm_num)
  have a1 := (lessRoot_ab F 0.16 0.23 m m1 (by norm_num) (by norm_num) (by norm_num)).weaken (b := 1.93) (by norm_num)
  have dpos : 0 < (9 + m) * Atmos.tempratio t m := by positivity
  have hd : ((9 + m) * Atmos.tempratio t m)⁻¹ ≤ 0.186 := by
    rw [inv_le_comm₀ dpos (by norm_num)]
    have := mul_le_mul (show 9 ≤ 9 + m by linarith) t0 (by norm_num) (by linarith)
    exact le_trans (by norm_num) this
  have hq0 : 0 ≤ 24 * excess (Atmos.tempratio t m) tr / ((9 + m) * Atmos.tempratio t m) := by positivity
  have hq1 : 24 * excess (Atmos.tempratio t m) tr / ((9 + m) * Atmos.tempratio t m) ≤ 2.67 := by
    rw [div_le_iff₀ dpos]
    have : 9 * excess (Atmos.tempratio t m) tr ≤ (9 + m) * Atmos.tempratio t m := mul_le_mul (by linarith) x1 x0 (by linarith)
    linarith
  have hz : |z| ≤ 2.7 := bracket_size s0 s1 hq0 hq1 (by norm_num) (by norm_num)
  refine ⟨hz, fun hle => ?_, fun hlt => ?_⟩
  · have e := (excess_ab hθ).2 hle
    have a2 := ((Ab.refl (F := F) (24 / ((9 + m) * Atmos.tempratio t m))).mul e (B := 4.47) (C := 2.1)
        (by rw [abs_of_nonneg (by positivity), div_eq_mul_inv]; linarith) (by rw [abs_of_nonneg x0]; linarith)).weaken (b := 217) (by norm_num)
    rw [mul_zero, div_mul_eq_mul_div] at a2
    have := (a1.sub a2).weaken (b := 477) (by norm_num)
    rwa [sub_zero] at this
  · have e := excess_rd hθ r0 tpos.le t1 hlt
    have hm : |24 * excess (Atmos.tempratio t m) tr| ≤ 50.4 := by rw [abs_of_nonneg (by positivity)]; linarith
    have a2 := (((Ab.refl (F := F) 24).mul e (B := 24) (C := 2.1) (by norm_num) (by rw [abs_of_nonneg x0]; linarith)).rd hm).weaken
      (b := 1260.3) (by norm_num)
    have a3 : Acc F 24 (F.rd (F.rd (9 + m) * Fl.tempratio F M t m)) ((9 + m) * Atmos.tempratio t m) := ((Acc.rd F (9 + m)).mul hacc).round
    have a4 := ((a2.div_acc a3 (by norm_num) hm dpos hd).rd (B := 2.67) (by rw [abs_of_nonneg hq0]; exact hq1)).weaken (b := 471.6) (by norm_num)
    exact ((a1.sub a4).rd hz).weaken (by norm_num)

/-- The bracket of the turbojet with afterburner. -/
theorem wet_bracket (t m tr : ℝ) (h0 : -100 ≤ t) (h1 : t ≤ 60) (m0 : 0 < m) (m1 : m ≤ 2) (r0 : 0.5 ≤ tr) :
    let z := 1 - 0.3 * (Atmos.tempratio t m - 1) - 0.1 * √m - 1.5 * excess (Atmos.tempratio t m) tr / tr
    let bh := F.rd (F.rd (1 - F.rd (F.rd 0.3 * F.rd (Fl.tempratio F M t m - 1))) - F.rd (F.rd 0.1 * F.rd √m))
    |z| ≤ 7.9 ∧ (Fl.tempratio F M t m ≤ tr → Ab F 212 bh z) ∧
    (tr < Fl.tempratio F M t m → Ab F 212 (F.rd (bh - F.rd (F.rd (F.rd 1.5 * F.rd (Fl.tempratio F M t m - tr)) / tr))) z) := by
  intro z bh
  have hθ := theta_ab F M h0 h1 m0 m1
  obtain ⟨t0, t1⟩ := tempratio_bounds t m h0 h1 m0 m1
  have tpos : 0 < Atmos.tempratio t m := lt_of_lt_of_le (by norm_num) t0
  have rpos : 0 < tr := lt_of_lt_of_le (by norm_num) r0
  obtain ⟨x0, x1⟩ := excess_bounds rpos.le tpos.le
  obtain ⟨s, s0, s1⟩ := root_ab F 0.1 0.15 m m1 (by norm_num) (by norm_num)
  have b1 : |Atmos.tempratio t m - 1| ≤ 1.1 := by rw [abs_le]; constructor <;> linarith
  have b2 : |0.3 * (Atmos.tempratio t m - 1)| ≤ 0.33 := by
    rw [abs_mul, abs_of_pos (by norm_num : (0 : ℝ) < 0.3)]
    exact (mul_le_mul_of_nonneg_left b1 (by norm_num)).trans (by norm_num)
  have b2' := abs_le.mp b2
  have c1 := ((hθ.sub (Ab.refl 1)).rd b1).weaken (b := 49.5) (by norm_num)
  have c2 := (((lit_ab F 0.3 0.3 (by norm_num [abs_le])).mul c1 (B := 0.3) (by norm_num [abs_le]) b1).rd b2).weaken (b := 16) (by norm_num)
  have b3 : |1 - 0.3 * (Atmos.tempratio t m - 1)| ≤ 1.33 := by rw [abs_le]; constructor <;> linarith
  have c3 := (((Ab.refl (F := F) 1).sub c2).rd b3).weaken (b := 17.4) (by norm_num)
  have b4 : |1 - 0.3 * (Atmos.tempratio t m - 1) - 0.1 * √m| ≤ 1.5 := by
    have := abs_le.mp b3
    rw [abs_le]; constructor <;> linarith
  have a1 : Ab F 19.6 bh _ := ((c3.sub s).rd b4).weaken (by norm_num)
  have hd : tr⁻¹ ≤ 2 := by
    rw [inv_le_comm₀ rpos (by norm_num)]; exact le_trans (by norm_num) r0
  have hq0 : 0 ≤ 1.5 * excess (Atmos.tempratio t m) tr / tr := by positivity
  have hm : |1.5 * excess (Atmos.tempratio t m) tr| ≤ 3.15 := by rw [abs_of_nonneg (by positivity)]; linarith
  have hq1 : 1.5 * excess (Atmos.tempratio t m) tr / tr ≤ 6.3 := by
    rw [div_eq_mul_inv]
    have := mul_le_mul ((le_abs_self _).trans hm) hd (by positivity) (by norm_num)
    exact this.trans (by norm_num)
  have hz : |z| ≤ 7.9 := by
    have := abs_le.mp b4
    show |1 - 0.3 * (Atmos.tempratio t m - 1) - 0.1 * √m - _| ≤ _
    rw [abs_le]; constructor <;> linarith
  refine ⟨hz, fun hle => ?_, fun hlt => ?_⟩
  · have e := (excess_ab hθ).2 hle
    have a2 := ((Ab.refl (F := F) (1.5 / tr)).mul e (B := 3) (C := 2.1)
        (by rw [abs_of_nonneg (by positivity), div_eq_mul_inv]; linarith) (by rw [abs_of_nonneg x0]; linarith)).weaken (b := 145) (by norm_num)
    rw [mul_zero, div_mul_eq_mul_div] at a2
    have := (a1.sub a2).weaken (b := 212) (by norm_num)
    rwa [sub_zero] at this
  · have e := excess_rd hθ rpos.le tpos.le t1 hlt
    have a2 := (((lit_ab F 1.5 1.5 (by norm_num [abs_le])).mul e (B := 1.5) (C := 2.1) (by norm_num [abs_le])
      (by rw [abs_of_nonneg x0]; linarith)).rd hm).weaken (b := 85.2) (by norm_num)
    have a4 := ((a2.div_acc (Acc.refl tr) (by norm_num) hm rpos hd).rd (B := 6.3) (by rw [abs_of_nonneg hq0]; exact hq1)).weaken (b := 183.2) (by norm_num)
    exact ((a1.sub a4).rd hz).weaken (by norm_num)

/-! ### C144 -/

/-- The range of operating conditions: temperatures from -100 to 60 degrees Celsius, Mach numbers above 0 up to 2. -/
structure Conditions (t p m : ℝ) : Prop where
  cold : -100 ≤ t
  hot : t ≤ 60
  press : 0 < p
  mach : 0 < m
  fast : m ≤ 2

theorem fan_high (t p m tr : ℝ) : Atmos.turbofanthrustfactor t p m tr "highbpr" =
    Atmos.pressratio p m * (1 - 0.49 * √m - 3 * excess (Atmos.tempratio t m) tr / (1.5 + m)) := by
  unfold Atmos.turbofanthrustfactor excess
  simp only [if_true]
  split
  next h => rw [max_eq_right (by linarith)]; simp
  next h => rw [max_eq_left (by linarith)]

theorem fan_low (t p m tr : ℝ) : Atmos.turbofanthrustfactor t p m tr "lowbpr" =
    Atmos.pressratio p m * (1 - 3.5 * excess (Atmos.tempratio t m) tr / Atmos.tempratio t m) := by
  unfold Atmos.turbofanthrustfactor excess
  simp only [show ¬ "lowbpr" = "highbpr" by decide, if_false, if_true]
  split
  next h => rw [max_eq_right (by linarith)]; simp
  next h => rw [max_eq_left (by linarith)]

theorem fan_dry (t p m tr : ℝ) (ptype : String) (n1 : ptype ≠ "highbpr") (n2 : ptype ≠ "lowbpr") :
    Atmos.turbofanthrustfactor t p m tr ptype =
    0.6 * Atmos.pressratio p m * (1 - 3.8 * excess (Atmos.tempratio t m) tr / Atmos.tempratio t m) := by
  unfold Atmos.turbofanthrustfactor excess
  simp only [if_neg n1, if_neg n2]
  split
  next h => rw [max_eq_right (by linarith)]; simp
  next h => rw [max_eq_left (by linarith)]

/-- Total temperature and total pressure ratio to 23 and 74 rounding units. -/
theorem C144_ratios (t p m : ℝ) (h : Conditions t p m) :
    |Fl.tempratio F M t m - Atmos.tempratio t m| ≤ 23 * F.u * Atmos.tempratio t m ∧
    |Fl.pressratio F M p m - Atmos.pressratio p m| ≤ 74 * F.u * Atmos.pressratio p m := by
  have h1 := (acc_tempratio M t m h.cold h.hot h.mach).err 23 (by norm_num) (by norm_num)
  have h2 := (acc_pressratio M p m h.mach h.fast).err 74 (by norm_num) (by norm_num)
  rw [abs_of_pos (lt_of_lt_of_le (by norm_num) (tempratio_bounds t m h.cold h.hot h.mach h.fast).1)] at h1
  rw [abs_of_pos (pressratio_pos p m h.press h.mach)] at h2
  exact ⟨h1, h2⟩

/-- A factor that is the pressure ratio itself where the bracket is one. -/
theorem flat {F : Rounding} {n : ℕ} {dh d z b : ℝ} (h : Acc F n dh d) (hn : n ≤ 900) (hd : 0 < d) (k : Ab F b 1 z) :
    |dh - d * z| ≤ (n + 1 + b) * F.u * d := by
  have h1 := h.le hn
  rw [abs_of_pos hd] at h1
  have h2 : |d - d * z| ≤ b * F.u * d := by
    have : d - d * z = d * (1 - z) := by ring
    rw [this, abs_mul, abs_of_pos hd]
    have := mul_le_mul_of_nonneg_left (show |1 - z| ≤ b * F.u from k) hd.le
    linarith
  have := abs_add_le (dh - d) (d - d * z)
  rw [sub_add_sub_cancel] at this
  linarith

/-- The thrust factors of turbofans: errors of at most 525 (high bypass), 890 (low bypass, afterburner) and 540 (low bypass, dry) rounding
units of the pressure ratio, also where rounding sends the computation into the other branch of the throttle test. -/
theorem C144_turbofan (t p m tr : ℝ) (h : Conditions t p m) (r0 : 0 ≤ tr) :
    |Fl.turbofanthrustfactor F M t p m tr "highbpr" - Atmos.turbofanthrustfactor t p m tr "highbpr"| ≤ 525 * F.u * Atmos.pressratio p m ∧
    |Fl.turbofanthrustfactor F M t p m tr "lowbpr" - Atmos.turbofanthrustfactor t p m tr "lowbpr"| ≤ 890 * F.u * Atmos.pressratio p m ∧
    ∀ ptype : String, ptype ≠ "highbpr" → ptype ≠ "lowbpr" →
      |Fl.turbofanthrustfactor F M t p m tr ptype - Atmos.turbofanthrustfactor t p m tr ptype| ≤ 540 * F.u * Atmos.pressratio p m := by
  have hu := F.u_nonneg
  have hp := acc_pressratio M p m h.mach h.fast
  have hd := pressratio_pos p m h.press h.mach
  have fin : ∀ {x c e d : ℝ}, 0 < d → x ≤ c * F.u * d → c ≤ e → x ≤ e * F.u * d := by
    intro x c e d hd hx hc
    exact hx.trans (by gcongr)
  refine ⟨?_, ?_, fun ptype n1 n2 => ?_⟩
  · rw [fan_high]
    obtain ⟨hz, k1, k2⟩ := high_bracket F M t m tr h.cold h.hot h.mach h.fast r0
    unfold Fl.turbofanthrustfactor
    simp only [if_true]
    split
    next hb => exact fin hd (Ab.scaled hp (by norm_num) hd (k1 hb) hz) (by norm_num)
    next hb => exact fin hd (Ab.scaled hp (by norm_num) hd (k2 (not_le.mp hb)) hz) (by norm_num)
  · rw [fan_low]
    obtain ⟨hz, k1, k2⟩ := low_bracket F M 3.5 t m tr h.cold h.hot h.mach h.fast r0 (by norm_num) (by norm_num)
    unfold Fl.turbofanthrustfactor
    simp only [show ¬ "lowbpr" = "highbpr" by decide, if_false, if_true]
    split
    next hb => exact fin hd (flat hp (by norm_num) hd (k1 hb)) (by norm_num)
    next hb => exact fin hd (Ab.scaled hp (by norm_num) hd (k2 (not_le.mp hb)) hz) (by norm_num)
  · rw [fan_dry t p m tr ptype n1 n2]
    obtain ⟨hz, k1, k2⟩ := low_bracket F M 3.8 t m tr h.cold h.hot h.mach h.fast r0 (by norm_num) (by norm_num)
    unfold Fl.turbofanthrustfactor
    simp only [if_neg n1, if_neg n2]
    have hp6 : Acc F 75 (F.rd (F.rd 0.6 * Fl.pressratio F M p m)) (0.6 * Atmos.pressratio p m) := ((Acc.rd F 0.6).mul hp).round
    have hd6 : 0 < 0.6 * Atmos.pressratio p m := by positivity
    have fin6 : ∀ {x c : ℝ}, x ≤ c * F.u * (0.6 * Atmos.pressratio p m) → c ≤ 900 → x ≤ 540 * F.u * Atmos.pressratio p m := by
      intro x c hx hc
      have := fin hd6 hx hc
      linarith
    split
    next hb => exact fin6 (flat hp6 (by norm_num) hd6 (k1 hb)) (by norm_num)
    next hb => exact fin6 (Ab.scaled hp6 (by norm_num) hd6 (k2 (not_le.mp hb)) hz) (by norm_num)

/-- The thrust factors of turbojets: 810 rounding units of the pressure ratio with afterburner (throttle ratios from 0.5), 552 without. -/
theorem C144_turbojet (t p m tr : ℝ) (h : Conditions t p m) (r0 : 0 ≤ tr) :
    (0.5 ≤ tr → |Fl.turbojetthrustfactor F M t p m tr true - Atmos.turbojetthrustfactor t p m tr true| ≤ 810 * F.u * Atmos.pressratio p m) ∧
    |Fl.turbojetthrustfactor F M t p m tr false - Atmos.turbojetthrustfactor t p m tr false| ≤ 552 * F.u * Atmos.pressratio p m := by
  have hu := F.u_nonneg
  have hp := acc_pressratio M p m h.mach h.fast
  have hd := pressratio_pos p m h.press h.mach
  have fin : ∀ {x c e d : ℝ}, 0 < d → x ≤ c * F.u * d → c ≤ e → x ≤ e * F.u * d := by
    intro x c e d hd hx hc
    exact hx.trans (by gcongr)
  refine ⟨fun r1 => ?_, ?_⟩
  · have e : Atmos.turbojetthrustfactor t p m tr true = Atmos.pressratio p m *
        (1 - 0.3 * (Atmos.tempratio t m - 1) - 0.1 * √m - 1.5 * excess (Atmos.tempratio t m) tr / tr) := by
      unfold Atmos.turbojetthrustfactor excess
      simp only [if_true]
      split
      next h => rw [max_eq_right (by linarith)]; simp
      next h => rw [max_eq_left (by linarith)]
    rw [e]
    obtain ⟨hz, k1, k2⟩ := wet_bracket F M t m tr h.cold h.hot h.mach h.fast r1
    unfold Fl.turbojetthrustfactor
    simp only [if_true]
    split
    next hb => exact fin hd (Ab.scaled hp (by norm_num) hd (k1 hb) hz) (by norm_num)
    next hb => exact fin hd (Ab.scaled hp (by norm_num) hd (k2 (not_le.mp hb)) hz) (by norm_num)
  · have e : Atmos.turbojetthrustfactor t p m tr false = Atmos.pressratio p m * 0.8 *
        (1 - 0.16 * √m - 24 * excess (Atmos.tempratio t m) tr / ((9 + m) * Atmos.tempratio t m)) := by
      unfold Atmos.turbojetthrustfactor excess
      simp only [Bool.false_eq_true, if_false]
      split
      next h => rw [max_eq_right (by linarith)]; simp
      next h => rw [max_eq_left (by linarith)]
    rw [e]
    obtain ⟨hz, k1, k2⟩ := dry_bracket F M t m tr h.cold h.hot h.mach h.fast r0
    unfold Fl.turbojetthrustfactor
    simp only [Bool.false_eq_true, if_false]
    have hp8 : Acc F 75 (F.rd (Fl.pressratio F M p m * F.rd 0.8)) (Atmos.pressratio p m * 0.8) := (hp.mul (Acc.rd F 0.8)).round
    have hd8 : 0 < Atmos.pressratio p m * 0.8 := by positivity
    have fin8 : ∀ {x c : ℝ}, x ≤ c * F.u * (Atmos.pressratio p m * 0.8) → c ≤ 690 → x ≤ 552 * F.u * Atmos.pressratio p m := by
      intro x c hx hc
      have := fin hd8 hx hc
      linarith
    split
    next hb => exact fin8 (Ab.scaled hp8 (by norm_num) hd8 (k1 hb) hz) (by norm_num)
    next hb => exact fin8 (Ab.scaled hp8 (by norm_num) hd8 (k2 (not_le.mp hb)) hz) (by norm_num)

/-- The power factor of piston engines. -/
theorem C144_piston (d : ℝ) (hd : 0 ≤ d) :
    |Fl.pistonpowerfactor F d - Atmos.pistonpowerfactor d| ≤ (7 * (d / 1.225) + 1) * F.u := by
  unfold Fl.pistonpowerfactor Atmos.pistonpowerfactor
  have hs : 0 ≤ d / 1.225 := by positivity
  have a1 : Acc F 4 (F.rd (F.rd 1.132 * F.rd (d / F.rd 1.225))) (1.132 * (d / 1.225)) :=
    ((Acc.rd F 1.132).mul ((Acc.refl (F := F) d).div (Acc.rd F 1.225)).round).round
  generalize d / 1.225 = s at *
  have b : |1.132 * s| ≤ 1.132 * s := by rw [abs_of_nonneg (by positivity)]
  have a2 := Ab.of_acc a1 (by norm_num) b
  have a3 := (Ab.of_acc (Acc.rd F 0.132) (by norm_num) (B := 0.132) (by norm_num [abs_le]))
  refine ((a2.sub a3).rd (B := 1.132 * s + 0.132) (by rw [abs_le]; constructor <;> linarith)).weaken ?_
  push_cast
  linarith

theorem over_acc {m : ℝ} (m0 : 0.2 ≤ m) : Acc F 4 (F.rd (m - F.rd 0.1)) (m - 0.1) := by
  have hu := F.u_nonneg
  have hp : 0 < m - 0.1 := by norm_num at *; linarith
  have e1 : Ab F 0.1 (F.rd 0.1) 0.1 := by
    have := F.err 0.1
    rw [abs_of_pos (by norm_num : (0 : ℝ) < 0.1)] at this
    unfold Ab; linarith
  have e2 := ((Ab.refl (F := F) m).sub e1).rd (B := m - 0.1) (by rw [abs_of_pos hp])
  refine Acc.of_err 3 (by norm_num) hp (e2.trans ?_)
  have : 1.000001 * (0 + 0.1) + (m - 0.1) ≤ 3 * (m - 0.1) := by norm_num at *; linarith
  have := mul_le_mul_of_nonneg_right this hu
  push_cast
  linarith

theorem quarter_power {m : ℝ} (m0 : 0.2 ≤ m) (m1 : m ≤ 2) : 0 ≤ (m - 0.1) ^ (0.25 : ℝ) ∧ (m - 0.1) ^ (0.25 : ℝ) ≤ 1.2 := by
  have hp : 0 < m - 0.1 := by norm_num at *; linarith
  refine ⟨Real.rpow_nonneg hp.le _, ?_⟩
  have h1 : (m - 0.1) ^ (0.25 : ℝ) ≤ ((1.2 : ℝ) ^ (4 : ℝ)) ^ (0.25 : ℝ) := by
    apply Real.rpow_le_rpow hp.le _ (by norm_num)
    rw [show ((4 : ℝ)) = ((4 : ℕ) : ℝ) by norm_num, Real.rpow_natCast]
    norm_num at *; linarith
  rw [← Real.rpow_mul (by norm_num)] at h1
  rwa [show (4 : ℝ) * 0.25 = 1 by norm_num, Real.rpow_one] at h1

/-- The bracket of the turboprop. -/
theorem prop_bracket (t m tr : ℝ) (h0 : -100 ≤ t) (h1 : t ≤ 60) (m0 : 0.2 ≤ m) (m1 : m ≤ 2) (r0 : 0 ≤ tr) :
    let z := 1 - 0.96 * (m - 0.1) ^ (0.25 : ℝ) - 3 * excess (Atmos.tempratio t m) tr / (8.13 * (m - 0.1))
    let oh := F.rd (m - F.rd 0.1)
    let bh := F.rd (1 - F.rd (F.rd 0.96 * M.pow oh (F.rd 0.25)))
    |z| ≤ 8.8 ∧ (Fl.tempratio F M t m ≤ tr → Ab F 283 bh z) ∧
    (tr < Fl.tempratio F M t m → Ab F 283 (F.rd (bh - F.rd (F.rd (3 * F.rd (Fl.tempratio F M t m - tr)) / F.rd (F.rd 8.13 * oh)))) z) := by
  intro z oh bh
  have mpos : 0 < m := lt_of_lt_of_le (by norm_num) m0
  have hθ := theta_ab F M h0 h1 mpos m1
  obtain ⟨t0, t1⟩ := tempratio_bounds t m h0 h1 mpos m1
  have tpos : 0 < Atmos.tempratio t m := lt_of_lt_of_le (by norm_num) t0
  obtain ⟨x0, x1⟩ := excess_bounds r0 tpos.le
  have hp : 0 < m - 0.1 := by norm_num at *; linarith
  have hp1 : 0.1 ≤ m - 0.1 := by norm_num at *; linarith
  have hp2 : m - 0.1 ≤ 1.9 := by norm_num at *; linarith
  have ho : Acc F 4 oh (m - 0.1) := over_acc F m0
  obtain ⟨q0, q1⟩ := quarter_power m0 m1
  have w1 := Acc.libm_pow M (l := 9) (Y := 0.25) (c := 2) (yh := F.rd 0.25) (y := 0.25) 6 ho hp (by norm_num)
    ((Acc.rd F 0.25).err 2 (by norm_num) (by norm_num)) (by norm_num) (by norm_num [abs_le])
    (abs_log_le hp (by linarith) (by linarith)) (by norm_num)
  have w2 : Acc F 11 (F.rd (F.rd 0.96 * M.pow oh (F.rd 0.25))) (0.96 * (m - 0.1) ^ (0.25 : ℝ)) := ((Acc.rd F 0.96).mul w1).round
  have s0 : 0 ≤ 0.96 * (m - 0.1) ^ (0.25 : ℝ) := by positivity
  have s1 : 0.96 * (m - 0.1) ^ (0.25 : ℝ) ≤ 1.16 := by
    generalize (m - 0.1) ^ (0.25 : ℝ) = y at *
    linarith
  have w3 := (Ab.of_acc w2 (by norm_num) (B := 1.16) (by rw [abs_of_nonneg s0]; exact s1)).weaken (b := 14) (by norm_num)
  have a1 : Ab F 15.1 bh (1 - 0.96 * (m - 0.1) ^ (0.25 : ℝ)) := (((Ab.refl (F := F) 1).sub w3).rd (B := 1) (by rw [abs_le]; constructor <;> linarith)).weaken (by norm_num)
  have dpos : 0 < 8.13 * (m - 0.1) := by positivity
  have hd : (8.13 * (m - 0.1))⁻¹ ≤ 1.231 := by
    rw [inv_le_comm₀ dpos (by norm_num)]
    have := mul_le_mul_of_nonneg_left hp1 (show (0 : ℝ) ≤ 8.13 by norm_num)
    exact le_trans (by norm_num) this
  have hm : |3 * excess (Atmos.tempratio t m) tr| ≤ 6.3 := by rw [abs_of_nonneg (by positivity)]; linarith
  have hq0 : 0 ≤ 3 * excess (Atmos.tempratio t m) tr / (8.13 * (m - 0.1)) := by positivity
  have hq1 : 3 * excess (Atmos.tempratio t m) tr / (8.13 * (m - 0.1)) ≤ 7.76 := by
    rw [div_eq_mul_inv]
    have := mul_le_mul ((le_abs_self _).trans hm) hd (by positivity) (by norm_num)
    exact this.trans (by norm_num)
  have hz : |z| ≤ 8.8 := bracket_size s0 s1 hq0 hq1 (by norm_num) (by norm_num)
  refine ⟨hz, fun hle => ?_, fun hlt => ?_⟩
  · have e := (excess_ab hθ).2 hle
    have a2 := ((Ab.refl (F := F) (3 / (8.13 * (m - 0.1)))).mul e (B := 3.7) (C := 2.1)
        (by rw [abs_of_nonneg (by positivity), div_eq_mul_inv]; linarith) (by rw [abs_of_nonneg x0]; linarith)).weaken (b := 179) (by norm_num)
    rw [mul_zero, div_mul_eq_mul_div] at a2
    have := (a1.sub a2).weaken (b := 283) (by norm_num)
    rwa [sub_zero] at this
  · have e := excess_rd hθ r0 tpos.le t1 hlt
    have a2 := (((Ab.refl (F := F) 3).mul e (B := 3) (C := 2.1) (by norm_num) (by rw [abs_of_nonneg x0]; linarith)).rd hm).weaken
      (b := 157.6) (by norm_num)
    have a3 : Acc F 6 (F.rd (F.rd 8.13 * oh)) (8.13 * (m - 0.1)) := ((Acc.rd F 8.13).mul ho).round
    have a4 := ((a2.div_acc a3 (by norm_num) hm dpos hd).rd (B := 7.76) (by rw [abs_of_nonneg hq0]; exact hq1)).weaken (b := 257) (by norm_num)
    exact ((a1.sub a4).rd hz).weaken (by norm_num)

/-- The turboprop factor: 950 rounding units of the pressure ratio from Mach 0.2 on, 74 up to Mach 0.1. -/
theorem C144_turboprop (t p m tr : ℝ) (h : Conditions t p m) (r0 : 0 ≤ tr) :
    (0.2 ≤ m → |Fl.turbopropthrustfactor_matt F M t p m tr - Atmos.turbopropthrustfactor_matt t p m tr| ≤ 950 * F.u * Atmos.pressratio p m) ∧
    (m ≤ 0.1 → F.rd m = m →
      |Fl.turbopropthrustfactor_matt F M t p m tr - Atmos.turbopropthrustfactor_matt t p m tr| ≤ 74 * F.u * Atmos.pressratio p m) := by
  have hu := F.u_nonneg
  have hul := F.u_lt
  have hp := acc_pressratio M p m h.mach h.fast
  have hd := pressratio_pos p m h.press h.mach
  constructor
  · intro m0
    have hlit : F.rd 0.1 < m := by
      have := F.err 0.1
      rw [abs_of_pos (by norm_num : (0 : ℝ) < 0.1), abs_le] at this
      have h2 := this.2
      norm_num at *; linarith
    have hlt : ¬ m ≤ 0.1 := by norm_num at *; linarith
    have e : Atmos.turbopropthrustfactor_matt t p m tr = Atmos.pressratio p m *
        (1 - 0.96 * (m - 0.1) ^ (0.25 : ℝ) - 3 * excess (Atmos.tempratio t m) tr / (8.13 * (m - 0.1))) := by
      unfold Atmos.turbopropthrustfactor_matt excess
      simp only [if_neg hlt]
      split
      next h => rw [max_eq_right (by linarith)]; simp
      next h => rw [max_eq_left (by linarith)]
    rw [e]
    obtain ⟨hz, k1, k2⟩ := prop_bracket F M t m tr h.cold h.hot m0 h.fast r0
    unfold Fl.turbopropthrustfactor_matt
    simp only [if_neg (not_le.mpr hlit)]
    have fin : ∀ {x c : ℝ}, x ≤ c * F.u * Atmos.pressratio p m → c ≤ 950 → x ≤ 950 * F.u * Atmos.pressratio p m := by
      intro x c hx hc
      exact hx.trans (by gcongr)
    split
    next hb => exact fin (Ab.scaled hp (by norm_num) hd (k1 hb) hz) (by norm_num)
    next hb => exact fin (Ab.scaled hp (by norm_num) hd (k2 (not_le.mp hb)) hz) (by norm_num)
  · intro m1 hm
    have hle : m ≤ F.rd 0.1 := by rw [← hm]; exact F.mono m1
    unfold Fl.turbopropthrustfactor_matt Atmos.turbopropthrustfactor_matt
    simp only [if_pos m1, if_pos hle]
    exact (C144_ratios F M t p m h).2

/-! ### Examples: an airliner at Mach 0.8, 11 km, at -56.5 degrees and 22632 Pa, in IEEE double precision -/

theorem exCruise : Conditions (-56.5) 22632 0.8 := ⟨by norm_num, by norm_num, by norm_num, by norm_num, by norm_num⟩

example : |Fl.tempratio binary64 (exactPow binary64) (-56.5) 0.8 - Atmos.tempratio (-56.5) 0.8| ≤
    23 * (2 : ℝ) ^ (-53 : ℤ) * Atmos.tempratio (-56.5) 0.8 :=
  (C144_ratios binary64 (exactPow binary64) _ _ _ exCruise).1

example : |Fl.turbofanthrustfactor binary64 (exactPow binary64) (-56.5) 22632 0.8 1.07 "highbpr" -
    Atmos.turbofanthrustfactor (-56.5) 22632 0.8 1.07 "highbpr"| ≤ 525 * (2 : ℝ) ^ (-53 : ℤ) * Atmos.pressratio 22632 0.8 :=
  (C144_turbofan binary64 (exactPow binary64) _ _ _ 1.07 exCruise (by norm_num)).1

/-- A throttle ratio below the total temperature ratio. -/
example : |Fl.turbojetthrustfactor binary64 (exactPow binary64) (-56.5) 22632 0.8 0.8 true -
    Atmos.turbojetthrustfactor (-56.5) 22632 0.8 0.8 true| ≤ 810 * (2 : ℝ) ^ (-53 : ℤ) * Atmos.pressratio 22632 0.8 :=
  (C144_turbojet binary64 (exactPow binary64) _ _ _ 0.8 exCruise (by norm_num)).1 (by norm_num)

example : |Fl.turbopropthrustfactor_matt binary64 (exactPow binary64) (-56.5) 22632 0.5 1 -
    Atmos.turbopropthrustfactor_matt (-56.5) 22632 0.5 1| ≤ 950 * (2 : ℝ) ^ (-53 : ℤ) * Atmos.pressratio 22632 0.5 :=
  (C144_turboprop binary64 (exactPow binary64) _ _ _ 1 ⟨by norm_num, by norm_num, by norm_num, by norm_num, by norm_num⟩ (by norm_num)).1
    (by norm_num)

example : |Fl.pistonpowerfactor binary64 0.9 - Atmos.pistonpowerfactor 0.9| ≤ (7 * (0.9 / 1.225) + 1) * (2 : ℝ) ^ (-53 : ℤ) :=
  C144_piston binary64 0.9 (by norm_num)

end Verif.Props
