import Verif.Lemmas.AeroFloat
import Verif.Props.Aero
import Verif.Props.ConstraintFloat

/-
Property C152: the span efficiency estimates and the induced drag factor in floating point.
-/

namespace Verif.Props
open Verif Verif.Fl Verif.Aircraft

variable (F : Rounding) (M : Libm2 F)

/-- For the cases below, library functions as assumed of `math.tan`, `math.cos` and `**` (constraintanalysis.py:518, 523, 559): the
exact values, rounded. -/
noncomputable def exactLibm (F : Rounding) : Libm2 F where
  toLibm := exactPow F
  ipow x n := F.rd (x ^ n)
  ipow_err x n := by
    have := F.err (x ^ n)
    have := mul_nonneg F.u_nonneg (abs_nonneg (x ^ n))
    linarith
  tan x := F.rd (Real.tan x)
  tan_err x := by
    have := F.err (Real.tan x)
    have := mul_nonneg F.u_nonneg (abs_nonneg (Real.tan x))
    linarith
  cos x := F.rd (Real.cos x)
  cos_err x := by
    have := F.err (Real.cos x)
    have := mul_nonneg F.u_nonneg (abs_nonneg (Real.cos x))
    linarith

/-- Wings of aspect ratio up to 30 and sweep up to 60 degrees. -/
structure UsualWing (c : Concept) : Prop where
  ar0 : 0 < pyNum c.aspectratio
  ar1 : pyNum c.aspectratio ≤ 30
  le : |pyNum c.sweep_le_deg| ≤ 60
  mt : |pyNum c.sweep_mt_deg| ≤ 60
  q0 : 0 ≤ pyNum c.sweep_25_deg
  q1 : pyNum c.sweep_25_deg ≤ 60
  t0 : 0 ≤ pyNum c.roottaperratio
  t1 : pyNum c.roottaperratio ≤ 1

/-- C152: the first estimate, for aspect ratios of one and more, is off by at most 16 units of rounding. -/
theorem C152_first (c : Concept) (h : UsualWing c) (h1 : 1 ≤ pyNum c.aspectratio) :
    |Fl.oswaldspaneff1 F M (pyNum c.aspectratio) - Aircraft.oswaldspaneff1 c| ≤ 16 * F.u := by
  unfold Fl.oswaldspaneff1 Aircraft.oswaldspaneff1
  obtain ⟨a1, b1⟩ := ab_scaled_lessSpan M h1 h.ar1 1.78 (by norm_num) (by norm_num)
  obtain ⟨s0, s1, _⟩ := span_bounds h1 h.ar1
  have a2 := (a1.sub (Ab.lit (F := F) 0.64 0.64 (by norm_num [abs_le]))).rd (B := 1.14) (by
    generalize pyNum c.aspectratio ^ (0.68 : ℝ) = p at *
    rw [abs_le]; constructor <;> norm_num at * <;> linarith)
  exact a2.weaken (by norm_num)

/-- C152: the second estimate is accurate to 600 units of rounding. The bound is large because 2 - AR is added to a root that is
almost AR. -/
theorem C152_second (c : Concept) (h : UsualWing c) :
    |Fl.oswaldspaneff2 F M (pyNum c.aspectratio) (pyNum c.sweep_mt_deg) - Aircraft.oswaldspaneff2 c| ≤
      600 * F.u * Aircraft.oswaldspaneff2 c := by
  have := (acc_second M h.ar0 h.ar1 h.mt).err 600 (by norm_num) (by norm_num)
  have hp := (C40_second c h.ar0).1
  have e : Aircraft.oswaldspaneff2 c = 2 / (2 - pyNum c.aspectratio +
    √(4 + pyNum c.aspectratio ^ 2 * (1 + (Real.tan (Atmos.deg2rad (pyNum c.sweep_mt_deg))) ^ 2))) := rfl
  rw [← e, abs_of_pos hp] at this
  exact this

/-- C152: the third estimate, for aspect ratios of one and more, is off by at most 80 units of rounding. -/
theorem C152_third (c : Concept) (h : UsualWing c) (h1 : 1 ≤ pyNum c.aspectratio) :
    |Fl.oswaldspaneff3 F M (pyNum c.aspectratio) (pyNum c.sweep_le_deg) - Aircraft.oswaldspaneff3 c| ≤ 80 * F.u := by
  unfold Fl.oswaldspaneff3 Aircraft.oswaldspaneff3 Concept.sweep_le_rad
  obtain ⟨a1, b1⟩ := ab_scaled_lessSpan M h1 h.ar1 4.61 (by norm_num) (by norm_num)
  obtain ⟨s0, s1, _⟩ := span_bounds h1 h.ar1
  have hc := cos_half (deg_bound h.le)
  have hc1 := Real.cos_le_one (Atmos.deg2rad (pyNum c.sweep_le_deg))
  have a2 := Acc.libm_pow M.toLibm (l := 1) (Y := 0.15) (c := 1) 3 (acc_cos M h.le) (by linarith) (by norm_num)
    (y := 0.15) (yh := F.rd 0.15) (by have := F.err 0.15; linarith) (by norm_num) (by rw [abs_of_pos (by norm_num)])
    (abs_log_le (by linarith) (by linarith) (by linarith)) (by norm_num)
  have p0 : 0 < Real.cos (Atmos.deg2rad (pyNum c.sweep_le_deg)) ^ (0.15 : ℝ) := Real.rpow_pos_of_pos (by linarith) _
  have p1 : Real.cos (Atmos.deg2rad (pyNum c.sweep_le_deg)) ^ (0.15 : ℝ) ≤ 1 := Real.rpow_le_one (by linarith) hc1 (by norm_num)
  generalize Real.cos (Atmos.deg2rad (pyNum c.sweep_le_deg)) ^ (0.15 : ℝ) = g at *
  have hg : |g| ≤ 1 := by rw [abs_of_pos p0]; exact p1
  have q0 : 0 ≤ 4.61 * (1 - 0.045 * pyNum c.aspectratio ^ (0.68 : ℝ)) := by
    generalize pyNum c.aspectratio ^ (0.68 : ℝ) = p at *
    norm_num at *; linarith
  rw [abs_of_nonneg q0] at b1
  have r0 := mul_nonneg q0 p0.le
  have r1 : 4.61 * (1 - 0.045 * pyNum c.aspectratio ^ (0.68 : ℝ)) * g ≤ 4.61 * 1 := mul_le_mul b1 p1 p0.le (by norm_num)
  have a3 := (a1.mul (Ab.of_acc a2 (by norm_num) hg) (B := 4.61) (by rw [abs_of_nonneg q0]; exact b1) hg).rd (B := 4.61) (by
    rw [abs_of_nonneg r0]; linarith)
  have a4 := (a3.sub (Ab.lit (F := F) 3.1 3.1 (by norm_num [abs_le]))).rd (B := 3.1) (by
    generalize 4.61 * (1 - 0.045 * pyNum c.aspectratio ^ (0.68 : ℝ)) * g = p at *
    rw [abs_le]; constructor <;> norm_num at * <;> linarith)
  exact a4.weaken (by norm_num)

theorem acc_fourth (c : Concept) (h : UsualWing c) (m : ℝ) (hm : m ≤ F.rd 0.3) :
    Acc F 687 (Fl.oswaldspaneff4 F M (pyNum c.aspectratio) (pyNum c.roottaperratio) (pyNum c.sweep_25_deg) m)
      (Aircraft.oswaldspaneff4 c none) := by
  have hk := hoerner_pos (pyNum c.roottaperratio) (pyNum c.sweep_25_deg)
  have a1 := acc_theo M h.ar0 h.ar1 h.t0 h.t1 h.q0 h.q1 hk
  have hp : 0 < 1 / (1 + Aircraft.hoernerfactor (pyNum c.roottaperratio) (pyNum c.sweep_25_deg) * pyNum c.aspectratio) := by
    have := mul_pos hk h.ar0
    positivity
  have e1 : Fl.keMach F M m = 1 := by unfold Fl.keMach; rw [if_neg (not_lt.2 hm)]
  have e2 : Aircraft.keMach ((none : Option ℝ).getD 0.3) = 1 := by
    unfold Aircraft.keMach; rw [if_neg (by simp)]
  unfold Fl.oswaldspaneff4 Aircraft.oswaldspaneff4
  simp only [e1, e2]
  generalize 1 / (1 + Aircraft.hoernerfactor (pyNum c.roottaperratio) (pyNum c.sweep_25_deg) * pyNum c.aspectratio) = e at *
  have a2 : Acc F 683 _ _ := (a1.mul (acc_fuse M)).round
  have a3 : Acc F 685 _ _ := (a2.mul (Acc.rd F 0.85)).round
  have a4 : Acc F 686 _ _ := (a3.mul (Acc.refl (F := F) 1)).round
  have a5 := Acc.max (a4.weaken (by norm_num : 686 ≤ 687)) ((Acc.rd F 1e-3).weaken (by norm_num : 1 ≤ 687))
    (by norm_num at hp ⊢; positivity) (by norm_num)
  have key : ∀ x y : ℝ, (if x < y then y else x) = max x y := by
    intro x y
    split
    · rw [max_eq_right (by linarith)]
    · rw [max_eq_left (by linarith)]
  rw [key, key]
  exact a5

/-- C152: the fourth estimate in incompressible flow is accurate to 690 units of rounding. -/
theorem C152_fourth (c : Concept) (h : UsualWing c) (m : ℝ) (hm : m ≤ F.rd 0.3) :
    |Fl.oswaldspaneff4 F M (pyNum c.aspectratio) (pyNum c.roottaperratio) (pyNum c.sweep_25_deg) m - Aircraft.oswaldspaneff4 c none| ≤
      690 * F.u * Aircraft.oswaldspaneff4 c none := by
  have := (acc_fourth F M c h m hm).err 690 (by norm_num) (by norm_num)
  have hp := (C40_fourth c none h.ar0).1
  rwa [abs_of_pos (lt_of_lt_of_le (by norm_num) hp)] at this

/-- C152: the induced drag factor with no estimates selected is accurate to 700 units of rounding, and as computed it is still above
the ideal 1 / (π AR). -/
theorem C152_factor (c : Concept) (h : UsualWing c) (mach : Option ℝ) :
    ∃ k, Aircraft.induceddragfact c none mach = .ok k ∧
      |Fl.induceddragfact F M (pyNum c.aspectratio) (pyNum c.sweep_mt_deg) (pyNum c.roottaperratio) (pyNum c.sweep_25_deg) - k| ≤
        700 * F.u * k ∧
      1 / (Real.pi * pyNum c.aspectratio) <
        Fl.induceddragfact F M (pyNum c.aspectratio) (pyNum c.sweep_mt_deg) (pyNum c.roottaperratio) (pyNum c.sweep_25_deg) := by
  have h2 := C40_second c h.ar0
  have h4 := C40_fourth c none h.ar0
  have hp := Real.pi_pos
  have ha := h.ar0
  refine ⟨_, (C39_default c 0 mach ?_).2, ?_⟩
  · intro i _ _ ⟨j, hj, _⟩
    have : 0 < 10 ^ j := by positivity
    omega
  have a2 : Acc F 594 _ (Aircraft.oswaldspaneff2 c) := acc_second M h.ar0 h.ar1 h.mt
  have a4 := acc_fourth F M c h (F.rd 0.3) le_rfl
  unfold Fl.induceddragfact
  simp only
  generalize Aircraft.oswaldspaneff2 c = e2 at *
  generalize Aircraft.oswaldspaneff4 c none = e4 at *
  have p4 : 0 < e4 := lt_of_lt_of_le (by norm_num) h4.1
  have b1 : Acc F 688 _ _ := (a2.add a4 h2.1.le p4.le).round
  have b2 : Acc F 689 _ _ := ((Acc.refl (F := F) 0.5).mul b1).round
  rw [show (0.5 : ℝ) * (e2 + e4) = (e2 + e4) / 2 by ring] at b2
  have b3 : Acc F 692 _ _ := ((((Acc.rd F Real.pi).mul (Acc.refl (F := F) (pyNum c.aspectratio))).round).mul b2).round
  have b4 : Acc F 693 _ _ := ((Acc.refl (F := F) 1).div b3).round
  have b5 := b4.err 700 (by norm_num) (by norm_num)
  obtain ⟨kh, hkh⟩ : ∃ kh, kh = F.rd (1 / F.rd (F.rd (F.rd Real.pi * pyNum c.aspectratio) * F.rd (0.5 * F.rd
    (Fl.oswaldspaneff2 F M (pyNum c.aspectratio) (pyNum c.sweep_mt_deg) +
      Fl.oswaldspaneff4 F M (pyNum c.aspectratio) (pyNum c.roottaperratio) (pyNum c.sweep_25_deg) (F.rd 0.3))))) := ⟨_, rfl⟩
  rw [← hkh] at b5 ⊢
  have q : 0 < Real.pi * pyNum c.aspectratio := by positivity
  generalize Real.pi * pyNum c.aspectratio = r at *
  have s0 : 0 < (e2 + e4) / 2 := by linarith [h2.1]
  have s1 : (e2 + e4) / 2 ≤ 0.925 := by norm_num at *; linarith [h2.2, h4.2]
  have kp : 0 < 1 / (r * ((e2 + e4) / 2)) := by positivity
  rw [abs_of_pos kp] at b5
  refine ⟨b5, ?_⟩
  have low : 1 / r * (1 / 0.925) ≤ 1 / (r * ((e2 + e4) / 2)) := by
    rw [one_div_mul_one_div]
    apply one_div_le_one_div_of_le (by positivity)
    gcongr
  generalize 1 / (r * ((e2 + e4) / 2)) = k at *
  have hr : 0 < 1 / r := by positivity
  generalize 1 / r = i at *
  have hul := F.u_lt
  have := (abs_le.1 b5).1
  have h7 : 700 * F.u * k ≤ 0.0007 * k := by
    apply mul_le_mul_of_nonneg_right _ kp.le
    norm_num at *; linarith
  norm_num at *
  linarith

/-- A swept wing of aspect ratio 9. -/
noncomputable def sweptWing : Concept :=
  { exC with aspectratio := some 9, sweep_le_deg := some 30, sweep_25_deg := some 27, sweep_mt_deg := some 26, roottaperratio := some 0.3 }

theorem sweptWing_usual : UsualWing sweptWing where
  ar0 := by norm_num [sweptWing, pyNum]
  ar1 := by norm_num [sweptWing, pyNum]
  le := by norm_num [sweptWing, pyNum, abs_le]
  mt := by norm_num [sweptWing, pyNum, abs_le]
  q0 := by norm_num [sweptWing, pyNum]
  q1 := by norm_num [sweptWing, pyNum]
  t0 := by norm_num [sweptWing, pyNum]
  t1 := by norm_num [sweptWing, pyNum]

example : |Fl.oswaldspaneff1 binary64 (exactLibm binary64) 9 - Aircraft.oswaldspaneff1 sweptWing| ≤ 16 * (2 : ℝ) ^ (-53 : ℤ) :=
  C152_first binary64 (exactLibm binary64) sweptWing sweptWing_usual (by norm_num [sweptWing, pyNum])

example : |Fl.oswaldspaneff2 binary64 (exactLibm binary64) 9 26 - Aircraft.oswaldspaneff2 sweptWing| ≤
    600 * (2 : ℝ) ^ (-53 : ℤ) * Aircraft.oswaldspaneff2 sweptWing :=
  C152_second binary64 (exactLibm binary64) sweptWing sweptWing_usual

example : |Fl.oswaldspaneff3 binary64 (exactLibm binary64) 9 30 - Aircraft.oswaldspaneff3 sweptWing| ≤ 80 * (2 : ℝ) ^ (-53 : ℤ) :=
  C152_third binary64 (exactLibm binary64) sweptWing sweptWing_usual (by norm_num [sweptWing, pyNum])

example : |Fl.oswaldspaneff4 binary64 (exactLibm binary64) 9 0.3 27 (binary64.rd 0.3) - Aircraft.oswaldspaneff4 sweptWing none| ≤
    690 * (2 : ℝ) ^ (-53 : ℤ) * Aircraft.oswaldspaneff4 sweptWing none :=
  C152_fourth binary64 (exactLibm binary64) sweptWing sweptWing_usual _ le_rfl

example : 1 / (Real.pi * 9) < Fl.induceddragfact binary64 (exactLibm binary64) 9 26 0.3 27 := by
  obtain ⟨_, _, _, h⟩ := C152_factor binary64 (exactLibm binary64) sweptWing sweptWing_usual none
  exact h

end Verif.Props
