import Verif.Model.ThrustFloat
import Verif.Lemmas.ConstraintFloat
import Verif.Lemmas.IsaFloat
import Verif.Lemmas.CsFloat

/-
Absolute errors in multiples of the rounding unit, and the accuracy of total temperature and total pressure.
-/

namespace Verif.Fl
open Verif.Atmos Verif.Units

/-- `xh` differs from `x` by at most `a` rounding units. -/
def Ab (F : Rounding) (a xh x : ℝ) : Prop := |xh - x| ≤ a * F.u

variable {F : Rounding}

theorem Ab.refl (x : ℝ) : Ab F 0 x x := by unfold Ab; simp

theorem Ab.weaken {a b xh x : ℝ} (h : Ab F a xh x) (hab : a ≤ b) : Ab F b xh x :=
  le_trans h (mul_le_mul_of_nonneg_right hab F.u_nonneg)

theorem Ab.of_acc {n : ℕ} {xh x B : ℝ} (h : Acc F n xh x) (hn : n ≤ 900) (hx : |x| ≤ B) : Ab F ((n + 1) * B) xh x := by
  have := h.le hn
  have hu := F.u_nonneg
  refine this.trans ?_
  have h1 : (0 : ℝ) ≤ (n + 1) * F.u := by positivity
  calc (n + 1 : ℝ) * F.u * |x| ≤ (n + 1) * F.u * B := mul_le_mul_of_nonneg_left hx h1
    _ = _ := by ring

theorem Ab.sub {a b xh x yh y : ℝ} (h : Ab F a xh x) (k : Ab F b yh y) : Ab F (a + b) (xh - yh) (x - y) := by
  unfold Ab at *
  rw [abs_le] at *
  constructor <;> linarith [h.1, h.2, k.1, k.2]

theorem Ab.rd {a B xh x : ℝ} (h : Ab F a xh x) (hx : |x| ≤ B) : Ab F (1.000001 * a + B) (F.rd xh) x := by
  unfold Ab at *
  have hu := F.u_nonneg
  have hul := F.u_lt
  have e := F.err xh
  have h1 : |xh| ≤ B + a * F.u := by
    have := abs_sub_abs_le_abs_sub xh x
    linarith
  have h2 : |F.rd xh - x| ≤ |F.rd xh - xh| + |xh - x| := by
    have := abs_add_le (F.rd xh - xh) (xh - x)
    rwa [sub_add_sub_cancel] at this
  have ha : 0 ≤ a * F.u := (abs_nonneg _).trans h
  have h3 : F.u * |xh| ≤ F.u * (B + a * F.u) := mul_le_mul_of_nonneg_left h1 hu
  have h4 : F.u * (a * F.u) ≤ 0.000001 * (a * F.u) := mul_le_mul_of_nonneg_right (by norm_num at *; linarith) ha
  nlinarith

theorem Ab.mul {a b B C xh x yh y : ℝ} (h : Ab F a xh x) (k : Ab F b yh y) (hx : |x| ≤ B) (hy : |y| ≤ C) :
    Ab F (a * C + B * b + 0.000001 * (a * b)) (xh * yh) (x * y) := by
  unfold Ab at *
  have hu := F.u_nonneg
  have hul := F.u_lt
  have ha : 0 ≤ a * F.u := (abs_nonneg _).trans h
  have hb : 0 ≤ b * F.u := (abs_nonneg _).trans k
  have e : xh * yh - x * y = (xh - x) * y + x * (yh - y) + (xh - x) * (yh - y) := by ring
  rw [e]
  refine (abs_add_le _ _).trans ((add_le_add (abs_add_le _ _) le_rfl).trans ?_)
  rw [abs_mul, abs_mul, abs_mul]
  have h1 : |xh - x| * |y| ≤ a * F.u * C := mul_le_mul h hy (abs_nonneg _) ha
  have h2 : |x| * |yh - y| ≤ B * (b * F.u) := mul_le_mul hx k (abs_nonneg _) ((abs_nonneg _).trans hx)
  have h3 : |xh - x| * |yh - y| ≤ a * F.u * (b * F.u) := mul_le_mul h k (abs_nonneg _) ha
  have h4 : a * F.u * (b * F.u) ≤ 0.000001 * (a * b) * F.u := by
    rcases hu.eq_or_lt with h0 | h0
    · rw [← h0]; simp
    · have ha' : 0 ≤ a := nonneg_of_mul_nonneg_left ha h0
      have hb' : 0 ≤ b := nonneg_of_mul_nonneg_left hb h0
      have : 0 ≤ a * b * F.u := by positivity
      have h5 : F.u * (a * b * F.u) ≤ 0.000001 * (a * b * F.u) := mul_le_mul_of_nonneg_right (by norm_num at *; linarith) this
      linarith
  linarith

/-- Division by a positive number that is known to so many roundings. -/
theorem Ab.div_acc {a B C : ℝ} {n : ℕ} {xh x yh y : ℝ} (h : Ab F a xh x) (k : Acc F n yh y) (hn : n ≤ 900) (hx : |x| ≤ B)
    (hy : 0 < y) (hC : y⁻¹ ≤ C) :
    Ab F (a * C + B * ((n + 1) * C) + 0.000001 * (a * ((n + 1) * C))) (xh / yh) (x / y) := by
  rw [div_eq_mul_inv, div_eq_mul_inv]
  have hi : |y⁻¹| ≤ C := by rwa [abs_of_pos (by positivity)]
  exact h.mul (Ab.of_acc k.inv hn hi) hx hi

/-- A bracket times a factor known to so many roundings: the error in units of the factor. -/
theorem Ab.scaled {b B : ℝ} {n : ℕ} {dh d zh z : ℝ} (h : Acc F n dh d) (hn : n ≤ 900) (hd : 0 < d) (k : Ab F b zh z) (hz : |z| ≤ B) :
    |F.rd (dh * zh) - d * z| ≤ (1.000001 * ((n + 1) * B + b + 0.000001 * ((n + 1) * b)) + B) * F.u * d := by
  obtain ⟨t, h1, h2, rfl⟩ := h
  have ht : Acc F n t 1 := ⟨t, h1, h2, by ring⟩
  have a1 := (Ab.of_acc ht hn (B := 1) (by simp)).mul k (B := 1) (C := B) (by simp) hz
  simp only [one_mul, mul_one] at a1
  have a2 := F.err (d * t * zh)
  have hu := F.u_nonneg
  have hul := F.u_lt
  obtain ⟨c, hc⟩ : ∃ c, c = (n + 1) * B + b + 0.000001 * ((n + 1) * b) := ⟨_, rfl⟩
  rw [← hc] at a1
  unfold Ab at a1
  have e1 : d * t * zh = d * (t * zh) := by ring
  rw [e1] at a2 ⊢
  rw [abs_mul, abs_of_pos hd] at a2
  generalize t * zh = y at *
  have h3 : |y| ≤ B + c * F.u := by
    have := abs_sub_abs_le_abs_sub y z
    linarith
  have hcu : 0 ≤ c * F.u := (abs_nonneg _).trans a1
  have h4 : F.u * (c * F.u) ≤ 0.000001 * (c * F.u) := mul_le_mul_of_nonneg_right (by norm_num at *; linarith) hcu
  have h5 : |F.rd (d * y) - d * z| ≤ |F.rd (d * y) - d * y| + |d * y - d * z| := by
    have := abs_add_le (F.rd (d * y) - d * y) (d * y - d * z)
    rwa [sub_add_sub_cancel] at this
  have h6 : |d * y - d * z| = d * |y - z| := by rw [← mul_sub, abs_mul, abs_of_pos hd]
  rw [h6] at h5
  have h7 : F.u * (d * |y|) ≤ F.u * (d * (B + c * F.u)) := by gcongr
  have h8 : d * |y - z| ≤ d * (c * F.u) := by gcongr
  have e2 : (1.000001 * ((n + 1) * B + b + 0.000001 * ((n + 1) * b)) + B) * F.u * d =
      d * (1.000001 * (c * F.u)) + F.u * (d * B) := by rw [hc]; ring
  rw [e2]
  have h9 : d * (F.u * (c * F.u)) ≤ d * (0.000001 * (c * F.u)) := mul_le_mul_of_nonneg_left h4 hd.le
  nlinarith

/-! ### Total temperature and pressure -/

theorem acc_c2k (F : Rounding) (t : ℝ) (h0 : -100 ≤ t) (h1 : t ≤ 60) : Acc F 4 (Fl.c2k F t) (Units.c2k t) := by
  unfold Fl.c2k Units.c2k
  have hu := F.u_nonneg
  have hul := F.u_lt
  have e1 : Ab F 273.15 (F.rd 273.15) 273.15 := by
    have := F.err 273.15
    rw [abs_of_pos (by norm_num : (0 : ℝ) < 273.15)] at this
    unfold Ab; linarith
  have e2 : Ab F 273.15 (t + F.rd 273.15) (t + 273.15) := by
    unfold Ab at *
    rwa [add_sub_add_left_eq_sub]
  have hp : 0 < t + 273.15 := by norm_num; linarith
  have e3 := e2.rd (B := t + 273.15) (by rw [abs_of_pos hp])
  refine Acc.of_err 3 (by norm_num) hp ?_
  refine e3.trans ?_
  have : 1.000001 * 273.15 + (t + 273.15) ≤ 3 * (t + 273.15) := by norm_num; linarith
  have := mul_le_mul_of_nonneg_right this hu
  push_cast
  linarith

theorem acc_gammaLess (F : Rounding) : Acc F 6 (gammaLess F) (GAMMA_DRY_AIR - 1) := by
  unfold gammaLess GAMMA_DRY_AIR
  have hu := F.u_nonneg
  have e1 : Ab F 1.401 (F.rd 1.401) 1.401 := by
    have := F.err 1.401
    rw [abs_of_pos (by norm_num : (0 : ℝ) < 1.401)] at this
    unfold Ab; linarith
  have e3 := (e1.sub (Ab.refl 1)).rd (B := 0.401) (by norm_num [abs_le])
  refine Acc.of_err 5 (by norm_num) (by norm_num) (e3.trans ?_)
  norm_num
  linarith

theorem acc_stagnation (M : Libm F) (m : ℝ) (h0 : 0 < m) :
    Acc F 12 (stagnation F M m) (1 + m ^ 2 * (GAMMA_DRY_AIR - 1) / 2) := by
  unfold stagnation
  have a1 : Acc F 10 _ _ := (((Acc.refl (F := F) m).libm_sq M h0).mul (acc_gammaLess F)).round
  have a2 : Acc F 11 _ _ := (a1.div (Acc.refl (F := F) 2)).round
  exact ((Acc.refl (F := F) 1).add a2 one_pos.le (by unfold GAMMA_DRY_AIR; norm_num; positivity)).round

theorem stagnation_bounds (m : ℝ) (h0 : 0 < m) (h1 : m ≤ 2) :
    1 ≤ 1 + m ^ 2 * (GAMMA_DRY_AIR - 1) / 2 ∧ 1 + m ^ 2 * (GAMMA_DRY_AIR - 1) / 2 ≤ 1.802 := by
  unfold GAMMA_DRY_AIR
  constructor <;> norm_num <;> nlinarith

theorem acc_tempratio (M : Libm F) (t m : ℝ) (h0 : -100 ≤ t) (h1 : t ≤ 60) (m0 : 0 < m) :
    Acc F 22 (Fl.tempratio F M t m) (Atmos.tempratio t m) := by
  unfold Fl.tempratio Atmos.tempratio
  have a1 : Acc F 9 _ _ := ((acc_c2k F t h0 h1).div (acc_c2k F 15 (by norm_num) (by norm_num))).round
  exact (a1.mul (acc_stagnation M m m0)).round

theorem tempratio_bounds (t m : ℝ) (h0 : -100 ≤ t) (h1 : t ≤ 60) (m0 : 0 < m) (m1 : m ≤ 2) :
    0.6 ≤ Atmos.tempratio t m ∧ Atmos.tempratio t m ≤ 2.1 := by
  obtain ⟨b0, b1⟩ := stagnation_bounds m m0 m1
  unfold Atmos.tempratio
  generalize 1 + m ^ 2 * (GAMMA_DRY_AIR - 1) / 2 = s at *
  have e : Units.c2k 15 = 288.15 := by norm_num [Units.c2k]
  rw [e]
  have c0 : 0.6 ≤ Units.c2k t / 288.15 := by
    rw [le_div_iff₀ (by norm_num)]; unfold Units.c2k; norm_num; linarith
  have c1 : Units.c2k t / 288.15 ≤ 1.1562 := by
    rw [div_le_iff₀ (by norm_num)]; unfold Units.c2k; norm_num; linarith
  constructor <;> norm_num at * <;> nlinarith

theorem pressratio_pos (p m : ℝ) (hp : 0 < p) (m0 : 0 < m) : 0 < Atmos.pressratio p m := by
  unfold Atmos.pressratio
  have : 0 < 1 + m ^ 2 * (GAMMA_DRY_AIR - 1) / 2 := by unfold GAMMA_DRY_AIR; norm_num; positivity
  have := Real.rpow_pos_of_pos this (GAMMA_DRY_AIR / (GAMMA_DRY_AIR - 1))
  positivity

theorem acc_pressratio (M : Libm F) (p m : ℝ) (m0 : 0 < m) (m1 : m ≤ 2) :
    Acc F 73 (Fl.pressratio F M p m) (Atmos.pressratio p m) := by
  unfold Fl.pressratio Atmos.pressratio
  obtain ⟨b0, b1⟩ := stagnation_bounds m m0 m1
  have a1 : Acc F 1 _ _ := ((Acc.refl (F := F) p).div (Acc.refl (F := F) 101325)).round
  have a2 : Acc F 8 (F.rd (F.rd GAMMA_DRY_AIR / gammaLess F)) (GAMMA_DRY_AIR / (GAMMA_DRY_AIR - 1)) :=
    ((Acc.rd F GAMMA_DRY_AIR).div (acc_gammaLess F)).round
  have a3 := Acc.libm_pow M (l := 0.802) (Y := 3.5) (c := 9) 68 (acc_stagnation M m m0) (by linarith) (by norm_num)
    (a2.err 9 (by norm_num) (by norm_num)) (by norm_num)
    (by unfold GAMMA_DRY_AIR; rw [abs_of_pos (by norm_num)]; norm_num)
    (abs_log_le (by linarith) (by norm_num at *; linarith) (by norm_num at *; linarith)) (by norm_num)
  exact (a1.mul a3).round

end Verif.Fl
