import Verif.Model.ConstraintFloat
import Verif.Lemmas.FloatAcc

/-
Accuracy of powers, of differences from 1 and of the parts of the constraint formulas.
-/

namespace Verif.Fl

variable {F : Rounding}

/-- `**` with the exponent 2. -/
theorem Acc.libm_sq (M : Libm F) {n : ℕ} {xh x : ℝ} (h : Acc F n xh x) (hx : 0 < x) :
    Acc F (2 * n + 3) (M.pow xh 2) (x ^ 2) := by
  have hxh := h.pos hx
  have hu := F.u_nonneg
  have hul := F.u_lt
  have he := M.pow_err xh 2 hxh
  rw [show (xh ^ (2 : ℝ)) = xh ^ 2 by exact_mod_cast Real.rpow_natCast xh 2, abs_le] at he
  have h1 : Acc F 3 (M.pow xh 2) (xh ^ 2) := by
    have hp : 0 < xh ^ 2 := by positivity
    have hq := pow_pos_u F 3
    refine Acc.of_bounds hp.le ?_ ?_
    · have : (1 - F.u) ^ 3 ≤ 1 - 2 * F.u := by nlinarith [mul_nonneg hu hu, mul_nonneg hu (mul_nonneg hu hu)]
      nlinarith [he.1]
    · have : 1 + 2 * F.u ≤ ((1 - F.u) ^ 3)⁻¹ := by
        rw [← one_div, le_div_iff₀ hq]; nlinarith [mul_nonneg hu hu, mul_nonneg hu (mul_nonneg hu hu)]
      nlinarith [he.2]
  obtain ⟨θ, a1, a2, a3⟩ := h1
  obtain ⟨φ, b1, b2, b3⟩ := h.pow 2
  refine ⟨φ * θ, ?_, ?_, by rw [a3, b3]; ring⟩
  · rw [pow_add]; exact mul_le_mul b1 a1 (pow_pos_u F 3).le ((pow_pos_u F _).le.trans b1)
  · rw [pow_add, mul_inv]
    exact mul_le_mul b2 a2 ((pow_pos_u F 3).le.trans a1) (inv_nonneg.2 (pow_pos_u F _).le)

/-- `**` with the exponent 0.5. -/
theorem Acc.libm_sqrt (M : Libm F) {n : ℕ} {xh x : ℝ} (h : Acc F (2 * n) xh x) (hx : 0 < x) :
    Acc F (n + 3) (M.pow xh 0.5) (x ^ (0.5 : ℝ)) := by
  have hxh := h.pos hx
  have hu := F.u_nonneg
  have hul := F.u_lt
  have he := M.pow_err xh 0.5 hxh
  have e1 : ∀ y : ℝ, y ^ (0.5 : ℝ) = √y := fun y => by rw [Real.sqrt_eq_rpow]; norm_num
  rw [e1] at he
  rw [e1]
  rw [abs_le] at he
  have hs : 0 < √xh := Real.sqrt_pos.2 hxh
  have h1 : Acc F 3 (M.pow xh 0.5) √xh := by
    have hq := pow_pos_u F 3
    refine Acc.of_bounds hs.le ?_ ?_
    · have : (1 - F.u) ^ 3 ≤ 1 - 2 * F.u := by nlinarith [mul_nonneg hu hu, mul_nonneg hu (mul_nonneg hu hu)]
      nlinarith [he.1]
    · have : 1 + 2 * F.u ≤ ((1 - F.u) ^ 3)⁻¹ := by
        rw [← one_div, le_div_iff₀ hq]; nlinarith [mul_nonneg hu hu, mul_nonneg hu (mul_nonneg hu hu)]
      nlinarith [he.2]
  obtain ⟨θ, a1, a2, a3⟩ := h1
  obtain ⟨φ, b1, b2, b3⟩ := Acc.sqrt h hx.le
  refine ⟨φ * θ, ?_, ?_, by rw [a3, b3]; ring⟩
  · rw [pow_add]; exact mul_le_mul b1 a1 (pow_pos_u F 3).le ((pow_pos_u F _).le.trans b1)
  · rw [pow_add, mul_inv]
    exact mul_le_mul b2 a2 ((pow_pos_u F 3).le.trans a1) (inv_nonneg.2 (pow_pos_u F _).le)

/-- Taking at most half away from 1. -/
theorem Acc.one_sub {n : ℕ} {bh b : ℝ} (h : Acc F n bh b) (hb0 : 0 ≤ b) (hb : b ≤ 1 / 2) (hn : n ≤ 1000) :
    Acc F (2 * n) (1 - bh) (1 - b) := by
  obtain ⟨h1, h2⟩ := h.bounds hb0
  have hu := F.u_nonneg
  have hul := F.u_lt
  obtain ⟨t, ht⟩ : ∃ t, t = (1 - F.u) ^ n := ⟨_, rfl⟩
  have ht1 : t ≤ 1 := by rw [ht]; exact pow_le_u F n
  have ht2 : 0.9 ≤ t := by
    have := one_add_mul_le_pow (a := -F.u) (by linarith) n
    rw [← sub_eq_add_neg] at this
    have hn' : (n : ℝ) ≤ 1000 := by exact_mod_cast hn
    have : (n : ℝ) * F.u ≤ 0.001 := by nlinarith
    rw [ht]; linarith
  have ht0 : 0 < t := by linarith
  rw [← ht] at h1 h2
  have e : (1 - F.u) ^ (2 * n) = t ^ 2 := by rw [mul_comm, pow_mul, ht]
  have hinv : t * t⁻¹ = 1 := mul_inv_cancel₀ ht0.ne'
  refine Acc.of_bounds (by linarith) ?_ ?_
  · rw [e]
    have h3 : t⁻¹ ≤ 2 - t ^ 2 := by
      rw [← one_div, div_le_iff₀ ht0]; nlinarith [mul_nonneg (by linarith : 0 ≤ 1 - t) (by nlinarith : 0 ≤ t ^ 2 + t - 1)]
    have h4 : b * t⁻¹ ≤ b * (2 - t ^ 2) := mul_le_mul_of_nonneg_left h3 hb0
    have h5 : 0 ≤ (1 - 2 * b) * (1 - t ^ 2) := mul_nonneg (by linarith) (by nlinarith)
    nlinarith
  · rw [e]
    have h3 : 2 - t ≤ (t ^ 2)⁻¹ := by
      rw [← one_div, le_div_iff₀ (by positivity)]; nlinarith [sq_nonneg (1 - t)]
    have h4 : (1 - b) * (2 - t) ≤ (1 - b) * (t ^ 2)⁻¹ := mul_le_mul_of_nonneg_left h3 (by linarith)
    nlinarith

/-- Dynamic pressure from accurate density and speed. -/
theorem Acc.dynamicpressure (M : Libm F) {n m : ℕ} {dh d vh v : ℝ} (hd : Acc F n dh d) (hv : Acc F m vh v) (hv0 : 0 < v) :
    Acc F (n + 2 * m + 5) (dynamicpressure_pa F M dh vh) (0.5 * d * v ^ 2) := by
  have h := ((((Acc.refl (F := F) 0.5).mul hd).round).mul (Acc.libm_sq M hv hv0)).round
  exact h.weaken (by omega)

theorem Acc.kts2mps {n : ℕ} {vh v : ℝ} (hv : Acc F n vh v) : Acc F (n + 2) (Verif.Fl.kts2mps F vh) (Units.kts2mps v) :=
  (hv.mul (Acc.rd F 0.5144444)).round

theorem Acc.fpm2mps {n : ℕ} {vh v : ℝ} (hv : Acc F n vh v) : Acc F (n + 3) (Verif.Fl.fpm2mps F vh) (Units.fpm2mps v) :=
  (((hv.mul (Acc.rd F 0.3048)).round).div (Acc.refl (F := F) 60)).round

end Verif.Fl
