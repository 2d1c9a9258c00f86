import Verif.Lemmas.Float
import Verif.Lemmas.Tac
import Mathlib.Analysis.SpecialFunctions.Pow.Real

/-
Accuracy of floating point expressions: `Acc F n xh x` says that `xh` is `x` times a factor made of `n` roundings.
-/

namespace Verif.Fl

/-- `xh` is `x` times a factor between `(1 - u) ^ n` and its reciprocal. -/
def Acc (F : Rounding) (n : ℕ) (xh x : ℝ) : Prop :=
  ∃ θ : ℝ, (1 - F.u) ^ n ≤ θ ∧ θ ≤ ((1 - F.u) ^ n)⁻¹ ∧ xh = x * θ

variable {F : Rounding}

theorem u_sub_pos (F : Rounding) : 0 < 1 - F.u := by have := F.u_lt; linarith
theorem u_sub_le (F : Rounding) : 1 - F.u ≤ 1 := by have := F.u_nonneg; linarith

theorem pow_pos_u (F : Rounding) (n : ℕ) : 0 < (1 - F.u) ^ n := pow_pos (u_sub_pos F) n
theorem pow_le_u (F : Rounding) (n : ℕ) : (1 - F.u) ^ n ≤ 1 := pow_le_one₀ (u_sub_pos F).le (u_sub_le F)
theorem one_le_inv_u (F : Rounding) (n : ℕ) : 1 ≤ ((1 - F.u) ^ n)⁻¹ := (one_le_inv₀ (pow_pos_u F n)).2 (pow_le_u F n)

theorem Acc.refl (x : ℝ) : Acc F 0 x x := ⟨1, by simp, by simp, by simp⟩

theorem Acc.weaken {m n : ℕ} {xh x : ℝ} (h : Acc F m xh x) (hmn : m ≤ n) : Acc F n xh x := by
  obtain ⟨θ, h1, h2, h3⟩ := h
  have h4 : (1 - F.u) ^ n ≤ (1 - F.u) ^ m := pow_le_pow_of_le_one (u_sub_pos F).le (u_sub_le F) hmn
  exact ⟨θ, h4.trans h1, h2.trans (inv_anti₀ (pow_pos_u F n) h4), h3⟩

theorem Acc.rd (F : Rounding) (x : ℝ) : Acc F 1 (F.rd x) x := by
  have hu := F.u_nonneg
  have hp := u_sub_pos F
  have herr := F.err x
  have hinv : 1 + F.u ≤ ((1 - F.u) ^ 1)⁻¹ := by
    rw [pow_one, ← one_div, le_div_iff₀ hp]; nlinarith
  by_cases hx : x = 0
  · refine ⟨1, pow_le_u F 1, one_le_inv_u F 1, ?_⟩
    rw [hx] at herr ⊢
    simpa using herr
  · refine ⟨F.rd x / x, ?_, ?_, ?_⟩
    · have : |F.rd x / x - 1| ≤ F.u := by
        rw [show F.rd x / x - 1 = (F.rd x - x) / x by field_simp, abs_div, div_le_iff₀ (abs_pos.2 hx)]; exact herr
      rw [abs_le] at this; rw [pow_one]; linarith
    · have : |F.rd x / x - 1| ≤ F.u := by
        rw [show F.rd x / x - 1 = (F.rd x - x) / x by field_simp, abs_div, div_le_iff₀ (abs_pos.2 hx)]; exact herr
      rw [abs_le] at this; linarith
    · field_simp

theorem Acc.mul {m n : ℕ} {ah a bh b : ℝ} (h : Acc F m ah a) (k : Acc F n bh b) : Acc F (m + n) (ah * bh) (a * b) := by
  obtain ⟨θ, h1, h2, h3⟩ := h
  obtain ⟨φ, k1, k2, k3⟩ := k
  have p1 := pow_pos_u F m
  have p2 := pow_pos_u F n
  refine ⟨θ * φ, ?_, ?_, by rw [h3, k3]; ring⟩
  · rw [pow_add]; exact mul_le_mul h1 k1 p2.le (p1.le.trans h1)
  · rw [pow_add, mul_inv]
    exact mul_le_mul h2 k2 (p2.le.trans k1) (inv_nonneg.2 p1.le)

theorem Acc.inv {n : ℕ} {ah a : ℝ} (h : Acc F n ah a) : Acc F n ah⁻¹ a⁻¹ := by
  obtain ⟨θ, h1, h2, h3⟩ := h
  have p1 := pow_pos_u F n
  have p2 : 0 < θ := p1.trans_le h1
  refine ⟨θ⁻¹, ?_, ?_, by rw [h3, mul_inv]⟩
  · rw [← inv_inv ((1 - F.u) ^ n)]; exact inv_anti₀ p2 h2
  · exact inv_anti₀ p1 h1

theorem Acc.div {m n : ℕ} {ah a bh b : ℝ} (h : Acc F m ah a) (k : Acc F n bh b) : Acc F (m + n) (ah / bh) (a / b) := by
  rw [div_eq_mul_inv, div_eq_mul_inv]; exact h.mul k.inv

theorem Acc.pow {n : ℕ} {ah a : ℝ} (h : Acc F n ah a) (k : ℕ) : Acc F (k * n) (ah ^ k) (a ^ k) := by
  induction k with
  | zero => simpa using Acc.refl (F := F) 1
  | succ k ih =>
    rw [pow_succ, pow_succ]
    exact (ih.mul h).weaken (by rw [Nat.succ_mul])

theorem Acc.round {n : ℕ} {xh x : ℝ} (h : Acc F n xh x) : Acc F (n + 1) (F.rd xh) x := by
  obtain ⟨θ, h1, h2, h3⟩ := h
  obtain ⟨φ, k1, k2, k3⟩ := Acc.rd F xh
  have p1 := pow_pos_u F n
  have p2 := pow_pos_u F 1
  refine ⟨θ * φ, ?_, ?_, by rw [k3, h3]; ring⟩
  · rw [pow_add]; exact mul_le_mul h1 k1 p2.le (p1.le.trans h1)
  · rw [pow_add, mul_inv]; exact mul_le_mul h2 k2 (p2.le.trans k1) (inv_nonneg.2 p1.le)

theorem Acc.nonneg {n : ℕ} {xh x : ℝ} (h : Acc F n xh x) (hx : 0 ≤ x) : 0 ≤ xh := by
  obtain ⟨θ, h1, _, h3⟩ := h
  rw [h3]; exact mul_nonneg hx ((pow_pos_u F n).le.trans h1)

theorem Acc.pos {n : ℕ} {xh x : ℝ} (h : Acc F n xh x) (hx : 0 < x) : 0 < xh := by
  obtain ⟨θ, h1, _, h3⟩ := h
  rw [h3]; exact mul_pos hx ((pow_pos_u F n).trans_le h1)

/-- Bounds of a nonnegative number. -/
theorem Acc.bounds {n : ℕ} {xh x : ℝ} (h : Acc F n xh x) (hx : 0 ≤ x) :
    x * (1 - F.u) ^ n ≤ xh ∧ xh ≤ x * ((1 - F.u) ^ n)⁻¹ := by
  obtain ⟨θ, h1, h2, h3⟩ := h
  rw [h3]; exact ⟨mul_le_mul_of_nonneg_left h1 hx, mul_le_mul_of_nonneg_left h2 hx⟩

theorem Acc.of_bounds {n : ℕ} {xh x : ℝ} (hx : 0 ≤ x) (h1 : x * (1 - F.u) ^ n ≤ xh) (h2 : xh ≤ x * ((1 - F.u) ^ n)⁻¹) :
    Acc F n xh x := by
  rcases hx.eq_or_lt with rfl | hx
  · refine ⟨1, pow_le_u F n, one_le_inv_u F n, ?_⟩
    simp at h1 h2 ⊢; linarith
  · refine ⟨xh / x, ?_, ?_, by field_simp⟩
    · rw [le_div_iff₀ hx]; linarith
    · rw [div_le_iff₀ hx]; linarith

/-- Sums of numbers of the same sign lose nothing. -/
theorem Acc.add {m n : ℕ} {ah a bh b : ℝ} (h : Acc F m ah a) (k : Acc F n bh b) (ha : 0 ≤ a) (hb : 0 ≤ b) :
    Acc F (max m n) (ah + bh) (a + b) := by
  have h' := (h.weaken (le_max_left m n)).bounds ha
  have k' := (k.weaken (le_max_right m n)).bounds hb
  exact Acc.of_bounds (by linarith) (by rw [add_mul]; linarith [h'.1, k'.1]) (by rw [add_mul]; linarith [h'.2, k'.2])

theorem Acc.sqrt {n : ℕ} {xh x : ℝ} (h : Acc F (2 * n) xh x) (hx : 0 ≤ x) : Acc F n √xh √x := by
  have hb := h.bounds hx
  have p := pow_pos_u F n
  have e : (1 - F.u) ^ (2 * n) = ((1 - F.u) ^ n) ^ 2 := by rw [mul_comm, pow_mul]
  refine Acc.of_bounds (Real.sqrt_nonneg _) ?_ ?_
  · refine le_trans (le_of_eq ?_) (Real.sqrt_le_sqrt hb.1)
    rw [e, Real.sqrt_mul hx, Real.sqrt_sq p.le]
  · refine le_trans (Real.sqrt_le_sqrt hb.2) (le_of_eq ?_)
    rw [e, ← inv_pow, Real.sqrt_mul hx, Real.sqrt_sq (inv_nonneg.2 p.le)]

/-- The relative error is at most `n u / (1 - n u)`. -/
theorem Acc.relErr {n : ℕ} {xh x : ℝ} (h : Acc F n xh x) (hn : n * F.u < 1) :
    |xh - x| ≤ n * F.u / (1 - n * F.u) * |x| := by
  obtain ⟨θ, h1, h2, h3⟩ := h
  have hu := F.u_nonneg
  have hb : 1 - n * F.u ≤ (1 - F.u) ^ n := by
    have := one_add_mul_le_pow (a := -F.u) (by linarith [F.u_lt]) n
    rw [← sub_eq_add_neg] at this; linarith
  have hp : 0 < 1 - n * F.u := by linarith
  have hnu : 0 ≤ n * F.u := by positivity
  have h4 : θ ≤ (1 - n * F.u)⁻¹ := h2.trans (inv_anti₀ hp hb)
  have h5 : |θ - 1| ≤ n * F.u / (1 - n * F.u) := by
    rw [abs_le]
    have e : n * F.u / (1 - n * F.u) = (1 - n * F.u)⁻¹ - 1 := by field_simp; ring
    constructor
    · have : n * F.u ≤ n * F.u / (1 - n * F.u) := by
        rw [le_div_iff₀ hp]; nlinarith
      linarith
    · rw [e]; linarith
  rw [h3, show x * θ - x = (θ - 1) * x by ring, abs_mul]
  exact mul_le_mul_of_nonneg_right h5 (abs_nonneg x)

/-- The relative error in whole multiples of `u`, one more than the number of roundings. -/
theorem Acc.le {n : ℕ} {xh x : ℝ} (h : Acc F n xh x) (hn : n ≤ 900) : |xh - x| ≤ (n + 1) * F.u * |x| := by
  have hu := F.u_nonneg
  have hul := F.u_lt
  have hn' : (n : ℝ) ≤ 900 := by exact_mod_cast hn
  have hn0 : (0 : ℝ) ≤ n := by positivity
  have h1 : (n : ℝ) * F.u ≤ 0.0009 := by nlinarith
  refine (h.relErr (by linarith)).trans (mul_le_mul_of_nonneg_right ?_ (abs_nonneg x))
  rw [div_le_iff₀ (by linarith)]
  have h2 : ((n : ℝ) + 1) * (n * F.u) ≤ 1 := by nlinarith
  nlinarith [mul_le_mul_of_nonneg_left h2 hu]

/-- The same with a given multiple. -/
theorem Acc.err {n : ℕ} {xh x : ℝ} (h : Acc F n xh x) (e : ℝ) (he : (n : ℝ) + 1 ≤ e) (hn : n ≤ 900) : |xh - x| ≤ e * F.u * |x| :=
  (h.le hn).trans (mul_le_mul_of_nonneg_right (mul_le_mul_of_nonneg_right he F.u_nonneg) (abs_nonneg x))

end Verif.Fl
