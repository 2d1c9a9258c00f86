import Verif.Model.IsaFloat
import Verif.Lemmas.ConstraintFloat
import Mathlib.Analysis.SpecialFunctions.Pow.Real
import Mathlib.Analysis.SpecialFunctions.Log.Basic
import Mathlib.Analysis.SpecialFunctions.Log.Deriv

/-
Accuracy of powers with rounded exponents, of exponentials and of affine functions.
-/

namespace Verif.Fl

variable {F : Rounding}

theorem Acc.trans {m n : ℕ} {a b c : ℝ} (h : Acc F m a b) (k : Acc F n b c) : Acc F (m + n) a c := by
  obtain ⟨θ, a1, a2, a3⟩ := h
  obtain ⟨φ, b1, b2, b3⟩ := k
  refine ⟨φ * θ, ?_, ?_, by rw [a3, b3]; ring⟩
  · rw [pow_add, mul_comm]; exact mul_le_mul b1 a1 (pow_pos_u F m).le ((pow_pos_u F n).le.trans b1)
  · rw [pow_add, mul_inv, mul_comm ((1 - F.u) ^ m)⁻¹]
    exact mul_le_mul b2 a2 ((pow_pos_u F m).le.trans a1) (inv_nonneg.2 (pow_pos_u F n).le)

/-- From an error of `k u` to `k + 1` roundings. -/
theorem Acc.of_err (k : ℕ) (hk : k ≤ 900) {xh x : ℝ} (hx : 0 < x) (h : |xh - x| ≤ k * F.u * x) : Acc F (k + 1) xh x := by
  have hu := F.u_nonneg
  have hul := F.u_lt
  have hk' : (k : ℝ) ≤ 900 := by exact_mod_cast hk
  have hku : (k : ℝ) * F.u ≤ 0.001 := by nlinarith
  have hku0 : 0 ≤ (k : ℝ) * F.u := by positivity
  rw [abs_le] at h
  have hp := pow_pos_u F (k + 1)
  have hpow : (1 - F.u) ^ (k + 1) ≤ 1 - k * F.u := by
    have h1 : (1 - F.u) ^ (k + 1) ≤ Real.exp (-((k + 1) * F.u)) := by
      have : 1 - F.u ≤ Real.exp (-F.u) := by have := Real.add_one_le_exp (-F.u); linarith
      calc (1 - F.u) ^ (k + 1) ≤ Real.exp (-F.u) ^ (k + 1) := pow_le_pow_left₀ (u_sub_pos F).le this _
        _ = _ := by rw [← Real.exp_nat_mul]; congr 1; push_cast; ring
    obtain ⟨z, hz⟩ : ∃ z, z = (k + 1) * F.u := ⟨_, rfl⟩
    have hz0 : 0 ≤ z := by rw [hz]; positivity
    have hz1 : z ≤ 0.00100001 := by rw [hz]; nlinarith
    have h2 : Real.exp (-z) ≤ 1 - k * F.u := by
      rw [Real.exp_neg]
      have h3 := Real.add_one_le_exp z
      refine (inv_anti₀ (by linarith) h3).trans ?_
      rw [← one_div, div_le_iff₀ (by linarith)]
      have : z = k * F.u + F.u := by rw [hz]; ring
      have h5 : (k : ℝ) * F.u * z ≤ F.u := by
        have : (k : ℝ) * z ≤ 1 := by nlinarith
        nlinarith
      nlinarith
    rw [← hz] at h1
    exact h1.trans h2
  refine Acc.of_bounds hx.le (by nlinarith) ?_
  have : 1 + k * F.u ≤ ((1 - F.u) ^ (k + 1))⁻¹ := by
    rw [← one_div, le_div_iff₀ hp]
    have : (1 + k * F.u) * (1 - F.u) ^ (k + 1) ≤ (1 + k * F.u) * (1 - k * F.u) := mul_le_mul_of_nonneg_left hpow (by linarith)
    nlinarith
  nlinarith

theorem Acc.libm {xh x : ℝ} (hx : 0 < x) (h : |xh - x| ≤ 2 * F.u * x) : Acc F 3 xh x :=
  Acc.of_err 2 (by norm_num) hx (by push_cast; exact h)

theorem Acc.of_log (k : ℕ) {xh x : ℝ} (hx : 0 < x) (hxh : 0 < xh) (h : |Real.log xh - Real.log x| ≤ k * F.u) : Acc F k xh x := by
  have e : xh = x * Real.exp (Real.log xh - Real.log x) := by
    rw [Real.exp_sub, Real.exp_log hx, Real.exp_log hxh]; field_simp
  have h1 : (1 - F.u) ^ k ≤ Real.exp (-(k * F.u)) := by
    have : 1 - F.u ≤ Real.exp (-F.u) := by have := Real.add_one_le_exp (-F.u); linarith
    calc (1 - F.u) ^ k ≤ Real.exp (-F.u) ^ k := pow_le_pow_left₀ (u_sub_pos F).le this _
      _ = _ := by rw [← Real.exp_nat_mul]; congr 1; ring
  rw [abs_le] at h
  refine ⟨_, ?_, ?_, e⟩
  · exact h1.trans (Real.exp_le_exp.2 h.1)
  · rw [show ((1 - F.u) ^ k)⁻¹ = ((1 - F.u) ^ k)⁻¹ from rfl]
    refine (Real.exp_le_exp.2 h.2).trans ?_
    rw [← inv_inv (Real.exp (k * F.u)), ← Real.exp_neg]
    exact inv_anti₀ (pow_pos_u F k) h1

theorem Acc.log {n : ℕ} {xh x : ℝ} (h : Acc F n xh x) (hx : 0 < x) : |Real.log xh - Real.log x| ≤ n * (1.00001 * F.u) := by
  obtain ⟨θ, a1, a2, a3⟩ := h
  have hu := F.u_nonneg
  have hul := F.u_lt
  have hp := pow_pos_u F n
  have hθ : 0 < θ := hp.trans_le a1
  have hl : -(1.00001 * F.u) ≤ Real.log (1 - F.u) := by
    have h1 := Real.one_sub_inv_le_log_of_pos (u_sub_pos F)
    have h2 : (1 - F.u)⁻¹ ≤ 1 + 1.00001 * F.u := by
      rw [← one_div, div_le_iff₀ (u_sub_pos F)]; nlinarith
    linarith
  have hn : (0 : ℝ) ≤ n := Nat.cast_nonneg n
  rw [a3, Real.log_mul hx.ne' hθ.ne', add_sub_cancel_left, abs_le]
  have b1 := Real.log_le_log hp a1
  have b2 := Real.log_le_log hθ a2
  rw [Real.log_inv, Real.log_pow] at b2
  rw [Real.log_pow] at b1
  constructor <;> nlinarith

/-- A power with rounded base and exponent. -/
theorem Acc.rpow {n : ℕ} {xh x yh y l Y c : ℝ} (N : ℕ) (h : Acc F n xh x) (hx : 0 < x) (hc : c ≤ 10) (hy : |yh - y| ≤ c * F.u * |y|)
    (hc0 : 0 ≤ c) (hY : |y| ≤ Y) (hl : |Real.log x| ≤ l) (hN : Y * (1.0001 * n + c * l) ≤ N) : Acc F N (xh ^ yh) (x ^ y) := by
  have hxh := h.pos hx
  have hu := F.u_nonneg
  have hul := F.u_lt
  refine Acc.of_log N (Real.rpow_pos_of_pos hx y) (Real.rpow_pos_of_pos hxh yh) ?_
  rw [Real.log_rpow hx, Real.log_rpow hxh,
    show yh * Real.log xh - y * Real.log x = yh * (Real.log xh - Real.log x) + (yh - y) * Real.log x by ring]
  have h1 := h.log hx
  have hy0 := abs_nonneg y
  have hl0 := abs_nonneg (Real.log x)
  have hn : (0 : ℝ) ≤ n := Nat.cast_nonneg n
  have hcu : c * F.u ≤ 0.00001 := by nlinarith
  have hyh : |yh| ≤ 1.00001 * |y| := by
    have := abs_sub_abs_le_abs_sub yh y
    nlinarith
  have h2 : |yh * (Real.log xh - Real.log x)| ≤ 1.00001 * |y| * (n * (1.00001 * F.u)) := by
    rw [abs_mul]; exact mul_le_mul hyh h1 (abs_nonneg _) (by positivity)
  have h3 : |(yh - y) * Real.log x| ≤ c * F.u * |y| * l := by
    rw [abs_mul]; exact mul_le_mul hy hl hl0 (by positivity)
  refine (abs_add_le _ _).trans ?_
  have h4 : 1.00001 * |y| * (n * (1.00001 * F.u)) ≤ Y * (1.0001 * n) * F.u := by
    have : |y| * (n * F.u) ≤ Y * (n * F.u) := mul_le_mul_of_nonneg_right hY (by positivity)
    have h0 : 0 ≤ Y * (n * F.u) := mul_nonneg (hy0.trans hY) (by positivity)
    nlinarith
  have h5 : c * F.u * |y| * l ≤ Y * (c * l) * F.u := by
    have : |y| * (c * l * F.u) ≤ Y * (c * l * F.u) :=
      mul_le_mul_of_nonneg_right hY (mul_nonneg (mul_nonneg hc0 (hl0.trans hl)) hu)
    linarith
  have h6 := mul_le_mul_of_nonneg_right hN hu
  nlinarith

theorem Acc.libm_pow (M : Libm F) {n : ℕ} {xh x yh y l Y c : ℝ} (N : ℕ) (h : Acc F n xh x) (hx : 0 < x) (hc : c ≤ 10)
    (hy : |yh - y| ≤ c * F.u * |y|) (hc0 : 0 ≤ c) (hY : |y| ≤ Y) (hl : |Real.log x| ≤ l) (hN : Y * (1.0001 * n + c * l) ≤ N) :
    Acc F (3 + N) (M.pow xh yh) (x ^ y) :=
  (Acc.libm (Real.rpow_pos_of_pos (h.pos hx) yh) (M.pow_err xh yh (h.pos hx))).trans (Acc.rpow N h hx hc hy hc0 hY hl hN)

/-- `math.exp` of a number with a small absolute error. -/
theorem Acc.libm_exp (M : Libm F) (N : ℕ) {xh x : ℝ} (h : |xh - x| ≤ N * F.u) : Acc F (3 + N) (M.exp xh) (Real.exp x) :=
  (Acc.libm (Real.exp_pos xh) (M.exp_err xh)).trans
    (Acc.of_log N (Real.exp_pos x) (Real.exp_pos xh) (by rw [Real.log_exp, Real.log_exp]; exact h))

theorem abs_log_le {x l : ℝ} (hx : 0 < x) (h1 : x ≤ 1 + l) (h2 : 1 ≤ x * (1 + l)) : |Real.log x| ≤ l := by
  have h3 := Real.log_le_sub_one_of_pos hx
  have h4 := Real.one_sub_inv_le_log_of_pos hx
  have h5 : x⁻¹ ≤ 1 + l := by rw [← one_div, div_le_iff₀ hx]; linarith
  rw [abs_le]; constructor <;> linarith

/-- Error of `a + b * alt` in floating point. -/
theorem affine_err (a b h S : ℝ) (hS : |a| + 2 * |b * h| + |a + b * h| ≤ S) :
    |affine F a b h - (a + b * h)| ≤ 1.0001 * F.u * S := by
  unfold affine
  have hu := F.u_nonneg
  have hul := F.u_lt
  have e1 := F.err a
  have e2 := F.err b
  have e3 := F.err (F.rd b * h)
  have e4 := F.err (F.rd a + F.rd (F.rd b * h))
  obtain ⟨p, hp⟩ : ∃ p, p = F.rd (F.rd b * h) := ⟨_, rfl⟩
  obtain ⟨c, hc⟩ : ∃ c, c = F.rd a := ⟨_, rfl⟩
  rw [← hp] at e3 e4 ⊢
  rw [← hc] at e1 e4 ⊢
  have hb : |F.rd b * h - b * h| ≤ F.u * |b * h| := by
    rw [← sub_mul, abs_mul, abs_mul, ← mul_assoc]; exact mul_le_mul_of_nonneg_right e2 (abs_nonneg h)
  have hbh := abs_nonneg (b * h)
  have ha := abs_nonneg a
  have hab := abs_nonneg (a + b * h)
  have hb' : |F.rd b * h| ≤ (1 + F.u) * |b * h| := by
    have := abs_sub_abs_le_abs_sub (F.rd b * h) (b * h); linarith
  have e3' : |p - b * h| ≤ (2 * F.u + F.u * F.u) * |b * h| := by
    have : |p - b * h| ≤ |p - F.rd b * h| + |F.rd b * h - b * h| := abs_sub_le _ _ _
    nlinarith
  have e5 : |c + p - (a + b * h)| ≤ F.u * |a| + (2 * F.u + F.u * F.u) * |b * h| := by
    rw [show c + p - (a + b * h) = (c - a) + (p - b * h) by ring]
    exact (abs_add_le _ _).trans (by linarith)
  have e6 : |c + p| ≤ |a + b * h| + (F.u * |a| + (2 * F.u + F.u * F.u) * |b * h|) := by
    have := abs_sub_abs_le_abs_sub (c + p) (a + b * h); linarith
  have e7 : |F.rd (c + p) - (a + b * h)| ≤ |F.rd (c + p) - (c + p)| + |c + p - (a + b * h)| := abs_sub_le _ _ _
  have e8 : F.u * |c + p| ≤ F.u * (|a + b * h| + (F.u * |a| + (2 * F.u + F.u * F.u) * |b * h|)) :=
    mul_le_mul_of_nonneg_left e6 hu
  have k1 : F.u * (F.u * |a|) ≤ 0.000001 * (F.u * |a|) := by nlinarith [mul_nonneg hu ha]
  have k2 : F.u * (F.u * |b * h|) ≤ 0.000001 * (F.u * |b * h|) := by nlinarith [mul_nonneg hu hbh]
  have k3 : F.u * (F.u * (F.u * |b * h|)) ≤ 0.000001 * (F.u * (F.u * |b * h|)) := by
    nlinarith [mul_nonneg hu (mul_nonneg hu hbh)]
  have k4 := mul_nonneg hu ha
  have k5 := mul_nonneg hu hbh
  have k6 := mul_nonneg hu hab
  have k7 := mul_le_mul_of_nonneg_left hS hu
  nlinarith

theorem Acc.affine (k : ℕ) (hk : k ≤ 900) (a b h : ℝ) (hx : 0 < a + b * h)
    (hS : 1.0001 * (|a| + 2 * |b * h| + |a + b * h|) ≤ k * (a + b * h)) : Acc F (k + 1) (Fl.affine F a b h) (a + b * h) := by
  refine Acc.of_err k hk hx ((affine_err a b h _ le_rfl).trans ?_)
  have := mul_le_mul_of_nonneg_right hS F.u_nonneg
  linarith

theorem Acc.neg {n : ℕ} {xh x : ℝ} (h : Acc F n xh x) : Acc F n (-xh) (-x) := by
  obtain ⟨θ, a, b, c⟩ := h
  exact ⟨θ, a, b, by rw [c]; ring⟩

/-- A sum of positive terms. -/
theorem Acc.affine_pos (a b h : ℝ) (ha : 0 ≤ a) (hb : 0 ≤ b) (hh : 0 ≤ h) : Acc F 3 (Fl.affine F a b h) (a + b * h) :=
  ((Acc.rd F a).add ((Acc.rd F b).mul (Acc.refl (F := F) h)).round ha (mul_nonneg hb hh)).round.weaken (by norm_num)

/-- Power layers: base, exponent and what is asked of them. -/
theorem Acc.powlayer (M : Libm F) {n : ℕ} {xh x y l Y : ℝ} (N : ℕ) (h : Acc F n xh x) (hx : 0 < x) (hY : |y| ≤ Y)
    (hl : |Real.log x| ≤ l) (hN : Y * (1.0001 * n + 1 * l) ≤ N) : Acc F (3 + N) (M.pow xh (F.rd y)) (x ^ y) :=
  Acc.libm_pow M N h hx (c := 1) (by norm_num) (by rw [one_mul]; exact F.err y) (by norm_num) hY hl hN

/-- Exponential layers. -/
theorem Acc.explayer (M : Libm F) (N : ℕ) (f g h : ℝ) (hN : 2.0001 * |g * h| ≤ N) :
    Acc F (5 + N) (F.rd (F.rd f * M.exp (F.rd (F.rd g * h)))) (f * Real.exp (g * h)) := by
  have hu := F.u_nonneg
  have hul := F.u_lt
  have e2 := F.err g
  have e3 := F.err (F.rd g * h)
  have hb : |F.rd g * h - g * h| ≤ F.u * |g * h| := by
    rw [← sub_mul, abs_mul, abs_mul, ← mul_assoc]; exact mul_le_mul_of_nonneg_right e2 (abs_nonneg h)
  have hbh := abs_nonneg (g * h)
  have hb' : |F.rd g * h| ≤ (1 + F.u) * |g * h| := by
    have := abs_sub_abs_le_abs_sub (F.rd g * h) (g * h); linarith
  have e4 : |F.rd (F.rd g * h) - g * h| ≤ |F.rd (F.rd g * h) - F.rd g * h| + |F.rd g * h - g * h| := abs_sub_le _ _ _
  have e5 : |F.rd (F.rd g * h) - g * h| ≤ N * F.u := by
    have := mul_le_mul_of_nonneg_right hN hu
    have k := mul_nonneg hu hbh
    nlinarith
  exact ((Acc.rd F f).mul (Acc.libm_exp M N e5)).round.weaken (by omega)

/-- The inverse of the power layers. -/
theorem powalt_err (C D P Ph e Q : ℝ) (hP : |Ph - P| ≤ e * F.u) (hQ : |P| + |C| ≤ Q) (heQ : e ≤ 1000 * Q) :
    |F.rd (F.rd (Ph - F.rd C) / F.rd D) - (P - C) / D| ≤ (e + 5.8 * Q) * F.u / |D| := by
  have hu := F.u_nonneg
  have hul := F.u_lt
  have c := F.err C
  have a1 : |Ph - F.rd C - (P - C)| ≤ (e + |C|) * F.u := by
    rw [show Ph - F.rd C - (P - C) = (Ph - P) - (F.rd C - C) by ring]
    refine (abs_sub _ _).trans ?_
    nlinarith
  have a2 := F.err (Ph - F.rd C)
  have hPC : |P - C| ≤ Q := (abs_sub P C).trans hQ
  have hQ0 : 0 ≤ Q := (abs_nonneg _).trans hPC
  have hC : |C| ≤ Q := by have := abs_nonneg P; linarith
  have hC0 := abs_nonneg C
  have a3 : |Ph - F.rd C| ≤ 1.1 * Q := by
    have := abs_sub_abs_le_abs_sub (Ph - F.rd C) (P - C)
    have h1 : (e + |C|) * F.u ≤ (1001 * Q) * F.u := mul_le_mul_of_nonneg_right (by linarith) hu
    have h2 : Q * F.u ≤ Q * 0.000001 := mul_le_mul_of_nonneg_left (by linarith) hQ0
    linarith
  obtain ⟨t, ht⟩ : ∃ t, t = F.rd (Ph - F.rd C) := ⟨_, rfl⟩
  rw [← ht] at a2 ⊢
  have hQu := mul_nonneg hQ0 hu
  have a4 : |t - (P - C)| ≤ (e + |C| + 1.1 * Q) * F.u := by
    have : |t - (P - C)| ≤ |t - (Ph - F.rd C)| + |Ph - F.rd C - (P - C)| := abs_sub_le _ _ _
    have := mul_le_mul_of_nonneg_left a3 hu
    linarith
  have a5 : |t| ≤ 1.2 * Q := by
    have := abs_sub_abs_le_abs_sub t (Ph - F.rd C)
    have h1 := mul_le_mul_of_nonneg_left a3 hu
    have h2 : Q * F.u ≤ Q * 0.000001 := mul_le_mul_of_nonneg_left (by linarith) hQ0
    linarith
  have b := (((Acc.refl (F := F) t).div (Acc.rd F D)).round).err 3 (by norm_num) (by norm_num)
  have b1 : |F.rd (t / F.rd D) - (P - C) / D| ≤ |F.rd (t / F.rd D) - t / D| + |t / D - (P - C) / D| := abs_sub_le _ _ _
  have b2 : |t / D - (P - C) / D| = |t - (P - C)| / |D| := by rw [← sub_div, abs_div]
  rw [b2] at b1
  rw [abs_div] at b
  have hD := abs_nonneg D
  refine b1.trans ((add_le_add b (div_le_div_of_nonneg_right a4 hD)).trans ?_)
  rw [← mul_div_assoc, ← add_div]
  refine div_le_div_of_nonneg_right ?_ hD
  have : 3 * F.u * |t| ≤ 3 * F.u * (1.2 * Q) := mul_le_mul_of_nonneg_left a5 (by positivity)
  have := mul_le_mul_of_nonneg_right hC hu
  nlinarith

/-- The inverse of the exponential layers. -/
theorem logalt_err (M : Libm F) (p f g m l : ℝ) (hf : 0 < f) (hm : 0.001 ≤ m) (h1 : m ≤ p / f) (h2 : p / f ≤ 1 / 5)
    (hl : |Real.log (p / f)| ≤ l) :
    |F.rd (F.rd (1 / F.rd g) * M.log1p (F.rd (F.rd (p / F.rd f) - 1))) - (1 / g) * Real.log (1 + (p / f - 1))| ≤
      (1.8 / m + 7 * (l + 1)) * F.u / |g| := by
  have hu := F.u_nonneg
  have hul := F.u_lt
  obtain ⟨x, hx⟩ : ∃ x, x = p / f := ⟨_, rfl⟩
  have hx0 : 0 < x := by rw [hx]; linarith
  have a1 := (((Acc.refl (F := F) p).div (Acc.rd F f)).round).err 3 (by norm_num) (by norm_num)
  rw [← hx] at a1 h1 h2 hl ⊢
  rw [abs_of_pos hx0] at a1
  obtain ⟨y, hy⟩ : ∃ y, y = F.rd (p / F.rd f) := ⟨_, rfl⟩
  rw [← hy] at a1 ⊢
  rw [abs_le] at a1
  have a2 := F.err (y - 1)
  have a3 : |y - 1| ≤ 1 := by
    rw [abs_le]; constructor <;> nlinarith [mul_nonneg hu hx0.le]
  obtain ⟨z, hz⟩ : ∃ z, z = F.rd (y - 1) := ⟨_, rfl⟩
  rw [← hz] at a2 ⊢
  have a4 : |1 + z - x| ≤ 1.7 * F.u := by
    have h3 : |z - (y - 1)| ≤ F.u := a2.trans (by nlinarith)
    rw [abs_le] at h3 ⊢
    constructor <;> nlinarith [mul_nonneg hu hx0.le]
  have hm0 : 0 < m := by linarith
  have a5 : 0.99 * m ≤ 1 + z := by rw [abs_le] at a4; nlinarith [a4.1]
  have hz1 : 0 < 1 + z := by linarith
  have a6 : |Real.log (1 + z) - Real.log x| ≤ 1.75 * F.u / m := by
    have k1 : Real.log (1 + z) - Real.log x ≤ (1 + z) / x - 1 := by
      rw [← Real.log_div hz1.ne' hx0.ne']; exact Real.log_le_sub_one_of_pos (by positivity)
    have k2 : Real.log x - Real.log (1 + z) ≤ x / (1 + z) - 1 := by
      rw [← Real.log_div hx0.ne' hz1.ne']; exact Real.log_le_sub_one_of_pos (by positivity)
    rw [abs_le] at a4
    have k3 : (1 + z) / x - 1 ≤ 1.75 * F.u / m := by
      rw [show (1 + z) / x - 1 = (1 + z - x) / x by field_simp]
      rw [div_le_div_iff₀ hx0 hm0]
      nlinarith [a4.2, mul_le_mul_of_nonneg_left h1 hu]
    have k4 : x / (1 + z) - 1 ≤ 1.75 * F.u / m := by
      rw [show x / (1 + z) - 1 = (x - (1 + z)) / (1 + z) by field_simp]
      rw [div_le_div_iff₀ hz1 hm0]
      nlinarith [a4.1, mul_le_mul_of_nonneg_left a5 hu]
    rw [abs_le]; constructor <;> linarith
  have b1 := M.log1p_err z (by linarith)
  obtain ⟨w, hw⟩ : ∃ w, w = M.log1p z := ⟨_, rfl⟩
  rw [← hw] at b1 ⊢
  rw [show 1 + (x - 1) = x by ring]
  have hsm : 1.75 * F.u / m ≤ 0.00175 := by rw [div_le_iff₀ hm0]; nlinarith
  have c1 : |Real.log (1 + z)| ≤ l + 0.00175 := by
    have := abs_sub_abs_le_abs_sub (Real.log (1 + z)) (Real.log x); linarith
  have hl0 : 0 ≤ l := (abs_nonneg _).trans hl
  have c2 : |w - Real.log x| ≤ 1.75 * F.u / m + 2 * F.u * (l + 0.00175) := by
    have : |w - Real.log x| ≤ |w - Real.log (1 + z)| + |Real.log (1 + z) - Real.log x| := abs_sub_le _ _ _
    have := mul_le_mul_of_nonneg_left c1 (show 0 ≤ 2 * F.u by positivity)
    linarith
  have c3 : |w| ≤ 1.01 * l + 0.01 := by
    have := abs_sub_abs_le_abs_sub w (Real.log (1 + z))
    have h3 := mul_le_mul_of_nonneg_left c1 (show 0 ≤ 2 * F.u by positivity)
    have h4 : F.u * l ≤ 0.000001 * l := mul_le_mul_of_nonneg_right (by linarith) hl0
    nlinarith
  have d := (((((Acc.refl (F := F) 1).div (Acc.rd F g)).round).mul (Acc.refl (F := F) w)).round).err 4 (by norm_num) (by norm_num)
  obtain ⟨r, hr⟩ : ∃ r, r = F.rd (F.rd (1 / F.rd g) * w) := ⟨_, rfl⟩
  rw [← hr] at d ⊢
  have d1 : |r - 1 / g * Real.log x| ≤ |r - 1 / g * w| + |1 / g * w - 1 / g * Real.log x| := abs_sub_le _ _ _
  rw [← mul_sub, abs_mul, abs_div, abs_one] at d1
  rw [abs_mul, abs_div, abs_one] at d
  have hg : 0 ≤ 1 / |g| := by positivity
  have d2 : 1 / |g| * |w - Real.log x| ≤ 1 / |g| * (1.75 * F.u / m + 2 * F.u * (l + 0.00175)) := mul_le_mul_of_nonneg_left c2 hg
  have d3 : 4 * F.u * (1 / |g| * |w|) ≤ 1 / |g| * (4 * F.u * (1.01 * l + 0.01)) := by
    have := mul_le_mul_of_nonneg_left c3 (show 0 ≤ 1 / |g| * (4 * F.u) by positivity)
    linarith
  have d4 : 1 / |g| * (1.75 * F.u / m + 2 * F.u * (l + 0.00175)) + 1 / |g| * (4 * F.u * (1.01 * l + 0.01)) ≤
      1 / |g| * ((1.8 / m + 7 * (l + 1)) * F.u) := by
    rw [← mul_add]
    refine mul_le_mul_of_nonneg_left ?_ hg
    have k : 0 ≤ F.u / m := by positivity
    have e1 : 1.75 * F.u / m = 1.75 * (F.u / m) := by ring
    have e2 : (1.8 / m + 7 * (l + 1)) * F.u = 1.8 * (F.u / m) + 7 * (l + 1) * F.u := by ring
    rw [e1, e2]
    nlinarith [mul_nonneg hl0 hu]
  rw [show (1.8 / m + 7 * (l + 1)) * F.u / |g| = 1 / |g| * ((1.8 / m + 7 * (l + 1)) * F.u) by ring]
  linarith

end Verif.Fl
