import Verif.Lemmas.ISALayers

/-
Density on a day with a temperature offset, layer by layer: the standard-day density times
T / (T + offset) still falls with altitude.
-/

namespace Verif.ISAL
open Verif.Atmos Verif.Layers

/-- Falling temperature (layer 1). `a > b` the bases of the power law, `s`, `t` the temperatures. -/
theorem off_fall {a b s t e off : ℝ} (hb : 0 < b) (hab : b < a) (he : 2 ≤ e) (hs0 : 0 < s) (ht : 0 < t + off)
    (hs : 0 < s + off) (hp : b ^ 2 * t * (s + off) < a ^ 2 * s * (t + off)) :
    b ^ e * t / (t + off) < a ^ e * s / (s + off) := by
  have ha : 0 < a := hb.trans hab
  have r : (a / b) ^ (2:ℝ) ≤ (a / b) ^ e :=
    Real.rpow_le_rpow_of_exponent_le (by rw [le_div_iff₀ hb]; linarith) he
  have r1 : a ^ e = b ^ e * (a / b) ^ e := by
    rw [Real.div_rpow ha.le hb.le, mul_div_cancel₀ _ (Real.rpow_pos_of_pos hb e).ne']
  have r2 : (a / b) ^ (2:ℝ) = a ^ 2 / b ^ 2 := by
    rw [show (2:ℝ) = ((2:ℕ):ℝ) by norm_num, Real.rpow_natCast, div_pow]
  have hbe := Real.rpow_pos_of_pos hb e
  have hb2 : 0 < b ^ 2 := by positivity
  rw [div_lt_div_iff₀ ht hs]
  rw [r2, div_le_iff₀' hb2] at r
  have hsp : 0 < s * (t + off) := by positivity
  obtain ⟨q, hq⟩ : ∃ q, q = (a / b) ^ e := ⟨_, rfl⟩
  rw [← hq] at r r1
  have k2 := mul_le_mul_of_nonneg_right r hsp.le
  have k3 : t * (s + off) < q * (s * (t + off)) := by
    by_contra hc
    have := mul_le_mul_of_nonneg_left (not_lt.mp hc) hb2.le
    linarith
  rw [r1]
  have := mul_lt_mul_of_pos_left k3 hbe
  linarith

/-- Rising temperature (layers 3 and 4). `a < b` the bases, `s < t` the temperatures. -/
theorem off_rise {a b s t e off : ℝ} (ha : 0 < a) (hab : a < b) (he : e ≤ -2) (hs0 : 0 < s) (hst : s < t)
    (hs : 0 < s + off) (hp : t * a ^ 2 ≤ s * b ^ 2) :
    b ^ e * t / (t + off) < a ^ e * s / (s + off) := by
  have hb : 0 < b := ha.trans hab
  have ht : 0 < t + off := by linarith
  have r : (b / a) ^ e ≤ (b / a) ^ (-2:ℝ) :=
    Real.rpow_le_rpow_of_exponent_le (by rw [le_div_iff₀ ha]; linarith) he
  have r1 : b ^ e = a ^ e * (b / a) ^ e := by
    rw [Real.div_rpow hb.le ha.le, mul_div_cancel₀ _ (Real.rpow_pos_of_pos ha e).ne']
  have r2 : (b / a) ^ (-2:ℝ) = a ^ 2 / b ^ 2 := by
    rw [Real.rpow_neg (by positivity), show (2:ℝ) = ((2:ℕ):ℝ) by norm_num, Real.rpow_natCast, div_pow, inv_div]
  have hae := Real.rpow_pos_of_pos ha e
  have hb2 : 0 < b ^ 2 := by positivity
  rw [r2] at r
  have k : (b / a) ^ e * t ≤ s := by
    have h1 : (b / a) ^ e * t ≤ a ^ 2 / b ^ 2 * t := mul_le_mul_of_nonneg_right r (by linarith)
    have h2 : a ^ 2 / b ^ 2 * t ≤ s := by
      rw [div_mul_eq_mul_div, div_le_iff₀ hb2]; linarith
    linarith
  rw [r1, mul_assoc, mul_div_assoc, mul_div_assoc (a ^ e) s]
  apply mul_lt_mul_of_pos_left _ hae
  rw [div_lt_div_iff₀ ht hs]
  have h3 : (b / a) ^ e * t * (s + off) ≤ s * (s + off) := mul_le_mul_of_nonneg_right k hs.le
  have h4 : s * (s + off) < s * (t + off) := mul_lt_mul_of_pos_left (by linarith) hs0
  linarith

/-- Layer 1, offsets down to -100 K. -/
theorem off1 {off h k : ℝ} (ho : -100 ≤ off) (hk : h < k) (hk1 : k ≤ 11000) :
    fd1 k * (A1 + B1 * k) / (A1 + B1 * k + off) < fd1 h * (A1 + B1 * h) / (A1 + B1 * h + off) := by
  have tk : (216.65:ℝ) ≤ A1 + B1 * k := by simp only [A1, B1]; norm_num; linarith
  have th : A1 + B1 * k < A1 + B1 * h := by simp only [B1]; norm_num; linarith
  have hv := pos_V1 (h := k) (by linarith)
  have hvv : I1 + J1 * k < I1 + J1 * h := by simp only [J1]; norm_num; linarith
  refine off_fall hv hvv (by norm_num [L1]) (by linarith) (by linarith) (by linarith) ?_
  obtain ⟨t, et⟩ : ∃ t, t = A1 + B1 * k := ⟨_, rfl⟩
  obtain ⟨s, es⟩ : ∃ s, s = A1 + B1 * h := ⟨_, rfl⟩
  obtain ⟨b, eb⟩ : ∃ b, b = I1 + J1 * k := ⟨_, rfl⟩
  obtain ⟨a, ea⟩ : ∃ a, a = I1 + J1 * h := ⟨_, rfl⟩
  have d1 : a - b = 23.659414e-6 * (k - h) := by rw [ea, eb]; simp only [J1]; ring
  have d2 : s - t = 6.5e-3 * (k - h) := by rw [es, et]; simp only [B1]; ring
  have q : a ≤ 0.00364 * s := by rw [ea, es]; simp only [I1, J1, A1, B1]; norm_num; linarith
  rw [← et] at tk th
  rw [← es] at th
  rw [← eb] at hv hvv
  rw [← ea] at hvv
  rw [← et, ← es, ← eb, ← ea]
  have hd : 0 < k - h := by linarith
  have ha : 0 < a := by linarith
  -- the difference is linear in the offset, smallest at -100
  have m1 : 0 < a ^ 2 * s - b ^ 2 * t := by
    have : b ^ 2 * t < a ^ 2 * s := by
      have h1 : b ^ 2 < a ^ 2 := by nlinarith
      have : b ^ 2 * t < a ^ 2 * t := mul_lt_mul_of_pos_right h1 (by linarith)
      have : a ^ 2 * t < a ^ 2 * s := mul_lt_mul_of_pos_left th (by positivity)
      linarith
    linarith
  have m2 : (-100) * (a ^ 2 * s - b ^ 2 * t) ≤ off * (a ^ 2 * s - b ^ 2 * t) := mul_le_mul_of_nonneg_right ho m1.le
  have e1 : s * t * (a ^ 2 - b ^ 2) - 100 * (a ^ 2 * s - b ^ 2 * t) =
      (a - b) * (a + b) * t * (s - 100) - 100 * a ^ 2 * (s - t) := by ring
  have m3 : 0 < (a - b) * (a + b) * t * (s - 100) - 100 * a ^ 2 * (s - t) := by
    rw [d1, d2]
    have x1 : 100 * 6.5e-3 * a < 23.659414e-6 * 216.65 * (s - 100) := by norm_num; linarith
    have x2 : 23.659414e-6 * 216.65 * (s - 100) ≤ 23.659414e-6 * t * (s - 100) := by
      apply mul_le_mul_of_nonneg_right _ (by linarith)
      apply mul_le_mul_of_nonneg_left tk (by norm_num)
    have x3 : 100 * 6.5e-3 * a * a < 23.659414e-6 * t * (s - 100) * a := mul_lt_mul_of_pos_right (by linarith) ha
    have x5 : 0 < 23.659414e-6 * t * (s - 100) * b := by
      have : 0 < t := by linarith
      have : 0 < s - 100 := by linarith
      positivity
    have x6 : 0 < (23.659414e-6 * t * (s - 100) * a + 23.659414e-6 * t * (s - 100) * b - 100 * 6.5e-3 * a * a) * (k - h) :=
      mul_pos (by linarith) hd
    linarith
  linarith

theorem off3 {off h k : ℝ} (ho : -216.65 < off) (h0 : 20000 ≤ h) (hk : h < k) (hk1 : k ≤ 32000) :
    fd3 k * (A3 + B3 * k) / (A3 + B3 * k + off) < fd3 h * (A3 + B3 * h) / (A3 + B3 * h + off) := by
  have th : (216.65:ℝ) ≤ A3 + B3 * h := by simp only [A3, B3]; norm_num; linarith
  have tk : A3 + B3 * h < A3 + B3 * k := by simp only [B3]; norm_num; linarith
  have hv := pos_V3 (h := h) (by linarith)
  have hvv : I3 + J3 * h < I3 + J3 * k := by simp only [J3]; norm_num; linarith
  refine off_rise hv hvv (by norm_num [L3]) (by linarith) tk (by linarith) ?_
  obtain ⟨t, et⟩ : ∃ t, t = A3 + B3 * k := ⟨_, rfl⟩
  obtain ⟨s, es⟩ : ∃ s, s = A3 + B3 * h := ⟨_, rfl⟩
  obtain ⟨b, eb⟩ : ∃ b, b = I3 + J3 * k := ⟨_, rfl⟩
  obtain ⟨a, ea⟩ : ∃ a, a = I3 + J3 * h := ⟨_, rfl⟩
  have d1 : b - a = J3 * (k - h) := by rw [ea, eb]; ring
  have d2 : t - s = B3 * (k - h) := by rw [es, et]; ring
  have q : B3 * a ≤ 2 * J3 * s := by rw [ea, es]; simp only [I3, J3, A3, B3]; norm_num; linarith
  rw [← es] at tk th
  rw [← et] at tk
  rw [← ea] at hv hvv
  rw [← eb] at hvv
  rw [← et, ← es, ← eb, ← ea]
  have e1 : s * b ^ 2 - t * a ^ 2 = s * (b - a) * (a + b) - a ^ 2 * (t - s) := by ring
  have e2 : s * (b - a) * (a + b) - a ^ 2 * (t - s) = (k - h) * (s * J3 * (a + b) - a ^ 2 * B3) := by
    rw [d1, d2]; ring
  have m : 0 ≤ s * J3 * (a + b) - a ^ 2 * B3 := by
    have x1 : s * J3 * (2 * a) ≤ s * J3 * (a + b) := by
      apply mul_le_mul_of_nonneg_left (by linarith)
      have : 0 < J3 := by norm_num [J3]
      have : 0 < s := by linarith
      positivity
    have x2 := mul_le_mul_of_nonneg_right q hv.le
    linarith
  have := mul_nonneg (show 0 ≤ k - h by linarith) m
  linarith

theorem off4 {off h k : ℝ} (ho : -216.65 < off) (h0 : 32000 ≤ h) (hk : h < k) (hk1 : k ≤ 47000) :
    fd4 k * (A4 + B4 * k) / (A4 + B4 * k + off) < fd4 h * (A4 + B4 * h) / (A4 + B4 * h + off) := by
  have th : (228.65:ℝ) ≤ A4 + B4 * h := by simp only [A4, B4]; norm_num; linarith
  have tk : A4 + B4 * h < A4 + B4 * k := by simp only [B4]; norm_num; linarith
  have hv := pos_V4 (h := h) (by linarith)
  have hvv : I4 + J4 * h < I4 + J4 * k := by simp only [J4]; norm_num; linarith
  refine off_rise hv hvv (by norm_num [L4]) (by linarith) tk (by linarith) ?_
  obtain ⟨t, et⟩ : ∃ t, t = A4 + B4 * k := ⟨_, rfl⟩
  obtain ⟨s, es⟩ : ∃ s, s = A4 + B4 * h := ⟨_, rfl⟩
  obtain ⟨b, eb⟩ : ∃ b, b = I4 + J4 * k := ⟨_, rfl⟩
  obtain ⟨a, ea⟩ : ∃ a, a = I4 + J4 * h := ⟨_, rfl⟩
  have d1 : b - a = J4 * (k - h) := by rw [ea, eb]; ring
  have d2 : t - s = B4 * (k - h) := by rw [es, et]; ring
  have q : B4 * a ≤ 2 * J4 * s := by rw [ea, es]; simp only [I4, J4, A4, B4]; norm_num; linarith
  rw [← es] at tk th
  rw [← et] at tk
  rw [← ea] at hv hvv
  rw [← eb] at hvv
  rw [← et, ← es, ← eb, ← ea]
  have e1 : s * b ^ 2 - t * a ^ 2 = s * (b - a) * (a + b) - a ^ 2 * (t - s) := by ring
  have e2 : s * (b - a) * (a + b) - a ^ 2 * (t - s) = (k - h) * (s * J4 * (a + b) - a ^ 2 * B4) := by
    rw [d1, d2]; ring
  have m : 0 ≤ s * J4 * (a + b) - a ^ 2 * B4 := by
    have x1 : s * J4 * (2 * a) ≤ s * J4 * (a + b) := by
      apply mul_le_mul_of_nonneg_left (by linarith)
      have : 0 < J4 := by norm_num [J4]
      have : 0 < s := by linarith
      positivity
    have x2 := mul_le_mul_of_nonneg_right q hv.le
    linarith
  have := mul_nonneg (show 0 ≤ k - h by linarith) m
  linarith

end Verif.ISAL
