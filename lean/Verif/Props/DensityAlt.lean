import Verif.Props.Hydrostatic
import Verif.Props.Atmosphere
import Mathlib.Analysis.Convex.SpecificFunctions.Basic

/-
Property C123: pressure and density altitude on days off standard.
-/

namespace Verif.Props
open Verif Verif.Atmos

noncomputable section

/-- Bounds of a power with a small negative exponent: the reciprocal of the `1 / a`th root of `1 + x`. -/
theorem rpow_neg_bounds {x a : ℝ} (hx : -1 < x) (h0 : 0 ≤ a) (h1 : a ≤ 1) :
    1 - a * x ≤ (1 + x) ^ (-a) ∧ (1 + x) ^ (-a) ≤ 1 - a * (x / (1 + x)) := by
  have hp : 0 < 1 + x := by linarith
  constructor
  · rw [Real.rpow_def_of_pos hp]
    have h2 := Real.add_one_le_exp (Real.log (1 + x) * -a)
    have h3 := mul_le_mul_of_nonneg_left (Real.log_le_sub_one_of_pos hp) h0
    linarith
  · rw [Real.rpow_neg hp.le, ← Real.inv_rpow hp.le]
    have e : (1 + x)⁻¹ = 1 + (-(x / (1 + x))) := by field_simp; ring
    have h2 := rpow_one_add_le_one_add_mul_self (s := -(x / (1 + x))) (p := a)
      (by rw [neg_le_neg_iff, div_le_one hp]; linarith) h0 h1
    rw [e]
    linarith

/-- Below 11 km the density of an off-standard day is the standard density at another altitude. -/
theorem trop_alt (off h : ℝ) (hh : h < 11000) (hT : 0 < isatemp off h) :
    ∃ k, k - h = (I1 + J1 * h) / -J1 * (1 - (1 + off / (288.15 - 0.0065 * h)) ^ (-(1 / L1))) ∧
      (k < 11000 → isadensalt [isadens off h] = .ok [k]) := by
  have hl : h < Level1 := hh
  have eT : isatemp off h = 288.15 - 0.0065 * h + off := by
    unfold isatemp; rw [if_pos hl]; norm_num [A1, B1]; ring
  have t0 : 0 < 288.15 - 0.0065 * h := by norm_num; linarith
  have hb : 0 < I1 + J1 * h := by norm_num [I1, J1]; linarith
  have hx : 0 < 1 + off / (288.15 - 0.0065 * h) := by
    rw [eT] at hT
    have : 1 + off / (288.15 - 0.0065 * h) = (288.15 - 0.0065 * h + off) / (288.15 - 0.0065 * h) := by field_simp
    rw [this]; positivity
  have hJ : J1 ≠ 0 := by norm_num [J1]
  obtain ⟨P, hP⟩ : ∃ P, P = (1 + off / (288.15 - 0.0065 * h)) ^ (-(1 / L1)) := ⟨_, rfl⟩
  have hP0 : 0 < P := by rw [hP]; positivity
  obtain ⟨k, hk⟩ : ∃ k, k = ((I1 + J1 * h) * P - I1) / J1 := ⟨_, rfl⟩
  have e1 : I1 + J1 * k = (I1 + J1 * h) * P := by rw [hk]; field_simp; ring
  refine ⟨k, ?_, ?_⟩
  · rw [← hP, hk]; field_simp; ring
  · intro hlt
    have hd : isadens off h = isadens 0 k := by
      rw [isadens_zero]
      unfold isadens isadens0
      rw [if_pos hl, if_pos (show k < Level1 from hlt), e1, Real.mul_rpow hb.le hP0.le, eT,
        show 288.15 - 0.0065 * h + off - off = 288.15 - 0.0065 * h by ring, hP, ← Real.rpow_mul hx.le]
      have : -(1 / L1) * L1 = -1 := by norm_num [L1]
      rw [this, Real.rpow_neg_one, div_eq_mul_inv]
    rw [hd]
    exact C16_exact_outside k (Or.inl hlt)

theorem dens_alt (off h : ℝ) (hh : h < 11000) (hT : 0 < isatemp off h) (hk : h + 36.15 * off < 11000) :
    ∃ k, k - h = (I1 + J1 * h) / -J1 * (1 - (1 + off / (288.15 - 0.0065 * h)) ^ (-(1 / L1))) ∧
      isadensalt [isadens off h] = .ok [k] ∧
      (0 ≤ off → 36.148 * off * (isatemp 0 h / isatemp off h) ≤ k - h ∧ k - h ≤ 36.15 * off) ∧
      (off ≤ 0 → 36.15 * off * (isatemp 0 h / isatemp off h) ≤ k - h ∧ k - h ≤ 36.148 * off) := by
  have hl : h < Level1 := hh
  have e0 : isatemp 0 h = 288.15 - 0.0065 * h := by
    unfold isatemp; rw [if_pos hl]; norm_num [A1, B1]; ring
  have eT : isatemp off h = 288.15 - 0.0065 * h + off := by rw [C11_offset, e0]
  obtain ⟨k, e, hd⟩ := trop_alt off h hh hT
  refine ⟨k, e, ?_⟩
  rw [eT] at hT
  rw [e0, eT]
  obtain ⟨T, hTd⟩ : ∃ T, T = 288.15 - 0.0065 * h := ⟨_, rfl⟩
  obtain ⟨y, hy⟩ : ∃ y, y = (I1 + J1 * h) / -J1 * (1 / L1) := ⟨_, rfl⟩
  rw [← hTd] at hT e
  rw [← hTd]
  have t0 : 0 < T := by rw [hTd]; norm_num; linarith
  have hx : -1 < off / T := by rw [lt_div_iff₀ t0]; linarith
  obtain ⟨b1, b2⟩ := rpow_neg_bounds hx (a := 1 / L1) (by norm_num [L1]) (by norm_num [L1])
  have y1 : 36.148 * T ≤ y := by
    rw [hy, hTd]; norm_num [I1, J1, L1]; linarith
  have y2 : y ≤ 36.15 * T := by
    rw [hy, hTd]; norm_num [I1, J1, L1]; linarith
  have y0 : 0 ≤ (I1 + J1 * h) / -J1 := by
    have : 0 < I1 + J1 * h := by norm_num [I1, J1]; linarith
    have : 0 < -J1 := by norm_num [J1]
    positivity
  have u1 : k - h ≤ y * (off / T) := by
    rw [e, hy]
    have := mul_le_mul_of_nonneg_left (show 1 - (1 + off / T) ^ (-(1 / L1)) ≤ 1 / L1 * (off / T) by linarith) y0
    linarith
  have u2 : y * (off / (T + off)) ≤ k - h := by
    rw [e, hy]
    have e3 : off / T / (1 + off / T) = off / (T + off) := by field_simp
    have := mul_le_mul_of_nonneg_left (show 1 / L1 * (off / T / (1 + off / T)) ≤ 1 - (1 + off / T) ^ (-(1 / L1)) by linarith) y0
    rw [e3] at this
    linarith
  have f1 : ∀ z : ℝ, z * T * (off / T) = z * off := fun z => by field_simp
  have f2 : ∀ z : ℝ, z * T * (off / (T + off)) = z * off * (T / (T + off)) := fun z => by ring
  have hp : 0 ≤ off → k - h ≤ 36.15 * off := fun h0 => by
    have := mul_le_mul_of_nonneg_right y2 (show 0 ≤ off / T by positivity)
    rw [f1] at this; linarith
  have hn : off ≤ 0 → k - h ≤ 36.148 * off := fun h0 => by
    have := mul_le_mul_of_nonpos_right y1 (show off / T ≤ 0 from div_nonpos_of_nonpos_of_nonneg h0 t0.le)
    rw [f1] at this; linarith
  refine ⟨hd ?_, fun h0 => ⟨?_, hp h0⟩, fun h0 => ⟨?_, hn h0⟩⟩
  · rcases le_total 0 off with h0 | h0
    · linarith [hp h0]
    · linarith [hn h0]
  · have := mul_le_mul_of_nonneg_right y1 (show 0 ≤ off / (T + off) by positivity)
    rw [f2] at this; linarith
  · have := mul_le_mul_of_nonpos_right y2 (show off / (T + off) ≤ 0 from div_nonpos_of_nonpos_of_nonneg h0 hT.le)
    rw [f2] at this; linarith

/-- On an off-standard day below 11 km the density altitude is 36.15 m (118.6 ft) per degree of offset above the altitude, or
less by up to the ratio of standard to actual temperature. -/
theorem C123_density_altitude (off h : ℝ) (hh : h < 11000) (hT : 0 < isatemp off h) (hk : h + 36.15 * off < 11000) :
    ∃ k, isadensalt [isadens off h] = .ok [k] ∧
      (0 ≤ off → 36.148 * off * (isatemp 0 h / isatemp off h) ≤ k - h ∧ k - h ≤ 36.15 * off) ∧
      (off ≤ 0 → 36.15 * off * (isatemp 0 h / isatemp off h) ≤ k - h ∧ k - h ≤ 36.148 * off) := by
  obtain ⟨k, -, h1⟩ := dens_alt off h hh hT hk
  exact ⟨k, h1⟩

/-- A day 20 degrees warmer than standard at an airfield at 2 km: between 669 m and 723 m above. -/
example : ∃ k, isadensalt [isadens 20 2000] = .ok [k] ∧ 2669 ≤ k ∧ k ≤ 2723 := by
  have e0 : isatemp 0 2000 = 275.15 := by norm_num [isatemp, Level1, A1, B1]
  have e1 : isatemp 20 2000 = 295.15 := by norm_num [isatemp, Level1, A1, B1]
  obtain ⟨k, h1, h2, -⟩ := C123_density_altitude 20 2000 (by norm_num) (by rw [e1]; norm_num) (by norm_num)
  obtain ⟨h3, h4⟩ := h2 (by norm_num)
  rw [e0, e1] at h3
  norm_num at h3 h4
  exact ⟨k, h1, by linarith, by linarith⟩

/-- On a hot day the density altitude is above the altitude, on a cold day below, and it rises with the offset. -/
theorem C123_hot_above (off off' h : ℝ) (hh : h < 11000) (hT : 0 < isatemp off h) (ho : off < off') (hk : h + 36.15 * off' < 11000) :
    ∃ k k', isadensalt [isadens off h] = .ok [k] ∧ isadensalt [isadens off' h] = .ok [k'] ∧ k < k' ∧
      (h < k ↔ 0 < off) ∧ (k < h ↔ off < 0) := by
  have hT' : 0 < isatemp off' h := by rw [C11_offset] at hT ⊢; linarith
  obtain ⟨k, e, g, p1, p2⟩ := dens_alt off h hh hT (by linarith)
  obtain ⟨k', e', g', -⟩ := dens_alt off' h hh hT' hk
  have t0 : 0 < 288.15 - 0.0065 * h := by norm_num; linarith
  have eT : isatemp off h = 288.15 - 0.0065 * h + off := by
    unfold isatemp; rw [if_pos (show h < Level1 from hh)]; norm_num [A1, B1]; ring
  have hx : 0 < 1 + off / (288.15 - 0.0065 * h) := by
    rw [eT] at hT
    have : 1 + off / (288.15 - 0.0065 * h) = (288.15 - 0.0065 * h + off) / (288.15 - 0.0065 * h) := by field_simp
    rw [this]; positivity
  have y0 : 0 < (I1 + J1 * h) / -J1 := by
    have : 0 < I1 + J1 * h := by norm_num [I1, J1]; linarith
    have : 0 < -J1 := by norm_num [J1]
    positivity
  have hlt : k < k' := by
    have hr := Real.rpow_lt_rpow_of_neg hx (show 1 + off / (288.15 - 0.0065 * h) < 1 + off' / (288.15 - 0.0065 * h) by
      have := div_lt_div_of_pos_right ho t0
      linarith) (show -(1 / L1) < 0 by norm_num [L1])
    have := mul_lt_mul_of_pos_left (sub_lt_sub_left hr 1) y0
    linarith
  refine ⟨k, k', g, g', hlt, ?_⟩
  have h0 : 0 < isatemp 0 h := by
    unfold isatemp; rw [if_pos (show h < Level1 from hh)]; norm_num [A1, B1]; linarith
  rcases lt_trichotomy off 0 with hn | hz | hp
  · have := (p2 hn.le).2
    have h3 : k < h := by
      have : (36.148:ℝ) * off < 0 := mul_neg_of_pos_of_neg (by norm_num) hn
      linarith
    exact ⟨⟨fun h => absurd h (by linarith), fun h => absurd h (by linarith)⟩, fun _ => hn, fun _ => h3⟩
  · have h1 := p1 hz.ge
    have h3 : k = h := by
      rw [hz, mul_zero, mul_zero, zero_mul] at h1
      linarith [h1.1, h1.2]
    rw [h3, hz]
    exact ⟨⟨fun h => absurd h (lt_irrefl _), fun h => absurd h (lt_irrefl _)⟩, fun h => absurd h (lt_irrefl _), fun h => absurd h (lt_irrefl _)⟩
  · have := (p1 hp.le).1
    have h3 : h < k := by
      have : 0 < 36.148 * off * (isatemp 0 h / isatemp off h) := by positivity
      linarith
    exact ⟨⟨fun _ => hp, fun _ => h3⟩, fun h => absurd h (by linarith), fun h => absurd h (by linarith)⟩

example : ∃ k k', isadensalt [isadens (-15) 500] = .ok [k] ∧ isadensalt [isadens 25 500] = .ok [k'] ∧ k < k' ∧ k < 500 := by
  obtain ⟨k, k', h1, h2, h3, -, h4⟩ := C123_hot_above (-15) 25 500 (by norm_num) (by norm_num [isatemp, Level1, A1, B1]) (by norm_num)
    (by norm_num)
  exact ⟨k, k', h1, h2, h3, h4.mpr (by norm_num)⟩

/-- The density altitude function does not invert the density of an off-standard atmosphere: below 11 km it returns the
altitude of the query only for a zero offset. -/
theorem C123_inverse_violated (off h : ℝ) (hh : h < 11000) (hT : 0 < isatemp off h) (hk : h + 36.15 * off < 11000) :
    isadensalt [isadens off h] = .ok [h] ↔ off = 0 := by
  constructor
  · intro he
    obtain ⟨k, -, h1, -, -, h2, h3⟩ := C123_hot_above off (off + (11000 - h - 36.15 * off) / 100) h hh hT (by linarith)
      (by linarith)
    have e : k = h := by
      have := Except.ok.inj (h1.symm.trans he)
      exact (List.cons.inj this).1
    rw [e] at h2 h3
    rcases lt_trichotomy off 0 with hn | hz | hp
    · exact absurd (h3.mpr hn) (lt_irrefl _)
    · exact hz
    · exact absurd (h2.mpr hp) (lt_irrefl _)
  · rintro rfl
    exact C16_exact_outside h (Or.inl hh)

example : isadensalt [isadens 10 1000] ≠ .ok [1000] := fun h =>
  absurd ((C123_inverse_violated 10 1000 (by norm_num) (by norm_num [isatemp, Level1, A1, B1]) (by norm_num)).mp h) (by norm_num)

/-- Between 11 km and 20 km the density altitude is 29.27 m per degree above, or less by up to the same ratio. -/
theorem C123_stratosphere (off h : ℝ) (h1 : 11000.1 ≤ h) (ho : -216.65 < off)
    (k1 : off < 0 → 11000.1 ≤ h + 29.28 * off * (216.65 / (216.65 + off))) (k2 : h < 20000) (k3 : h + 29.28 * off ≤ 19999.9) :
    ∃ k, isadensalt [isadens off h] = .ok [k] ∧
      (0 ≤ off → 29.27 * off * (216.65 / (216.65 + off)) ≤ k - h ∧ k - h ≤ 29.28 * off) ∧
      (off ≤ 0 → 29.28 * off * (216.65 / (216.65 + off)) ≤ k - h ∧ k - h ≤ 29.27 * off) := by
  have l1 : ¬ h < Level1 := by norm_num [Level1] at h1 ⊢; linarith
  have l2 : h < Level2 := k2
  have eT : isatemp off h = 216.65 + off := by
    unfold isatemp; rw [if_neg l1, if_pos l2]; norm_num [A2, B2]
  have t0 : 0 < 216.65 + off := by linarith
  have ex : 1 + off / 216.65 = (216.65 + off) / 216.65 := by norm_num; ring
  have hx : 0 < 1 + off / 216.65 := by rw [ex]; exact div_pos t0 (by norm_num)
  have hN : N2 ≠ 0 := by norm_num [N2]
  obtain ⟨l, hl⟩ : ∃ l, l = Real.log (1 + off / 216.65) := ⟨_, rfl⟩
  obtain ⟨k, hk⟩ : ∃ k, k = h + l / -N2 := ⟨_, rfl⟩
  have up : l ≤ off / 216.65 := by
    have := Real.log_le_sub_one_of_pos hx
    rw [hl]; linarith
  have lo : off / (216.65 + off) ≤ l := by
    have := Real.one_sub_inv_le_log_of_pos hx
    rw [hl]
    have e : 1 - (1 + off / 216.65)⁻¹ = off / (216.65 + off) := by
      rw [ex, inv_div, eq_div_iff t0.ne', sub_mul, div_mul_cancel₀ _ t0.ne']; ring
    linarith
  have eN : k - h = l * (1 / 0.15768852e-3) := by
    rw [hk]; norm_num [N2]; ring
  have b1 : (29.27 * 216.65 : ℝ) ≤ 1 / 0.15768852e-3 := by norm_num
  have b2 : (1 / 0.15768852e-3 : ℝ) ≤ 29.28 * 216.65 := by norm_num
  have f1 : ∀ z : ℝ, z * off = z * 216.65 * (off / 216.65) := fun z => by ring
  have f2 : ∀ z : ℝ, z * off * (216.65 / (216.65 + off)) = z * 216.65 * (off / (216.65 + off)) := fun z => by ring
  have hp : 0 ≤ off → 29.27 * off * (216.65 / (216.65 + off)) ≤ k - h ∧ k - h ≤ 29.28 * off := by
    intro h0
    have q1 : 0 ≤ off / (216.65 + off) := by positivity
    rw [f2, f1, eN]
    constructor
    · calc _ ≤ 1 / 0.15768852e-3 * (off / (216.65 + off)) := mul_le_mul_of_nonneg_right b1 q1
        _ ≤ _ := by rw [mul_comm]; exact mul_le_mul_of_nonneg_right lo (by norm_num)
    · calc _ ≤ off / 216.65 * (1 / 0.15768852e-3) := mul_le_mul_of_nonneg_right up (by norm_num)
        _ ≤ _ := by rw [mul_comm]; exact mul_le_mul_of_nonneg_right b2 (by positivity)
  have hn : off ≤ 0 → 29.28 * off * (216.65 / (216.65 + off)) ≤ k - h ∧ k - h ≤ 29.27 * off := by
    intro h0
    have q1 : off / (216.65 + off) ≤ 0 := div_nonpos_of_nonpos_of_nonneg h0 t0.le
    have q2 : off / 216.65 ≤ 0 := div_nonpos_of_nonpos_of_nonneg h0 (by norm_num)
    rw [f2, f1, eN]
    constructor
    · calc _ ≤ 1 / 0.15768852e-3 * (off / (216.65 + off)) := mul_le_mul_of_nonpos_right b2 q1
        _ ≤ _ := by rw [mul_comm]; exact mul_le_mul_of_nonneg_right lo (by norm_num)
    · calc _ ≤ off / 216.65 * (1 / 0.15768852e-3) := mul_le_mul_of_nonneg_right up (by norm_num)
        _ ≤ _ := by rw [mul_comm]; exact mul_le_mul_of_nonpos_right b1 q2
  have hk1 : 11000.1 ≤ k := by
    rcases le_or_gt 0 off with h0 | h0
    · have : 0 ≤ 29.27 * off * (216.65 / (216.65 + off)) := by positivity
      linarith [(hp h0).1]
    · linarith [(hn h0.le).1, k1 h0]
  have hk2 : k ≤ 19999.92 := by
    rcases le_or_gt 0 off with h0 | h0
    · have := (hp h0).2
      norm_num at this k3 ⊢; linarith
    · have := (hn h0.le).2
      rcases le_or_gt off (-1) with h3 | h3 <;> norm_num at this k3 ⊢ <;> linarith
  refine ⟨k, ?_, hp, hn⟩
  have hd : isadens off h = isadens 0 k := by
    rw [isadens_zero]
    unfold isadens isadens0
    rw [if_neg l1, if_pos l2, if_neg (show ¬ k < Level1 by norm_num [Level1] at hk1 ⊢; linarith),
      if_pos (show k < Level2 by norm_num [Level2] at hk2 ⊢; linarith), eT, show 216.65 + off - off = 216.65 by ring, mul_div_assoc,
      show N2 * k = N2 * h - l by rw [hk]; field_simp; ring, Real.exp_sub, hl, Real.exp_log hx]
  rw [hd]
  refine C16_exact_outside k (Or.inr (Or.inl ⟨?_, ?_⟩))
  · norm_num at hk1 ⊢; linarith
  · norm_num at hk2 ⊢; linarith

example : ∃ k, isadensalt [isadens 10 15000] = .ok [k] ∧ 15279 ≤ k ∧ k ≤ 15293 := by
  obtain ⟨k, h1, h2, -⟩ := C123_stratosphere 10 15000 (by norm_num) (by norm_num) (by norm_num) (by norm_num) (by norm_num)
  obtain ⟨h3, h4⟩ := h2 (by norm_num)
  norm_num at h3 h4
  exact ⟨k, h1, by linarith, by linarith⟩

/-- The pressure, and with it the pressure altitude, does not depend on the offset: the altitude argument of an off-standard
atmosphere is the pressure altitude. -/
theorem C123_pressure_altitude (off h : ℝ) (hh : h ≤ 50000) :
    ∃ p, airpress_pa (.isa off) (.scalar h) = .ok (.scalar p) ∧ |isapressalt p - h| ≤ 0.1 :=
  ⟨isapress h, (isa_scalar off h hh).2.1, C15_close h⟩

example : ∃ p, airpress_pa (.isa 30) (.scalar 4000) = .ok (.scalar p) ∧ |isapressalt p - 4000| ≤ 0.1 :=
  C123_pressure_altitude 30 4000 (by norm_num)

/-- The pressure falls with the altitude at the rate of the standard day, which is gravity times the density of the day times the
ratio of its temperature to the standard temperature. -/
theorem C123_gradient (off h : ℝ) (hh : -5000 ≤ h) (hb : h ≠ 11000 ∧ h ≠ 20000 ∧ h ≠ 32000 ∧ h ≠ 47000) (hT : 0 < isatemp off h) :
    ∃ p', HasDerivAt isapress p' h ∧
      |p' + 9.80665 * (isadens off h * (isatemp off h / isatemp 0 h))| ≤
        4e-7 * (9.80665 * (isadens off h * (isatemp off h / isatemp 0 h))) := by
  obtain ⟨p', h1, h2⟩ := C102_hydrostatic h hh hb
  have t0 : 0 < isatemp 0 h := by linarith [(C11_bounds 0 h).1]
  have e : isadens off h * (isatemp off h / isatemp 0 h) = isadens 0 h := by
    rw [← mul_div_assoc, C13_offset_law off 0 h hT t0, mul_div_assoc, div_self t0.ne', mul_one]
  rw [e]
  exact ⟨p', h1, h2⟩

/-- So an off-standard atmosphere is not in hydrostatic equilibrium if its altitudes are taken as heights: already for an offset of a
thousandth of a degree the pressure falls faster (hot day) or slower (cold day) than by the weight of the air. -/
theorem C123_hydrostatic_violated (off h p' : ℝ) (hh : -5000 ≤ h) (hb : h ≠ 11000 ∧ h ≠ 20000 ∧ h ≠ 32000 ∧ h ≠ 47000)
    (hT : 0 < isatemp off h) (hp : HasDerivAt isapress p' h) :
    (0.001 ≤ off → 9.80665 * isadens off h < -p') ∧ (off ≤ -0.001 → -p' < 9.80665 * isadens off h) := by
  obtain ⟨p, h1, h2⟩ := C123_gradient off h hh hb hT
  rw [hp.unique h1]
  have t0 : 0 < isatemp 0 h := by linarith [(C11_bounds 0 h).1]
  have t1 : isatemp 0 h ≤ 321 := by
    rcases le_total 0 h with h0 | h0
    · linarith [(C11_bounds 0 h).2 h0]
    · have := C11_lipschitz 0 h 0
      rw [C102_sea_level.1, sub_zero, abs_of_nonpos h0] at this
      have := (abs_le.mp this).2
      norm_num at this ⊢
      linarith
  have hd := C13_positive off h hT
  obtain ⟨D, hD⟩ : ∃ D, D = 9.80665 * isadens off h := ⟨_, rfl⟩
  have hD0 : 0 < D := by rw [hD]; positivity
  have er : isatemp off h / isatemp 0 h = 1 + off / isatemp 0 h := by
    rw [C11_offset off h, add_div, div_self t0.ne']
  rw [er, ← mul_assoc, ← hD] at h2
  rw [← hD]
  obtain ⟨h3, h4⟩ := abs_le.mp h2
  constructor
  · intro ho
    have hr : 0.000003 ≤ off / isatemp 0 h := by
      rw [le_div_iff₀ t0]; norm_num at ho t1 ⊢; linarith
    have := mul_le_mul_of_nonneg_left (show 1.000003 ≤ 1 + off / isatemp 0 h by norm_num at hr ⊢; linarith) hD0.le
    norm_num at this h4 ⊢
    linarith
  · intro ho
    have hr : off / isatemp 0 h ≤ -0.000003 := by
      rw [div_le_iff₀ t0]; norm_num at ho t1 ⊢; linarith
    have := mul_le_mul_of_nonneg_left (show 1 + off / isatemp 0 h ≤ 0.999997 by norm_num at hr ⊢; linarith) hD0.le
    norm_num at this h3 ⊢
    linarith

example : ∃ p', HasDerivAt isapress p' 3000 ∧ 9.80665 * isadens 20 3000 < -p' := by
  have hT : 0 < isatemp 20 3000 := by norm_num [isatemp, Level1, A1, B1]
  obtain ⟨p', h, -⟩ := C123_gradient 20 3000 (by norm_num) (by norm_num) hT
  exact ⟨p', h, (C123_hydrostatic_violated 20 3000 p' (by norm_num) (by norm_num) hT h).1 (by norm_num)⟩

end

end Verif.Props
