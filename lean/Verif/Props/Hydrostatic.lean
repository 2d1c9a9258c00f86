import Verif.Props.ISA
import Mathlib.Analysis.SpecialFunctions.Pow.Deriv
import Mathlib.Analysis.SpecialFunctions.ExpDeriv

/-
Property C102: the ISA is the standard atmosphere: sea-level values and hydrostatic equilibrium.
-/

namespace Verif.Props
open Verif Verif.Atmos

noncomputable section

theorem log_p0 : (11.5260884 : ℝ) ≤ Real.log 101325 ∧ Real.log 101325 ≤ 11.5260885 :=
  LogB.log_bounds 16 24 101325 11.5260884 11.5260885
    (by norm_num) (by norm_num) (by norm_num) (by decide +kernel)

theorem log_d0 : (0.20294084 : ℝ) ≤ Real.log 1.225 ∧ Real.log 1.225 ≤ 0.20294085 :=
  LogB.log_bounds 0 24 1.225 0.20294084 0.20294085
    (by norm_num) (by norm_num) (by norm_num) (by decide +kernel)

theorem sea_logs : (-2e-7 ≤ E1 * Real.log C1 - Real.log 101325 ∧ E1 * Real.log C1 - Real.log 101325 ≤ 2e-7 / (1 + 2e-7)) ∧
    (-2e-7 ≤ L1 * Real.log I1 - Real.log 1.225 ∧ L1 * Real.log I1 - Real.log 1.225 ≤ 2e-7 / (1 + 2e-7)) := by
  have b1 := ISANum.log_U1_0
  have b2 := log_p0
  have b3 := ISANum.log_V1_0
  have b4 := log_d0
  simp only [C1, E1, I1, L1]
  norm_num at *
  refine ⟨⟨?_, ?_⟩, ?_, ?_⟩ <;> linarith [b1.1, b1.2, b2.1, b2.2, b3.1, b3.2, b4.1, b4.2]

/-- At sea level the standard atmosphere has 288.15 K, 101325 Pa and 1.225 kg/m3, to two parts in ten
million. -/
theorem C102_sea_level : isatemp 0 0 = 288.15 ∧ |isapress 0 - 101325| ≤ 2e-7 * 101325 ∧
    |isadens 0 0 - 1.225| ≤ 2e-7 * 1.225 := by
  have hlev : (0:ℝ) < Level1 := by norm_num [Level1]
  refine ⟨by norm_num [isatemp, Level1, A1, B1], ?_, ?_⟩
  · have e : isapress 0 = C1 ^ E1 := by
      unfold isapress; rw [if_pos hlev, mul_zero, add_zero]
    have hC : (0:ℝ) < C1 := by norm_num [C1]
    have hp : 0 < C1 ^ E1 := Real.rpow_pos_of_pos hC _
    have hl : Real.log (isapress 0 / 101325) = E1 * Real.log C1 - Real.log 101325 := by
      rw [e, Real.log_div hp.ne' (by norm_num), Real.log_rpow hC]
    have := rel_of_log (x := isapress 0 / 101325) (ε := 2e-7) (by rw [e]; positivity)
      (by rw [hl]; exact sea_logs.1.1) (by rw [hl]; exact sea_logs.1.2) (by norm_num)
    have e2 : isapress 0 - 101325 = (isapress 0 / 101325 - 1) * 101325 := by ring
    rw [e2, abs_mul, abs_of_pos (by norm_num : (0:ℝ) < 101325)]
    exact mul_le_mul_of_nonneg_right this (by norm_num)
  · have h0 : (0:ℝ) < isatemp 0 0 := by norm_num [isatemp, Level1, A1, B1]
    have e : isadens 0 0 = I1 ^ L1 := by
      have e0 : isadens0 0 = I1 ^ L1 := by unfold isadens0; rw [if_pos hlev, mul_zero, add_zero]
      rw [isadens_eq 0 0 h0, e0]
      field_simp
    have hI : (0:ℝ) < I1 := by norm_num [I1]
    have hp : 0 < I1 ^ L1 := Real.rpow_pos_of_pos hI _
    have hl : Real.log (isadens 0 0 / 1.225) = L1 * Real.log I1 - Real.log 1.225 := by
      rw [e, Real.log_div hp.ne' (by norm_num), Real.log_rpow hI]
    have := rel_of_log (x := isadens 0 0 / 1.225) (ε := 2e-7) (by rw [e]; positivity)
      (by rw [hl]; exact sea_logs.2.1) (by rw [hl]; exact sea_logs.2.2) (by norm_num)
    have e2 : isadens 0 0 - 1.225 = (isadens 0 0 / 1.225 - 1) * 1.225 := by ring
    rw [e2, abs_mul, abs_of_pos (by norm_num : (0:ℝ) < 1.225)]
    exact mul_le_mul_of_nonneg_right this (by norm_num)

/-- A power layer: logarithmic derivative. -/
theorem pow_layer (C D E h : ℝ) (hb : 0 < C + D * h) :
    HasDerivAt (fun x => (C + D * x) ^ E) (E * D / (C + D * h) * (C + D * h) ^ E) h := by
  have h1 : HasDerivAt (fun x => C + D * x) D h := by
    simpa using ((hasDerivAt_id h).const_mul D).const_add C
  have h2 := h1.rpow_const (p := E) (Or.inl hb.ne')
  convert h2 using 1
  rw [Real.rpow_sub_one hb.ne']
  field_simp

theorem exp_layer (F G h : ℝ) : HasDerivAt (fun x => F * Real.exp (G * x)) (G * (F * Real.exp (G * h))) h := by
  have h1 : HasDerivAt (fun x => G * x) G h := by simpa using (hasDerivAt_id h).const_mul G
  have h2 := (h1.exp).const_mul F
  rw [show G * (F * Real.exp (G * h)) = F * (Real.exp (G * h) * G) by ring]
  exact h2

/-- The relative gradient of a power layer times a linear temperature, from a linear inequality. -/
theorem pow_ratio (C D E A B h : ℝ) (hb : 0 < C + D * h)
    (h1 : -(5e-8 * 9.80665 * (C + D * h)) ≤ E * D * (287.05287 * (A + B * h)) + 9.80665 * (C + D * h))
    (h2 : E * D * (287.05287 * (A + B * h)) + 9.80665 * (C + D * h) ≤ 5e-8 * 9.80665 * (C + D * h)) :
    |E * D / (C + D * h) * (287.05287 * (A + B * h)) + 9.80665| ≤ 5e-8 * 9.80665 := by
  have e : E * D / (C + D * h) * (287.05287 * (A + B * h)) + 9.80665 =
      (E * D * (287.05287 * (A + B * h)) + 9.80665 * (C + D * h)) / (C + D * h) := by
    field_simp
  rw [e, abs_div, abs_of_pos hb, div_le_iff₀ hb, abs_le]
  exact ⟨h1, h2⟩

/-- The relative pressure gradient at `h` is `-g/(R T)` to 5e-8. -/
def Gradient (l h : ℝ) : Prop :=
  HasDerivAt isapress (l * isapress h) h ∧ |l * (287.05287 * isatemp 0 h) + 9.80665| ≤ 5e-8 * 9.80665

theorem deriv_between {f : ℝ → ℝ} {d h : ℝ} (a b : ℝ) (ha : a < h) (hb : h < b) (hf : HasDerivAt f d h)
    (he : ∀ x, a < x → x < b → isapress x = f x) : HasDerivAt isapress d h := by
  refine hf.congr_of_eventuallyEq ?_
  filter_upwards [Ioo_mem_nhds ha hb] with x hx using he x hx.1 hx.2

theorem gradient_exists (h : ℝ) (hb : h ≠ 11000 ∧ h ≠ 20000 ∧ h ≠ 32000 ∧ h ≠ 47000) :
    ∃ l, Gradient l h := by
  obtain ⟨b1, b2, b3, b4⟩ := hb
  rcases lt_or_gt_of_ne b1 with h1 | h1
  · have hp : ∀ x < 11000, isapress x = (C1 + D1 * x) ^ E1 := fun x hx => by
      unfold isapress; rw [if_pos (by simpa [Level1] using hx)]
    have ht : isatemp 0 h = A1 + B1 * h := by
      unfold isatemp; rw [if_pos (by simpa [Level1] using h1), add_zero]
    have hb : 0 < C1 + D1 * h := by norm_num [C1, D1]; linarith
    refine ⟨E1 * D1 / (C1 + D1 * h), ?_, ?_⟩
    · rw [hp h h1]
      exact deriv_between (h - 1) 11000 (by linarith) h1 (pow_layer _ _ _ _ hb) fun x _ hx => hp x hx
    · rw [ht]
      refine pow_ratio _ _ _ _ _ _ hb ?_ ?_ <;> norm_num [C1, D1, E1, A1, B1] <;> linarith
  rcases lt_or_gt_of_ne b2 with h2 | h2
  · have hp : ∀ x, 11000 < x → x < 20000 → isapress x = F2 * Real.exp (G2 * x) := fun x hx hy => by
      unfold isapress
      rw [if_neg (by simpa [Level1] using hx.le), if_pos (by simpa [Level2] using hy)]
    have ht : isatemp 0 h = 216.65 := by
      unfold isatemp
      rw [if_neg (by simpa [Level1] using h1.le), if_pos (by simpa [Level2] using h2)]
      norm_num [A2, B2]
    refine ⟨G2, ?_, ?_⟩
    · rw [hp h h1 h2]
      exact deriv_between 11000 20000 h1 h2 (exp_layer _ _ _) hp
    · rw [ht, abs_le]; norm_num [G2]
  rcases lt_or_gt_of_ne b3 with h3 | h3
  · have hp : ∀ x, 20000 < x → x < 32000 → isapress x = (C3 + D3 * x) ^ E3 := fun x hx hy => by
      unfold isapress
      rw [if_neg (by simp [Level1]; linarith), if_neg (by simpa [Level2] using hx.le),
        if_pos (by simpa [Level3] using hy)]
    have ht : isatemp 0 h = A3 + B3 * h := by
      unfold isatemp
      rw [if_neg (by simpa [Level1] using h1.le), if_neg (by simpa [Level2] using h2.le),
        if_pos (by simpa [Level3] using h3), add_zero]
    have hb : 0 < C3 + D3 * h := by norm_num [C3, D3]; linarith
    refine ⟨E3 * D3 / (C3 + D3 * h), ?_, ?_⟩
    · rw [hp h h2 h3]
      exact deriv_between 20000 32000 h2 h3 (pow_layer _ _ _ _ hb) hp
    · rw [ht]
      refine pow_ratio _ _ _ _ _ _ hb ?_ ?_ <;> norm_num [C3, D3, E3, A3, B3] <;> linarith
  rcases lt_or_gt_of_ne b4 with h4 | h4
  · have hp : ∀ x, 32000 < x → x < 47000 → isapress x = (C4 + D4 * x) ^ E4 := fun x hx hy => by
      unfold isapress
      rw [if_neg (by simp [Level1]; linarith), if_neg (by simp [Level2]; linarith), if_neg (by simpa [Level3] using hx.le),
        if_pos (by simpa [Level4] using hy)]
    have ht : isatemp 0 h = A4 + B4 * h := by
      unfold isatemp
      rw [if_neg (by simpa [Level1] using h1.le), if_neg (by simpa [Level2] using h2.le),
        if_neg (by simpa [Level3] using h3.le), if_pos (by simpa [Level4] using h4), add_zero]
    have hb : 0 < C4 + D4 * h := by norm_num [C4, D4]; linarith
    refine ⟨E4 * D4 / (C4 + D4 * h), ?_, ?_⟩
    · rw [hp h h3 h4]
      exact deriv_between 32000 47000 h3 h4 (pow_layer _ _ _ _ hb) hp
    · rw [ht]
      refine pow_ratio _ _ _ _ _ _ hb ?_ ?_ <;> norm_num [C4, D4, E4, A4, B4] <;> linarith
  · have hp : ∀ x, 47000 < x → isapress x = F5 * Real.exp (G5 * x) := fun x hx => by
      unfold isapress
      rw [if_neg (by simp [Level1]; linarith), if_neg (by simp [Level2]; linarith), if_neg (by simp [Level3]; linarith),
        if_neg (by simpa [Level4] using hx.le)]
    have ht : isatemp 0 h = 270.65 := by
      unfold isatemp
      rw [if_neg (by simpa [Level1] using h1.le), if_neg (by simpa [Level2] using h2.le),
        if_neg (by simpa [Level3] using h3.le), if_neg (by simpa [Level4] using h4.le)]
      norm_num [A5, B5]
    refine ⟨G5, ?_, ?_⟩
    · rw [hp h h4]
      exact deriv_between 47000 (h + 1) h4 (by linarith) (exp_layer _ _ _) fun x hx _ => hp x hx
    · rw [ht, abs_le]; norm_num [G5]

/-- Hydrostatic equilibrium: inside each layer the pressure falls with altitude by the standard gravity times the
standard density, to four parts in ten million. -/
theorem C102_hydrostatic (h : ℝ) (hh : -5000 ≤ h) (hb : h ≠ 11000 ∧ h ≠ 20000 ∧ h ≠ 32000 ∧ h ≠ 47000) :
    ∃ p', HasDerivAt isapress p' h ∧ |p' + 9.80665 * isadens 0 h| ≤ 4e-7 * (9.80665 * isadens 0 h) := by
  obtain ⟨l, h1, h2⟩ := gradient_exists h hb
  refine ⟨_, h1, ?_⟩
  have hT : 0 < isatemp 0 h := by have := (C11_bounds 0 h).1; linarith
  have hd : 0 < isadens 0 h := C13_positive 0 h hT
  have h3 := C14_ideal_gas 0 h hh hT
  obtain ⟨y, hy⟩ : ∃ y, y = 287.05287 * isatemp 0 h := ⟨_, rfl⟩
  have hy0 : 0 < y := by rw [hy]; positivity
  have e1 : 287.05287 * isadens 0 h * isatemp 0 h = y * isadens 0 h := by rw [hy]; ring
  rw [e1] at h3
  rw [← hy] at h2
  obtain ⟨d, hd'⟩ : ∃ d, d = isadens 0 h := ⟨_, rfl⟩
  rw [← hd'] at h3 hd ⊢
  obtain ⟨p, hp⟩ : ∃ p, p = isapress h := ⟨_, rfl⟩
  rw [← hp] at h3 ⊢
  clear hd' hp hy e1 h1 hT
  have e2 : l * p + 9.80665 * d = (l * y + 9.80665) * (p / y) + 9.80665 / y * (y * d - p) := by field_simp; ring
  have hyd : 0 < y * d := by positivity
  have e3 : |p / y| ≤ (1 + 3e-7) * d := by
    rw [abs_div, abs_of_pos hy0, div_le_iff₀ hy0, abs_le]
    obtain ⟨u, v⟩ := abs_le.mp h3
    have e5 : (1 + 3e-7) * d * y = (1 + 3e-7) * (y * d) := by ring
    rw [e5]
    norm_num at u v ⊢
    constructor <;> linarith
  have e4 : |9.80665 / y * (y * d - p)| ≤ 9.80665 * 3e-7 * d := by
    rw [abs_mul, abs_of_pos (show 0 < 9.80665 / y by positivity), abs_sub_comm]
    calc 9.80665 / y * |p - y * d| ≤ 9.80665 / y * (3e-7 * (y * d)) := by gcongr
      _ = 9.80665 * 3e-7 * d := by field_simp
  rw [e2]
  calc |(l * y + 9.80665) * (p / y) + 9.80665 / y * (y * d - p)|
      ≤ |(l * y + 9.80665) * (p / y)| + |9.80665 / y * (y * d - p)| := abs_add_le _ _
    _ ≤ (5e-8 * 9.80665) * ((1 + 3e-7) * d) + 9.80665 * 3e-7 * d := by
        rw [abs_mul]
        exact add_le_add (mul_le_mul h2 e3 (abs_nonneg _) (by norm_num)) e4
    _ ≤ 4e-7 * (9.80665 * d) := by norm_num; linarith

/-- Two altitudes in the same layer: the pressure difference is the weight of the air between them, between the
column of the lower density above and that of the higher density below. -/
theorem C102_column (h k : ℝ) (hh : -5000 ≤ h) (hk : h < k)
    (hl : k < 11000 ∨ (11000 < h ∧ k < 20000) ∨ (20000 < h ∧ k < 32000) ∨ (32000 < h ∧ k < 47000) ∨ 47000 < h) :
    (1 - 4e-7) * (9.80665 * isadens 0 k * (k - h)) ≤ isapress h - isapress k ∧
      isapress h - isapress k ≤ (1 + 4e-7) * (9.80665 * isadens 0 h * (k - h)) := by
  have hin : ∀ x, h ≤ x → x ≤ k → -5000 ≤ x ∧ (x ≠ 11000 ∧ x ≠ 20000 ∧ x ≠ 32000 ∧ x ≠ 47000) := by
    intro x h1 h2
    refine ⟨by linarith, ?_⟩
    rcases hl with h3 | h3 | h3 | h3 | h3 <;> refine ⟨?_, ?_, ?_, ?_⟩ <;> rintro rfl <;> first | linarith | linarith [h3.1, h3.2]
  have hc : ContinuousOn isapress (Set.Icc h k) := fun x hx => by
    obtain ⟨h1, h2⟩ := hin x hx.1 hx.2
    obtain ⟨p', h3, -⟩ := C102_hydrostatic x h1 h2
    exact h3.continuousAt.continuousWithinAt
  have hdiff : DifferentiableOn ℝ isapress (Set.Ioo h k) := fun x hx => by
    obtain ⟨h1, h2⟩ := hin x hx.1.le hx.2.le
    obtain ⟨p', h3, -⟩ := C102_hydrostatic x h1 h2
    exact h3.differentiableAt.differentiableWithinAt
  obtain ⟨x, hx, hs⟩ := exists_deriv_eq_slope isapress hk hc hdiff
  obtain ⟨h1, h2⟩ := hin x hx.1.le hx.2.le
  obtain ⟨p', h3, h4⟩ := C102_hydrostatic x h1 h2
  rw [h3.deriv, eq_div_iff (sub_ne_zero.mpr hk.ne')] at hs
  have hT : ∀ y, 0 < isatemp 0 y := fun y => by have := (C11_bounds 0 y).1; linarith
  have d1 : isadens 0 x ≤ isadens 0 h := (C13_decreasing_block 0 h x (by norm_num) hx.1 (by
    rcases hl with h3 | h3 | h3 | h3 | h3 <;> first | (left; linarith [hx.2]) | (right; left; constructor <;> linarith [h3.1, h3.2, hx.1, hx.2]) | (right; right; linarith))).le
  have d2 : isadens 0 k ≤ isadens 0 x := (C13_decreasing_block 0 x k (by norm_num) hx.2 (by
    rcases hl with h3 | h3 | h3 | h3 | h3 <;> first | (left; linarith [hx.2]) | (right; left; constructor <;> linarith [h3.1, h3.2, hx.1, hx.2]) | (right; right; linarith [hx.1]))).le
  obtain ⟨u, v⟩ := abs_le.mp h4
  have hkh : 0 < k - h := sub_pos.mpr hk
  have e : isapress h - isapress k = -p' * (k - h) := by linarith
  rw [e]
  constructor
  · have : (1 - 4e-7) * (9.80665 * isadens 0 k) ≤ -p' := by norm_num at v ⊢; linarith
    calc (1 - 4e-7) * (9.80665 * isadens 0 k * (k - h)) = (1 - 4e-7) * (9.80665 * isadens 0 k) * (k - h) := by ring
      _ ≤ _ := by gcongr
  · have : -p' ≤ (1 + 4e-7) * (9.80665 * isadens 0 h) := by norm_num at u ⊢; linarith
    calc -p' * (k - h) ≤ (1 + 4e-7) * (9.80665 * isadens 0 h) * (k - h) := by gcongr
      _ = _ := by ring

/-- The troposphere between 1 km and 3 km. -/
example : isapress 1000 - isapress 3000 ≤ (1 + 4e-7) * (9.80665 * isadens 0 1000 * (3000 - 1000)) :=
  (C102_column 1000 3000 (by norm_num) (by norm_num) (Or.inl (by norm_num))).2

/-- A point inside the third layer. -/
example : ∃ p', HasDerivAt isapress p' 25000 ∧ p' < 0 := by
  obtain ⟨p', h1, h2⟩ := C102_hydrostatic 25000 (by norm_num) (by norm_num)
  refine ⟨p', h1, ?_⟩
  have hd : 0 < isadens 0 25000 := C13_positive 0 25000 (by have := (C11_bounds 0 25000).1; linarith)
  have := (abs_le.mp h2).2
  norm_num at this
  linarith

end

end Verif.Props
