import Verif.Props.Aero2
import Mathlib.Analysis.SpecialFunctions.Trigonometric.Bounds
import Mathlib.Analysis.Real.Pi.Bounds

/-
Property C72: the closed-form lift slope estimates.
-/

namespace Verif.Props
open Verif Verif.Aircraft Verif.Units Verif.Spec

noncomputable section

/-- Wings in the scope of the estimates: positive aspect ratio and section lift slope, sweeps below
90 degrees (leading edge, quarter chord and half chord, in radians). -/
structure Wing (c : Concept) : Prop where
  ar : 0 < pyNum c.aspectratio
  a0 : 0 < pyNum c.a_0i
  le : |c.sweep_le_rad| < Real.pi / 2
  qc : |c.sweep_25_rad| < Real.pi / 2
  hc : |2 * c.sweep_25_rad - c.sweep_le_rad| < Real.pi / 2

theorem cos_pos_of_abs {x : ℝ} (h : |x| < Real.pi / 2) : 0 < Real.cos x :=
  Real.cos_pos_of_mem_Ioo ⟨by linarith [(abs_lt.mp h).1], (abs_lt.mp h).2⟩

/-- The Prandtl-Glauert factor below Mach 1. -/
theorem beta_pos {m : ℝ} (h0 : 0 ≤ m) (h1 : m < 1) : 0 < √(1 - m ^ 2) :=
  Real.sqrt_pos.mpr (by nlinarith)

/-- The example concept meets the hypotheses. -/
theorem exC_isWing : Wing exC := by
  have hp := Real.pi_pos
  constructor <;>
    norm_num [exC, pyNum, Concept.sweep_le_rad, Concept.sweep_25_rad, Atmos.deg2rad] <;> exact hp

/-- First estimate (Polhamus). -/
theorem C72_sub0 {c : Concept} (w : Wing c) {m : ℝ} (h0 : 0 ≤ m) (h1 : m < 1) :
    0 < aSub0 c m ∧ aSub0 c m ≤ pyNum c.a_0i / √(1 - m ^ 2) := by
  have hb := beta_pos h0 h1
  have hc := cos_pos_of_abs w.qc
  have hc1 := Real.cos_le_one c.sweep_25_rad
  have har := w.ar
  have ha := w.a0
  have hp := Real.pi_pos
  unfold aSub0
  obtain ⟨b, hbe⟩ : ∃ b, b = √(1 - m ^ 2) := ⟨_, rfl⟩
  obtain ⟨a, hae⟩ : ∃ b, b = pyNum c.a_0i := ⟨_, rfl⟩
  obtain ⟨r, hre⟩ : ∃ b, b = pyNum c.aspectratio := ⟨_, rfl⟩
  obtain ⟨k, hke⟩ : ∃ b, b = Real.cos c.sweep_25_rad := ⟨_, rfl⟩
  simp only [← hbe, ← hae, ← hre, ← hke] at *
  have h2 : Real.pi * r / a / k * b ≤ √(1 + (Real.pi * r / a / k) ^ 2 * b ^ 2) := by
    apply Real.le_sqrt_of_sq_le
    nlinarith
  have h3 : Real.pi * r / a * b ≤ Real.pi * r / a / k * b := by
    apply mul_le_mul_of_nonneg_right _ hb.le
    rw [le_div_iff₀ hc]
    have : 0 < Real.pi * r / a := by positivity
    nlinarith
  constructor
  · positivity
  · rw [div_le_div_iff₀ (by positivity) hb]
    have h4 : Real.pi * r * b = a * (Real.pi * r / a * b) := by field_simp
    rw [h4]
    nlinarith

example : 0 < aSub0 exC 0.5 := (C72_sub0 exC_isWing (by norm_num) (by norm_num)).1

/-- Second estimate (Anderson, with the second span efficiency). -/
theorem C72_sub3 {c : Concept} (w : Wing c) {m : ℝ} (h0 : 0 ≤ m) (h1 : m < 1) :
    0 < aSub3 c m ∧ aSub3 c m ≤ pyNum c.a_0i / √(1 - m ^ 2) := by
  have hb := beta_pos h0 h1
  have har := w.ar
  have ha := w.a0
  have hp := Real.pi_pos
  have he := (C40_second c har).1
  unfold aSub3
  have h2 : 0 < pyNum c.a_0i / (Real.pi * pyNum c.aspectratio) / oswaldspaneff2 c := by positivity
  constructor
  · positivity
  · apply div_le_div_of_nonneg_left ha.le hb
    linarith

example : 0 < aSub3 exC 0.5 := (C72_sub3 exC_isWing (by norm_num) (by norm_num)).1

/-- Third estimate. -/
theorem C72_sub4 {c : Concept} (w : Wing c) {m : ℝ} (h0 : 0 ≤ m) (h1 : m < 1) :
    0 < aSub4 c m ∧ aSub4 c m ≤ pyNum c.a_0i / √(1 - m ^ 2) := by
  have hb := beta_pos h0 h1
  have har := w.ar
  have ha := w.a0
  have hp := Real.pi_pos
  unfold aSub4
  have h2 : 0 < pyNum c.a_0i / (Real.pi * pyNum c.aspectratio) := by positivity
  have h3 : √(1 - m ^ 2) ≤ √(√(1 - m ^ 2) ^ 2 + (pyNum c.a_0i / (Real.pi * pyNum c.aspectratio)) ^ 2) := by
    apply Real.le_sqrt_of_sq_le
    nlinarith [sq_nonneg (pyNum c.a_0i / (Real.pi * pyNum c.aspectratio))]
  constructor
  · positivity
  · apply div_le_div_of_nonneg_left ha.le hb
    linarith

example : 0 < aSub4 exC 0.5 := (C72_sub4 exC_isWing (by norm_num) (by norm_num)).1

/-- Fourth estimate, in terms of the leading-edge sweep. -/
theorem C72_sub5 {c : Concept} (w : Wing c) {m : ℝ} (h0 : 0 ≤ m) (h1 : m < 1) :
    0 < aSub5 c m ∧ aSub5 c m ≤ pyNum c.a_0i * Real.cos c.sweep_le_rad / √(1 - (m * Real.cos c.sweep_le_rad) ^ 2) ∧
      aSub5 c m ≤ pyNum c.a_0i / √(1 - m ^ 2) := by
  have hb := beta_pos h0 h1
  have har := w.ar
  have ha := w.a0
  have hp := Real.pi_pos
  have hc := cos_pos_of_abs w.le
  have hc1 := Real.cos_le_one c.sweep_le_rad
  unfold aSub5
  obtain ⟨k, hke⟩ : ∃ b, b = Real.cos c.sweep_le_rad := ⟨_, rfl⟩
  simp only [← hke] at *
  have hmk : (m * k) ^ 2 ≤ m ^ 2 := by
    have h2 : m * k ≤ m := by nlinarith
    have h3 : 0 ≤ m * k := by positivity
    nlinarith
  have hbb : √(1 - m ^ 2) ≤ √(1 - (m * k) ^ 2) := Real.sqrt_le_sqrt (by linarith)
  have hb2 : 0 < √(1 - (m * k) ^ 2) := lt_of_lt_of_le hb hbb
  have ha2 : 0 < pyNum c.a_0i * k := by positivity
  have h2 : 0 < pyNum c.a_0i * k / (Real.pi * pyNum c.aspectratio) := by positivity
  have h3 : √(1 - (m * k) ^ 2) ≤
      √(√(1 - (m * k) ^ 2) ^ 2 + (pyNum c.a_0i * k / (Real.pi * pyNum c.aspectratio)) ^ 2) := by
    apply Real.le_sqrt_of_sq_le
    nlinarith [sq_nonneg (pyNum c.a_0i * k / (Real.pi * pyNum c.aspectratio))]
  have h4 : pyNum c.a_0i * k / (√(√(1 - (m * k) ^ 2) ^ 2 + (pyNum c.a_0i * k / (Real.pi * pyNum c.aspectratio)) ^ 2) +
      (pyNum c.a_0i * k / (Real.pi * pyNum c.aspectratio))) ≤ pyNum c.a_0i * k / √(1 - (m * k) ^ 2) := by
    apply div_le_div_of_nonneg_left ha2.le hb2
    linarith
  refine ⟨by positivity, h4, h4.trans ?_⟩
  apply div_le_div₀ ha.le _ hb hbb
  nlinarith

example : 0 < aSub5 exC 0.5 := (C72_sub5 exC_isWing (by norm_num) (by norm_num)).1

/-- Fifth estimate (DATCOM), in terms of the half-chord sweep. -/
theorem C72_sub6 {c : Concept} (w : Wing c) {m s : ℝ} (h0 : 0 ≤ m) (h1 : m < 1) :
    0 < aSub6 c m s ∧ aSub6 c m s ≤ pyNum c.a_0i / √(1 - m ^ 2) := by
  have hb := beta_pos h0 h1
  have har := w.ar
  have ha := w.a0
  have hp := Real.pi_pos
  unfold aSub6
  obtain ⟨b, hbe⟩ : ∃ b, b = √(1 - m ^ 2) := ⟨_, rfl⟩
  obtain ⟨a, hae⟩ : ∃ b, b = pyNum c.a_0i := ⟨_, rfl⟩
  obtain ⟨r, hre⟩ : ∃ b, b = pyNum c.aspectratio := ⟨_, rfl⟩
  obtain ⟨t, hte⟩ : ∃ t, t = Real.tan s / b := ⟨_, rfl⟩
  simp only [← hbe, ← hae, ← hre, ← hte] at *
  have h2 : r * b / (a / (2 * Real.pi)) ≤ √((r * b / (a / (2 * Real.pi))) ^ 2 * (1 + t ^ 2) + 4) := by
    apply Real.le_sqrt_of_sq_le
    nlinarith [mul_nonneg (sq_nonneg (r * b / (a / (2 * Real.pi)))) (sq_nonneg t)]
  constructor
  · positivity
  · rw [div_le_div_iff₀ (by positivity) hb]
    have h4 : 2 * (Real.pi * r) * b = a * (r * b / (a / (2 * Real.pi))) := by field_simp
    rw [h4]
    nlinarith

example : 0 < aSub6 exC 0.5 0.1 := (C72_sub6 exC_isWing (by norm_num) (by norm_num)).1

theorem neg_cot_bound {n : ℝ} (h0 : 1 / 2 ≤ n) (h1 : n < 1) :
    2 * n - 1 ≤ -((Real.pi * n) * (1 / Real.tan (Real.pi * n))) := by
  have hp := Real.pi_pos
  obtain ⟨y, hy⟩ : ∃ y, y = Real.pi * n - Real.pi / 2 := ⟨_, rfl⟩
  have e : Real.pi * n = y + Real.pi / 2 := by rw [hy]; ring
  have hy0 : 0 ≤ y := by rw [hy]; nlinarith
  have hy1 : y < Real.pi / 2 := by rw [hy]; nlinarith
  have ht : Real.tan (Real.pi * n) = -(Real.tan y)⁻¹ := by
    have := Real.tan_pi_div_two_sub (-y)
    rw [Real.tan_neg, inv_neg] at this
    rw [e, ← this]
    congr 1; ring
  have hle : y ≤ Real.tan y := Real.le_tan hy0 hy1
  rw [ht, one_div, inv_neg, inv_inv]
  have h3 : (2 : ℝ) < Real.pi := by linarith [Real.pi_gt_three]
  have h4 : 2 * n - 1 ≤ Real.pi * n * y := by
    rw [hy]
    have : 2 * n - 1 = 2 * (n - 1 / 2) := by ring
    have h5 : Real.pi * n * (Real.pi * n - Real.pi / 2) = Real.pi * n * Real.pi * (n - 1 / 2) := by ring
    rw [this, h5]
    apply mul_le_mul_of_nonneg_right _ (by linarith)
    nlinarith
  have h5 : Real.pi * n * y ≤ Real.pi * n * Real.tan y := by
    apply mul_le_mul_of_nonneg_left hle
    positivity
  nlinarith

/-- Sixth estimate (effective sweep) at a half-chord sweep below 90 degrees. -/
theorem C72_sub7 {c : Concept} (w : Wing c) {m s : ℝ} (h0 : 0 ≤ m) (h1 : m < 1) (hs : |s| < Real.pi / 2) :
    0 < aSub7 c m s ∧ aSub7 c m s ≤ pyNum c.a_0i / √(1 - m ^ 2) := by
  have hb := beta_pos h0 h1
  have har := w.ar
  have ha := w.a0
  have hp := Real.pi_pos
  unfold aSub7
  obtain ⟨a, hae⟩ : ∃ b, b = pyNum c.a_0i / √(1 - m ^ 2) := ⟨_, rfl⟩
  have ha0 : 0 < a := by rw [hae]; positivity
  obtain ⟨r, hre⟩ : ∃ b, b = Real.pi * pyNum c.aspectratio := ⟨_, rfl⟩
  have hr0 : 0 < r := by rw [hre]; positivity
  obtain ⟨d, hd⟩ : ∃ d, d = (1 + (a * Real.cos s / r) ^ 2) ^ (0.25 : ℝ) := ⟨_, rfl⟩
  have hd1 : 1 ≤ d := by
    rw [hd]
    apply Real.one_le_rpow _ (by norm_num)
    nlinarith [sq_nonneg (a * Real.cos s / r)]
  obtain ⟨e, he⟩ : ∃ e, e = s / d := ⟨_, rfl⟩
  have hes : |e| ≤ |s| := by
    rw [he, abs_div, abs_of_pos (by linarith : 0 < d)]
    exact div_le_self (abs_nonneg _) hd1
  have hce := cos_pos_of_abs (lt_of_le_of_lt hes hs)
  have hce1 := Real.cos_le_one e
  obtain ⟨f, hf⟩ : ∃ f, f = a * Real.cos e := ⟨_, rfl⟩
  have hf0 : 0 < f := by rw [hf]; positivity
  have hfa : f ≤ a := by rw [hf]; nlinarith
  obtain ⟨p, hpe⟩ : ∃ p, p = 1 / (4 * (1 + (|e| / (0.5 * Real.pi)))) := ⟨_, rfl⟩
  have hp0 : 0 < p := by rw [hpe]; positivity
  obtain ⟨x, hx⟩ : ∃ x, x = (1 + (f / r) ^ 2) ^ p := ⟨_, rfl⟩
  have hx1 : 1 ≤ x := by
    rw [hx]
    exact Real.one_le_rpow (by nlinarith [sq_nonneg (f / r)]) hp0.le
  obtain ⟨n, hn⟩ : ∃ n, n = 1 - 1 / (2 * x) := ⟨_, rfl⟩
  simp only [← hae, ← hre, ← hd, ← he, ← hf, ← hpe, ← hx, ← hn]
  have hq : 0 < 1 / (2 * x) := by positivity
  have hq2 : 1 / (2 * x) ≤ 1 / 2 := by
    apply one_div_le_one_div_of_le <;> linarith
  have hn0 : 1 / 2 ≤ n := by rw [hn]; linarith
  have hn1 : n < 1 := by rw [hn]; linarith
  have hcot := neg_cot_bound hn0 hn1
  have hlast : 0 < 4 * f * n ^ 2 / r := by positivity
  have hden : 2 * n ≤ 1 - (Real.pi * n) * (1 / Real.tan (Real.pi * n)) + 4 * f * n ^ 2 / r := by linarith
  have hden0 : 0 < 1 - (Real.pi * n) * (1 / Real.tan (Real.pi * n)) + 4 * f * n ^ 2 / r := by linarith
  constructor
  · apply div_pos _ hden0
    positivity
  · rw [div_le_iff₀ hden0]
    have : 2 * f * n = f * (2 * n) := by ring
    rw [this]
    apply mul_le_mul hfa hden (by linarith) ha0.le

example : 0 < aSub7 exC 0.5 0.1 :=
  (C72_sub7 exC_isWing (by norm_num) (by norm_num) (by rw [abs_of_pos (by norm_num)]; linarith [Real.pi_gt_three])).1

/-- Seventh estimate (Helmbold). -/
theorem C72_sub8 {c : Concept} (w : Wing c) {m : ℝ} (h0 : 0 ≤ m) (h1 : m < 1) :
    0 < aSub8 c m ∧ aSub8 c m ≤ pyNum c.a_0i / √(1 - m ^ 2) := by
  have hb := beta_pos h0 h1
  have har := w.ar
  have ha := w.a0
  have hp := Real.pi_pos
  unfold aSub8
  obtain ⟨a, hae⟩ : ∃ b, b = pyNum c.a_0i / √(1 - m ^ 2) := ⟨_, rfl⟩
  have ha0 : 0 < a := by rw [hae]; positivity
  obtain ⟨r, hre⟩ : ∃ b, b = pyNum c.aspectratio := ⟨_, rfl⟩
  simp only [← hae, ← hre] at *
  have h2 : r ≤ √(4 + r ^ 2 + (a / Real.pi) ^ 2) := by
    apply Real.le_sqrt_of_sq_le
    nlinarith [sq_nonneg (a / Real.pi)]
  have h3 : 0 < a / Real.pi := by positivity
  constructor
  · positivity
  · rw [div_le_iff₀ (by positivity)]
    nlinarith

example : 0 < aSub8 exC 0.5 := (C72_sub8 exC_isWing (by norm_num) (by norm_num)).1

/-- The subsonic lift slope is positive and at most the section lift slope over the Prandtl-Glauert
factor. -/
theorem C72_subsonic {c : Concept} (w : Wing c) {m : ℝ} (h0 : 0 ≤ m) (h1 : m < 1) :
    ∃ a, a_subsonic c m = .ok a ∧ 0 < a ∧ a ≤ pyNum c.a_0i / √(1 - m ^ 2) := by
  obtain ⟨s, hs, he⟩ := C41_line c 0.5 (by norm_num) (by norm_num)
  have hs2 : s = 2 * c.sweep_25_rad - c.sweep_le_rad := by norm_num at he; linarith
  have hsa : |s| < Real.pi / 2 := by rw [hs2]; exact w.hc
  refine ⟨_, by simp only [a_subsonic, hs, bind_ok]; rfl, ?_⟩
  have e0 := C72_sub0 w h0 h1
  have e3 := C72_sub3 w h0 h1
  have e4 := C72_sub4 w h0 h1
  have e5 := C72_sub5 w h0 h1
  have e6 := C72_sub6 (s := s) w h0 h1
  have e7 := C72_sub7 w h0 h1 hsa
  have e8 := C72_sub8 w h0 h1
  simp only [List.sum_cons, List.sum_nil, List.length_cons, List.length_nil]
  push_cast
  constructor
  · apply div_pos _ (by norm_num)
    linarith [e0.1, e3.1, e4.1, e5.1, e6.1, e7.1, e8.1]
  · rw [div_le_iff₀ (by norm_num)]
    linarith [e0.2, e3.2, e4.2, e5.2.2, e6.2, e7.2, e8.2]

example : ∃ a, a_subsonic exC 0.5 = .ok a ∧ 0 < a ∧ a ≤ pyNum exC.a_0i / √(1 - 0.5 ^ 2) :=
  C72_subsonic exC_isWing (by norm_num) (by norm_num)

/-- The delta wing estimate is positive at every supersonic Mach number and sweep. -/
theorem C72_sup2 {c : Concept} (h : |c.sweep_le_rad| < Real.pi / 2) (hne : c.sweep_le_rad ≠ 0) {m : ℝ} (h1 : 1 < m) :
    0 < aSup2 c m := by
  have hb : 0 < √(m ^ 2 - 1) := Real.sqrt_pos.mpr (by nlinarith)
  have hp := Real.pi_pos
  have hm : ¬ m < 1 := by linarith
  unfold aSup2
  simp only [hm, if_false]
  have hsh : 0 < Real.tan (Real.arccos (1 / m)) := by
    rw [Real.tan_arccos]
    have h2 : 0 < 1 / m := by positivity
    have h3 : 1 / m < 1 := by rw [div_lt_one (by linarith)]; exact h1
    apply div_pos _ h2
    apply Real.sqrt_pos.mpr
    nlinarith
  split
  · rename_i hmm
    have ht : 0 < Real.tan c.sweep_le_rad := by
      by_contra hneg
      push Not at hneg
      rcases hneg.lt_or_eq with h4 | h4
      · have := div_neg_of_pos_of_neg hsh h4
        linarith [hmm.1]
      · have hsin : Real.sin c.sweep_le_rad = 0 := by
          rw [Real.tan_eq_sin_div_cos] at h4
          rcases div_eq_zero_iff.mp h4 with h5 | h5
          · exact h5
          · exact absurd h5 (cos_pos_of_abs h).ne'
        have := (Real.sin_eq_zero_iff_of_lt_of_lt (by linarith [(abs_lt.mp h).1]) (by linarith [(abs_lt.mp h).2])).mp hsin
        exact hne this
    obtain ⟨x, hx⟩ : ∃ x, x = Real.tan (Real.arccos (1 / m)) / Real.tan c.sweep_le_rad := ⟨_, rfl⟩
    rw [← hx] at hmm ⊢
    have : 0 ≤ x * (0.38 + 2.26 * x - 0.86 * x ^ 2) := by
      apply mul_nonneg hmm.1
      norm_num
      nlinarith [hmm.1, hmm.2]
    positivity
  · positivity

example : 0 < aSup2 { exC with sweep_le_deg := some 30 } 1.5 := by
  have hp := Real.pi_pos
  have e : Concept.sweep_le_rad { exC with sweep_le_deg := some 30 } = 30 * (Real.pi / 180) := rfl
  refine C72_sup2 ?_ ?_ (by norm_num) <;> rw [e]
  · rw [abs_of_pos (by positivity)]
    linarith
  · positivity

/-- The supersonic lift slope is positive when the aspect ratio times √(M² - 1) exceeds one half. -/
theorem C72_supersonic {c : Concept} (h : |c.sweep_le_rad| < Real.pi / 2) {m : ℝ} (h1 : 1 < m)
    (har : 1 / 2 < pyNum c.aspectratio * √(m ^ 2 - 1)) :
    0 < aSup3 m ∧ 0 < aSup4 c m ∧ 0 < a_supersonic c m := by
  have hb : 0 < √(m ^ 2 - 1) := Real.sqrt_pos.mpr (by nlinarith)
  have hr : 0 < pyNum c.aspectratio := by
    by_contra hn
    push Not at hn
    have : pyNum c.aspectratio * √(m ^ 2 - 1) ≤ 0 := mul_nonpos_of_nonpos_of_nonneg hn hb.le
    linarith
  have h3 : 0 < aSup3 m := by unfold aSup3; positivity
  have h4 : 0 < aSup4 c m := by
    unfold aSup4
    have : 1 / 2 / pyNum c.aspectratio / √(m ^ 2 - 1) < 1 := by
      rw [div_div, div_lt_one (by positivity)]; exact har
    apply mul_pos (by positivity)
    linarith
  refine ⟨h3, h4, ?_⟩
  unfold a_supersonic
  by_cases hz : c.sweep_le_rad = 0
  · simp [hz]
    linarith
  · have h2 := C72_sup2 h hz h1
    simp [hz]
    linarith

example : 0 < a_supersonic exC 1.5 := by
  refine (C72_supersonic (c := exC) ?_ (by norm_num) ?_).2.2
  · have := Real.pi_pos
    simp only [Concept.sweep_le_rad, Atmos.deg2rad, pyNum, exC]
    norm_num
    exact this
  · have : (1:ℝ) ≤ √(1.5 ^ 2 - 1) := Real.one_le_sqrt.mpr (by norm_num)
    norm_num [exC, pyNum] at this ⊢
    linarith

/-- With a smaller aspect ratio the last supersonic estimate is not positive: the bound is sharp. -/
theorem C72_supersonic_bound {c : Concept} {m : ℝ} (h1 : 1 < m) (hr : 0 < pyNum c.aspectratio)
    (har : pyNum c.aspectratio * √(m ^ 2 - 1) ≤ 1 / 2) : aSup4 c m ≤ 0 := by
  have hb : 0 < √(m ^ 2 - 1) := Real.sqrt_pos.mpr (by nlinarith)
  unfold aSup4
  have : 1 ≤ 1 / 2 / pyNum c.aspectratio / √(m ^ 2 - 1) := by
    rw [div_div, le_div_iff₀ (by positivity)]; linarith
  apply mul_nonpos_of_nonneg_of_nonpos (by positivity)
  linarith

-- a very slender wing close to the speed of sound
example : aSup4 { exC with aspectratio := some 0.5 } 1.1 ≤ 0 := by
  refine C72_supersonic_bound (by norm_num) (by norm_num [pyNum]) ?_
  have : √(1.1 ^ 2 - 1) ≤ (1:ℝ) := Real.sqrt_le_one.mpr (by norm_num)
  norm_num [pyNum] at this ⊢
  linarith

/-- Outside the transonic range the lift slope of the method is positive. -/
theorem C72_method (X : Ext) {c : Concept} (w : Wing c) (m : Option ℝ) :
    (0 ≤ m.getD 0.3 → m.getD 0.3 ≤ 0.6 → ∃ a, liftslope_prad X c m = .ok a ∧ 0 < a) ∧
    (1.4 ≤ m.getD 0.3 → 1 / 2 < pyNum c.aspectratio * √((m.getD 0.3) ^ 2 - 1) →
      ∃ a, liftslope_prad X c m = .ok a ∧ 0 < a) := by
  obtain ⟨sub, tr, h1, h2, h3⟩ := C71_estimates X c m
  have hr := C71_ranges (m.getD 0.3) sub (a_supersonic c (m.getD 0.3)) tr
  constructor
  · intro h0 h6
    obtain ⟨a, ha, hp, _⟩ := C72_subsonic w h0 (by norm_num at h6 ⊢; linarith : m.getD 0.3 < 1)
    rw [ha] at h1
    cases h1
    exact ⟨_, h3, by rw [hr.1 h6]; exact hp⟩
  · intro h14 har
    refine ⟨_, h3, ?_⟩
    rw [hr.2.2.2.2 h14]
    exact (C72_supersonic w.le (by norm_num at h14 ⊢; linarith) har).2.2

end

end Verif.Props
