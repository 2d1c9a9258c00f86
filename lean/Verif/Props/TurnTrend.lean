import Verif.Props.Trends
import Mathlib.Analysis.Calculus.Deriv.MeanValue
import Mathlib.Analysis.SpecialFunctions.ExpDeriv
import Mathlib.Analysis.SpecialFunctions.Trigonometric.ArctanDeriv

/-
Property C105: less suction at higher lift, and what a tighter turn costs.
-/

namespace Verif.Props
open Verif Verif.Aircraft Verif.Units Verif.Spec

noncomputable section

/-- A suction curve falls where the growth of the tangent is less than the fall of its other factors. -/
theorem suctionCurve_antitone (A a c e : ℝ) (hA : 0 ≤ A) (he : 0 ≤ e) (he1 : e ≤ 1)
    (h : ∀ x, 0 ≤ x → x ≤ 1 → 0.1 * (a - x) ≤ (0.1 * (x + e) - (0.1 * (x + e)) ^ 3) * (1 + c * (a - x)))
    (hp : ∀ x, 0 ≤ x → x ≤ 1 → 0 ≤ 1 + c * (a - x)) :
    AntitoneOn (fun x => A * (a - x) * Real.exp (-c * (x - 0.1)) * Real.tan (0.1 * (x + e))) (Set.Icc 0 1) := by
  have hcos : ∀ x ∈ Set.Icc (0:ℝ) 1, 0 < Real.cos (0.1 * (x + e)) := by
    intro x ⟨h0, h1⟩
    apply Real.cos_pos_of_mem_Ioo
    have := Real.pi_gt_three
    constructor <;> norm_num <;> linarith
  have hder : ∀ x ∈ Set.Icc (0:ℝ) 1, HasDerivAt
      (fun x => A * (a - x) * Real.exp (-c * (x - 0.1)) * Real.tan (0.1 * (x + e)))
      ((A * (-1) * Real.exp (-c * (x - 0.1)) + A * (a - x) * (Real.exp (-c * (x - 0.1)) * (-c * 1))) * Real.tan (0.1 * (x + e)) +
        A * (a - x) * Real.exp (-c * (x - 0.1)) * (1 / Real.cos (0.1 * (x + e)) ^ 2 * (0.1 * 1))) x := by
    intro x hx
    have d1 : HasDerivAt (fun x : ℝ => A * (a - x)) (A * (-1)) x := ((hasDerivAt_id x).const_sub a).const_mul A
    have d2 : HasDerivAt (fun x : ℝ => Real.exp (-c * (x - 0.1))) (Real.exp (-c * (x - 0.1)) * (-c * 1)) x :=
      (((hasDerivAt_id x).sub_const 0.1).const_mul (-c)).exp
    have d3 : HasDerivAt (fun x : ℝ => Real.tan (0.1 * (x + e))) (1 / Real.cos (0.1 * (x + e)) ^ 2 * (0.1 * 1)) x :=
      HasDerivAt.comp x (Real.hasDerivAt_tan (hcos x hx).ne') (((hasDerivAt_id x).add_const e).const_mul 0.1)
    exact (d1.mul d2).mul d3
  apply antitoneOn_of_deriv_nonpos (convex_Icc 0 1)
  · exact fun x hx => (hder x hx).continuousAt.continuousWithinAt
  · intro x hx
    rw [interior_Icc] at hx
    exact (hder x (Set.Ioo_subset_Icc_self hx)).differentiableAt.differentiableWithinAt
  · intro x hx
    rw [interior_Icc] at hx
    have hx' := Set.Ioo_subset_Icc_self hx
    rw [(hder x hx').deriv]
    obtain ⟨h0, h1⟩ := hx'
    have hc := hcos x ⟨h0, h1⟩
    have hE := Real.exp_pos (-c * (x - 0.1))
    have h2 := h x h0 h1
    have h3 := hp x h0 h1
    obtain ⟨u, hu⟩ : ∃ u, u = 0.1 * (x + e) := ⟨_, rfl⟩
    rw [← hu] at hc h2 ⊢
    generalize Real.exp (-c * (x - 0.1)) = E at hE ⊢
    have hu0 : 0 ≤ u := by rw [hu]; norm_num; linarith
    have hu1 : u ≤ 0.2 := by rw [hu]; norm_num; linarith
    have hsc : u - u ^ 3 ≤ Real.sin u * Real.cos u := by
      rcases hu0.eq_or_lt with h | h
      · rw [← h]; simp
      · have := Real.sin_gt_sub_cube (x := 2 * u) (by linarith)
        rw [Real.sin_two_mul] at this
        nlinarith [pow_pos h 3]
    have key : 0.1 * (a - x) ≤ Real.sin u * Real.cos u * (1 + c * (a - x)) :=
      h2.trans (mul_le_mul_of_nonneg_right hsc h3)
    have e1 : (A * (-1) * E + A * (a - x) * (E * (-c * 1))) * Real.tan u + A * (a - x) * E * (1 / Real.cos u ^ 2 * (0.1 * 1))
        = A * E / Real.cos u ^ 2 * (0.1 * (a - x) - Real.sin u * Real.cos u * (1 + c * (a - x))) := by
      rw [Real.tan_eq_sin_div_cos]; field_simp; ring
    rw [e1]
    exact mul_nonpos_of_nonneg_of_nonpos (by positivity) (by linarith)

theorem y03_antitone : AntitoneOn (fun x => y_suction x 0.3 22.5 1.95 0) (Set.Icc 0 1) := by
  have h := suctionCurve_antitone 22.5 1 1.95 0.34 (by norm_num) (by norm_num) (by norm_num)
    (fun x h0 h1 => by
      have : 0 ≤ x * (1 - x) := mul_nonneg h0 (by linarith)
      nlinarith [mul_nonneg this h0, mul_nonneg this (mul_nonneg h0 h0)])
    (fun x h0 h1 => by norm_num; linarith)
  intro x hx y hy hxy
  have := h hx hy hxy
  simp only [y03_eq]
  exact this

theorem y08_antitone : AntitoneOn (fun x => y_suction x 0.8 5.77 1 (-1.29)) (Set.Icc 0 1) := by
  have h := suctionCurve_antitone 5.77 1.9546 1 0.74 (by norm_num) (by norm_num) (by norm_num)
    (fun x h0 h1 => by
      have : 0 ≤ x * (1 - x) := mul_nonneg h0 (by linarith)
      nlinarith [mul_nonneg this h0, mul_nonneg this (mul_nonneg h0 h0)])
    (fun x h0 h1 => by norm_num; linarith)
  intro x hx y hy hxy
  have := h hx hy hxy
  simp only [y08_eq]
  exact this

/-- The factor of a subsonic wing whose lift slope is at most that of the elliptical wing does not fall with the lift
coefficient, from the cruise lift coefficient to one above it. -/
theorem kBlend_mono {ko k0 k1 ms m cc x y : ℝ} (hms : 0 < ms) (hm : 0 ≤ m) (hk : k1 ≤ k0) (h0 : 0 ≤ x) (hxy : x ≤ y) (h1 : y ≤ 1) :
    kBlend ko k0 k1 ms m x cc ≤ kBlend ko k0 k1 ms m y cc := by
  obtain ⟨s₁, t, ⟨t0, -, t2, t3⟩, -, e1, e2, e3⟩ := kBlend_spec ko k0 k1 ms m x cc hms
  obtain ⟨s₂, t', -, -, f1, f2, f3⟩ := kBlend_spec ko k0 k1 ms m y cc hms
  have ht : t' = t := f1.trans e1.symm
  subst ht
  have t1 : t' ≤ 1 := by
    rcases le_total m ms with hm' | hm'
    · have h5 := t2 hm hm'
      have : 0 ≤ m / ms := by positivity
      by_contra hc
      have := one_lt_pow₀ (not_le.mp hc) (n := 5) (by norm_num)
      linarith
    · rw [t3 hm']; norm_num
  obtain ⟨p0, p1, -⟩ := cruiseWeight cc
  have a1 := y03_antitone ⟨h0, hxy.trans h1⟩ ⟨h0.trans hxy, h1⟩ hxy
  have a2 := y08_antitone ⟨h0, hxy.trans h1⟩ ⟨h0.trans hxy, h1⟩ hxy
  have hs : s₂ ≤ s₁ := by
    rw [e2, f2]
    exact add_le_add (mul_le_mul_of_nonneg_left a1 p0) (mul_le_mul_of_nonneg_left a2 (by linarith))
  rw [e3, f3]
  have : 0 ≤ (1 - t') * ((s₁ - s₂) * (k0 - k1)) := mul_nonneg (by linarith) (mul_nonneg (by linarith) (by linarith))
  nlinarith

theorem kBlend_pos {ko k0 k1 ms m cc x : ℝ} (hms : 0 < ms) (hm : 0 ≤ m) (hko : 0 < ko) (hk1 : 0 < k1) (hk : k1 ≤ k0)
    (h0 : 0 ≤ x) (h1 : x ≤ 1) : 0 < kBlend ko k0 k1 ms m x cc := by
  obtain ⟨s, t, ⟨t0, -, t2, t3⟩, ⟨-, hs, -⟩, e1, e2, e3⟩ := kBlend_spec ko k0 k1 ms m x cc hms
  obtain ⟨s0, s1⟩ := hs (by norm_num; linarith) h1
  have t1 : t ≤ 1 := by
    rcases le_total m ms with hm' | hm'
    · have h5 := t2 hm hm'
      have : 0 ≤ m / ms := by positivity
      by_contra hc
      have := one_lt_pow₀ (not_le.mp hc) (n := 5) (by norm_num)
      linarith
    · rw [t3 hm']; norm_num
  have : k1 ≤ s * k1 + (1 - s) * k0 := by norm_num at s1; nlinarith
  rw [e3]
  rcases t0.eq_or_lt with h | h
  · rw [← h]; linarith
  · have : 0 ≤ (1 - t) * (s * k1 + (1 - s) * k0) := mul_nonneg (by linarith) (by linarith)
    have : 0 < t * ko := mul_pos h hko
    linarith

/-- `a / (x + a / p) < p`: what is common to the lift slopes. -/
theorem slope_lt {a x p : ℝ} (ha : 0 < a) (hx : 0 < x) (hp : 0 < p) : a / (x + a / p) < p := by
  have : 0 < a / p := by positivity
  rw [div_lt_iff₀ (by linarith)]
  have : p * (x + a / p) = p * x + a := by field_simp
  rw [this]; nlinarith

/-- The subsonic lift slope is less than π times the aspect ratio: a wing without suction has more drag due to lift than an elliptical
one with full suction. -/
theorem C105_slope {c : Concept} (w : Wing c) {m : ℝ} (h0 : 0 ≤ m) (h1 : m < 1) :
    ∃ a, a_subsonic c m = .ok a ∧ 0 < a ∧ a < Real.pi * pyNum c.aspectratio := by
  obtain ⟨s, hs, he⟩ := C41_line c 0.5 (by norm_num) (by norm_num)
  have hs2 : s = 2 * c.sweep_25_rad - c.sweep_le_rad := by norm_num at he; linarith
  have hsa : |s| < Real.pi / 2 := by rw [hs2]; exact w.hc
  obtain ⟨a, ha1, ha2, -⟩ := C72_subsonic w h0 h1
  refine ⟨a, ha1, ha2, ?_⟩
  simp only [a_subsonic, hs, bind_ok] at ha1
  have ha1 : ([aSub0 c m, aSub3 c m, aSub4 c m, aSub5 c m, aSub6 c m s, aSub7 c m s, aSub8 c m].sum / (7 : ℕ) : ℝ) = a := by
    have := pure_ok_iff.mp ha1
    simpa using this
  have hb := beta_pos h0 h1
  have har := w.ar
  have ha := w.a0
  have hp : 0 < Real.pi * pyNum c.aspectratio := mul_pos Real.pi_pos har
  have e0 : aSub0 c m < Real.pi * pyNum c.aspectratio := by
    unfold aSub0
    apply div_lt_self hp
    have : 0 < √(1 + (Real.pi * pyNum c.aspectratio / pyNum c.a_0i / Real.cos c.sweep_25_rad) ^ 2 * √(1 - m ^ 2) ^ 2) :=
      Real.sqrt_pos.mpr (by positivity)
    linarith
  have e3 : aSub3 c m < Real.pi * pyNum c.aspectratio := by
    obtain ⟨o1, o2⟩ := C40_second c har
    unfold aSub3
    simp only []
    rw [div_div]
    refine (slope_lt ha hb (by positivity)).trans ?_
    nlinarith
  have e4 : aSub4 c m < Real.pi * pyNum c.aspectratio := by
    unfold aSub4
    exact slope_lt ha (Real.sqrt_pos.mpr (by positivity)) hp
  have e5 : aSub5 c m < Real.pi * pyNum c.aspectratio := by
    unfold aSub5
    have hc := cos_pos_of_abs w.le
    exact slope_lt (by positivity) (Real.sqrt_pos.mpr (by positivity)) hp
  have e6 : aSub6 c m s < Real.pi * pyNum c.aspectratio := by
    unfold aSub6
    simp only []
    have : 0 < √((pyNum c.aspectratio * √(1 - m ^ 2) / (pyNum c.a_0i / (2 * Real.pi))) ^ 2 * (1 + (Real.tan s / √(1 - m ^ 2)) ^ 2) + 4) :=
      Real.sqrt_pos.mpr (by positivity)
    rw [div_lt_iff₀ (by linarith)]
    nlinarith
  have e8 : aSub8 c m < Real.pi * pyNum c.aspectratio := by
    unfold aSub8
    simp only []
    have h8 : 0 < pyNum c.a_0i / √(1 - m ^ 2) := by positivity
    generalize pyNum c.a_0i / √(1 - m ^ 2) = a at h8
    have hq : 0 < √(4 + pyNum c.aspectratio ^ 2 + (a / Real.pi) ^ 2) := Real.sqrt_pos.mpr (by positivity)
    have h9 := slope_lt h8 hq Real.pi_pos
    rw [mul_comm a, mul_div_assoc, mul_comm]
    exact mul_lt_mul_of_pos_right h9 har
  have e7 : aSub7 c m s < Real.pi * pyNum c.aspectratio := by
    have hpi := Real.pi_pos
    unfold aSub7
    obtain ⟨a, hae⟩ : ∃ b, b = pyNum c.a_0i / √(1 - m ^ 2) := ⟨_, rfl⟩
    have ha0 : 0 < a := by rw [hae]; positivity
    obtain ⟨r, hre⟩ : ∃ b, b = Real.pi * pyNum c.aspectratio := ⟨_, rfl⟩
    have hr0 : 0 < r := by rw [hre]; positivity
    obtain ⟨d, hd⟩ : ∃ d, d = (1 + (a * Real.cos s / r) ^ 2) ^ (0.25 : ℝ) := ⟨_, rfl⟩
    have hd1 : 1 ≤ d := by
      rw [hd]
      apply Real.one_le_rpow _ (by norm_num)
      nlinarith [sq_nonneg (a * Real.cos s / r)]
    obtain ⟨e, he⟩ : ∃ e, e = s / d := ⟨_, rfl⟩
    have hes : |e| ≤ |s| := by
      rw [he, abs_div, abs_of_pos (by linarith : 0 < d)]
      exact div_le_self (abs_nonneg _) hd1
    have hce := cos_pos_of_abs (lt_of_le_of_lt hes hsa)
    obtain ⟨f, hf⟩ : ∃ f, f = a * Real.cos e := ⟨_, rfl⟩
    have hf0 : 0 < f := by rw [hf]; positivity
    obtain ⟨p, hpe⟩ : ∃ p, p = 1 / (4 * (1 + (|e| / (0.5 * Real.pi)))) := ⟨_, rfl⟩
    have hp0 : 0 < p := by rw [hpe]; positivity
    obtain ⟨x, hx⟩ : ∃ x, x = (1 + (f / r) ^ 2) ^ p := ⟨_, rfl⟩
    have hx1 : 1 ≤ x := by
      rw [hx]
      exact Real.one_le_rpow (by nlinarith [sq_nonneg (f / r)]) hp0.le
    obtain ⟨n, hn⟩ : ∃ n, n = 1 - 1 / (2 * x) := ⟨_, rfl⟩
    simp only [← hae, ← hre, ← hd, ← he, ← hf, ← hpe, ← hx, ← hn]
    have hq : 0 < 1 / (2 * x) := by positivity
    have hq2 : 1 / (2 * x) ≤ 1 / 2 := by
      apply one_div_le_one_div_of_le <;> linarith
    have hn0 : 1 / 2 ≤ n := by rw [hn]; linarith
    have hn1 : n < 1 := by rw [hn]; linarith
    have hcot := neg_cot_bound hn0 hn1
    have hden : 0 < 1 - (Real.pi * n) * (1 / Real.tan (Real.pi * n)) := by linarith
    have hlast : 0 < 4 * f * n ^ 2 / r := by positivity
    generalize 1 - (Real.pi * n) * (1 / Real.tan (Real.pi * n)) = z at hden
    rw [div_lt_iff₀ (by linarith)]
    have : r * (z + 4 * f * n ^ 2 / r) = r * z + 4 * f * n ^ 2 := by field_simp
    rw [this]
    nlinarith [mul_pos hr0 hden, mul_nonneg (mul_nonneg hf0.le (by linarith : 0 ≤ n)) (by linarith : 0 ≤ n - 1 / 2)]
  rw [← ha1, div_lt_iff₀ (by norm_num)]
  simp only [List.sum_cons, List.sum_nil]
  push_cast
  linarith

example : ∃ a, a_subsonic exC 0.5 = .ok a ∧ 0 < a ∧ a < Real.pi * pyNum exC.aspectratio :=
  C105_slope exC_isWing (by norm_num) (by norm_num)

/-- A wing in subsonic flow that has more drag due to lift without suction than with. Below Mach 0.6 all wings are such (`Finite.of_wing`);
above, the lift slope comes from a cubic interpolation. -/
structure Finite (X : Ext) (c : Concept) (m : ℝ) : Prop where
  mach : 0 ≤ m ∧ m < 1
  sweep : 0 < Real.cos c.sweep_le_rad
  ar : 0 < pyNum c.aspectratio
  slope : ∀ ls, liftslope_prad X c (some m) = .ok ls → 0 < ls ∧ ls ≤ Real.pi * pyNum c.aspectratio

theorem Finite.of_wing (X : Ext) {c : Concept} (w : Wing c) {m : ℝ} (h0 : 0 ≤ m) (h1 : m < 0.6) : Finite X c m := by
  have hm : m < 1 := by norm_num at h1; linarith
  refine ⟨⟨h0, hm⟩, cos_pos_of_abs w.le, w.ar, fun ls hls => ?_⟩
  obtain ⟨a, ha, hp, hlt⟩ := C105_slope w h0 hm
  obtain ⟨sub, tr, h2, -, h3⟩ := C71_estimates X c (some m)
  rw [h3] at hls
  have h2' : a_subsonic c m = .ok sub := h2
  rw [ha] at h2'; cases h2'
  have : liftslopeblend m a (a_supersonic c m) tr = ls := by cases hls; rfl
  unfold liftslopeblend at this
  rw [if_pos h1] at this
  rw [← this]
  exact ⟨hp, hlt.le⟩

theorem oswald24_pos {c : Concept} {m : Option ℝ} {ko : ℝ} (har : 0 < pyNum c.aspectratio) (h : induceddragfact c (some 24) m = .ok ko) : 0 < ko := by
  have hne : (chosen 24).Nonempty := ⟨2, by
    simp only [chosen, Finset.mem_filter]
    exact ⟨by simp, 1, by norm_num⟩⟩
  have h' := C39_mean c 24 m hne
  have h : induceddragfact c (some ((24:ℕ):ℤ)) m = .ok ko := h
  rw [h] at h'
  have e := Except.ok.inj h'
  have hsum : 0 < ∑ i ∈ chosen 24, estimate c m i := by
    apply Finset.sum_pos _ hne
    intro i hi
    simp only [chosen, Finset.mem_filter, Finset.mem_insert, Finset.mem_singleton] at hi
    obtain ⟨hi, j, hj, hd⟩ := hi
    have hj2 : j < 2 := by
      by_contra hc
      have : 10 ^ 2 ≤ 10 ^ j := Nat.pow_le_pow_right (by norm_num) (by omega)
      omega
    interval_cases j
    · have : i = 4 := by omega
      subst this
      have := (C40_fourth c (some (m.getD 0.3)) har).1
      show 0 < oswaldspaneff4 c (some (m.getD 0.3))
      norm_num at this ⊢; linarith
    · have : i = 2 := by omega
      subst this
      exact (C40_second c har).1
  have hcard : 0 < ((chosen 24).card : ℝ) := by exact_mod_cast Finset.card_pos.mpr hne
  have := Real.pi_pos
  rw [e]; positivity

theorem Finite.factors {X : Ext} {c : Concept} {m ko k0 k1 : ℝ} (hf : Finite X c m) (h : kFactors X c m = .ok (ko, k0, k1)) :
    0 < ko ∧ 0 < k1 ∧ k1 ≤ k0 := by
  obtain ⟨ls, lss, a1, a2, a3, a4, a5, -⟩ := kFactors_spec h hf.sweep
  obtain ⟨l0, l1⟩ := hf.slope ls a2
  have hp : 0 < Real.pi * pyNum c.aspectratio := mul_pos Real.pi_pos hf.ar
  refine ⟨oswald24_pos hf.ar a1, ?_, ?_⟩
  · rw [a5 hf.mach.2]; positivity
  · rw [a5 hf.mach.2, a4]
    exact one_div_le_one_div_of_le l0 l1

theorem KFun.mono {X : Ext} {c : Concept} {m : ℝ} {K : ℝ → ℝ → ℝ} (hK : KFun X c m K) (hf : Finite X c m) {w x y : ℝ}
    (h0 : ∀ cc, CruiseCl c w cc → cc ≤ x) (hxy : x ≤ y) (h1 : ∀ cc, CruiseCl c w cc → y ≤ cc + 1) :
    0 < K w x ∧ K w x ≤ K w y := by
  obtain ⟨ko, k0, k1, clc, e1, e2, e3⟩ := hK
  obtain ⟨p1, p2, p3⟩ := hf.factors e1
  have hc : CruiseCl c w (clc w) := by
    unfold CruiseCl
    rcases e3 with ⟨hn, h⟩ | ⟨v, alt, q, hv, ha, hq, h⟩
    · rcases hn with hn | hn <;> rw [hn]
      · exact h w
      · cases c.cruisespeed_ktas <;> exact h w
    · rw [hv, ha]; exact ⟨q, hq, h w⟩
  have g0 := h0 _ hc
  have g1 := h1 _ hc
  have hms : 0 < machstar_le c := by
    have := hf.sweep
    unfold machstar_le
    positivity
  rw [e2, e2]
  exact ⟨kBlend_pos hms hf.mach.1 p1 p2 p3 (by linarith) (by linarith),
    kBlend_mono hms hf.mach.1 p3 (by linarith) (by linarith) (by linarith)⟩

/-- The induced drag factor of the leading edge suction method rises with the lift coefficient, from the cruise lift coefficient to one above
it, for a subsonic wing. -/
theorem C105_factor {X : Ext} {c : Concept} {m w cl₁ cl₂ k₁ k₂ : ℝ} (hf : Finite X c m)
    (h₁ : induceddragfact_lesm X c (some [w]) (some [cl₁]) (some m) = .ok [k₁])
    (h₂ : induceddragfact_lesm X c (some [w]) (some [cl₂]) (some m) = .ok [k₂])
    (h0 : ∀ cc, CruiseCl c w cc → cc ≤ cl₁) (hlt : cl₁ ≤ cl₂) (h1 : ∀ cc, CruiseCl c w cc → cl₂ ≤ cc + 1) : 0 < k₁ ∧ k₁ ≤ k₂ := by
  rcases lesm_point X c m with ⟨e, he⟩ | ⟨K, hK, hl⟩
  · have := he [w] (fun _ => cl₁)
    rw [List.map_cons, List.map_nil, h₁] at this; cases this
  · have g₁ := hl [w] (fun _ => cl₁)
    have g₂ := hl [w] (fun _ => cl₂)
    rw [List.map_cons, List.map_nil, h₁] at g₁
    rw [List.map_cons, List.map_nil, h₂] at g₂
    cases g₁; cases g₂
    exact KFun.mono hK hf h0 hlt h1

/-- A tighter turn at the same speed and altitude needs more: the part due to lift grows at least with the square of the load factor. -/
theorem C105_turn (X : Ext) (c : Concept) (b : Bool) (s n t q m : ℝ) (K : ℝ → ℝ → ℝ) (h : TurnIn X c s n t q m K) (hf : Finite X c m)
    (hq : 0 < q) (ht : b = true → 0 < t) (hwf : 0 < pyNum c.turn_weight_fraction) (hcf : 0 < pyNum c.climb_weight_fraction)
    (n' w : ℝ) (hn : 0 < n) (hlt : n < n') (hw : 0 < w)
    (h0 : ∀ cc, CruiseCl c (w * pyNum c.turn_weight_fraction) cc →
      cc ≤ n * (w * pyNum c.turn_weight_fraction * pyNum c.climb_weight_fraction) / q)
    (h1 : ∀ cc, CruiseCl c (w * pyNum c.turn_weight_fraction) cc →
      n' * (w * pyNum c.turn_weight_fraction * pyNum c.climb_weight_fraction) / q ≤ cc + 1) :
    ∃ R₁ R₂ cl₁ cl₂ fe₁ fe₂, twrequired_trn X c (.scalar w) b = .ok (.scalar R₁, .scalar cl₁, .scalar fe₁) ∧
      twrequired_trn X { c with stloadfactor := some n' } (.scalar w) b = .ok (.scalar R₂, .scalar cl₂, .scalar fe₂) ∧
      R₁ < R₂ ∧ cl₂ * n = cl₁ * n' ∧
      (n' / n) ^ 2 * (R₁ - (if b then 1 / t else 1) * (q * pyNum c.cdminclean / w))
        ≤ R₂ - (if b then 1 / t else 1) * (q * pyNum c.cdminclean / w) := by
  have h' : TurnIn X { c with stloadfactor := some n' } s n' t q m K := ⟨h.speed, rfl, h.corr, h.press, h.mach, h.drag⟩
  refine ⟨_, _, _, _, _, _, h.eval b (.scalar w), h'.eval b (.scalar w), ?_⟩
  show turnReq c b n t q K w < turnReq { c with stloadfactor := some n' } b n' t q K w ∧
    turnCl { c with stloadfactor := some n' } n' q w * n = turnCl c n q w * n' ∧
    _ * (turnReq c b n t q K w - _) ≤ turnReq { c with stloadfactor := some n' } b n' t q K w - _
  have e1 : turnCl { c with stloadfactor := some n' } n' q w = turnCl c n' q w := rfl
  have e2 : turnReq { c with stloadfactor := some n' } b n' t q K w = turnReq c b n' t q K w := rfl
  have e3 : ∀ n, turnCl c n q w = n * (w * pyNum c.turn_weight_fraction * pyNum c.climb_weight_fraction) / q := by
    intro n; unfold turnCl; ring
  rw [e1, e2]
  have hn' : 0 < n' := hn.trans hlt
  obtain ⟨k0, k1⟩ := KFun.mono h.drag hf (w := w * pyNum c.turn_weight_fraction) (x := turnCl c n q w) (y := turnCl c n' q w)
    (by rw [e3]; exact h0) (by rw [e3, e3]; gcongr) (by rw [e3]; exact h1)
  obtain ⟨z, hz⟩ : ∃ z, z = if b then 1 / t else 1 := ⟨_, rfl⟩
  have hz0 : 0 < z := by
    rw [hz]; cases b with
    | false => simp
    | true => have := ht rfl; simpa using this
  have req : ∀ n, turnReq c b n t q K w = z * (q * pyNum c.cdminclean / w) + z * (n ^ 2 * K (w * pyNum c.turn_weight_fraction) (turnCl c n q w) *
      (w * pyNum c.turn_weight_fraction ^ 2 * pyNum c.climb_weight_fraction / q)) := by
    intro n
    unfold turnReq turnPoint sl
    generalize K _ _ = k
    rw [hz]
    cases b with
    | false => simp only [Bool.false_eq_true, if_false]; field_simp
    | true => have := (ht rfl).ne'; simp only [if_true]; field_simp
  rw [← hz, req, req]
  generalize K _ (turnCl c n q w) = a at k0 k1 ⊢
  generalize K _ (turnCl c n' q w) = a' at k1 ⊢
  have hg : 0 < w * pyNum c.turn_weight_fraction ^ 2 * pyNum c.climb_weight_fraction / q := by positivity
  generalize w * pyNum c.turn_weight_fraction ^ 2 * pyNum c.climb_weight_fraction / q = g at hg ⊢
  refine ⟨?_, by rw [e3, e3]; ring, ?_⟩
  · have : n ^ 2 * a < n' ^ 2 * a' := by
      calc n ^ 2 * a < n' ^ 2 * a := by gcongr
        _ ≤ n' ^ 2 * a' := by gcongr
    have := mul_lt_mul_of_pos_right this hg
    have := mul_lt_mul_of_pos_left this hz0
    linarith
  · have e : (n' / n) ^ 2 * (z * (q * pyNum c.cdminclean / w) + z * (n ^ 2 * a * g) - z * (q * pyNum c.cdminclean / w)) = z * (n' ^ 2 * a * g) := by
      field_simp; ring
    rw [e, add_sub_cancel_left]
    gcongr

/-- The factor of the example aircraft at 1000 Pa and Mach 0.4, at the lift coefficients 0.5 and 1. -/
example (X : Ext) : ∃ k₁ k₂, induceddragfact_lesm X exC (some [1000]) (some [0.5]) (some 0.4) = .ok [k₁] ∧
    induceddragfact_lesm X exC (some [1000]) (some [1]) (some 0.4) = .ok [k₂] ∧ 0 < k₁ ∧ k₁ ≤ k₂ := by
  obtain ⟨K₁, h₁⟩ := exC_lesm X 0.4 [1000] (fun _ => 0.5)
  obtain ⟨K₂, h₂⟩ := exC_lesm X 0.4 [1000] (fun _ => 1)
  refine ⟨K₁ 1000, K₂ 1000, h₁, h₂, C105_factor (Finite.of_wing X exC_isWing (by norm_num) (by norm_num)) h₁ h₂ ?_ (by norm_num) ?_⟩
  · intro cc h; rw [exC_cruiseCl _ _ h]; norm_num [kts2mps]
  · intro cc h; rw [exC_cruiseCl _ _ h]; norm_num [kts2mps]

/-- The turn of the example at 120 knots and 600 Pa, with load factors 2 and 3. -/
example (X : Ext) : ∃ R₁ R₂ cl₁ cl₂ fe₁ fe₂, twrequired_trn X exC (.scalar 600) false = .ok (.scalar R₁, .scalar cl₁, .scalar fe₁) ∧
    twrequired_trn X { exC with stloadfactor := some 3 } (.scalar 600) false = .ok (.scalar R₂, .scalar cl₂, .scalar fe₂) ∧
    R₁ < R₂ ∧ cl₂ = 3 / 2 * cl₁ := by
  obtain ⟨t, q, m, K, h⟩ := trn_given (X := X) exC_ready (s := 120) (n := 2) rfl rfl
  have hq := h.press
  rw [exC_q _ (pyNum exC.turnalt_m) (by norm_num [exC, pyNum]) (by norm_num [exC, pyNum])] at hq; cases hq
  have hm := h.mach
  have hm' : Atmos.mach1 exC.designatm (kts2mps 120) (pyNum exC.turnalt_m) = .ok _ :=
    Atmos.mach1_of (exAtm_vsound (pyNum exC.turnalt_m) (by norm_num [exC, pyNum]) (by norm_num [exC, pyNum]))
  rw [hm'] at hm; cases hm
  obtain ⟨s0, s1⟩ := exC_vsound
  have m0 : 0 < kts2mps 120 / Atmos.vsound 300 := div_pos (by norm_num [kts2mps]) (by linarith)
  have m1 : kts2mps 120 / Atmos.vsound 300 < 0.6 := by
    rw [div_lt_iff₀ (by linarith)]; norm_num [kts2mps]; linarith
  obtain ⟨R₁, R₂, cl₁, cl₂, fe₁, fe₂, h1, h2, h3, h4, -⟩ := C105_turn X exC false _ _ _ _ _ _ h (Finite.of_wing X exC_isWing m0.le m1)
    (by norm_num [kts2mps]) (by simp) (by norm_num [exC, pyNum]) (by norm_num [exC, pyNum]) 3 600 (by norm_num) (by norm_num) (by norm_num)
    (by intro cc hc; rw [exC_cruiseCl _ _ hc]; norm_num [exC, pyNum, kts2mps])
    (by intro cc hc; rw [exC_cruiseCl _ _ hc]; norm_num [exC, pyNum, kts2mps])
  exact ⟨R₁, R₂, cl₁, cl₂, fe₁, fe₂, h1, h2, h3, by linarith⟩

end

end Verif.Props
