import Verif.Props.SlopeLimits

/-
Property C109: the supersonic lift slope and the Mach number of the transonic peak.
-/

namespace Verif.Props
open Verif Verif.Aircraft Verif.Units Verif.Spec Filter Topology

noncomputable section

theorem tan_shock {m : ℝ} (h1 : 1 < m) : Real.tan (Real.arccos (1 / m)) = √(m ^ 2 - 1) := by
  have hm : 0 < m := by linarith
  rw [Real.tan_arccos]
  have e : √(1 - (1 / m) ^ 2) = √(m ^ 2 - 1) / m := by
    rw [show 1 - (1 / m) ^ 2 = (m ^ 2 - 1) / m ^ 2 by field_simp, Real.sqrt_div (by nlinarith), Real.sqrt_sq hm.le]
  rw [e]
  field_simp

/-- The factor of the delta wing formula for the ratio `n` of the tangents of the sweeps of shock and leading edge. -/
def deltaFactor (n : ℝ) : ℝ := n * (0.38 + 2.26 * n - 0.86 * n ^ 2)

/-- The two delta wing formulas and where each applies: linear theory when the leading edge is supersonic (the Mach number normal to it
above one) or swept forward, the formula with the factor when it is subsonic. -/
theorem C109_delta {c : Concept} {m : ℝ} (h1 : 1 < m) (hL : |c.sweep_le_rad| < Real.pi / 2) :
    (0 < c.sweep_le_rad → m * Real.cos c.sweep_le_rad ≤ 1 →
      aSup2 c m = 2 * Real.pi ^ 2 / Real.tan c.sweep_le_rad / (Real.pi + deltaFactor (√(m ^ 2 - 1) / Real.tan c.sweep_le_rad))) ∧
    (0 < c.sweep_le_rad → 1 < m * Real.cos c.sweep_le_rad → aSup2 c m = 4 / √(m ^ 2 - 1)) ∧
    (c.sweep_le_rad < 0 → aSup2 c m = 4 / √(m ^ 2 - 1)) := by
  have hb : 0 < √(m ^ 2 - 1) := Real.sqrt_pos.mpr (by nlinarith)
  have hc := cos_pos_of_abs hL
  have hm : ¬ m < 1 := by linarith
  have key : 0 < c.sweep_le_rad → 0 < Real.tan c.sweep_le_rad ∧
      (√(m ^ 2 - 1) / Real.tan c.sweep_le_rad ≤ 1 ↔ m * Real.cos c.sweep_le_rad ≤ 1) := by
    intro h
    have ht := Real.tan_pos_of_pos_of_lt_pi_div_two h (abs_lt.mp hL).2
    refine ⟨ht, ?_⟩
    rw [div_le_one ht, Real.sqrt_le_left ht.le]
    have e : Real.tan c.sweep_le_rad ^ 2 = 1 / Real.cos c.sweep_le_rad ^ 2 - 1 := by
      rw [Real.tan_eq_sin_div_cos, div_pow, Real.sin_sq]; field_simp
    rw [e, sub_le_sub_iff_right, le_div_iff₀ (by positivity), ← mul_pow]
    constructor
    · intro h2
      by_contra h3
      push Not at h3
      nlinarith
    · intro h2
      have : 0 < m * Real.cos c.sweep_le_rad := by positivity
      nlinarith
  unfold aSup2
  simp only [hm, if_false, tan_shock h1]
  refine ⟨fun h h2 => ?_, fun h h2 => ?_, fun h => ?_⟩
  · obtain ⟨ht, hk⟩ := key h
    rw [if_pos ⟨by positivity, hk.mpr h2⟩]
    unfold deltaFactor
    rw [mul_one_div]
  · obtain ⟨ht, hk⟩ := key h
    rw [if_neg (by rw [hk]; intro h3; linarith [h3.2])]
  · have ht := Real.tan_neg_of_neg_of_pi_div_two_lt h (abs_lt.mp hL).1
    rw [if_neg]
    intro h3
    have := div_neg_of_pos_of_neg hb ht
    linarith [h3.1]

/-- The supersonic lift slope: the mean of linear theory, the same with the loss at the tips, and for swept wings the delta wing
formula. -/
theorem C109_supersonic (c : Concept) (m : ℝ) :
    (c.sweep_le_rad = 0 → a_supersonic c m = 4 / √(m ^ 2 - 1) * (1 - 1 / (4 * pyNum c.aspectratio * √(m ^ 2 - 1)))) ∧
    (c.sweep_le_rad ≠ 0 → a_supersonic c m = (aSup2 c m + 4 / √(m ^ 2 - 1) * (2 - 1 / (2 * pyNum c.aspectratio * √(m ^ 2 - 1)))) / 3) := by
  have e : 1 / 2 / pyNum c.aspectratio / √(m ^ 2 - 1) = 1 / (2 * pyNum c.aspectratio * √(m ^ 2 - 1)) := by rw [div_div, div_div, ← mul_assoc]
  have e4 : 1 / (4 * pyNum c.aspectratio * √(m ^ 2 - 1)) = 1 / (2 * pyNum c.aspectratio * √(m ^ 2 - 1)) / 2 := by rw [div_div]; congr 1; ring
  unfold a_supersonic aSup3 aSup4
  rw [e4, e]
  constructor
  · intro h
    simp [h]
    ring
  · intro h
    simp [h]
    ring

/-- Where the leading edge becomes sonic the two delta wing formulas differ by less than 0.3 per cent, the slope falling there. -/
theorem C109_sonic_edge {c : Concept} (h0 : 0 < c.sweep_le_rad) (hL : c.sweep_le_rad < Real.pi / 2) :
    ∃ ε, 0 < ε ∧ ε < 0.003 ∧ aSup2 c (1 / Real.cos c.sweep_le_rad) = (1 + ε) * (4 / √((1 / Real.cos c.sweep_le_rad) ^ 2 - 1)) := by
  have ha : |c.sweep_le_rad| < Real.pi / 2 := by rw [abs_of_pos h0]; exact hL
  have hc := cos_pos_of_abs ha
  have hc1 : Real.cos c.sweep_le_rad < 1 := by
    have := Real.cos_lt_cos_of_nonneg_of_le_pi_div_two le_rfl hL.le h0
    rwa [Real.cos_zero] at this
  have hm : 1 < 1 / Real.cos c.sweep_le_rad := by rw [lt_div_iff₀ hc]; linarith
  have ht := Real.tan_pos_of_pos_of_lt_pi_div_two h0 hL
  have hs : √((1 / Real.cos c.sweep_le_rad) ^ 2 - 1) = Real.tan c.sweep_le_rad := by
    rw [Real.sqrt_eq_iff_mul_self_eq (by nlinarith) ht.le, ← pow_two, Real.tan_eq_sin_div_cos, div_pow (Real.sin _), Real.sin_sq]
    field_simp
  have k := (C109_delta hm ha).1 h0 (by rw [one_div_mul_cancel hc.ne'])
  rw [hs, div_self ht.ne'] at k
  rw [k, hs]
  have hp := Real.pi_gt_d4
  have hp2 := Real.pi_lt_d4
  norm_num at hp hp2
  refine ⟨Real.pi ^ 2 / (2 * (Real.pi + 1.78)) - 1, ?_, ?_, ?_⟩
  · rw [sub_pos, lt_div_iff₀ (by positivity)]; norm_num; nlinarith
  · rw [sub_lt_iff_lt_add, div_lt_iff₀ (by positivity)]; norm_num; nlinarith
  · unfold deltaFactor
    rw [show (1:ℝ) * (0.38 + 2.26 * 1 - 0.86 * 1 ^ 2) = 1.78 by norm_num]
    have : 0 < Real.pi + 1.78 := by positivity
    field_simp
    ring

/-- Near Mach one the delta wing formula gives the slender wing value: half π times the aspect ratio of the delta wing,
four times the cotangent of its sweep. -/
theorem C109_slender_delta {c : Concept} (h0 : 0 < c.sweep_le_rad) (hL : c.sweep_le_rad < Real.pi / 2) :
    Tendsto (aSup2 c) (𝓝[>] 1) (𝓝 (Real.pi / 2 * (4 / Real.tan c.sweep_le_rad))) := by
  have ha : |c.sweep_le_rad| < Real.pi / 2 := by rw [abs_of_pos h0]; exact hL
  have hc := cos_pos_of_abs ha
  have hp := Real.pi_pos
  have ht := Real.tan_pos_of_pos_of_lt_pi_div_two h0 hL
  have hc1 : Real.cos c.sweep_le_rad < 1 := by
    have := Real.cos_lt_cos_of_nonneg_of_le_pi_div_two le_rfl hL.le h0
    rwa [Real.cos_zero] at this
  have k : Tendsto (fun m : ℝ => 2 * Real.pi ^ 2 / Real.tan c.sweep_le_rad / (Real.pi + deltaFactor (√(m ^ 2 - 1) / Real.tan c.sweep_le_rad))) (𝓝 1)
      (𝓝 (2 * Real.pi ^ 2 / Real.tan c.sweep_le_rad / (Real.pi + deltaFactor (√(1 ^ 2 - 1) / Real.tan c.sweep_le_rad)))) := by
    refine Tendsto.div tendsto_const_nhds ?_ ?_
    · refine Continuous.tendsto ?_ 1
      unfold deltaFactor
      fun_prop
    · norm_num [deltaFactor]
  rw [show 2 * Real.pi ^ 2 / Real.tan c.sweep_le_rad / (Real.pi + deltaFactor (√(1 ^ 2 - 1) / Real.tan c.sweep_le_rad)) =
      Real.pi / 2 * (4 / Real.tan c.sweep_le_rad) by norm_num [deltaFactor]; field_simp; norm_num] at k
  refine (k.mono_left nhdsWithin_le_nhds).congr' ?_
  have hlim : (1:ℝ) < 1 / Real.cos c.sweep_le_rad := by rw [lt_div_iff₀ hc]; linarith
  filter_upwards [Ioo_mem_nhdsGT hlim] with m hm
  refine ((C109_delta hm.1 ha).1 h0 ?_).symm
  have := hm.2
  rw [lt_div_iff₀ hc] at this
  exact this.le

example : ∃ c : Concept, c.sweep_le_rad = Real.pi / 3 ∧
    Tendsto (aSup2 c) (𝓝[>] 1) (𝓝 (Real.pi / 2 * (4 / Real.tan c.sweep_le_rad))) ∧
    ∃ ε, 0 < ε ∧ ε < 0.003 ∧ aSup2 c (1 / Real.cos c.sweep_le_rad) = (1 + ε) * (4 / √((1 / Real.cos c.sweep_le_rad) ^ 2 - 1)) := by
  have hp := Real.pi_pos
  have e : Concept.sweep_le_rad { exC with sweep_le_deg := some 60 } = Real.pi / 3 := by
    show 60 * (Real.pi / 180) = Real.pi / 3; ring
  have h0 : 0 < Concept.sweep_le_rad { exC with sweep_le_deg := some 60 } := by rw [e]; positivity
  have h1 : Concept.sweep_le_rad { exC with sweep_le_deg := some 60 } < Real.pi / 2 := by rw [e]; linarith
  exact ⟨_, e, C109_slender_delta h0 h1, C109_sonic_edge h0 h1⟩

theorem deltaFactor_mono {x y : ℝ} (h0 : 0 ≤ x) (h : x ≤ y) (h1 : y ≤ 1) : 0 ≤ deltaFactor x ∧ deltaFactor x ≤ deltaFactor y := by
  unfold deltaFactor
  norm_num
  constructor
  · apply mul_nonneg h0; nlinarith
  · have hy : 0 ≤ y := h0.trans h
    nlinarith [mul_nonneg (sub_nonneg.mpr h) (mul_nonneg h0 hy), mul_nonneg (sub_nonneg.mpr h) h0, mul_nonneg (sub_nonneg.mpr h) hy,
      mul_nonneg (sub_nonneg.mpr h) (mul_nonneg h0 (sub_nonneg.mpr h1)), mul_nonneg (sub_nonneg.mpr h) (mul_nonneg hy (sub_nonneg.mpr h1)),
      mul_nonneg (sub_nonneg.mpr h) (mul_nonneg h0 (sub_nonneg.mpr (h.trans h1)))]

/-- The delta wing formula never rises with the Mach number. -/
theorem delta_antitone {c : Concept} (hL : |c.sweep_le_rad| < Real.pi / 2) (hne : c.sweep_le_rad ≠ 0) {m m' : ℝ} (h1 : 1 < m) (h : m ≤ m') :
    aSup2 c m' ≤ aSup2 c m := by
  have hp := Real.pi_pos
  have h1' : 1 < m' := lt_of_lt_of_le h1 h
  have hb : 0 < √(m ^ 2 - 1) := Real.sqrt_pos.mpr (by nlinarith)
  have hbb : √(m ^ 2 - 1) ≤ √(m' ^ 2 - 1) := Real.sqrt_le_sqrt (by nlinarith)
  have hc := cos_pos_of_abs hL
  have sup : 4 / √(m' ^ 2 - 1) ≤ 4 / √(m ^ 2 - 1) := div_le_div_of_nonneg_left (by norm_num) hb hbb
  obtain ⟨d1, d2, d3⟩ := C109_delta h1 hL
  obtain ⟨e1, e2, e3⟩ := C109_delta h1' hL
  rcases lt_or_gt_of_ne hne with hn | hpos
  · rw [d3 hn, e3 hn]; exact sup
  have ht := Real.tan_pos_of_pos_of_lt_pi_div_two hpos (abs_lt.mp hL).2
  have edge : ∀ x, 1 < x → x * Real.cos c.sweep_le_rad ≤ 1 → √(x ^ 2 - 1) / Real.tan c.sweep_le_rad ≤ 1 := by
    intro x hx hk
    rw [div_le_one ht, Real.sqrt_le_left ht.le]
    have e : Real.tan c.sweep_le_rad ^ 2 = 1 / Real.cos c.sweep_le_rad ^ 2 - 1 := by
      rw [Real.tan_eq_sin_div_cos, div_pow, Real.sin_sq]; field_simp
    rw [e, sub_le_sub_iff_right, le_div_iff₀ (by positivity), ← mul_pow]
    have : 0 < x * Real.cos c.sweep_le_rad := by positivity
    nlinarith
  by_cases k : m * Real.cos c.sweep_le_rad ≤ 1
  · rw [d1 hpos k]
    by_cases k' : m' * Real.cos c.sweep_le_rad ≤ 1
    · rw [e1 hpos k']
      have n0 : 0 ≤ √(m ^ 2 - 1) / Real.tan c.sweep_le_rad := by positivity
      have := deltaFactor_mono n0 (div_le_div_of_nonneg_right hbb ht.le) (edge m' h1' k')
      apply div_le_div_of_nonneg_left (by positivity) (by linarith) (by linarith)
    · push Not at k'
      rw [e2 hpos k']
      have n0 : 0 ≤ √(m ^ 2 - 1) / Real.tan c.sweep_le_rad := by positivity
      have := deltaFactor_mono n0 (edge m h1 k) le_rfl
      have e18 : deltaFactor 1 = 1.78 := by unfold deltaFactor; norm_num
      rw [e18] at this
      have hb' : Real.tan c.sweep_le_rad ≤ √(m' ^ 2 - 1) := by
        apply Real.le_sqrt_of_sq_le
        have e : Real.tan c.sweep_le_rad ^ 2 = 1 / Real.cos c.sweep_le_rad ^ 2 - 1 := by
          rw [Real.tan_eq_sin_div_cos, div_pow, Real.sin_sq]; field_simp
        rw [e, sub_le_sub_iff_right, div_le_iff₀ (by positivity), ← mul_pow]
        nlinarith
      calc 4 / √(m' ^ 2 - 1) ≤ 4 / Real.tan c.sweep_le_rad := div_le_div_of_nonneg_left (by norm_num) ht hb'
        _ ≤ 2 * Real.pi ^ 2 / Real.tan c.sweep_le_rad / (Real.pi + 1.78) := by
          rw [le_div_iff₀ (by positivity), div_mul_eq_mul_div]
          apply div_le_div_of_nonneg_right _ ht.le
          have hp := Real.pi_gt_d4
          norm_num at hp ⊢
          nlinarith
        _ ≤ _ := by
          apply div_le_div_of_nonneg_left (by positivity) (by linarith) (by linarith)
  · push Not at k
    rw [d2 hpos k, e2 hpos (lt_of_lt_of_le k (mul_le_mul_of_nonneg_right h hc.le))]
    exact sup

/-- The supersonic lift slope falls with the Mach number, as long as the aspect ratio times √(M² - 1) is at least one. -/
theorem C109_falls {c : Concept} (hL : |c.sweep_le_rad| < Real.pi / 2) (har : 0 < pyNum c.aspectratio) {m m' : ℝ} (h1 : 1 < m) (h : m < m')
    (hb1 : 1 ≤ pyNum c.aspectratio * √(m ^ 2 - 1)) : a_supersonic c m' < a_supersonic c m := by
  have hb : 0 < √(m ^ 2 - 1) := Real.sqrt_pos.mpr (by nlinarith)
  have hbb : √(m ^ 2 - 1) < √(m' ^ 2 - 1) := Real.sqrt_lt_sqrt (by nlinarith) (by nlinarith)
  obtain ⟨r, hr⟩ : ∃ r, r = pyNum c.aspectratio := ⟨_, rfl⟩
  obtain ⟨b, hbe⟩ : ∃ r, r = √(m ^ 2 - 1) := ⟨_, rfl⟩
  obtain ⟨b', hbe'⟩ : ∃ r, r = √(m' ^ 2 - 1) := ⟨_, rfl⟩
  obtain ⟨s1, s2⟩ := C109_supersonic c m
  obtain ⟨t1, t2⟩ := C109_supersonic c m'
  rw [← hr] at har hb1 s1 s2 t1 t2
  rw [← hbe] at hb hbb hb1 s1 s2
  rw [← hbe'] at hbb t1 t2
  have hb' : 0 < b' := hb.trans hbb
  have core : ∀ k, 1 / 4 ≤ k → k ≤ 1 / 4 → 4 / b' * (1 - k / (r * b')) < 4 / b * (1 - k / (r * b)) := by
    intro k hk hk'
    have e : ∀ x : ℝ, 0 < x → 4 / x * (1 - k / (r * x)) = 4 * (x⁻¹ - k / r * x⁻¹ ^ 2) := fun x hx => by field_simp
    rw [e b hb, e b' hb']
    have hi : b'⁻¹ < b⁻¹ := inv_strictAnti₀ hb hbb
    have hi0 : 0 < b'⁻¹ := inv_pos.mpr hb'
    have hir : b⁻¹ ≤ r := by rw [inv_le_iff_one_le_mul₀ hb]; exact hb1
    have hkr : k / r * (b⁻¹ + b'⁻¹) < 1 := by
      rw [div_mul_eq_mul_div, div_lt_one har]; nlinarith
    nlinarith [mul_pos (sub_pos.mpr hi) (sub_pos.mpr hkr)]
  by_cases hz : c.sweep_le_rad = 0
  · rw [s1 hz, t1 hz]
    have := core (1 / 4) le_rfl le_rfl
    rw [show 1 / (4 * r * b) = 1 / 4 / (r * b) by rw [div_div, mul_assoc], show 1 / (4 * r * b') = 1 / 4 / (r * b') by rw [div_div, mul_assoc]]
    exact this
  · rw [s2 hz, t2 hz]
    have := core (1 / 4) le_rfl le_rfl
    have e1 : 4 / b * (2 - 1 / (2 * r * b)) = 2 * (4 / b * (1 - 1 / 4 / (r * b))) := by
      rw [show 1 / (2 * r * b) = 2 * (1 / 4 / (r * b)) by rw [div_div, ← mul_assoc]; field_simp; norm_num]; ring
    have e2 : 4 / b' * (2 - 1 / (2 * r * b')) = 2 * (4 / b' * (1 - 1 / 4 / (r * b'))) := by
      rw [show 1 / (2 * r * b') = 2 * (1 / 4 / (r * b')) by rw [div_div, ← mul_assoc]; field_simp; norm_num]; ring
    rw [e1, e2]
    have := delta_antitone hL hz h1 h.le
    linarith

/-- A wing swept by 60 degrees, at Mach 1.5: the leading edge is subsonic. -/
example : ∃ c : Concept, 0 < c.sweep_le_rad ∧ c.sweep_le_rad < Real.pi / 2 ∧ (1.5 : ℝ) * Real.cos c.sweep_le_rad ≤ 1 ∧
    aSup2 c 1.5 = 2 * Real.pi ^ 2 / Real.tan c.sweep_le_rad / (Real.pi + deltaFactor (√(1.5 ^ 2 - 1) / Real.tan c.sweep_le_rad)) := by
  have hp := Real.pi_pos
  have e : Concept.sweep_le_rad { exC with sweep_le_deg := some 60 } = Real.pi / 3 := by
    show 60 * (Real.pi / 180) = Real.pi / 3; ring
  have h0 : 0 < Concept.sweep_le_rad { exC with sweep_le_deg := some 60 } := by rw [e]; positivity
  have h1 : Concept.sweep_le_rad { exC with sweep_le_deg := some 60 } < Real.pi / 2 := by rw [e]; linarith
  have h2 : (1.5 : ℝ) * Real.cos (Concept.sweep_le_rad { exC with sweep_le_deg := some 60 }) ≤ 1 := by
    rw [e, Real.cos_pi_div_three]; norm_num
  exact ⟨{ exC with sweep_le_deg := some 60 }, h0, h1, h2, (C109_delta (by norm_num) (by rw [abs_of_pos h0]; exact h1)).1 h0 h2⟩

example : a_supersonic exC 2 < a_supersonic exC 1.5 := by
  refine C109_falls exC_isWing.le exC_isWing.ar (by norm_num) (by norm_num) ?_
  have : (1:ℝ) ≤ √(1.5 ^ 2 - 1) := Real.one_le_sqrt.mpr (by norm_num)
  norm_num [exC, pyNum] at this ⊢
  linarith

/-! ### The Mach number of the transonic peak -/

theorem tc13 : (0.3684 : ℝ) ≤ (0.05 : ℝ) ^ ((1 : ℝ) / 3) ∧ (0.05 : ℝ) ^ ((1 : ℝ) / 3) ≤ 0.3685 := by
  have h : ((0.05 : ℝ) ^ ((1 : ℝ) / 3)) ^ 3 = 0.05 := by
    rw [← Real.rpow_natCast, ← Real.rpow_mul (by norm_num)]
    rw [show ((1:ℝ) / 3 * ((3:ℕ):ℝ)) = 1 by norm_num, Real.rpow_one]
  have h0 : (0:ℝ) ≤ (0.05 : ℝ) ^ ((1 : ℝ) / 3) := Real.rpow_nonneg (by norm_num) _
  generalize (0.05 : ℝ) ^ ((1 : ℝ) / 3) = x at h h0
  constructor
  · by_contra hc
    push Not at hc
    have : x ^ 3 < 0.3684 ^ 3 := pow_lt_pow_left₀ hc h0 (by norm_num)
    rw [h] at this; norm_num at this
  · by_contra hc
    push Not at hc
    have : (0.3685 : ℝ) ^ 3 < x ^ 3 := pow_lt_pow_left₀ hc (by norm_num) (by norm_num)
    rw [h] at this; norm_num at this

theorem tc23 : (0.1357 : ℝ) ≤ (0.05 : ℝ) ^ ((2 : ℝ) / 3) ∧ (0.05 : ℝ) ^ ((2 : ℝ) / 3) ≤ 0.1358 := by
  have h : ((0.05 : ℝ) ^ ((2 : ℝ) / 3)) ^ 3 = 0.05 ^ 2 := by
    rw [← Real.rpow_natCast, ← Real.rpow_mul (by norm_num)]
    rw [show ((2:ℝ) / 3 * ((3:ℕ):ℝ)) = ((2:ℕ):ℝ) by norm_num, Real.rpow_natCast]
  have h0 : (0:ℝ) ≤ (0.05 : ℝ) ^ ((2 : ℝ) / 3) := Real.rpow_nonneg (by norm_num) _
  generalize (0.05 : ℝ) ^ ((2 : ℝ) / 3) = x at h h0
  constructor
  · by_contra hc
    push Not at hc
    have : x ^ 3 < 0.1357 ^ 3 := pow_lt_pow_left₀ hc h0 (by norm_num)
    rw [h] at this; norm_num at this
  · by_contra hc
    push Not at hc
    have : (0.1358 : ℝ) ^ 3 < x ^ 3 := pow_lt_pow_left₀ hc (by norm_num) (by norm_num)
    rw [h] at this; norm_num at this

/-- The fitted speed parameter (M² - 1) / (t/c)^(2/3) of NACA report 1253, as a function of A (t/c)^(1/3). -/
def speedParam (x : ℝ) : ℝ := 3.2784414 * x ^ 2 - 9.73119668 * x + 6.0546588

theorem speedParam_lower (x : ℝ) : -1.17 ≤ speedParam x := by
  unfold speedParam
  norm_num
  nlinarith [sq_nonneg (x - 9.73119668 / (2 * 3.2784414))]

theorem machfit_sq (x : ℝ) : 0.9 < machfit x ∧ machfit x ^ 2 = 1 + 0.05 ^ ((2 : ℝ) / 3) * speedParam x := by
  have e : machfit x = √(1 + 0.05 ^ ((2 : ℝ) / 3) * speedParam x) := by
    unfold machfit speedParam
    rw [Real.sqrt_eq_rpow, show (0.5 : ℝ) = 1 / 2 by norm_num]
    congr 1
    ring
  have h := speedParam_lower x
  have t := tc23
  have p : (0.81 : ℝ) < 1 + 0.05 ^ ((2 : ℝ) / 3) * speedParam x := by
    generalize (0.05 : ℝ) ^ ((2 : ℝ) / 3) = y at t
    norm_num at t h ⊢
    nlinarith
  rw [e]
  refine ⟨?_, Real.sq_sqrt (by linarith)⟩
  rw [Real.lt_sqrt (by norm_num)]
  norm_num at p ⊢
  exact p

theorem xfit_mem {x : ℝ} (h : x ∈ xfitdata) : 0 ≤ x ∧ x ≤ 1.5 := by
  unfold xfitdata at h
  obtain ⟨i, hi, rfl⟩ := List.mem_map.mp h
  have hi' : (i:ℝ) ≤ 199 := by
    have := List.mem_range.mp hi
    have : i ≤ 199 := by omega
    exact_mod_cast this
  norm_num
  constructor
  · positivity
  · linarith

theorem xfit_len : xfitdata.length = 200 := by unfold xfitdata; simp

theorem xfit_get (i : ℕ) (h : i < xfitdata.length) : xfitdata[i] = 1.5 * (i : ℝ) / 199 := by
  simp only [xfitdata, List.getElem_map, List.getElem_range]

/-- The 200 tabulated values of the parameter, evenly spaced from 0 to 1.5. -/
def Grid (x : ℝ) : Prop := ∃ i : ℕ, i ≤ 199 ∧ x = 1.5 * (i : ℝ) / 199

theorem grid_iff (x : ℝ) : x ∈ xfitdata ↔ Grid x := by
  unfold xfitdata Grid
  rw [List.mem_map]
  constructor
  · rintro ⟨i, hi, rfl⟩; exact ⟨i, by have := List.mem_range.mp hi; omega, rfl⟩
  · rintro ⟨i, hi, rfl⟩; exact ⟨i, List.mem_range.mpr (by omega), rfl⟩

/-- Up to the aspect ratio at which A (t/c)^(1/3) is 1.5 for wings of 5 per cent thickness, the peak is where the fit has it at
the next of the 200 tabulated values of that parameter. -/
theorem C109_peak {ar : ℝ} (h0 : 0 ≤ ar) (h : ar * 0.05 ^ ((1 : ℝ) / 3) ≤ 1.5) :
    ∃ x, Grid x ∧ ar * 0.05 ^ ((1 : ℝ) / 3) ≤ x ∧ x < ar * 0.05 ^ ((1 : ℝ) / 3) + 1.5 / 199 ∧
      (∀ y, Grid y → ar * 0.05 ^ ((1 : ℝ) / 3) ≤ y → x ≤ y) ∧
      0 < slopepeak_mach ar ∧ slopepeak_mach ar ^ 2 = 1 + 0.05 ^ ((2 : ℝ) / 3) * speedParam x := by
  have t := tc13
  obtain ⟨s, hs⟩ : ∃ s, s = (0.05 : ℝ) ^ ((1 : ℝ) / 3) := ⟨_, rfl⟩
  rw [← hs] at t h ⊢
  have sp : 0 < s := by norm_num at t; linarith
  have iff : ∀ x, decide (arfit x ≥ ar) = true ↔ ar * s ≤ x := by
    intro x
    rw [decide_eq_true_iff]
    unfold arfit
    rw [← hs, ge_iff_le, le_div_iff₀ sp]
  cases hf : xfitdata.find? (fun x => decide (arfit x ≥ ar)) with
  | none =>
    exfalso
    rw [List.find?_eq_none] at hf
    have hm : xfitdata[199]'(by rw [xfit_len]; norm_num) ∈ xfitdata := List.getElem_mem _
    have := hf _ hm
    rw [iff, xfit_get] at this
    norm_num at this h
    linarith
  | some x =>
    have hsp : slopepeak_mach ar = machfit x := by unfold slopepeak_mach; rw [hf]
    rw [List.find?_eq_some_iff_getElem] at hf
    obtain ⟨hx, i, hi, rfl, hj⟩ := hf
    have hx' := (iff _).mp hx
    refine ⟨_, (grid_iff _).mp (List.getElem_mem hi), hx', ?_, ?_, ?_, ?_⟩
    · rw [xfit_get]
      rcases Nat.eq_zero_or_pos i with h1 | h1
      · subst h1
        have : 0 ≤ ar * s := by positivity
        norm_num
        linarith
      · have hj' := hj (i - 1) (by omega)
        have hn : ¬ ar * s ≤ xfitdata[i - 1]'(by omega) := by
          intro hle
          rw [(iff _).mpr hle] at hj'
          simp at hj'
        rw [xfit_get] at hn
        push Not at hn
        have : ((i - 1 : ℕ) : ℝ) = (i : ℝ) - 1 := by rw [Nat.cast_sub h1]; norm_num
        rw [this] at hn
        norm_num at hn ⊢
        linarith
    · intro y hy hle
      rw [← grid_iff] at hy
      obtain ⟨k, hk, rfl⟩ := List.getElem_of_mem hy
      by_contra hc
      push Not at hc
      rw [xfit_get, xfit_get] at hc
      have : k < i := by
        have h3 : (k:ℝ) < i := by norm_num at hc; linarith
        exact_mod_cast h3
      have hj' := hj k this
      rw [(iff _).mpr hle] at hj'
      simp at hj'
    · rw [hsp]; linarith [(machfit_sq (xfitdata[i])).1]
    · rw [hsp]; exact (machfit_sq _).2

example : ∃ x : ℝ, Grid x ∧ 2 * (0.05 : ℝ) ^ ((1 : ℝ) / 3) ≤ x := by
  obtain ⟨x, h, h1, -⟩ := C109_peak (ar := 2) (by norm_num) (by
    have : (0.05:ℝ) ^ ((1:ℝ) / 3) ≤ 0.75 := by
      have h3 : ((0.05:ℝ) ^ ((1:ℝ) / 3)) ^ 3 = 0.05 := by
        rw [← Real.rpow_natCast, ← Real.rpow_mul (by norm_num)]; simp
      refine le_of_pow_le_pow_left₀ (n := 3) (by norm_num) (by norm_num) ?_
      rw [h3]; norm_num
    linarith)
  exact ⟨x, h, h1⟩

/-- Beyond that aspect ratio the peak is at the least Mach number of the fit. -/
theorem C109_peak_beyond {ar : ℝ} (h : 1.5 < ar * 0.05 ^ ((1 : ℝ) / 3)) :
    ∃ x, Grid x ∧ 0 < slopepeak_mach ar ∧ slopepeak_mach ar ^ 2 = 1 + 0.05 ^ ((2 : ℝ) / 3) * speedParam x ∧
      ∀ y, Grid y → speedParam x ≤ speedParam y := by
  have t := tc13
  have t2 := tc23
  have sp : (0:ℝ) < (0.05 : ℝ) ^ ((1 : ℝ) / 3) := by norm_num at t ⊢; linarith
  have hf : xfitdata.find? (fun x => decide (arfit x ≥ ar)) = none := by
    rw [List.find?_eq_none]
    intro x hx
    rw [decide_eq_true_iff]
    unfold arfit
    rw [ge_iff_le, le_div_iff₀ sp]
    push Not
    linarith [(xfit_mem hx).2]
  have hsp : slopepeak_mach ar = ((xfitdata.map machfit).min?).getD 0 := by unfold slopepeak_mach; rw [hf]
  cases hm : (xfitdata.map machfit).min? with
  | none =>
    rw [List.min?_eq_none_iff] at hm
    have := congrArg List.length hm
    rw [List.length_map, xfit_len] at this
    simp at this
  | some z =>
    rw [hsp, hm, Option.getD_some]
    rw [List.min?_eq_some_iff] at hm
    obtain ⟨hz, hle⟩ := hm
    obtain ⟨x, hx, rfl⟩ := List.mem_map.mp hz
    have := machfit_sq x
    refine ⟨x, (grid_iff x).mp hx, by linarith, this.2, fun y hy => ?_⟩
    rw [← grid_iff] at hy
    have l := hle _ (List.mem_map_of_mem hy)
    have ly := machfit_sq y
    have l2 : machfit x ^ 2 ≤ machfit y ^ 2 := by nlinarith
    rw [this.2, ly.2] at l2
    have tp : (0:ℝ) < (0.05 : ℝ) ^ ((2 : ℝ) / 3) := by norm_num at t2 ⊢; linarith
    exact le_of_mul_le_mul_left (by linarith) tp

/-- Where the peak is: between Mach 0.9 and 1.36 for any wing, below Mach 1.31 from aspect ratio 1/4, below Mach 1.24 from
aspect ratio one. -/
theorem C109_peak_range {ar : ℝ} (h0 : 0 ≤ ar) :
    0.9 < slopepeak_mach ar ∧ slopepeak_mach ar < 1.36 ∧ (1 / 4 ≤ ar → slopepeak_mach ar < 1.31) ∧ (1 ≤ ar → slopepeak_mach ar < 1.24) := by
  have t := tc13
  have t2 := tc23
  by_cases h : ar * 0.05 ^ ((1 : ℝ) / 3) ≤ 1.5
  · obtain ⟨x, hx, h1, h2, -, hp, hsq⟩ := C109_peak h0 h
    have hxm := xfit_mem ((grid_iff x).mpr hx)
    have lo := speedParam_lower x
    generalize (0.05 : ℝ) ^ ((2 : ℝ) / 3) = y at *
    generalize (0.05 : ℝ) ^ ((1 : ℝ) / 3) = s at *
    generalize slopepeak_mach ar = p at *
    unfold speedParam at hsq lo
    norm_num at *
    refine ⟨?_, ?_, fun ha => ?_, fun ha => ?_⟩
    · nlinarith
    · have : p ^ 2 < (34 / 25) ^ 2 := by rw [hsq]; nlinarith
      exact lt_of_pow_lt_pow_left₀ 2 (by norm_num) this
    · have hx9 : 0.092 ≤ x := by norm_num; nlinarith
      have : p ^ 2 < (131 / 100) ^ 2 := by rw [hsq]; norm_num at hx9; nlinarith
      exact lt_of_pow_lt_pow_left₀ 2 (by norm_num) this
    · have hx9 : 0.368 ≤ x := by norm_num; nlinarith
      have : p ^ 2 < (31 / 25) ^ 2 := by rw [hsq]; norm_num at hx9; nlinarith
      exact lt_of_pow_lt_pow_left₀ 2 (by norm_num) this
  · push Not at h
    obtain ⟨x, hx, hp, hsq, hmin⟩ := C109_peak_beyond h
    have lo := speedParam_lower x
    have hm := hmin _ ⟨199, le_rfl, rfl⟩
    have e : speedParam (1.5 * ((199:ℕ) : ℝ) / 199) ≤ 0 := by unfold speedParam; norm_num
    have hs0 : speedParam x ≤ 0 := hm.trans e
    have lt1 : slopepeak_mach ar ≤ 1 := by
      generalize (0.05 : ℝ) ^ ((2 : ℝ) / 3) = y at *
      norm_num at t2
      have : slopepeak_mach ar ^ 2 ≤ 1 ^ 2 := by rw [hsq]; nlinarith
      exact le_of_sq_le_sq this (by norm_num)
    refine ⟨?_, ?_, fun _ => ?_, fun _ => ?_⟩
    · generalize (0.05 : ℝ) ^ ((2 : ℝ) / 3) = y at *
      norm_num at t2 lo ⊢
      nlinarith
    all_goals norm_num; linarith

/-- Up to aspect ratio 4 a longer wing has its peak at a lower Mach number, or the same. -/
theorem C109_peak_falls {ar ar' : ℝ} (h0 : 0 ≤ ar) (h : ar ≤ ar') (h4 : ar' ≤ 4) : slopepeak_mach ar' ≤ slopepeak_mach ar := by
  have t := tc13
  have t2 := tc23
  have l4 : ar' * 0.05 ^ ((1 : ℝ) / 3) ≤ 1.4741 := by
    generalize (0.05 : ℝ) ^ ((1 : ℝ) / 3) = s at *
    norm_num at *
    nlinarith
  have lle : ar * 0.05 ^ ((1 : ℝ) / 3) ≤ ar' * 0.05 ^ ((1 : ℝ) / 3) := mul_le_mul_of_nonneg_right h (by norm_num at t ⊢; linarith)
  obtain ⟨x, hx, h1, h2, hl, hp, hsq⟩ := C109_peak h0 (by norm_num at l4 ⊢; linarith)
  obtain ⟨x', hx', h1', h2', hl', hp', hsq'⟩ := C109_peak (h0.trans h) (by norm_num at l4 ⊢; linarith)
  have hxx : x ≤ x' := hl x' hx' (lle.trans h1')
  have hb : x' ≤ 1.482 := by norm_num at *; linarith
  have hd : speedParam x' ≤ speedParam x := by
    unfold speedParam
    norm_num at *
    nlinarith
  have : slopepeak_mach ar' ^ 2 ≤ slopepeak_mach ar ^ 2 := by
    rw [hsq, hsq']
    generalize (0.05 : ℝ) ^ ((2 : ℝ) / 3) = y at *
    norm_num at t2
    nlinarith
  exact le_of_sq_le_sq this hp.le

/-- An interpolant passes through its points when the abscissae increase. -/
def Interpolates (X : Ext) : Prop :=
  ∀ (xs ys : List ℝ) (i : ℕ) (hx : i < xs.length) (hy : i < ys.length), xs.length = ys.length → xs.Pairwise (· < ·) → X.cubic xs ys xs[i] = ys[i]

/-- The lift slope 0.06 in Mach number either side of the peak is 95 per cent of the slender wing value half π times the aspect ratio, for
any interpolant and all wings of aspect ratio one or more; so is the transonic estimate from aspect ratio 1/4. -/
theorem C109_sonic {X : Ext} (hX : Interpolates X) (c : Concept) (h : 1 / 4 ≤ pyNum c.aspectratio) :
    (∀ m, m = slopepeak_mach (pyNum c.aspectratio) - 0.06 ∨ m = slopepeak_mach (pyNum c.aspectratio) + 0.06 →
      a_transonic X c m = .ok (0.95 * (Real.pi / 2 * pyNum c.aspectratio)) ∧
      (1 ≤ pyNum c.aspectratio → liftslope_prad X c (some m) = .ok (0.95 * (Real.pi / 2 * pyNum c.aspectratio)))) ∧
    a_transonic X c 0.6 = a_subsonic c 0.6 ∧ a_transonic X c 1.4 = .ok (a_supersonic c 1.4) := by
  obtain ⟨p1, p2, p3, p4⟩ := C109_peak_range (show 0 ≤ pyNum c.aspectratio by linarith)
  have p3 := p3 h
  obtain ⟨y0, _, hy0, -, -⟩ := C71_estimates X c (some 0.6)
  obtain ⟨y1, _, hy1, -, -⟩ := C71_estimates X c (some (0.6 + 3e-2))
  rw [Option.getD_some] at hy0 hy1
  obtain ⟨pk, hpk⟩ : ∃ pk, pk = slopepeak_mach (pyNum c.aspectratio) := ⟨_, rfl⟩
  rw [← hpk] at p1 p3 p4 ⊢
  obtain ⟨xs, hxs⟩ : ∃ xs : List ℝ, xs = [0.6, 0.6 + 3e-2, pk - 2 * 3e-2, pk + 2 * 3e-2, 1.4 - 3e-2, 1.4] := ⟨_, rfl⟩
  obtain ⟨ys, hys⟩ : ∃ ys : List ℝ, ys = [y0, y1, 0.95 * (Real.pi / 2 * pyNum c.aspectratio), 0.95 * (Real.pi / 2 * pyNum c.aspectratio),
    a_supersonic c (1.4 - 3e-2), a_supersonic c 1.4] := ⟨_, rfl⟩
  have tr : ∀ m, a_transonic X c m = .ok (X.cubic xs ys m) := by
    intro m
    unfold a_transonic
    dsimp only
    rw [hy0, hy1, hxs, hys, hpk]
    rfl
  have inc : xs.Pairwise (· < ·) := by
    rw [hxs]
    norm_num at p1 p3 ⊢
    refine ⟨⟨?_, ?_⟩, ⟨?_, ?_⟩, ⟨?_, ?_, ?_⟩, ?_, ?_⟩ <;> linarith
  have len : xs.length = ys.length := by rw [hxs, hys]; rfl
  have at_ := fun i hx hy => hX xs ys i hx hy len inc
  have a2 : ∀ m, m = pk - 0.06 ∨ m = pk + 0.06 → X.cubic xs ys m = 0.95 * (Real.pi / 2 * pyNum c.aspectratio) := by
    rintro m (rfl | rfl)
    · have := at_ 2 (by rw [hxs]; simp) (by rw [hys]; simp)
      rw [show xs[2]'(by rw [hxs]; simp) = pk - 0.06 by simp only [hxs, List.getElem_cons_succ, List.getElem_cons_zero]; norm_num] at this
      rw [this]
      simp only [hys, List.getElem_cons_succ, List.getElem_cons_zero]
    · have := at_ 3 (by rw [hxs]; simp) (by rw [hys]; simp)
      rw [show xs[3]'(by rw [hxs]; simp) = pk + 0.06 by simp only [hxs, List.getElem_cons_succ, List.getElem_cons_zero]; norm_num] at this
      rw [this]
      simp only [hys, List.getElem_cons_succ, List.getElem_cons_zero]
  refine ⟨fun m hm => ⟨by rw [tr, a2 m hm], fun h1 => ?_⟩, ?_, ?_⟩
  · obtain ⟨sub, trans, e1, e2, e3⟩ := C71_estimates X c (some m)
    rw [Option.getD_some] at e1 e2 e3
    rw [tr, a2 m hm] at e2
    rw [e3, ← Except.ok.inj e2]
    have p4 := p4 h1
    congr 1
    refine (C71_ranges m _ _ _).2.2.1 ?_ ?_
    · rcases hm with rfl | rfl <;> norm_num at p1 ⊢ <;> linarith
    · rcases hm with rfl | rfl <;> norm_num at p4 ⊢ <;> linarith
  · rw [tr, hy0]
    have := at_ 0 (by rw [hxs]; simp) (by rw [hys]; simp)
    simp only [hxs, hys, List.getElem_cons_zero] at this ⊢
    rw [this]
  · rw [tr]
    have := at_ 5 (by rw [hxs]; simp) (by rw [hys]; simp)
    simp only [hxs, hys, List.getElem_cons_succ, List.getElem_cons_zero] at this ⊢
    rw [this]

/-- Some function that passes through the points. -/
def exInterp : Ext where
  cubic xs ys x := (((xs.zip ys).find? (fun p => decide (p.1 = x))).map Prod.snd).getD 0
  turboprop _ _ := 1

theorem exInterp_interpolates : Interpolates exInterp := by
  intro xs ys i hx hy len inc
  have : (xs.zip ys).find? (fun p => decide (p.1 = xs[i])) = some (xs[i], ys[i]) := by
    rw [List.find?_eq_some_iff_getElem]
    refine ⟨by simp, i, by simp [← len]; exact hx, by simp, fun j hj => ?_⟩
    have := (List.pairwise_iff_getElem.mp inc) j i (by omega) hx hj
    simp [this.ne]
  unfold exInterp
  simp only [this, Option.map_some, Option.getD_some]

/-- The lift slope of the example wing near its peak. -/
example : liftslope_prad exInterp exC (some (slopepeak_mach (pyNum exC.aspectratio) - 0.06)) = .ok (0.95 * (Real.pi / 2 * pyNum exC.aspectratio)) :=
  ((C109_sonic exInterp_interpolates exC (by norm_num [exC, pyNum])).1 _ (Or.inl rfl)).2 (by norm_num [exC, pyNum])

/-- Aspect ratios of two and four, and one beyond the fit. -/
example : slopepeak_mach 4 ≤ slopepeak_mach 2 ∧ slopepeak_mach 10 < 1.24 :=
  ⟨C109_peak_falls (by norm_num) (by norm_num) le_rfl, (C109_peak_range (by norm_num)).2.2.2 (by norm_num)⟩

end

end Verif.Props
