import Verif.Props.Continuity
import Verif.Props.SeaLevelMap
import Verif.Props.SuperSlope
import Mathlib.Topology.Order.IntermediateValue

/-
Property C136, second part: where the results do jump, and where branches meet without a jump.
-/

namespace Verif.Props
open Verif Verif.Aircraft Verif.Units Verif.Spec Verif.Atmos

noncomputable section

/-! ### Bypass ratio -/

/-- The take-off requirement in dependence of the bypass ratio: as good as no jump except at 1, where it rises by
one ninth at once. -/
theorem C136_static_violated (X : Ext) (c : Concept) {g d w : ℝ} (hg : c.groundrun_m = some g)
    (hd : dens1 c.designatm (pyNum c.rwyelevation_m) = .ok d) :
    ∃ r l a, (∀ b, b ≤ 1 → twrequired_to X { c with bpr := some b } (.scalar w) false = .ok (.scalar r, .scalar l, .scalar a)) ∧
      ∀ b, 1 < b → ∃ s, twrequired_to X { c with bpr := some b } (.scalar w) false = .ok (.scalar s, .scalar l, .scalar a) ∧
        s = r * ((4 / 3) * (4 + b) / (5 + b)) ∧ (0 < r → 10 / 9 * r < s) := by
  have key : ∀ b, twrequired_to X { c with bpr := some b } (.scalar w) false =
      .ok (.scalar ((if b > 1 then (4 / 3) * (4 + b) / (5 + b) else 1) * takeoffPoint g (pyNum c.cdto) (pyNum c.clto) (pyNum c.mu_r)
        (liftoffPoint d (pyNum c.clmaxto) w)), .scalar (liftoffPoint d (pyNum c.clmaxto) w),
        .scalar (liftoffPoint d (pyNum c.clmaxto) w / √2)) := by
    intro b
    unfold twrequired_to thrusttoweight_takeoff
    simp only [hg, need, bind_ok, hd]
    rfl
  refine ⟨_, _, _, fun b hb => by rw [key b, if_neg (not_lt.mpr hb)], fun b hb => ⟨_, by rw [key b, if_pos hb], ?_, ?_⟩⟩
  · ring
  · intro hr
    have : 10 / 9 < (4 / 3) * (4 + b) / (5 + b) := by
      rw [lt_div_iff₀ (by linarith)]; linarith
    rw [one_mul] at hr ⊢
    nlinarith

example (X : Ext) : ∃ r l a, (∀ b, b ≤ 1 → twrequired_to X { exC with bpr := some b } (.scalar 1000) false =
      .ok (.scalar r, .scalar l, .scalar a)) ∧
    ∀ b, 1 < b → ∃ s, twrequired_to X { exC with bpr := some b } (.scalar 1000) false = .ok (.scalar s, .scalar l, .scalar a) ∧
      s = r * ((4 / 3) * (4 + b) / (5 + b)) ∧ (0 < r → 10 / 9 * r < s) :=
  C136_static_violated X exC (g := 400) (d := 1) rfl (exAtm_dens 0 (by norm_num) (by norm_num))

/-- The generic jet engine below its throttle break, by bypass ratio. -/
theorem jet_below_break (c : Concept) (b t p M : ℝ) (hb : 0 ≤ b) (hth : tempratio t M ≤ pyNum c.throttle_r) :
    jetFactor { c with bpr := some b } t p M = .ok (pressratio p M *
      (if b = 0 then 0.8 * (1 - 0.16 * √M) else if b < 5 then 1 else 1 - 0.49 * √M)) := by
  unfold jetFactor
  simp only [pyNum, Option.getD_some] at hth ⊢
  by_cases h0 : b = 0
  · simp only [h0, if_true, turbojetthrustfactor, if_pos hth, Bool.false_eq_true, if_false]
    congr 1; ring
  · have hp : 0 < b := lt_of_le_of_ne hb (Ne.symm h0)
    by_cases h5 : b < 5
    · simp only [h0, if_false, hp, h5, and_self, if_true, turbofanthrustfactor, if_pos hth,
        show ("lowbpr" : String) ≠ "highbpr" by decide, mul_one]
    · simp only [h0, if_false, hp, h5, and_false, not_lt.mp h5, if_true, turbofanthrustfactor, if_pos hth]

/-- The cruise requirement of a generic jet, mapped to sea level, jumps at the bypass ratios 0 and 5: above 0 it is
smaller by the factor `0.8 (1 - 0.16 √M)` than for the turbojet, and at 5 it becomes larger by the factor
`1 / (1 - 0.49 √M)`. -/
theorem C136_bypass_violated (X : Ext) (c : Concept) (off s alt m w : ℝ) (ha : c.designatm = .isa off) (ho : -100 ≤ off)
    (hp : c.propulsion = .str "jet") (hs : c.cruisespeed_ktas = some s) (hc : c.cruisealt_m = some alt) (hA : alt ≤ 50000)
    (hm : mach1 c.designatm (kts2mps s) alt = .ok m) (hM : m ≤ 4)
    (hth : tempratio (isatemp off alt - 273.15) m ≤ pyNum c.throttle_r) :
    ∃ r, (∀ b, 0 < b → b < 5 → twrequired_crs X { c with bpr := some b } (.scalar w) true = .ok (.scalar r)) ∧
      twrequired_crs X { c with bpr := some 0 } (.scalar w) true = .ok (.scalar (r / (0.8 * (1 - 0.16 * √m)))) ∧
      ∀ b, 5 ≤ b → twrequired_crs X { c with bpr := some b } (.scalar w) true = .ok (.scalar (r / (1 - 0.49 * √m))) := by
  obtain ⟨t0, r0, hj0, hf0, -⟩ := C119_cruise X { c with bpr := some 1 } off s alt m w ha ho hp (by norm_num [pyNum]) hs hc hA hm
  have same : ∀ b t r, 0 ≤ b → jetFactor { c with bpr := some b } (isatemp off alt - 273.15) (isapress alt) m = .ok t →
      twrequired_crs X { c with bpr := some b } (.scalar w) false = .ok (.scalar r) → r = r0 := by
    intro b t r hb _ hr
    have hE : EnvOK c.designatm alt := by rw [ha]; exact isa_env off alt ho hA
    have mk : ∀ b, 0 ≤ b → ∃ t q m K, CruiseIn X { c with bpr := some b } s alt t q m K := by
      intro b hb
      have hP : PropOK { c with bpr := some b } := by unfold PropOK; rw [show ({ c with bpr := some b } : Concept).propulsion = .str "jet" from hp]; exact fun _ => hb
      obtain ⟨t, p, hcor⟩ := corr_exists X hP hE (kts2mps s)
      obtain ⟨q, hq⟩ := hE.dyn (kts2mps s)
      obtain ⟨m', hm'⟩ := hE.mach (kts2mps s)
      obtain ⟨K, hK⟩ := KFun.exists X { c with bpr := some b } m' (fun alt' h' => by
        have h' : c.cruisealt_m = some alt' := h'
        rw [hc] at h'; cases h'; exact hE)
      exact ⟨t, q, m', K, hs, hc, ⟨p, hcor⟩, hq, hm', hK⟩
    obtain ⟨t1, q1, m1, K1, i1⟩ := mk b hb
    obtain ⟨t2, q2, m2, K2, i2⟩ := mk 1 (by norm_num)
    have eq : q1 = q2 := by have := i1.press.symm.trans i2.press; cases this; rfl
    have em : m1 = m2 := by have := i1.mach.symm.trans i2.mach; cases this; rfl
    subst eq em
    have eK : K1 = K2 := KFun.unique (X := X) (c := c) (m := m1) i1.drag i2.drag
    subst eK
    have e1 := i1.eval false (.scalar w)
    have e2 := i2.eval false (.scalar w)
    rw [hr] at e1
    rw [hf0] at e2
    injection e1 with e1
    injection e2 with e2
    have e1 : NumArg.scalar r = .scalar (cruiseReq c false t1 q1 K1 w) := e1
    have e2 : NumArg.scalar r0 = .scalar (cruiseReq c false t1 q1 K1 w) := e2
    injection e1 with e1
    injection e2 with e2
    rw [e1, e2]
  have key : ∀ b, 0 ≤ b → twrequired_crs X { c with bpr := some b } (.scalar w) true = .ok (.scalar (r0 / (pressratio (isapress alt) m *
      (if b = 0 then 0.8 * (1 - 0.16 * √m) else if b < 5 then 1 else 1 - 0.49 * √m)))) := by
    intro b hb
    obtain ⟨t, r, hj, hf, ht⟩ := C119_cruise X { c with bpr := some b } off s alt m w ha ho hp hb hs hc hA hm
    have er := same b t r hb hj hf
    rw [jet_below_break c b _ _ m hb hth] at hj
    cases hj
    rw [ht, er]
  refine ⟨r0 / pressratio (isapress alt) m, fun b h0 h5 => ?_, ?_, fun b h5 => ?_⟩
  · rw [key b h0.le, if_neg h0.ne', if_pos h5, mul_one]
  · rw [key 0 le_rfl, if_pos rfl, div_mul_eq_div_div]
  · rw [key b (by linarith), if_neg (by linarith), if_neg (not_lt.mpr h5), div_mul_eq_div_div]

/-! ### Mach number -/

theorem keMach_cont : Continuous keMach := by
  unfold keMach
  have : (fun m : ℝ => if m > 0.3 then -0.001521 * (((m / 0.3) - 1) ^ (10.82 : ℝ)) + 1 else 1) =
      fun m : ℝ => if m ≤ 0.3 then 1 else -0.001521 * (((m / 0.3) - 1) ^ (10.82 : ℝ)) + 1 := by
    funext m
    by_cases h : m ≤ 0.3
    · rw [if_pos h, if_neg (not_lt.mpr h)]
    · rw [if_neg h, if_pos (not_le.mp h)]
  rw [this]
  refine Continuous.if_le continuous_const ?_ continuous_id continuous_const ?_
  · exact ((((continuous_id.div_const _).sub continuous_const).rpow_const (fun _ => Or.inr (by norm_num))).const_mul _).add continuous_const
  · rintro m rfl
    rw [div_self (by norm_num), sub_self, Real.zero_rpow (by norm_num)]
    norm_num

/-- The fourth Oswald estimate has no jumps over the Mach number: neither at 0.3, where the compressibility
correction sets in, nor where the floor of 0.001 takes over. -/
theorem C136_oswald (c : Concept) : Continuous (fun m => oswaldspaneff4 c (some m)) := by
  have : (fun m => oswaldspaneff4 c (some m)) = fun m => max (1e-3)
      (1 / (1 + hoernerfactor (pyNum c.roottaperratio) (pyNum c.sweep_25_deg) * pyNum c.aspectratio) *
        (1 - 2 * ((0.114 : ℝ) ^ 2)) * 0.85 * keMach m) := by
    funext m
    unfold oswaldspaneff4
    simp only [Option.getD_some]
    split_ifs with h
    · exact (max_eq_left h.le).symm
    · exact (max_eq_right (not_lt.mp h)).symm
  rw [this]
  exact continuous_const.max (keMach_cont.const_mul _)

/-- The induced drag factor with full suction has no jumps over the Mach number as long as the one without suction
has none: neither at Mach 1 nor where the leading edge becomes sonic. -/
theorem C136_suction (ar ms : ℝ) (g : ℝ → ℝ) (hms : 1 < ms) (hg : Continuous g) :
    Continuous (fun m => k100 ar ms (g ms) (g m) m) := by
  have h1 : ms - 1 ≠ 0 := by linarith
  have : (fun m => k100 ar ms (g ms) (g m) m) = fun m =>
      if m ≤ 1 then 1 / (Real.pi * ar) else if m ≤ ms then k100parabola 1 (1 / (Real.pi * ar)) 0 ms (g ms) m else g m := by
    funext m
    unfold k100
    rcases lt_trichotomy m 1 with h | h | h
    · rw [if_pos h, if_pos h.le]
    · rw [if_neg (by linarith), if_pos (by linarith : m < ms), if_pos h.le, h]
      unfold k100parabola
      simp only []
      ring
    · rw [if_neg (by linarith), if_neg (by linarith : ¬ m ≤ 1)]
      rcases lt_trichotomy m ms with h' | h' | h'
      · rw [if_pos h', if_pos h'.le]
      · rw [if_neg (by linarith), if_pos h'.le, h']
        unfold k100parabola
        simp only []
        field_simp
        ring
      · rw [if_neg (by linarith), if_neg (by linarith : ¬ m ≤ ms)]
  rw [this]
  refine Continuous.if_le continuous_const ?_ continuous_id continuous_const ?_
  · refine Continuous.if_le ?_ hg continuous_id continuous_const ?_
    · unfold k100parabola; fun_prop
    · rintro m rfl
      unfold k100parabola
      simp only []
      field_simp
      ring
  · rintro m rfl
    rw [if_pos hms.le]
    unfold k100parabola
    simp only []
    ring

example : Continuous (fun m => k100 8 1.2 ((fun m => 0.1 + m) 1.2) ((fun m => 0.1 + m) m) m) :=
  C136_suction 8 1.2 (fun m => 0.1 + m) (by norm_num) (by fun_prop)

/-! ### Leading edge sweep -/

/-- A supersonic leading edge: the estimate of the unswept wing. -/
theorem sup2_supersonic {c : Concept} {m : ℝ} (hm : 1 < m) (h0 : Real.tan c.sweep_le_rad ≠ 0)
    (h1 : |Real.tan c.sweep_le_rad| < √(m ^ 2 - 1)) : aSup2 c m = 4 / √(m ^ 2 - 1) := by
  unfold aSup2
  simp only [if_neg (not_lt.mpr hm.le), tan_shock hm]
  rw [if_neg]
  rintro ⟨ha, hb⟩
  rcases lt_or_gt_of_ne h0 with h | h
  · have : √(m ^ 2 - 1) / Real.tan c.sweep_le_rad < 0 := div_neg_of_pos_of_neg (lt_of_le_of_lt (abs_nonneg _) h1) h
    linarith
  · rw [div_le_one h] at hb
    rw [abs_of_pos h] at h1
    linarith

/-- The supersonic lift slope jumps when the leading edge loses its last bit of sweep: two estimates are averaged
instead of three, two of which are then the same. -/
theorem C136_unswept_violated (c : Concept) (m : ℝ) (hm : 1 < m) (har : pyNum c.aspectratio ≠ 0) (x : ℝ)
    (h0 : Real.tan (deg2rad x) ≠ 0) (h1 : |Real.tan (deg2rad x)| < √(m ^ 2 - 1)) :
    a_supersonic { c with sweep_le_deg := some x } m =
      a_supersonic { c with sweep_le_deg := some 0 } m + 1 / (3 * pyNum c.aspectratio * (m ^ 2 - 1)) := by
  have hb : 0 < √(m ^ 2 - 1) := lt_of_le_of_lt (abs_nonneg _) h1
  have hb2 : √(m ^ 2 - 1) ^ 2 = m ^ 2 - 1 := Real.sq_sqrt (by nlinarith)
  have hx : ({ c with sweep_le_deg := some x } : Concept).sweep_le_rad = deg2rad x := rfl
  have hz : ({ c with sweep_le_deg := some 0 } : Concept).sweep_le_rad = 0 := by
    show deg2rad 0 = 0
    unfold deg2rad; ring
  have hne : deg2rad x ≠ 0 := by intro h; rw [h] at h0; simp at h0
  unfold a_supersonic
  simp only [hx, hz, ne_eq, hne, not_false_eq_true, if_true, not_true_eq_false, if_false,
    sup2_supersonic (c := { c with sweep_le_deg := some x }) hm (by rw [hx]; exact h0) (by rw [hx]; exact h1)]
  unfold aSup3 aSup4
  obtain ⟨β, hβ⟩ : ∃ β, β = √(m ^ 2 - 1) := ⟨_, rfl⟩
  rw [← hβ] at hb hb2
  simp only [← hβ]
  rw [← hb2]
  have hb' := hb.ne'
  simp only [List.nil_append, List.cons_append, List.sum_cons, List.sum_nil, List.length_cons, List.length_nil]
  push_cast
  field_simp
  ring

/-- The estimate for swept wings jumps where the leading edge becomes supersonic. -/
theorem C136_sonic_violated (c : Concept) (m : ℝ) (hm : 1 < m) (h : Real.tan c.sweep_le_rad = √(m ^ 2 - 1)) :
    4.01 / √(m ^ 2 - 1) < aSup2 c m ∧ ∀ m', m < m' → aSup2 c m' < 4 / √(m ^ 2 - 1) := by
  have hb : 0 < √(m ^ 2 - 1) := Real.sqrt_pos.mpr (by nlinarith)
  constructor
  · unfold aSup2
    simp only [if_neg (not_lt.mpr hm.le), tan_shock hm, h, div_self hb.ne']
    rw [if_pos ⟨zero_le_one, le_rfl⟩]
    have hp := Real.pi_gt_d6
    have hp0 := Real.pi_pos
    rw [show 2 * Real.pi ^ 2 * (1 / √(m ^ 2 - 1)) / (Real.pi + 1 * (0.38 + 2.26 * 1 - 0.86 * 1 ^ 2)) =
      (2 * Real.pi ^ 2 / (Real.pi + 1.78)) / √(m ^ 2 - 1) by
        rw [show (1 : ℝ) * (0.38 + 2.26 * 1 - 0.86 * 1 ^ 2) = 1.78 by norm_num]; field_simp]
    refine div_lt_div_of_pos_right ?_ hb
    rw [lt_div_iff₀ (by positivity)]
    norm_num at hp ⊢
    nlinarith
  · intro m' h'
    have hlt : √(m ^ 2 - 1) < √(m' ^ 2 - 1) := Real.sqrt_lt_sqrt (by nlinarith) (by nlinarith)
    rw [sup2_supersonic (by linarith) (by rw [h]; exact hb.ne') (by rw [h, abs_of_pos hb]; exact hlt)]
    exact div_lt_div_of_pos_left (by norm_num) hb hlt

/-! ### Aspect ratio -/

/-- The Mach number of the lift slope peak takes finitely many values only... -/
theorem peak_finite : (Set.range slopepeak_mach).Finite := by
  refine Set.Finite.subset (((xfitdata.map machfit).toFinset.finite_toSet).union
    (Set.finite_singleton (((xfitdata.map machfit).min?).getD 0))) ?_
  rintro _ ⟨a, rfl⟩
  unfold slopepeak_mach
  cases h : xfitdata.find? (fun x => decide (arfit x ≥ a)) with
  | none => right; simp
  | some x =>
    left
    have := List.mem_of_find?_eq_some h
    simp only [List.coe_toFinset, Set.mem_ofPred_eq, List.mem_map]
    exact ⟨x, this, rfl⟩

/-- ... so that it jumps somewhere between the aspect ratios 0 and 1. -/
theorem C136_peak_violated : ∃ ar, 0 ≤ ar ∧ ar ≤ 1 ∧ ¬ ContinuousAt slopepeak_mach ar := by
  by_contra hc
  push Not at hc
  have hcon : ContinuousOn slopepeak_mach (Set.Icc 0 1) := fun x hx => (hc x hx.1 hx.2).continuousWithinAt
  have h1 := (C109_peak_range (ar := 1) zero_le_one).2.2.2 le_rfl
  obtain ⟨x, hx, h0, -, hmin, hp, hsq⟩ := C109_peak (ar := 0) le_rfl (by norm_num)
  rw [zero_mul] at h0 hmin
  have hx0 : x = 0 := le_antisymm (hmin 0 ⟨0, by norm_num, by norm_num⟩ le_rfl) h0
  rw [hx0] at hsq
  have t := tc23
  generalize (0.05 : ℝ) ^ ((2 : ℝ) / 3) = y at t hsq
  unfold speedParam at hsq
  have hlt : slopepeak_mach 1 < slopepeak_mach 0 := by
    norm_num at t hsq h1
    nlinarith
  exact (Set.Icc_infinite hlt) ((peak_finite.subset (Set.image_subset_range _ _)).subset
    (intermediate_value_Icc' zero_le_one hcon))

/-! ### Cases -/

/-- A business jet at 450 knots and 10 km: the requirement jumps at the bypass ratio 5. -/
example (X : Ext) : ∃ m r, 0.7 ≤ m ∧ (∀ b, 0 < b → b < 5 →
      twrequired_crs X { slmJet 8 450 10000 with bpr := some b } (.scalar 6000) true = .ok (.scalar r)) ∧
    ∀ b, 5 ≤ b → twrequired_crs X { slmJet 8 450 10000 with bpr := some b } (.scalar 6000) true =
      .ok (.scalar (r / (1 - 0.49 * √m))) := by
  have eT : isatemp 0 10000 = 223.15 := by norm_num [isatemp, Level1, A1, B1]
  obtain ⟨m, hm, h0, h1⟩ := slmJet_mach 8 450 10000 0.7 0.8 295 305 (by norm_num) (by rw [eT]; norm_num) (by norm_num) (by norm_num)
    (by rw [eT]; norm_num [R_JPKGPK]) (by rw [eT]; norm_num [R_JPKGPK]) (by norm_num) (by norm_num [kts2mps]) (by norm_num [kts2mps])
  obtain ⟨r, hr, -, hr'⟩ := C136_bypass_violated X (slmJet 8 450 10000) 0 450 10000 m 6000 rfl (by norm_num) rfl rfl rfl (by norm_num)
    hm (by norm_num at h1; linarith) (by
      rw [eT]
      unfold tempratio c2k GAMMA_DRY_AIR
      norm_num [slmJet, pyNum] at h0 h1 ⊢
      nlinarith)
  exact ⟨m, r, h0, hr, hr'⟩

/-- Mach 2: 45 degrees of sweep against none. -/
example : a_supersonic { exC with sweep_le_deg := some 45 } 2 =
    a_supersonic { exC with sweep_le_deg := some 0 } 2 + 1 / (3 * 9 * (2 ^ 2 - 1)) := by
  have e : Real.tan (deg2rad 45) = 1 := by
    rw [show deg2rad 45 = Real.pi / 4 by unfold deg2rad; ring, Real.tan_pi_div_four]
  exact C136_unswept_violated exC 2 (by norm_num) (by norm_num [exC, pyNum]) 45 (by rw [e]; exact one_ne_zero)
    (by rw [e, abs_one]; exact (Real.lt_sqrt zero_le_one).mpr (by norm_num))

/-- Mach 2, sweep 60 degrees: a sonic leading edge. -/
example : ∃ c : Concept, 4.01 / √(2 ^ 2 - 1) < aSup2 c 2 ∧ ∀ m', 2 < m' → aSup2 c m' < 4 / √(2 ^ 2 - 1) := by
  refine ⟨{ exC with sweep_le_deg := some 60 }, C136_sonic_violated _ 2 (by norm_num) ?_⟩
  show Real.tan (deg2rad 60) = _
  rw [show deg2rad 60 = Real.pi / 3 by unfold deg2rad; ring, Real.tan_pi_div_three]
  norm_num

end

end Verif.Props
