import Verif.Props.SensPlot

/-
A case in which the masks of the sensitivity charts can be drawn: the worked case with a shorter ground run.
-/

namespace Verif.Props
open Verif Verif.Units Verif.Aircraft

noncomputable section

/-- The brief of the worked case with ground run `v`. -/
def grBrief (v : ℝ) : Dict := dset stBriefAvg "groundrun_m" (.num v)

/-- The worked case with ground run `v`. -/
def grBuilt (v : ℝ) : Built :=
  ⟨grBrief v, stDesign, stPerf, (grBrief v, stDesign, stPerf), false, varied stC 0 "groundrun_m" v⟩

theorem gr_scalar : Scalar 0 "groundrun_m" := ⟨by simp, by simp⟩

theorem gr_built (v : ℝ) : construct (grBrief v) stDesign stPerf (some exAtm) .pyNone = .ok (grBuilt v) := by
  have hs := settled_set (s := ⟨stBriefAvg, stDesign, stPerf⟩) (settled_construct st_built) 0 "groundrun_m" v gr_scalar
  have ha := attrs_set (s := ⟨stBriefAvg, stDesign, stPerf⟩) st_attrs 0 "groundrun_m" v gr_scalar
  exact construct_settled hs ha (some exAtm) .pyNone rfl rfl

theorem gr_study (X : Ext) (v : ℝ) (power : Bool) (w : NumArg) (hw : 2 ≤ (recastArray w).length) :
    ∃ R nom, study X (grBuilt v) w power = .ok (R, nom) := by
  have hne : recastArray w ≠ [] := by intro h; rw [h] at hw; simp at hw
  have hno : ∀ i k xs, (k, Val.list xs) ∉ dictNo (spaceOf (grBuilt v)) i := by
    intro i k xs h
    match i with
    | 0 => simp [dictNo, spaceOf, grBuilt, grBrief, stBriefAvg, stBrief, dset] at h
    | 1 => simp [dictNo, spaceOf, grBuilt, stDesign] at h
    | 2 => simp [dictNo, spaceOf, grBuilt, stPerf] at h
  refine C85_succeeds (gr_built v) X w power hw ?_ 10000 rfl ?_ ?_ ?_ ?_
  · unfold KeysDistinct spaceOf grBuilt grBrief stBriefAvg stBrief stDesign stPerf
    simp [dset]
  · exact fun i k xs h => absurd h (hno i k xs)
  · simp [ranged, spaceOf, grBuilt, grBrief, stBriefAvg, stBrief, stDesign, stPerf, dset]
  · exact st_req X power _ _ hne _ (st_varied_ready v) (by simp [Missing, grBuilt, stC, studied, exC, varied])
  · exact fun i k xs h => absurd h (hno i k xs)

/-- At small wing loadings the cruise requirement is that of a constant induced drag factor. -/
theorem gr_cruise (X : Ext) (v : ℝ) : ∃ k q, 0 < q ∧ ∀ w, 0 < w → w ≤ 0.3 * q →
    twrequired_crs X (varied (studied stC) 0 "groundrun_m" v) (.scalar w) true = .ok (.scalar (0.025 * q / w + k / q * w)) := by
  obtain ⟨c, hc⟩ : ∃ c, c = varied (studied stC) 0 "groundrun_m" v := ⟨_, rfl⟩
  have hr : Ready c := by rw [hc]; exact st_varied_ready v
  have hprop : c.propulsion = .pair .other := by rw [hc]; rfl
  have hf : pyNum c.cruise_weight_fraction = 1 := by rw [hc]; rfl
  have ht : pyNum c.cruisethrustfact = 1 := by rw [hc]; rfl
  have hcd : pyNum c.cdminclean = 0.025 := by rw [hc]; rfl
  have hs : c.cruisespeed_ktas = some 150 := by rw [hc]; rfl
  have ha : c.cruisealt_m = some 3000 := by rw [hc]; rfl
  have hatm : c.designatm = exAtm := by rw [hc]; rfl
  rw [← hc]
  rcases crs_point X c true with ⟨e, he⟩ | ⟨s, alt, t, q, m, K, hin, h⟩
  · exfalso
    obtain ⟨r, hr'⟩ := (C48_given X c (.scalar 1) true true hr (by rw [hc]; simp [Missing, stC, studied, exC, varied])).1
    have := (C47_entries X c (.scalar 1) true true r hr' (by simp [recastArray])).2.2.2.1
    rw [he] at this
    cases this
  have e1 := hs.symm.trans hin.speed
  have e2 := ha.symm.trans hin.altitude
  cases e1; cases e2
  obtain ⟨p, hp⟩ := hin.corr
  have ht1 := (other_corr hprop hp).1
  have hq : q = 0.5 * 1 * kts2mps 150 ^ 2 := by
    have := hin.press
    unfold Atmos.dynamicpressure_pa at this
    rw [hatm, exAtm_dens 3000 (by norm_num) (by norm_num)] at this
    cases this; rfl
  have hq0 : 0 < q := by rw [hq]; norm_num [kts2mps]
  obtain ⟨ko, k0, k1, clc, hk, hK, hcl⟩ := hin.drag
  have hclc : ∀ w, clc w = w / q := by
    rcases hcl with ⟨h1 | h1, -⟩ | ⟨vc, hc', qc, h1, h2, h3, h4⟩
    · rw [hs] at h1; cases h1
    · rw [ha] at h1; cases h1
    · rw [hs] at h1; rw [ha] at h2
      cases h1; cases h2
      have e3 := hin.press.symm.trans h3
      cases e3
      intro w
      rw [h4, hf, mul_one]
  refine ⟨kBlend ko k0 k1 (machstar_le c) m 0 0, q, hq0, fun w hw hwq => ?_⟩
  rw [h]
  show Except.ok (NumArg.scalar _) = _
  congr 2
  unfold cruiseReq sl cruisePoint
  rw [if_pos rfl, ht1, hf, ht, hcd, hK, hclc]
  have hb : kBlend ko k0 k1 (machstar_le c) m (w * 1 / q - w / q) (w / q) = kBlend ko k0 k1 (machstar_le c) m 0 0 := by
    have e1 : w * 1 / q - w / q = 0 := by ring
    have e2 : npInterp2 (w / q) 0.3 0.8 1 0 = 1 := by
      unfold npInterp2
      rw [if_pos]
      rw [div_le_iff₀ hq0]; exact hwq
    have e3 : npInterp2 0 0.3 0.8 1 0 = 1 := by
      unfold npInterp2
      rw [if_pos (by norm_num)]
    rw [e1]
    unfold kBlend
    simp only [e2, e3]
  rw [hb]
  field_simp

theorem gr_same (X : Ext) (v : ℝ) (w : NumArg) :
    twrequired_trn X (varied (studied stC) 0 "groundrun_m" v) w true = twrequired_trn X (studied stC) w true ∧
    twrequired_clm X (varied (studied stC) 0 "groundrun_m" v) w true = twrequired_clm X (studied stC) w true ∧
    twrequired_crs X (varied (studied stC) 0 "groundrun_m" v) w true = twrequired_crs X (studied stC) w true ∧
    twrequired_sec X (varied (studied stC) 0 "groundrun_m" v) w true = twrequired_sec X (studied stC) w true := by
  have e : varied (studied stC) 0 "groundrun_m" v = { studied stC with groundrun_m := some v } := by simp [varied]
  rw [e]
  exact ⟨rfl, rfl, rfl, rfl⟩

/-- The requirements other than take-off at one wing loading do not depend on the ground run. -/
theorem gr_values (X : Ext) : ∃ f : ℝ → Constr → ℝ, ∀ v ws nom E m, ws ≠ [] →
    seaLevelReq X false m ws (varied (studied stC) 0 "groundrun_m" v) = .ok nom → Shown nom ws E →
    ∀ u ∈ ws, ∀ q, q ≠ .takeoff → valueOf (E u) q = f u q := by
  obtain ⟨r0, hr0⟩ := st_req X false 0 [1] (by simp) _ st_ready (by simp [Missing, stC, studied, exC])
  rcases tw_point X (studied stC) true true with ⟨e, he⟩ | ⟨R0, hR0, -, t0, l0, s0, c0, -⟩
  · rw [seaLevelReq, if_neg (by simp), he _ (by simp [recastArray])] at hr0
    cases hr0
  refine ⟨fun u => valueOf (R0 u), fun v ws nom E m hne h hE u hu q hq => ?_⟩
  rw [seaLevelReq, if_neg (by simp)] at h
  rcases tw_point X (varied (studied stC) 0 "groundrun_m" v) true true with ⟨e, he⟩ | ⟨R, hR, -, t1, l1, s1, c1, -⟩
  · rw [he (.array ws) hne] at h; cases h
  rw [hR] at h
  cases h
  obtain ⟨g1, g2, g3, g4⟩ := gr_same X v (.scalar u)
  have hval : valueOf (E u) q = valueOf (R u) q := by
    have := hE.entry q
    have h2 : recastArray ((reqOf (recastArray (.array ws)) R).entry q) = ws.map (fun w => valueOf (R w) q) := by
      cases q <;> exact recast_revert _
    exact List.map_inj_left.mp (this.symm.trans h2) u hu
  rw [hval]
  have a1 := (t1 (.scalar u)).symm.trans (g1.trans (t0 (.scalar u)))
  have a2 := (l1 (.scalar u)).symm.trans (g2.trans (l0 (.scalar u)))
  have a3 := (s1 (.scalar u)).symm.trans (g3.trans (s0 (.scalar u)))
  have a4 := (c1 (.scalar u)).symm.trans (g4.trans (c0 (.scalar u)))
  simp only [recastArray, List.map_cons, List.map_nil, Atmos.revert, Except.ok.injEq, Prod.mk.injEq, NumArg.scalar.injEq] at a1 a2 a3 a4
  cases q with
  | takeoff => exact absurd rfl hq
  | climb => exact a2
  | cruise => exact a3
  | servceil => exact a4
  | turn => exact a1.1

/-- With a short enough ground run and a small enough first wing loading all five charts have masks. -/
theorem gr_masks (X : Ext) (area : Bool) (y : Option ℝ) : ∃ v w0, 0 < v ∧ 0 < w0 ∧ w0 < 1000 ∧
    ∃ C, charts X (grBuilt v) (.array [w0, 1000]) false area y true = .ok C := by
  obtain ⟨f, hf⟩ := gr_values X
  obtain ⟨M, hM⟩ : ∃ M, M = max (max (f 1000 .climb) (f 1000 .cruise)) (max (f 1000 .servceil) (f 1000 .turn)) := ⟨_, rfl⟩
  have hM1 : 0 < |M| + 1 := by positivity
  obtain ⟨v, hv⟩ : ∃ v, v = 1.21 * 1000 / (1.6 * gAcc * (|M| + 1)) := ⟨_, rfl⟩
  have hg : (0:ℝ) < gAcc := by unfold gAcc; norm_num
  have hv0 : 0 < v := by rw [hv]; positivity
  have hvM : M < 1.21 * 1000 / (1.6 * gAcc * v) := by
    have : 1.21 * 1000 / (1.6 * gAcc * v) = |M| + 1 := by
      rw [hv]; field_simp
    rw [this]
    linarith [le_abs_self M]
  obtain ⟨k, q, hq, hcr⟩ := gr_cruise X v
  obtain ⟨B, hB⟩ : ∃ B, B = 1.21 / (1.6 * gAcc * v) + 1 + |k| / q := ⟨_, rfl⟩
  have hB0 : 0 < B := by rw [hB]; positivity
  obtain ⟨w0, hw0⟩ : ∃ w0, w0 = min (min 1 (0.3 * q)) (0.025 * q / B) := ⟨_, rfl⟩
  have h0 : 0 < w0 := by
    rw [hw0]
    refine lt_min (lt_min one_pos (by positivity)) (by positivity)
  have h1 : w0 ≤ 1 := by rw [hw0]; exact (min_le_left _ _).trans (min_le_left _ _)
  have h2 : w0 ≤ 0.3 * q := by rw [hw0]; exact (min_le_left _ _).trans (min_le_right _ _)
  have h3 : w0 ≤ 0.025 * q / B := by rw [hw0]; exact min_le_right _ _
  have h4 : B ≤ 0.025 * q / w0 := by
    rw [le_div_iff₀ h0]
    rw [le_div_iff₀ hB0] at h3
    linarith
  refine ⟨v, w0, hv0, h0, by linarith, ?_⟩
  obtain ⟨R, nom, hst⟩ := gr_study X v false (.array [w0, 1000]) (by simp [recastArray])
  have hs : ([w0, 1000] : List ℝ).Pairwise (· < ·) := by
    simp only [List.pairwise_cons, List.mem_singleton, forall_eq, List.not_mem_nil, false_imp_iff, implies_true, List.Pairwise.nil, and_true]
    linarith
  have hp : ∀ x ∈ ([w0, 1000] : List ℝ), 0 < x := by
    intro x hx
    simp only [List.mem_cons, List.not_mem_nil, or_false] at hx
    rcases hx with rfl | rfl
    · exact h0
    · norm_num
  have hW : ∀ W, (grBuilt v).concept.weight_n = some W → 0 < W := by
    intro W h
    have : (10000 : ℝ) = W := by simpa [grBuilt, varied, stC, exC] using h
    rw [← this]; norm_num
  obtain ⟨C, hC⟩ := C97_draws (gr_built v) area y hst (by simp [recastArray])
    (fun W hW' => by
      unfold xAxis
      split
      · exact (desc_of_pairwise (hW W hW') hs hp).nodup
      · exact (asc_of_pairwise hs).nodup) ⟨1, exAtm_dens 0 (by norm_num) (by norm_num)⟩
  obtain ⟨W, nom, E, -, hn, hE, hok, -⟩ := C98_completes (gr_built v) hC (by simp [recastArray])
  have hn' : seaLevelReq X false (W / gAcc) [w0, 1000] (varied (studied stC) 0 "groundrun_m" v) = .ok nom := hn
  have hfeas : ∀ u ∈ ([w0, 1000] : List ℝ), (E u).combined ≠ none := by
    intro u hu
    refine (turn_feasible (c := varied (studied stC) 0 "groundrun_m" v) hn' (by simp) hE hu rfl rfl rfl rfl rfl rfl rfl).1 ?_
    simp only [List.mem_cons, List.not_mem_nil, or_false] at hu
    rcases hu with rfl | rfl
    · linarith
    · norm_num
  have hto := st_takeoff X v hv0 [w0, 1000] (fun w hw => (hp w hw).le) (by simp) nom (W / gAcc) hn'
  have hto' : ∀ u ∈ ([w0, 1000] : List ℝ), (E u).takeoff = 1.21 * u / (1.6 * gAcc * v) + 0.5 * 0.04 / 0.6 + 0.5 * 0.03 :=
    fun u hu => List.map_inj_left.mp ((hE.entry .takeoff).symm.trans hto) u hu
  have hrest := hf v [w0, 1000] nom E (W / gAcc) (by simp) hn' hE
  have hge : ∀ u ∈ ([w0, 1000] : List ℝ), ∀ p q, valueOf (E u) p < valueOf (E u) q →
      ∃ t, (E u).combined = some t ∧ valueOf (E u) p < t := by
    intro u hu p q hpq
    obtain ⟨t, ht⟩ := Option.ne_none_iff_exists'.mp (hfeas u hu)
    refine ⟨t, ht, lt_of_lt_of_le hpq (((hE.largest u).2.2 t ht).2 ?_)⟩
    cases q <;> simp [valueOf]
  refine hok (fun q u hu h => absurd h (hfeas u hu)) (fun p => ?_)
  by_cases hpt : p = .takeoff
  · refine ⟨w0, by simp [recastArray], hge w0 (by simp) p .cruise ?_⟩
    have hcv : valueOf (E w0) .cruise = 0.025 * q / w0 + k / q * w0 := by
      have := (C47_entries X _ _ true true nom hn' (by simp [recastArray])).2.2.2.1
      rcases crs_point X (varied (studied stC) 0 "groundrun_m" v) true with ⟨e, he⟩ | ⟨s, alt, t, q', m, K, -, h⟩
      · rw [he] at this; cases this
      · have h5 := (h (.scalar w0)).symm.trans (hcr w0 h0 h2)
        simp only [recastArray, List.map_cons, List.map_nil, Atmos.revert, Except.ok.injEq, NumArg.scalar.injEq] at h5
        rw [h] at this
        simp only [Except.ok.injEq] at this
        have h6 := hE.entry .cruise
        simp only [Req.entry, ← this, recast_revert] at h6
        rw [← h5]
        exact (List.map_inj_left.mp h6 w0 (by simp [recastArray])).symm
    rw [hcv, hpt]
    show (E w0).takeoff < _
    rw [hto' w0 (by simp)]
    have h7 : 1.21 * w0 / (1.6 * gAcc * v) ≤ 1.21 / (1.6 * gAcc * v) := by
      refine div_le_div_of_nonneg_right ?_ (by positivity)
      norm_num; linarith
    have h8 : -(|k| / q) ≤ k / q * w0 := by
      have : |k / q * w0| ≤ |k| / q := by
        rw [abs_mul, abs_div, abs_of_pos hq, abs_of_pos h0]
        calc |k| / q * w0 ≤ |k| / q * 1 := by gcongr
          _ = |k| / q := mul_one _
      linarith [neg_abs_le (k / q * w0)]
    have h9 : (0.5 * 0.04 / 0.6 + 0.5 * 0.03 : ℝ) < 1 := by norm_num
    rw [hB] at h4
    linarith
  · refine ⟨1000, by simp [recastArray], hge 1000 (by simp) p .takeoff ?_⟩
    rw [hrest 1000 (by simp) p hpt]
    show _ < (E 1000).takeoff
    rw [hto' 1000 (by simp)]
    have hle : f 1000 p ≤ M := by
      rw [hM]
      cases p <;> first | exact absurd rfl hpt | simp
    have h9 : (0 : ℝ) < 0.5 * 0.04 / 0.6 + 0.5 * 0.03 := by norm_num
    linarith

/-- The hypotheses of `C98_masked` can be met. -/
example (X : Ext) (area : Bool) (y : Option ℝ) : ∃ v w0 C, charts X (grBuilt v) (.array [w0, 1000]) false area y true = .ok C ∧
    (recastArray (.array [w0, 1000])).Pairwise (· < ·) ∧ (∀ x ∈ recastArray (.array [w0, 1000]), 0 < x) ∧
    (∀ W, (grBuilt v).concept.weight_n = some W → 0 < W) ∧ TurnData (grBuilt v).concept := by
  obtain ⟨v, w0, hv, h0, h1, C, hC⟩ := gr_masks X area y
  refine ⟨v, w0, C, hC, ?_, ?_, ?_, ?_⟩
  · show ([w0, 1000] : List ℝ).Pairwise (· < ·)
    simp only [List.pairwise_cons, List.mem_singleton, forall_eq, List.not_mem_nil, false_imp_iff, implies_true, List.Pairwise.nil, and_true]
    exact h1
  · intro x hx
    simp only [recastArray, List.mem_cons, List.not_mem_nil, or_false] at hx
    rcases hx with rfl | rfl
    · exact h0
    · norm_num
  · intro W h
    have : (10000 : ℝ) = W := by simpa [grBuilt, varied, stC, exC] using h
    rw [← this]; norm_num
  · refine ⟨⟨1, exAtm_dens 1000 (by norm_num) (by norm_num), by norm_num⟩, ?_, ?_, ?_⟩ <;>
      simp [grBuilt, varied, stC, exC, pyNum]

end

end Verif.Props
