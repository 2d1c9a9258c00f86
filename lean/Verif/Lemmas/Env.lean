import Verif.Lemmas.Power

/-
When the atmosphere, the induced drag factor and the corrections exist.
-/

namespace Verif.Aircraft
open Verif Verif.Units

noncomputable section

/-- The atmosphere gives a temperature, a pressure and a positive density at the altitude. -/
structure EnvOK (a : Atmos.Atm) (alt : ℝ) : Prop where
  temp : ∃ T, 0 ≤ T ∧ Atmos.airtemp_k a (.scalar alt) = .ok (.scalar T)
  press : ∃ p, Atmos.press1 a alt = .ok p
  dens : ∃ d, 0 < d ∧ Atmos.dens1 a alt = .ok d

theorem EnvOK.vsound {a : Atmos.Atm} {alt : ℝ} (h : EnvOK a alt) :
    ∃ cs, Atmos.vsound_mps a (.scalar alt) = .ok (.scalar cs) := by
  obtain ⟨T, hT, h1⟩ := h.temp
  have h0 := h1
  unfold Atmos.airtemp_k at h1
  simp only [bind_ok_iff] at h1
  obtain ⟨alts, h2, h3⟩ := h1
  have e1 := Props.alttest_ok h2
  simp only [recastArray] at e1
  obtain ⟨rfl, e2⟩ := e1
  have h4 : Atmos.airtemp_k a (.array [alt]) = .ok (.scalar T) := by
    rw [← h0]; unfold Atmos.airtemp_k; rw [e2, h2]
  refine ⟨Atmos.vsound T, ?_⟩
  unfold Atmos.vsound_mps
  simp only [h2, bind_ok, h4, Atmos.vsoundE, not_lt.mpr hT, if_false]
  rfl

theorem EnvOK.mach {a : Atmos.Atm} {alt : ℝ} (h : EnvOK a alt) (v : ℝ) : ∃ m, Atmos.mach1 a v alt = .ok m := by
  obtain ⟨cs, hc⟩ := h.vsound
  exact ⟨_, Atmos.mach1_of hc⟩

theorem EnvOK.dyn {a : Atmos.Atm} {alt : ℝ} (h : EnvOK a alt) (v : ℝ) : ∃ q, Atmos.dynamicpressure_pa a v alt = .ok q := by
  obtain ⟨d, _, hd⟩ := h.dens
  exact ⟨_, by unfold Atmos.dynamicpressure_pa; rw [hd]; rfl⟩

theorem EnvOK.tas {a : Atmos.Atm} {alt : ℝ} (h : EnvOK a alt) (h0 : EnvOK a 0) (v : ℝ) :
    ∃ u, Atmos.eas2tas a v alt = .ok u := by
  obtain ⟨d, p, hd⟩ := h.dens
  obtain ⟨d0, p0, hd0⟩ := h0.dens
  exact ⟨_, by unfold Atmos.eas2tas; rw [Props.dratio_ok hd hd0 p p0]; rfl⟩

theorem EnvOK.tempc {a : Atmos.Atm} {alt : ℝ} (h : EnvOK a alt) : ∃ T, temp1c a alt = .ok T := by
  obtain ⟨T, _, h1⟩ := h.temp
  exact ⟨_, by unfold temp1c Atmos.airtemp_c; rw [h1]; rfl⟩

/-- The standard atmosphere with an offset of at least -100 degrees, up to 50 km. -/
theorem isa_env (off alt : ℝ) (ho : -100 ≤ off) (h : alt ≤ 50000) : EnvOK (.isa off) alt := by
  have hT : 0 < Atmos.isatemp off alt := by
    have := Props.C11_bounds 0 alt
    rw [Props.C11_offset]; linarith [this.1]
  exact ⟨⟨_, hT.le, (Props.isa_scalar off alt h).1⟩, ⟨_, Props.isa_press1 off alt h⟩,
    ⟨_, Props.C13_positive off alt hT, Props.isa_dens1 off alt h⟩⟩

/-- The factors that do not depend on the wing loading always exist. -/
theorem kFactors_ok (X : Ext) (c : Concept) (m : ℝ) : ∃ r, kFactors X c m = .ok r := by
  have hf : ∀ m, ∃ r, a_subsonic c m = .ok r := by
    intro m
    have hc : ∃ r, findchordsweep_rad c (some 0.5) = .ok r := ⟨_, if_pos (by norm_num)⟩
    obtain ⟨r, hr⟩ := hc
    unfold a_subsonic
    simp only [hr, bind_ok]
    exact ⟨_, rfl⟩
  have hl : ∀ m, ∃ r, liftslope_prad X c m = .ok r := by
    intro m
    obtain ⟨r0, h0⟩ := hf (m.getD 0.3)
    obtain ⟨r1, h1⟩ := hf 0.6
    obtain ⟨r2, h2⟩ := hf (0.6 + 3e-2)
    unfold liftslope_prad a_transonic
    simp only [h0, h1, h2, bind_ok]
    exact ⟨_, rfl⟩
  have hk : ∃ r, induceddragfact c (some 24) (some (min m 0.6)) = .ok r := by
    unfold induceddragfact oswaldlist
    simp only [show ¬ ((24 : ℤ) < 0) by decide, if_false]
    simp only [bind_ok]
    split <;> exact ⟨_, rfl⟩
  obtain ⟨r0, h0⟩ := hk
  obtain ⟨r1, h1⟩ := hl (some m)
  obtain ⟨r2, h2⟩ := hl (some (machstar_le c))
  unfold kFactors
  simp only [h0, h1, h2, bind_ok]
  exact ⟨_, rfl⟩

/-- The induced drag factor exists when the cruise dynamic pressure does (or is not needed). -/
theorem KFun.exists (X : Ext) (c : Concept) (m : ℝ) (h : ∀ alt, c.cruisealt_m = some alt → EnvOK c.designatm alt) :
    ∃ K, KFun X c m K := by
  obtain ⟨⟨ko, k0, k1⟩, hk⟩ := kFactors_ok X c m
  cases hv : c.cruisespeed_ktas with
  | none => exact ⟨fun w cl => kBlend ko k0 k1 (machstar_le c) m (cl - 0.6) 0.6, ko, k0, k1, fun _ => 0.6, hk, fun _ _ => rfl, Or.inl ⟨Or.inl hv, fun _ => rfl⟩⟩
  | some vc =>
    cases hh : c.cruisealt_m with
    | none => exact ⟨fun w cl => kBlend ko k0 k1 (machstar_le c) m (cl - 0.6) 0.6, ko, k0, k1, fun _ => 0.6, hk, fun _ _ => rfl, Or.inl ⟨Or.inr hh, fun _ => rfl⟩⟩
    | some alt =>
      obtain ⟨q, hq⟩ := (h alt hh).dyn (kts2mps vc)
      exact ⟨_, ko, k0, k1, fun w => w * pyNum c.cruise_weight_fraction / q, hk, fun _ _ => rfl,
        Or.inr ⟨vc, alt, q, hv, hh, hq, fun _ => rfl⟩⟩

/-- The propulsion data are complete: an engine object, one of the generic types, or a bypass ratio that
selects one; a generic jet engine needs a bypass ratio that is not negative. -/
def PropOK (c : Concept) : Prop :=
  match c.propulsion with
  | .pyFalse => -3 ≤ pyNum c.bpr
  | .str s => s = "jet" → 0 ≤ pyNum c.bpr
  | .pair _ => True

theorem strCorr_ok {X : Ext} {c : Concept} {s : String} (h : s = "jet" → 0 ≤ pyNum c.bpr) (T P d m : ℝ) :
    ∃ r, strCorr X c s T P d m = .ok r := by
  rcases strCorr_indep X c s T P d with ⟨e, he⟩ | ⟨f, hf⟩
  · exfalso
    have h1 := he m
    unfold strCorr at h1
    by_cases hs : s = "jet"
    · subst hs
      have hb := h rfl
      rw [if_neg (by decide), if_neg (by decide), if_neg (by decide), if_pos rfl] at h1
      simp only [jetFactor] at h1
      split at h1
      · cases h1
      · split at h1
        · cases h1
        · split at h1
          · cases h1
          · rename_i h2 h3 h4
            rcases hb.lt_or_eq with h5 | h5
            · exact h3 ⟨h5, not_le.mp h4⟩
            · exact h2 h5.symm
    · repeat' split at h1
      all_goals first | cases h1 | contradiction
  · exact ⟨_, hf m⟩

/-- With complete propulsion data and atmosphere the corrections exist at every speed. -/
theorem corr_exists (X : Ext) {c : Concept} {alt : ℝ} (hp : PropOK c) (he : EnvOK c.designatm alt) (v : ℝ) :
    ∃ t p, CorrAt X c v alt t p := by
  obtain ⟨cs, hcs⟩ := he.vsound
  obtain ⟨T, hT⟩ := he.tempc
  obtain ⟨P, hP⟩ := he.press
  obtain ⟨d, _, hd⟩ := he.dens
  have hm := (Props.C18_ratio c.designatm alt cs hcs).1 v
  have key : ∃ r, slcorr X c (.scalar v) alt = .ok r := by
    unfold PropOK at hp
    have hstr : ∀ s, (s = "jet" → 0 ≤ pyNum c.bpr) → ∃ r, corrOf X c (.str s) [v / cs] alt = .ok r := by
      intro s hs
      obtain ⟨r, hr⟩ := strCorr_ok (X := X) hs T P d (v / cs)
      exact ⟨_, by simp only [corrOf, hT, hP, hd, bind_ok, List.mapM_cons, hr, List.mapM_nil]; rfl⟩
    cases hpr : c.propulsion with
    | pyFalse =>
      rw [hpr] at hp
      have : ∃ pr, bprPropulsion (pyNum c.bpr) = .ok pr ∧ ∃ r, corrOf X c pr [v / cs] alt = .ok r := by
        unfold bprPropulsion
        split
        · rename_i h; exact ⟨_, rfl, hstr _ (fun _ => h)⟩
        · rename_i hneg
          split
          · exact ⟨_, rfl, hstr _ (fun h => absurd h (by decide))⟩
          · split
            · exact ⟨_, rfl, hstr _ (fun h => absurd h (by decide))⟩
            · split
              · exact ⟨_, rfl, hstr _ (fun h => absurd h (by decide))⟩
              · rw [if_pos ⟨hp, not_le.mp hneg⟩]
                exact ⟨_, rfl, _, rfl⟩
      obtain ⟨pr, h1, r, h2⟩ := this
      exact ⟨r, by simp only [slcorr, resolvePropulsion, hpr, h1, bind_ok, hm, h2]⟩
    | str s =>
      rw [hpr] at hp
      obtain ⟨r, h2⟩ := hstr s hp
      exact ⟨r, by simp only [slcorr, resolvePropulsion, hpr, bind_ok, hm, h2]⟩
    | pair e => exact ⟨_, by simp only [slcorr, resolvePropulsion, hpr, bind_ok, hm, corrOf]; rfl⟩
  obtain ⟨r, hr⟩ := key
  obtain ⟨t, p, h, _⟩ := corrAt_of hr
  exact ⟨t, p, h⟩

/-! ### The evaluations from their inputs -/

theorem KFun.lesm {X : Ext} {c : Concept} {m : ℝ} {K : ℝ → ℝ → ℝ} (h : KFun X c m K) (ws : List ℝ) (g : ℝ → ℝ) :
    induceddragfact_lesm X c (some ws) (some (ws.map g)) (some m) = .ok (ws.map (fun w => K w (g w))) := by
  rcases lesm_point X c m with ⟨e, he⟩ | ⟨K', hK, hl⟩
  · exfalso
    obtain ⟨ko, k0, k1, clc, h1, h2, h3⟩ := h
    have := he [] id
    simp only [induceddragfact_lesm, lesmWingloading, bind_ok] at this
    rcases h3 with ⟨hn, -⟩ | ⟨vc, hc, qc, e1, e2, e3, -⟩
    · have hcl : clCruise c [] = .ok [0.6] := by
        unfold clCruise; rcases hn with hn | hn
        · rw [hn]
        · rw [hn]; cases c.cruisespeed_ktas <;> rfl
      simp only [hcl, bind_ok, Option.getD_some, h1] at this
      cases this
    · have hcl : clCruise c [] = .ok [] := by unfold clCruise; rw [e1, e2]; simp only [e3, bind_ok]; rfl
      simp only [hcl, bind_ok, Option.getD_some, h1] at this
      cases this
  · rw [KFun.unique h hK]; exact hl ws g

theorem ClimbIn.eval {X : Ext} {c : Concept} {s r v roc t q m : ℝ} {K : ℝ → ℝ → ℝ}
    (h : ClimbIn X c s r v roc t q m K) (b : Bool) (w : NumArg) :
    twrequired_clm X c w b = .ok (Atmos.revert ((recastArray w).map (climbReq c b v roc t q K))) := by
  obtain ⟨p, tc, pc, hc1, hc2, -⟩ := h.corr
  unfold twrequired_clm
  simp only [h.speed, h.rate, need, bind_ok, h.tas, h.troc, hc1, h.press, h.mach, List.map_map, h.drag.lesm,
    broadcast2_map_map, mapSl_single _ _ _ hc2]
  rfl

theorem CruiseIn.eval {X : Ext} {c : Concept} {s alt t q m : ℝ} {K : ℝ → ℝ → ℝ}
    (h : CruiseIn X c s alt t q m K) (b : Bool) (w : NumArg) :
    twrequired_crs X c w b = .ok (Atmos.revert ((recastArray w).map (cruiseReq c b t q K))) := by
  obtain ⟨p, tc, pc, hc1, hc2, -⟩ := h.corr
  unfold twrequired_crs
  simp only [h.speed, h.altitude, need, bind_ok, hc1, h.press, h.mach, List.map_map, h.drag.lesm,
    broadcast2_map_map, mapSl_single _ _ _ hc2]
  rfl

theorem CeilIn.eval {X : Ext} {c : Concept} {s alt v roc t q m : ℝ} {K : ℝ → ℝ → ℝ}
    (h : CeilIn X c s alt v roc t q m K) (b : Bool) (w : NumArg) :
    twrequired_sec X c w b = .ok (Atmos.revert ((recastArray w).map (ceilReq c b v roc t q K))) := by
  obtain ⟨p, tc, pc, hc1, hc2, -⟩ := h.corr
  unfold twrequired_sec
  simp only [h.speed, h.altitude, need, bind_ok, h.tas, h.troc, hc1, h.press, h.mach, List.map_map, h.drag.lesm,
    broadcast2_map_map, mapSl_single _ _ _ hc2]
  rfl

theorem TurnIn.eval {X : Ext} {c : Concept} {s n t q m : ℝ} {K : ℝ → ℝ → ℝ}
    (h : TurnIn X c s n t q m K) (b : Bool) (w : NumArg) :
    twrequired_trn X c w b = .ok (Atmos.revert ((recastArray w).map (turnReq c b n t q K)),
      Atmos.revert ((recastArray w).map (turnCl c n q)), revertNan ((recastArray w).map (turnFeas c b n t q K))) := by
  rcases trn_point X c b with ⟨e, he⟩ | ⟨s', n', t', q', m', K', h', hw⟩
  · exfalso
    obtain ⟨p, tc, pc, hc1, hc2, -⟩ := h.corr
    have e1 : pyNum (some s) = s := rfl
    have e2 : pyNum (some n) = n := rfl
    have := he w
    have hl := h.drag.lesm ((recastArray w).map (fun w => w * pyNum c.turn_weight_fraction))
      (fun w => w * pyNum c.climb_weight_fraction * n / q)
    unfold twrequired_trn thrusttoweight_sustainedturn at this
    simp only [h.speed, h.load, need, bind_ok, e1, e2, h.press, h.mach, List.map_map,
      Function.comp_def, hc1] at this hl
    simp only [hl, bind_ok, broadcast2_map_map, hc1] at this
    change (mapSl b _ tc >>= _) = _ at this
    simp only [mapSl_single _ _ _ hc2, bind_ok] at this
    cases this
  · have e1 := h.speed.symm.trans h'.speed
    have e2 := h.load.symm.trans h'.load
    cases e1; cases e2
    obtain ⟨p, hp⟩ := h.corr
    obtain ⟨p', hp'⟩ := h'.corr
    obtain ⟨rfl, -⟩ := hp.unique hp'
    have e3 := h.press.symm.trans h'.press
    have e4 := h.mach.symm.trans h'.mach
    cases e3; cases e4
    rw [KFun.unique h.drag h'.drag]
    exact hw w

end

end Verif.Aircraft
