import Verif.Props.Constraint
import Verif.Props.Profile
import Verif.Lemmas.Tac

/-
Property C138: which evaluations an observed atmosphere can serve that does not cover every altitude, and
in particular one that does not reach down to sea level.
-/

namespace Verif.Props
open Verif Verif.Aircraft Verif.Units

noncomputable section

/-! ### Specification -/

/-- A usable record: rising altitudes, at least two of them, a temperature, a pressure and a positive
density at each. -/
structure Recorded (o : Atmos.Obs) : Prop where
  two : 2 ≤ o.alt_m.length
  rising : o.alt_m.Pairwise (· < ·)
  temps : o.alt_m.length = o.temp_k.length
  press : o.alt_m.length = o.p_pa.length
  denss : o.alt_m.length = o.rho_kgpm3.length
  warm : ∀ t ∈ o.temp_k, 0 ≤ t
  heavy : ∀ d ∈ o.rho_kgpm3, 0 < d

/-- The altitude lies between two recorded ones. -/
def Covers (o : Atmos.Obs) (h : ℝ) : Prop := (∃ a ∈ o.alt_m, a ≤ h) ∧ ∃ a ∈ o.alt_m, h ≤ a

theorem Recorded.ne {o : Atmos.Obs} (h : Recorded o) : o.alt_m ≠ [] := by
  intro he; have := h.two; rw [he] at this; simp at this

/-! ### One altitude -/

theorem between_low {a y b l : ℝ} (h : Spec.Between a y b) (ha : l ≤ a) (hb : l ≤ b) : l ≤ y := by
  rcases h with h | h <;> linarith [h.1, h.2]

theorem between_pos {a y b : ℝ} (h : Spec.Between a y b) (ha : 0 < a) (hb : 0 < b) : 0 < y := by
  rcases h with h | h <;> linarith [h.1, h.2]

theorem env_covered {o : Atmos.Obs} (r : Recorded o) {h : ℝ} (hc : Covers o h) : EnvOK (.profile o) h := by
  obtain ⟨i, hi, h0, h1⟩ := find_interval o.alt_m r.rising r.two h hc.1 hc.2
  have ha := (C17_profile o h r.ne).2 hc
  have hT := (C25_interpolation o.alt_m o.temp_k r.temps r.rising r.two).2.1 i hi h h0 h1
  have hP := (C25_interpolation o.alt_m o.p_pa r.press r.rising r.two).2.1 i hi h h0 h1
  have hD := (C25_interpolation o.alt_m o.rho_kgpm3 r.denss r.rising r.two).2.1 i hi h h0 h1
  obtain ⟨T, eT, bT, -⟩ := hT
  obtain ⟨P, eP, -, -⟩ := hP
  obtain ⟨D, eD, bD, -⟩ := hD
  refine ⟨⟨T, between_low bT (r.warm _ (List.getElem_mem _)) (r.warm _ (List.getElem_mem _)), ?_⟩, ⟨P, ?_⟩,
    ⟨D, between_pos bD (r.heavy _ (List.getElem_mem _)) (r.heavy _ (List.getElem_mem _)), ?_⟩⟩
  · unfold Atmos.airtemp_k
    rw [ha]
    simp only [bind_ok, List.mapM_cons, List.mapM_nil, eT]
    rfl
  · have : Atmos.airpress_pa (.profile o) (.scalar h) = .ok (.scalar P) := by
      unfold Atmos.airpress_pa
      rw [ha]
      simp only [bind_ok, List.mapM_cons, List.mapM_nil, eP]
      rfl
    unfold Atmos.press1
    rw [this]; rfl
  · have : Atmos.airdens_kgpm3 (.profile o) (.scalar h) = .ok (.scalar D) := by
      unfold Atmos.airdens_kgpm3
      rw [ha]
      simp only [bind_ok, List.mapM_cons, List.mapM_nil, eD]
      rfl
    unfold Atmos.dens1
    rw [this]; rfl

theorem outside_of {o : Atmos.Obs} {h : ℝ} (hc : ¬ Covers o h) : (∀ a ∈ o.alt_m, h < a) ∨ (∀ a ∈ o.alt_m, a < h) := by
  unfold Covers at hc
  by_cases h1 : ∃ a ∈ o.alt_m, a ≤ h
  · right
    intro a ha
    by_contra hn
    exact hc ⟨h1, a, ha, not_lt.mp hn⟩
  · left
    intro a ha
    by_contra hn
    exact h1 ⟨a, ha, not_lt.mp hn⟩

theorem dens_outside {o : Atmos.Obs} (r : Recorded o) {h : ℝ} (hc : ¬ Covers o h) :
    Atmos.dens1 (.profile o) h = .error .typeError := by
  unfold Atmos.dens1
  rw [((C17_profile o h r.ne).1 (outside_of hc)).2.2]
  rfl

theorem alttest_outside {o : Atmos.Obs} (r : Recorded o) {h : ℝ} (hc : ¬ Covers o h) :
    Atmos.alttest (.profile o) (.scalar h) = .error .typeError := by
  have ht := ((C17_profile o h r.ne).1 (outside_of hc)).1
  unfold Atmos.airtemp_k at ht
  cases ha : Atmos.alttest (.profile o) (.scalar h) with
  | error e => rw [ha] at ht; simp only [bind_error] at ht; cases ht; rfl
  | ok l =>
    exfalso
    have hl := (Props.alttest_ok ha).1
    rw [ha] at ht
    simp only [bind_ok, hl, recastArray, List.mapM_cons, List.mapM_nil] at ht
    rw [interp1d_outside _ _ r.rising _ (outside_of hc)] at ht
    cases ht

theorem mach_outside {o : Atmos.Obs} (r : Recorded o) {h : ℝ} (hc : ¬ Covers o h) (v : NumArg) :
    Atmos.mach (.profile o) v (.scalar h) = .error .typeError := by
  unfold Atmos.mach
  rw [alttest_outside r hc]
  rfl

/-- The atmosphere answers at an altitude exactly when it lies between two recorded ones; otherwise the
answer is a TypeError. -/
theorem C138_altitude (o : Atmos.Obs) (r : Recorded o) (h : ℝ) :
    (Covers o h → (∃ T, 0 ≤ T ∧ Atmos.airtemp_k (.profile o) (.scalar h) = .ok (.scalar T)) ∧
      (∃ p, Atmos.press1 (.profile o) h = .ok p) ∧ (∃ d, 0 < d ∧ Atmos.dens1 (.profile o) h = .ok d) ∧
      (∃ v, Atmos.vsound_mps (.profile o) (.scalar h) = .ok (.scalar v)) ∧
      ∀ v, (∃ m, Atmos.mach1 (.profile o) v h = .ok m) ∧ ∃ q, Atmos.dynamicpressure_pa (.profile o) v h = .ok q) ∧
    (¬ Covers o h → Atmos.airtemp_k (.profile o) (.scalar h) = .error .typeError ∧
      Atmos.press1 (.profile o) h = .error .typeError ∧ Atmos.dens1 (.profile o) h = .error .typeError ∧
      Atmos.vsound_mps (.profile o) (.scalar h) = .error .typeError ∧
      ∀ v, Atmos.mach1 (.profile o) v h = .error .typeError ∧
        Atmos.dynamicpressure_pa (.profile o) v h = .error .typeError) := by
  constructor
  · intro hc
    have e := env_covered r hc
    exact ⟨e.temp, e.press, e.dens, e.vsound, fun v => ⟨e.mach v, e.dyn v⟩⟩
  · intro hc
    have k := (C17_profile o h r.ne).1 (outside_of hc)
    refine ⟨k.1, ?_, dens_outside r hc, ?_, fun v => ⟨?_, ?_⟩⟩
    · unfold Atmos.press1; rw [k.2.1]; rfl
    · unfold Atmos.vsound_mps
      rw [alttest_outside r hc]
      rfl
    · unfold Atmos.mach1
      rw [mach_outside r hc]
      rfl
    · unfold Atmos.dynamicpressure_pa
      rw [dens_outside r hc]
      rfl

/-! ### Speeds -/

theorem dratio_cases {o : Atmos.Obs} (r : Recorded o) (h : ℝ) :
    (Covers o h ∧ Covers o 0 → ∃ s, 0 < s ∧ Atmos.dratio (.profile o) h = .ok s) ∧
    (¬ (Covers o h ∧ Covers o 0) → Atmos.dratio (.profile o) h = .error .typeError) := by
  constructor
  · rintro ⟨h1, h2⟩
    obtain ⟨d, p, hd⟩ := (env_covered r h1).dens
    obtain ⟨d0, p0, hd0⟩ := (env_covered r h2).dens
    exact ⟨√(d / d0), Real.sqrt_pos.mpr (div_pos p p0), Props.dratio_ok hd hd0 p p0⟩
  · intro hn
    unfold Atmos.dratio
    by_cases h1 : Covers o h
    · obtain ⟨d, p, hd⟩ := (env_covered r h1).dens
      rw [hd, bind_ok, dens_outside r (fun h2 => hn ⟨h1, h2⟩), bind_error]
    · rw [dens_outside r h1, bind_error]

/-- True and equivalent airspeeds are converted exactly when the record covers the altitude and sea level. -/
theorem C138_speeds (o : Atmos.Obs) (r : Recorded o) (h : ℝ) :
    (Covers o h ∧ Covers o 0 → ∃ s, 0 < s ∧ ∀ v, Atmos.eas2tas (.profile o) v h = .ok (v / s) ∧
      Atmos.tas2eas (.profile o) v h = .ok (v * s)) ∧
    (¬ (Covers o h ∧ Covers o 0) → ∀ v, Atmos.eas2tas (.profile o) v h = .error .typeError ∧
      Atmos.tas2eas (.profile o) v h = .error .typeError) := by
  constructor
  · intro hc
    obtain ⟨s, hs, e⟩ := (dratio_cases r h).1 hc
    refine ⟨s, hs, fun v => ⟨?_, ?_⟩⟩
    · unfold Atmos.eas2tas; rw [e]; rfl
    · unfold Atmos.tas2eas; rw [e]; rfl
  · intro hc v
    have e := (dratio_cases r h).2 hc
    constructor
    · unfold Atmos.eas2tas; rw [e]; rfl
    · unfold Atmos.tas2eas; rw [e]; rfl

/-! ### Requirements -/

theorem resolve_ok {c : Concept} (hp : PropOK c) : ∃ pr, resolvePropulsion c = .ok pr := by
  unfold PropOK at hp
  unfold resolvePropulsion
  cases h : c.propulsion with
  | str s => exact ⟨_, rfl⟩
  | pair e => exact ⟨_, rfl⟩
  | pyFalse =>
    rw [h] at hp
    simp only at hp ⊢
    unfold bprPropulsion
    split_ifs with h1 h2 h3 h4 h5
    · exact ⟨_, rfl⟩
    · exact ⟨_, rfl⟩
    · exact ⟨_, rfl⟩
    · exact ⟨_, rfl⟩
    · exact ⟨_, rfl⟩
    · exact absurd ⟨hp, not_le.mp h1⟩ h5

theorem slcorr_outside (X : Ext) {c : Concept} {o : Atmos.Obs} (ho : c.designatm = .profile o) (r : Recorded o)
    (hp : PropOK c) {h : ℝ} (hc : ¬ Covers o h) (v : NumArg) : slcorr X c v h = .error .typeError := by
  obtain ⟨pr, hpr⟩ := resolve_ok hp
  unfold slcorr
  rw [hpr, bind_ok, ho, mach_outside r hc, bind_error]

/-- The cruise altitude is covered, as far as the brief gives a cruise speed and altitude; the induced
drag factor of the other requirements looks at the cruise lift coefficient. -/
def CruiseCovered (o : Atmos.Obs) (c : Concept) : Prop :=
  ∀ v h, c.cruisespeed_ktas = some v → c.cruisealt_m = some h → Covers o h

theorem kfun_covered (X : Ext) {c : Concept} {o : Atmos.Obs} (ho : c.designatm = .profile o) (r : Recorded o)
    (hc : CruiseCovered o c) (m : ℝ) : ∃ K, KFun X c m K := by
  obtain ⟨⟨ko, k0, k1⟩, hk⟩ := kFactors_ok X c m
  cases hv : c.cruisespeed_ktas with
  | none => exact ⟨fun w cl => kBlend ko k0 k1 (machstar_le c) m (cl - 0.6) 0.6, ko, k0, k1, fun _ => 0.6, hk,
      fun _ _ => rfl, Or.inl ⟨Or.inl hv, fun _ => rfl⟩⟩
  | some vc =>
    refine KFun.exists X c m (fun alt ha => ?_)
    rw [ho]
    exact env_covered r (hc vc alt hv ha)

theorem lesm_outside (X : Ext) {c : Concept} {o : Atmos.Obs} (ho : c.designatm = .profile o) (r : Recorded o)
    (hc : ¬ CruiseCovered o c) (ws cl : List ℝ) (m : ℝ) :
    induceddragfact_lesm X c (some ws) (some cl) (some m) = .error .typeError := by
  unfold CruiseCovered at hc
  push Not at hc
  obtain ⟨v, h, hv, hh, hn⟩ := hc
  unfold induceddragfact_lesm lesmWingloading clCruise Atmos.dynamicpressure_pa
  simp only [hv, hh, ho, dens_outside r hn, bind_ok, bind_error]

/-- Take-off: the runway. -/
theorem C138_takeoff (X : Ext) (c : Concept) (o : Atmos.Obs) (ho : c.designatm = .profile o) (r : Recorded o)
    (hp : PropOK c) (hg : c.groundrun_m ≠ none) (w : NumArg) (b : Bool) :
    (Covers o (pyNum c.rwyelevation_m) → ∃ y, twrequired_to X c w b = .ok y) ∧
    (¬ Covers o (pyNum c.rwyelevation_m) → twrequired_to X c w b = .error .typeError) := by
  obtain ⟨g, hg⟩ := Option.ne_none_iff_exists'.mp hg
  constructor
  · intro hc
    have he : EnvOK c.designatm (pyNum c.rwyelevation_m) := by rw [ho]; exact env_covered r hc
    obtain ⟨d, _, hd⟩ := he.dens
    have hi : TakeoffIn X c g d := ⟨hg, hd⟩
    cases b with
    | false =>
      simp only [twrequired_to, hg, need, bind_ok, thrusttoweight_takeoff, hd]
      exact ⟨_, rfl⟩
    | true =>
      exact ⟨_, to_point_sl X c hi w (fun w => (corr_exists X hp he (toLof c d w)).choose)
        (fun x _ => (corr_exists X hp he (toLof c d x)).choose_spec)⟩
  · intro hc
    simp only [twrequired_to, hg, need, bind_ok, thrusttoweight_takeoff, ho, dens_outside r hc, bind_error]

/-- Cruise: the cruise altitude. -/
theorem C138_cruise (X : Ext) (c : Concept) (o : Atmos.Obs) (ho : c.designatm = .profile o) (r : Recorded o)
    (hp : PropOK c) {s alt : ℝ} (h1 : c.cruisespeed_ktas = some s) (h2 : c.cruisealt_m = some alt)
    (w : NumArg) (b : Bool) :
    (Covers o alt → ∃ y, twrequired_crs X c w b = .ok y) ∧
    (¬ Covers o alt → twrequired_crs X c w b = .error .typeError) := by
  constructor
  · intro hc
    have ha : EnvOK c.designatm alt := by rw [ho]; exact env_covered r hc
    obtain ⟨t, p, hcorr⟩ := corr_exists X hp ha (kts2mps s)
    obtain ⟨q, hq⟩ := ha.dyn (kts2mps s)
    obtain ⟨m, hm⟩ := ha.mach (kts2mps s)
    obtain ⟨K, hK⟩ := kfun_covered X ho r (fun v h e1 e2 => by rw [h2] at e2; cases e2; exact hc) m
    have hi : CruiseIn X c s alt t q m K := ⟨h1, h2, ⟨p, hcorr⟩, hq, hm, hK⟩
    exact ⟨_, hi.eval b w⟩
  · intro hc
    simp only [twrequired_crs, h1, h2, need, bind_ok, slcorr_outside X ho r hp hc, bind_error]

/-- Turn: the altitude of the turn, and the cruise altitude if there is one. -/
theorem C138_turn (X : Ext) (c : Concept) (o : Atmos.Obs) (ho : c.designatm = .profile o) (r : Recorded o)
    (hp : PropOK c) (h1 : c.turnspeed_ktas ≠ none) (h2 : c.stloadfactor ≠ none) (w : NumArg) (b : Bool) :
    (Covers o (pyNum c.turnalt_m) ∧ CruiseCovered o c → ∃ y, twrequired_trn X c w b = .ok y) ∧
    (¬ (Covers o (pyNum c.turnalt_m) ∧ CruiseCovered o c) → twrequired_trn X c w b = .error .typeError) := by
  obtain ⟨s, h1⟩ := Option.ne_none_iff_exists'.mp h1
  obtain ⟨n, h2⟩ := Option.ne_none_iff_exists'.mp h2
  have env : Covers o (pyNum c.turnalt_m) → EnvOK c.designatm (pyNum c.turnalt_m) := fun hc => by
    rw [ho]; exact env_covered r hc
  constructor
  · rintro ⟨hc, hcr⟩
    have ha := env hc
    obtain ⟨t, p, hcorr⟩ := corr_exists X hp ha (kts2mps s)
    obtain ⟨q, hq⟩ := ha.dyn (kts2mps s)
    obtain ⟨m, hm⟩ := ha.mach (kts2mps s)
    obtain ⟨K, hK⟩ := kfun_covered X ho r hcr m
    have hi : TurnIn X c s n t q m K := ⟨h1, h2, ⟨p, hcorr⟩, hq, hm, hK⟩
    exact ⟨_, hi.eval b w⟩
  · intro hn
    have e1 : pyNum (some s) = s := rfl
    by_cases hc : Covers o (pyNum c.turnalt_m)
    · have ha := env hc
      obtain ⟨q, hq⟩ := ha.dyn (kts2mps s)
      obtain ⟨m, hm⟩ := ha.mach (kts2mps s)
      simp only [twrequired_trn, thrusttoweight_sustainedturn, h1, h2, need, bind_ok, e1, hq, hm,
        lesm_outside X ho r (fun h => hn ⟨hc, h⟩), bind_error]
    · have hm : Atmos.mach1 c.designatm (kts2mps s) (pyNum c.turnalt_m) = .error .typeError := by
        rw [ho]; exact (((C138_altitude o r _).2 hc).2.2.2.2 _).1
      simp only [twrequired_trn, thrusttoweight_sustainedturn, h1, h2, need, bind_ok, e1, hm, bind_error]

/-- Climb: sea level besides the altitude of the climb, and the cruise altitude if there is one. -/
theorem C138_climb (X : Ext) (c : Concept) (o : Atmos.Obs) (ho : c.designatm = .profile o) (r : Recorded o)
    (hp : PropOK c) (h1 : c.climbspeed_kias ≠ none) (h2 : c.climbrate_fpm ≠ none) (w : NumArg) (b : Bool) :
    (Covers o 0 ∧ Covers o (pyNum c.climbalt_m) ∧ CruiseCovered o c → ∃ y, twrequired_clm X c w b = .ok y) ∧
    (¬ (Covers o 0 ∧ Covers o (pyNum c.climbalt_m) ∧ CruiseCovered o c) →
      twrequired_clm X c w b = .error .typeError) := by
  obtain ⟨s, h1⟩ := Option.ne_none_iff_exists'.mp h1
  obtain ⟨n, h2⟩ := Option.ne_none_iff_exists'.mp h2
  by_cases hc : Covers o (pyNum c.climbalt_m) ∧ Covers o 0
  · have ha : EnvOK c.designatm (pyNum c.climbalt_m) := by rw [ho]; exact env_covered r hc.1
    have h0 : EnvOK c.designatm 0 := by rw [ho]; exact env_covered r hc.2
    obtain ⟨v, hv⟩ := ha.tas h0 (kts2mps s)
    obtain ⟨roc, hroc⟩ := ha.tas h0 (fpm2mps n)
    obtain ⟨t, p, hcorr⟩ := corr_exists X hp ha v
    obtain ⟨q, hq⟩ := ha.dyn v
    obtain ⟨m, hm⟩ := ha.mach v
    constructor
    · rintro ⟨-, -, hcr⟩
      obtain ⟨K, hK⟩ := kfun_covered X ho r hcr m
      have hi : ClimbIn X c s n v roc t q m K := ⟨h1, h2, hv, hroc, ⟨p, hcorr⟩, hq, hm, hK⟩
      exact ⟨_, hi.eval b w⟩
    · intro hn
      obtain ⟨tc, pc, hc1, -⟩ := hcorr
      simp only [twrequired_clm, h1, h2, need, bind_ok, hv, hroc, hc1, hq, hm,
        lesm_outside X ho r (fun h => hn ⟨hc.2, hc.1, h⟩), bind_error]
  · refine ⟨fun h => absurd ⟨h.2.1, h.1⟩ hc, fun _ => ?_⟩
    simp only [twrequired_clm, h1, h2, need, bind_ok, ho, ((C138_speeds o r _).2 hc _).1, bind_error]

/-- Service ceiling: sea level besides the ceiling, and the cruise altitude if there is one. -/
theorem C138_ceiling (X : Ext) (c : Concept) (o : Atmos.Obs) (ho : c.designatm = .profile o) (r : Recorded o)
    (hp : PropOK c) {alt : ℝ} (h1 : c.servceil_m = some alt) (h2 : c.secclimbspd_kias ≠ none)
    (w : NumArg) (b : Bool) :
    (Covers o 0 ∧ Covers o alt ∧ CruiseCovered o c → ∃ y, twrequired_sec X c w b = .ok y) ∧
    (¬ (Covers o 0 ∧ Covers o alt ∧ CruiseCovered o c) → twrequired_sec X c w b = .error .typeError) := by
  obtain ⟨s, h2⟩ := Option.ne_none_iff_exists'.mp h2
  by_cases hc : Covers o alt ∧ Covers o 0
  · have ha : EnvOK c.designatm alt := by rw [ho]; exact env_covered r hc.1
    have h0 : EnvOK c.designatm 0 := by rw [ho]; exact env_covered r hc.2
    obtain ⟨v, hv⟩ := ha.tas h0 (kts2mps s)
    obtain ⟨roc, hroc⟩ := ha.tas h0 (fpm2mps 100)
    obtain ⟨t, p, hcorr⟩ := corr_exists X hp ha v
    obtain ⟨q, hq⟩ := ha.dyn v
    obtain ⟨m, hm⟩ := ha.mach v
    constructor
    · rintro ⟨-, -, hcr⟩
      obtain ⟨K, hK⟩ := kfun_covered X ho r hcr m
      have hi : CeilIn X c s alt v roc t q m K := ⟨h1, h2, hv, hroc, ⟨p, hcorr⟩, hq, hm, hK⟩
      exact ⟨_, hi.eval b w⟩
    · intro hn
      obtain ⟨tc, pc, hc1, -⟩ := hcorr
      simp only [twrequired_sec, h1, h2, need, bind_ok, hv, hc1, hq, hm,
        lesm_outside X ho r (fun h => hn ⟨hc.2, hc.1, h⟩), bind_error]
  · refine ⟨fun h => absurd ⟨h.2.1, h.1⟩ hc, fun _ => ?_⟩
    simp only [twrequired_sec, h1, h2, need, bind_ok, ho, ((C138_speeds o r _).2 hc _).1, bind_error]

/-- Every altitude of the combined evaluation: sea level, the runway, the turn, the climb, the cruise and
the ceiling. -/
def AllCovered (o : Atmos.Obs) (c : Concept) : Prop :=
  Covers o 0 ∧ Covers o (pyNum c.rwyelevation_m) ∧ Covers o (pyNum c.turnalt_m) ∧ Covers o (pyNum c.climbalt_m) ∧
  (∀ h, c.cruisealt_m = some h → Covers o h) ∧ ∀ h, c.servceil_m = some h → Covers o h

/-- The combined requirement, in thrust and in power, of a complete brief. -/
theorem C138_combined (X : Ext) (c : Concept) (o : Atmos.Obs) (ho : c.designatm = .profile o) (r : Recorded o)
    (hp : PropOK c) (hm : ¬ Missing c) (w : NumArg) (fo b : Bool) :
    (AllCovered o c → (∃ y, twrequired X c w fo b = .ok y) ∧
      (recastArray w ≠ [] → ∀ tow, ∃ y, powerrequired X c w tow fo b = .ok y)) ∧
    (¬ AllCovered o c → twrequired X c w fo b = .error .typeError ∧
      ∀ tow, powerrequired X c w tow fo b = .error .typeError) := by
  constructor
  · rintro ⟨a1, a2, a3, a4, a5, a6⟩
    have hr : Ready c := by
      refine ⟨?_, ?_, ?_, ?_, fun h e => ?_, fun h e => ?_, hp⟩ <;> rw [ho]
      · exact env_covered r a1
      · exact env_covered r a2
      · exact env_covered r a4
      · exact env_covered r a3
      · exact env_covered r (a5 h e)
      · exact env_covered r (a6 h e)
    exact C48_given X c w fo b hr hm
  · intro hn
    have key : ∀ b, twrequired X c w fo b = .error .typeError := by
      intro b
      simp only [Missing, not_or] at hm
      obtain ⟨m1, m2, m3, m4, m5, m6, m7, m8, m9⟩ := hm
      obtain ⟨rs, m3⟩ := Option.ne_none_iff_exists'.mp m3
      obtain ⟨ra, m4⟩ := Option.ne_none_iff_exists'.mp m4
      obtain ⟨sa, m5⟩ := Option.ne_none_iff_exists'.mp m5
      obtain ⟨w', hw'⟩ : ∃ w', w' = NumArg.array (recastArray w) := ⟨_, rfl⟩
      have T1 := C138_takeoff X c o ho r hp m7 w' b
      have T2 := C138_turn X c o ho r hp m8 m9 w' b
      have T3 := C138_climb X c o ho r hp m1 m2 w' b
      have T4 := C138_cruise X c o ho r hp m3 m4 w' b
      have T5 := C138_ceiling X c o ho r hp m5 m6 w' b
      have cc : Covers o ra → CruiseCovered o c := fun h v x _ e2 => by rw [m4] at e2; cases e2; exact h
      unfold twrequired
      simp only [← hw']
      by_cases c1 : Covers o (pyNum c.rwyelevation_m)
      swap
      · rw [T1.2 c1, bind_error]
      obtain ⟨y1, e1⟩ := T1.1 c1
      rw [e1, bind_ok]
      by_cases c2 : Covers o (pyNum c.turnalt_m) ∧ CruiseCovered o c
      swap
      · rw [T2.2 c2, bind_error]
      obtain ⟨y2, e2⟩ := T2.1 c2
      rw [e2, bind_ok]
      by_cases c3 : Covers o 0 ∧ Covers o (pyNum c.climbalt_m) ∧ CruiseCovered o c
      swap
      · rw [T3.2 c3, bind_error]
      obtain ⟨y3, e3⟩ := T3.1 c3
      rw [e3, bind_ok]
      have c4 : Covers o ra := c2.2 rs ra m3 m4
      obtain ⟨y4, e4⟩ := T4.1 c4
      rw [e4, bind_ok]
      have c5 : ¬ Covers o sa := fun c5 => hn ⟨c3.1, c1, c2.1, c3.2.1, fun h e => by rw [m4] at e; cases e; exact c4,
        fun h e => by rw [m5] at e; cases e; exact c5⟩
      rw [T5.2 (fun h => c5 h.2.1), bind_error]
    refine ⟨key b, fun tow => ?_⟩
    unfold powerrequired
    rw [key false, bind_error]

/-- The wing loading at which the clean stall speed is met is computed at sea level. -/
theorem C138_stall (c : Concept) (o : Atmos.Obs) (ho : c.designatm = .profile o) (r : Recorded o)
    (h1 : c.clmaxclean ≠ none) (h2 : c.vstallclean_kcas ≠ none) :
    (Covers o 0 → ∃ y, wsmaxcleanstall_pa c = .ok y) ∧
    (¬ Covers o 0 → wsmaxcleanstall_pa c = .error .typeError) := by
  obtain ⟨cl, h1⟩ := Option.ne_none_iff_exists'.mp h1
  obtain ⟨vs, h2⟩ := Option.ne_none_iff_exists'.mp h2
  have A := C138_altitude o r 0
  constructor
  · intro hc
    obtain ⟨q, hq⟩ := ((A.1 hc).2.2.2.2 (kts2mps vs)).2
    exact ⟨q * cl, by simp only [wsmaxcleanstall_pa, h1, h2, need, bind_ok, ho, hq]; rfl⟩
  · intro hc
    simp only [wsmaxcleanstall_pa, h1, h2, need, bind_ok, ho, ((A.2 hc).2.2.2.2 _).2, bind_error]

/-! ### An upland field -/

/-- Soundings from a field at 1200 m to 9000 m. -/
def upObs : Atmos.Obs := ⟨[1200, 3000, 9000], [280, 270, 230], [1.1, 0.9, 0.5], [88000, 70000, 33000],
  [Atmos.vsound 280, Atmos.vsound 270, Atmos.vsound 230]⟩

theorem upObs_recorded : Recorded upObs := by
  refine ⟨by simp [upObs], ?_, rfl, rfl, rfl, ?_, ?_⟩
  · simp only [upObs]; norm_num
  · intro t ht; simp only [upObs, List.mem_cons, List.not_mem_nil, or_false] at ht; rcases ht with rfl | rfl | rfl <;> norm_num
  · intro t ht; simp only [upObs, List.mem_cons, List.not_mem_nil, or_false] at ht; rcases ht with rfl | rfl | rfl <;> norm_num

theorem upObs_covers (h : ℝ) : Covers upObs h ↔ 1200 ≤ h ∧ h ≤ 9000 := by
  simp only [Covers, upObs, List.mem_cons, List.not_mem_nil, or_false, exists_eq_or_imp, exists_eq_left]
  constructor
  · rintro ⟨h1, h2⟩
    constructor
    · rcases h1 with h | h | h <;> linarith
    · rcases h2 with h | h | h <;> linarith
  · rintro ⟨h1, h2⟩
    exact ⟨Or.inl h1, Or.inr (Or.inr h2)⟩

/-- The example aircraft flying from that field. -/
def upC : Concept := { exC with designatm := .profile upObs, rwyelevation_m := some 1200, climbalt_m := some 1500, turnalt_m := some 2000 }

theorem upC_prop : PropOK upC := by
  show ("piston" : String) = "jet" → _
  intro h; exact absurd h (by decide)

theorem upC_complete : ¬ Missing upC := by simp [Missing, upC, exC]

theorem upC_not_sea : ¬ Covers upObs 0 := by rw [upObs_covers]; norm_num

/-- A usable record that covers every altitude of a complete brief gives the combined requirement (and
its parts, and the stall limit). This is false: without sea level, the climb and ceiling requirements, the
combined one, the power requirement and the stall limit all fail, while take-off, cruise and turn of the
same aircraft are answered. -/
theorem C138_mission_violated (X : Ext) (w : NumArg) (fo b : Bool) (tow : ℝ) :
    Recorded upObs ∧ Covers upObs (pyNum upC.rwyelevation_m) ∧ Covers upObs (pyNum upC.turnalt_m) ∧
    Covers upObs (pyNum upC.climbalt_m) ∧ (∀ h, upC.cruisealt_m = some h → Covers upObs h) ∧
    (∀ h, upC.servceil_m = some h → Covers upObs h) ∧
    (∃ y, twrequired_to X upC w b = .ok y) ∧ (∃ y, twrequired_crs X upC w b = .ok y) ∧
    (∃ y, twrequired_trn X upC w b = .ok y) ∧ twrequired_clm X upC w b = .error .typeError ∧
    twrequired_sec X upC w b = .error .typeError ∧ twrequired X upC w fo b = .error .typeError ∧
    powerrequired X upC w tow fo b = .error .typeError ∧ wsmaxcleanstall_pa upC = .error .typeError ∧
    ∀ v h, Atmos.eas2tas upC.designatm v h = .error .typeError := by
  have r := upObs_recorded
  have hp := upC_prop
  have n0 := upC_not_sea
  have k1 : Covers upObs (pyNum upC.rwyelevation_m) := (upObs_covers 1200).mpr (by norm_num)
  have k2 : Covers upObs (pyNum upC.turnalt_m) := (upObs_covers 2000).mpr (by norm_num)
  have k3 : Covers upObs (pyNum upC.climbalt_m) := (upObs_covers 1500).mpr (by norm_num)
  have k4 : Covers upObs 3000 := (upObs_covers 3000).mpr (by norm_num)
  have k5 : Covers upObs 6000 := (upObs_covers 6000).mpr (by norm_num)
  have kc : CruiseCovered upObs upC := fun v h _ e => by cases e; exact k4
  have all := (C138_combined X upC upObs rfl r hp upC_complete w fo b).2 (fun h => n0 h.1)
  refine ⟨r, k1, k2, k3, ?_, ?_, ?_, ?_, ?_, ?_, ?_, all.1, all.2 tow, ?_, ?_⟩
  · intro h e; cases e; exact k4
  · intro h e; cases e; exact k5
  · exact (C138_takeoff X upC upObs rfl r hp (by simp [upC, exC]) w b).1 k1
  · exact (C138_cruise X upC upObs rfl r hp rfl rfl w b).1 k4
  · exact (C138_turn X upC upObs rfl r hp (by simp [upC, exC]) (by simp [upC, exC]) w b).1 ⟨k2, kc⟩
  · exact (C138_climb X upC upObs rfl r hp (by simp [upC, exC]) (by simp [upC, exC]) w b).2 (fun h => n0 h.1)
  · exact (C138_ceiling X upC upObs rfl r hp rfl (by simp [upC, exC]) w b).2 (fun h => n0 h.1)
  · exact (C138_stall upC upObs rfl r (by simp [upC, exC]) (by simp [upC, exC])).2 n0
  · intro v h
    exact ((C138_speeds upObs r h).2 (fun hc => n0 hc.2) v).1

/-- The same record with a sounding at sea level serves the whole brief. -/
def seaObs : Atmos.Obs := ⟨[0, 3000, 9000], [290, 270, 230], [1.2, 0.9, 0.5], [100000, 70000, 33000],
  [Atmos.vsound 290, Atmos.vsound 270, Atmos.vsound 230]⟩

theorem seaObs_recorded : Recorded seaObs := by
  refine ⟨by simp [seaObs], ?_, rfl, rfl, rfl, ?_, ?_⟩
  · simp only [seaObs]; norm_num
  · intro t ht; simp only [seaObs, List.mem_cons, List.not_mem_nil, or_false] at ht; rcases ht with rfl | rfl | rfl <;> norm_num
  · intro t ht; simp only [seaObs, List.mem_cons, List.not_mem_nil, or_false] at ht; rcases ht with rfl | rfl | rfl <;> norm_num

theorem seaObs_covers (h : ℝ) (h0 : 0 ≤ h) (h1 : h ≤ 9000) : Covers seaObs h :=
  ⟨⟨0, by simp [seaObs], h0⟩, ⟨9000, by simp [seaObs], h1⟩⟩

example (X : Ext) (w : NumArg) : ∃ y, twrequired X { upC with designatm := .profile seaObs } w false true = .ok y :=
  ((C138_combined X { upC with designatm := .profile seaObs } seaObs rfl seaObs_recorded upC_prop upC_complete w false true).1
    ⟨seaObs_covers 0 (by norm_num) (by norm_num), seaObs_covers 1200 (by norm_num) (by norm_num),
      seaObs_covers 2000 (by norm_num) (by norm_num), seaObs_covers 1500 (by norm_num) (by norm_num),
      fun h e => by cases e; exact seaObs_covers 3000 (by norm_num) (by norm_num),
      fun h e => by cases e; exact seaObs_covers 6000 (by norm_num) (by norm_num)⟩).1

/-- A ceiling above the last sounding. -/
example (X : Ext) (w : NumArg) :
    twrequired X { upC with designatm := .profile seaObs, servceil_m := some 10000 } w false true = .error .typeError :=
  ((C138_combined X { upC with designatm := .profile seaObs, servceil_m := some 10000 } seaObs rfl seaObs_recorded upC_prop
    (by simp [Missing, upC, exC]) w false true).2 (fun h => by
      obtain ⟨-, a, ha, hx⟩ := h.2.2.2.2.2 10000 rfl
      simp only [seaObs, List.mem_cons, List.not_mem_nil, or_false] at ha
      rcases ha with rfl | rfl | rfl <;> norm_num at hx)).1

example : ∃ T, 0 ≤ T ∧ Atmos.airtemp_k (.profile upObs) (.scalar 4000) = .ok (.scalar T) :=
  ((C138_altitude upObs upObs_recorded 4000).1 ((upObs_covers 4000).mpr (by norm_num))).1

example : ∃ s, 0 < s ∧ ∀ v, Atmos.eas2tas (.profile seaObs) v 4000 = .ok (v / s) ∧ Atmos.tas2eas (.profile seaObs) v 4000 = .ok (v * s) :=
  (C138_speeds seaObs seaObs_recorded 4000).1 ⟨seaObs_covers 4000 (by norm_num) (by norm_num), seaObs_covers 0 (by norm_num) (by norm_num)⟩

end

end Verif.Props
