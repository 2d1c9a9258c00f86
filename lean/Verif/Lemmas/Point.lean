import Verif.Model.Constraint
import Verif.Lemmas.PyM
import Verif.Props.Atmosphere
import Verif.Lemmas.Tac

/-
Point functions: the requirements as functions of one wing loading.
-/

namespace Verif
open Verif.Aircraft Verif.Units

noncomputable section

theorem broadcast2_map_map (f : ℝ → ℝ → ℝ) (g h : ℝ → ℝ) (ws : List ℝ) :
    broadcast2 f (ws.map g) (ws.map h) = .ok (ws.map (fun w => f (g w) (h w))) := by
  simp only [broadcast2, List.length_map, if_true]
  congr 1
  induction ws with
  | nil => rfl
  | cons a l ih => simp only [List.map_cons, List.zipWith_cons_cons, ih]

theorem broadcast2_map_id (f : ℝ → ℝ → ℝ) (g : ℝ → ℝ) (ws : List ℝ) :
    broadcast2 f (ws.map g) ws = .ok (ws.map (fun w => f (g w) w)) := by
  have := broadcast2_map_map f g id ws
  simpa using this

theorem broadcast2_map_single (f : ℝ → ℝ → ℝ) (g : ℝ → ℝ) (ws : List ℝ) (y : ℝ) :
    broadcast2 f (ws.map g) [y] = .ok (ws.map (fun w => f (g w) y)) := by
  unfold broadcast2
  cases ws with
  | nil => simp
  | cons a l =>
    cases l with
    | nil => simp
    | cons b l => simp

namespace Atmos

/-- The speed of sound at one altitude is one number. -/
theorem vsound_scalar {a : Atm} {alt : ℝ} {vs : NumArg} (h : vsound_mps a (.array [alt]) = .ok vs) :
    ∃ x, vs = .scalar x ∧ vsound_mps a (.scalar alt) = .ok (.scalar x) := by
  have h0 := h
  unfold vsound_mps at h
  simp only [bind_ok_iff] at h
  obtain ⟨alts, h1, ts, h2, h3⟩ := h
  have e1 := (Props.alttest_ok h1).1
  simp only [recastArray] at e1
  subst e1
  have hts : ∃ t, ts = .scalar t := by
    unfold airtemp_k at h2
    rw [h1] at h2
    cases a with
    | isa off =>
      simp only [bind_ok, nditer, List.map_cons, List.map_nil] at h2
      cases h2
      exact ⟨_, rfl⟩
    | profile o =>
      simp only [bind_ok, List.mapM_cons, List.mapM_nil, bind_ok_iff, pure_ok_iff] at h2
      obtain ⟨l, ⟨y, _, l', hl, rfl⟩, h9⟩ := h2
      subst hl
      exact ⟨_, h9.symm⟩
  obtain ⟨t, rfl⟩ := hts
  have h4 : alttest a (.scalar alt) = .ok [alt] := h1
  have h5 : vsound_mps a (.scalar alt) = vsound_mps a (.array [alt]) := by
    unfold vsound_mps
    rw [h4, h1]
  simp only [bind_ok_iff, pure_ok_iff] at h3
  obtain ⟨x, _, h3⟩ := h3
  exact ⟨x, h3.symm, by rw [h5, h0, h3]⟩

/-- Speed, altitude and atmosphere give one Mach number or an exception. -/
theorem mach_scalar {a : Atm} {v alt : ℝ} {ms : List ℝ} (h : mach a (.scalar v) (.scalar alt) = .ok ms) :
    ∃ m, ms = [m] := by
  have h0 := h
  unfold mach at h
  simp only [bind_ok_iff] at h
  obtain ⟨alts, h1, vs, h2, h3⟩ := h
  have e1 := (Props.alttest_ok h1).1
  simp only [recastArray] at e1
  subst e1
  obtain ⟨x, rfl, hx⟩ := vsound_scalar h2
  have := (Props.C18_ratio a alt x hx).1 v
  rw [h0] at this
  cases this
  exact ⟨_, rfl⟩

end Atmos

namespace Aircraft

/-- The corrections at one speed and altitude: thrust correction `t`, power correction `p`. -/
def CorrAt (X : Ext) (c : Concept) (v alt t p : ℝ) : Prop :=
  ∃ tc pc, slcorr X c (.scalar v) alt = .ok (tc, pc) ∧ recastArray tc = [t] ∧ recastArray pc = [p]

theorem slcorr_scalar {X : Ext} {c : Concept} {v alt : ℝ} {r : NumArg × NumArg}
    (h : slcorr X c (.scalar v) alt = .ok r) : ∃ t p, recastArray r.1 = [t] ∧ recastArray r.2 = [p] := by
  have h0 := h
  unfold slcorr at h
  simp only [bind_ok_iff] at h
  obtain ⟨pr, _, ms, hm, h⟩ := h
  obtain ⟨m, rfl⟩ := Atmos.mach_scalar hm
  unfold corrOf at h
  cases pr with
  | pyFalse => cases h; exact ⟨1, 1, rfl, rfl⟩
  | str s =>
    simp only [bind_ok_iff, List.mapM_cons, List.mapM_nil, pure_ok_iff] at h
    obtain ⟨_, _, _, _, _, _, ts, ⟨y, _, l, rfl, rfl⟩, rfl⟩ := h
    exact ⟨y, 1, rfl, rfl⟩
  | pair e =>
    cases h
    cases e with
    | turboprop f => exact ⟨1, f m alt, rfl, rfl⟩
    | piston r f => exact ⟨1, f r alt, rfl, rfl⟩
    | electric => exact ⟨1, 1, rfl, rfl⟩
    | jet f => exact ⟨f m alt, 1, rfl, rfl⟩
    | other => exact ⟨1, 1, rfl, rfl⟩

theorem corrAt_of {X : Ext} {c : Concept} {v alt : ℝ} {r : NumArg × NumArg}
    (h : slcorr X c (.scalar v) alt = .ok r) :
    ∃ t p, CorrAt X c v alt t p ∧ recastArray r.1 = [t] ∧ recastArray r.2 = [p] := by
  obtain ⟨t, p, h1, h2⟩ := slcorr_scalar h
  exact ⟨t, p, ⟨r.1, r.2, h, h1, h2⟩, h1, h2⟩

/-- `K` is the induced drag factor at Mach number `m` as a function of the wing loading and the lift
coefficient: the four factors, blended according to the difference between the lift coefficient and
the cruise lift coefficient `clc` at the wing loading. -/
def KFun (X : Ext) (c : Concept) (m : ℝ) (K : ℝ → ℝ → ℝ) : Prop :=
  ∃ (ko k0 k1 : ℝ) (clc : ℝ → ℝ), kFactors X c m = .ok (ko, k0, k1) ∧
    (∀ w cl, K w cl = kBlend ko k0 k1 (machstar_le c) m (cl - clc w) (clc w)) ∧
    ((c.cruisespeed_ktas = none ∨ c.cruisealt_m = none) ∧ (∀ w, clc w = 0.6) ∨
     ∃ vc hc qc, c.cruisespeed_ktas = some vc ∧ c.cruisealt_m = some hc ∧
       Atmos.dynamicpressure_pa c.designatm (kts2mps vc) hc = .ok qc ∧
       ∀ w, clc w = w * pyNum c.cruise_weight_fraction / qc)

theorem clCruise_point (c : Concept) :
    (∃ e, ∀ ws, clCruise c ws = .error e) ∨
    ((c.cruisespeed_ktas = none ∨ c.cruisealt_m = none) ∧ ∀ ws, clCruise c ws = .ok [0.6]) ∨
    (∃ vc hc qc, c.cruisespeed_ktas = some vc ∧ c.cruisealt_m = some hc ∧
       Atmos.dynamicpressure_pa c.designatm (kts2mps vc) hc = .ok qc ∧
       ∀ ws, clCruise c ws = .ok (ws.map (fun w => w * pyNum c.cruise_weight_fraction / qc))) := by
  unfold clCruise
  cases hv : c.cruisespeed_ktas with
  | none => right; left; exact ⟨Or.inl rfl, fun ws => rfl⟩
  | some vc =>
    cases hh : c.cruisealt_m with
    | none => right; left; exact ⟨Or.inr rfl, fun ws => rfl⟩
    | some hc =>
      cases hq : Atmos.dynamicpressure_pa c.designatm (kts2mps vc) hc with
      | error e => left; exact ⟨e, fun ws => by show (Atmos.dynamicpressure_pa _ _ _ >>= _) = _; rw [hq]; rfl⟩
      | ok qc => right; right; exact ⟨vc, hc, qc, rfl, rfl, hq, fun ws => by
          show (Atmos.dynamicpressure_pa _ _ _ >>= _) = _; rw [hq]; rfl⟩

/-- The induced drag factor is computed wing loading by wing loading. -/
theorem lesm_point (X : Ext) (c : Concept) (m : ℝ) :
    (∃ e, ∀ ws g, induceddragfact_lesm X c (some ws) (some (ws.map g)) (some m) = .error e) ∨
    ∃ K, KFun X c m K ∧ ∀ ws g, induceddragfact_lesm X c (some ws) (some (ws.map g)) (some m) =
      .ok (ws.map (fun w => K w (g w))) := by
  rcases clCruise_point c with ⟨e, he⟩ | hrest
  · left
    refine ⟨e, fun ws g => ?_⟩
    simp only [induceddragfact_lesm, lesmWingloading, bind_ok, he, bind_error]
  · cases hk : kFactors X c m with
    | error e =>
      left
      refine ⟨e, fun ws g => ?_⟩
      rcases hrest with ⟨_, h⟩ | ⟨_, _, _, _, _, _, h⟩ <;>
        simp only [induceddragfact_lesm, lesmWingloading, bind_ok, h, Option.getD_some, hk, bind_error]
    | ok r =>
      obtain ⟨ko, k0, k1⟩ := r
      right
      rcases hrest with ⟨hn, h⟩ | ⟨vc, hc, qc, h1, h2, h3, h⟩
      · refine ⟨fun w cl => kBlend ko k0 k1 (machstar_le c) m (cl - 0.6) 0.6,
          ⟨ko, k0, k1, fun _ => 0.6, hk, fun _ _ => rfl, Or.inl ⟨hn, fun _ => rfl⟩⟩, fun ws g => ?_⟩
        simp only [induceddragfact_lesm, lesmWingloading, bind_ok, h, Option.getD_some, hk,
          broadcast2_map_single]
      · refine ⟨fun w cl => kBlend ko k0 k1 (machstar_le c) m (cl - w * pyNum c.cruise_weight_fraction / qc)
          (w * pyNum c.cruise_weight_fraction / qc),
          ⟨ko, k0, k1, _, hk, fun _ _ => rfl, Or.inr ⟨vc, hc, qc, h1, h2, h3, fun _ => rfl⟩⟩, fun ws g => ?_⟩
        simp only [induceddragfact_lesm, lesmWingloading, bind_ok, h, Option.getD_some, hk,
          broadcast2_map_map]

/-- At most one induced drag factor function. -/
theorem KFun.unique {X : Ext} {c : Concept} {m : ℝ} {K K' : ℝ → ℝ → ℝ} (h : KFun X c m K) (h' : KFun X c m K') :
    K = K' := by
  obtain ⟨ko, k0, k1, clc, h1, h2, h3⟩ := h
  obtain ⟨ko', k0', k1', clc', h1', h2', h3'⟩ := h'
  rw [h1] at h1'
  cases h1'
  have : clc = clc' := by
    funext w
    rcases h3 with ⟨hn, h3⟩ | ⟨vc, hc, qc, e1, e2, e3, h3⟩ <;>
      rcases h3' with ⟨hn', h3'⟩ | ⟨vc', hc', qc', e1', e2', e3', h3'⟩
    · rw [h3, h3']
    · rcases hn with hn | hn
      · rw [hn] at e1'; cases e1'
      · rw [hn] at e2'; cases e2'
    · rcases hn' with hn | hn
      · rw [hn] at e1; cases e1
      · rw [hn] at e2; cases e2
    · rw [e1] at e1'; rw [e2] at e2'
      cases e1'; cases e2'
      rw [e3] at e3'; cases e3'
      rw [h3, h3']
  subst this
  funext w cl
  rw [h2, h2']

/-- Division by the correction when the mapping is selected. -/
def sl (b : Bool) (t x : ℝ) : ℝ := if b then x / t else x

theorem mapSl_single (b : Bool) (g : ℝ → ℝ) (ws : List ℝ) {tc : NumArg} {t : ℝ} (h : recastArray tc = [t]) :
    mapSl b (ws.map g) tc = .ok (ws.map (fun w => sl b t (g w))) := by
  unfold mapSl sl
  cases b with
  | true => simp only [if_true, h, broadcast2_map_single]
  | false => simp

/-- Everything the climb requirement uses besides the wing loading. -/
structure ClimbIn (X : Ext) (c : Concept) (s r v roc t q m : ℝ) (K : ℝ → ℝ → ℝ) : Prop where
  speed : c.climbspeed_kias = some s
  rate : c.climbrate_fpm = some r
  tas : Atmos.eas2tas c.designatm (kts2mps s) (pyNum c.climbalt_m) = .ok v
  troc : Atmos.eas2tas c.designatm (fpm2mps r) (pyNum c.climbalt_m) = .ok roc
  corr : ∃ p, CorrAt X c v (pyNum c.climbalt_m) t p
  press : Atmos.dynamicpressure_pa c.designatm v (pyNum c.climbalt_m) = .ok q
  mach : Atmos.mach1 c.designatm v (pyNum c.climbalt_m) = .ok m
  drag : KFun X c m K

/-- The climb requirement at one wing loading. -/
def climbReq (c : Concept) (b : Bool) (v roc t q : ℝ) (K : ℝ → ℝ → ℝ) (w : ℝ) : ℝ :=
  sl b t (climbPoint roc v q (pyNum c.cdminclean) (K w (w * pyNum c.climb_weight_fraction / q))
    (w * pyNum c.climb_weight_fraction)) * pyNum c.climb_weight_fraction

theorem clm_point (X : Ext) (c : Concept) (b : Bool) :
    (∃ e, ∀ w, twrequired_clm X c w b = .error e) ∨
    ∃ s r v roc t q m K, ClimbIn X c s r v roc t q m K ∧
      ∀ w, twrequired_clm X c w b = .ok (Atmos.revert ((recastArray w).map (climbReq c b v roc t q K))) := by
  unfold twrequired_clm
  cases hs : c.climbspeed_kias with
  | none => left; exact ⟨_, fun w => rfl⟩
  | some s =>
  cases hr : c.climbrate_fpm with
  | none => left; exact ⟨_, fun w => rfl⟩
  | some r =>
  cases hv : Atmos.eas2tas c.designatm (kts2mps s) (pyNum c.climbalt_m) with
  | error e => left; refine ⟨e, fun w => ?_⟩; simp only [need, bind_ok, hv, bind_error]
  | ok v =>
  cases hroc : Atmos.eas2tas c.designatm (fpm2mps r) (pyNum c.climbalt_m) with
  | error e => left; refine ⟨e, fun w => ?_⟩; simp only [need, bind_ok, hv, hroc, bind_error]
  | ok roc =>
  cases hc : slcorr X c (.scalar v) (pyNum c.climbalt_m) with
  | error e => left; refine ⟨e, fun w => ?_⟩; simp only [need, bind_ok, hv, hroc, hc, bind_error]
  | ok tp =>
  cases hq : Atmos.dynamicpressure_pa c.designatm v (pyNum c.climbalt_m) with
  | error e => left; refine ⟨e, fun w => ?_⟩; simp only [need, bind_ok, hv, hroc, hc, hq, bind_error]
  | ok q =>
  cases hm : Atmos.mach1 c.designatm v (pyNum c.climbalt_m) with
  | error e => left; refine ⟨e, fun w => ?_⟩; simp only [need, bind_ok, hv, hroc, hc, hq, hm, bind_error]
  | ok m =>
  rcases lesm_point X c m with ⟨e, he⟩ | ⟨K, hK, hl⟩
  · left
    refine ⟨e, fun w => ?_⟩
    simp only [need, bind_ok, hv, hroc, hc, hq, hm, List.map_map, he, bind_error]
  · right
    obtain ⟨t, p, hcor, ht, hp⟩ := corrAt_of hc
    refine ⟨s, r, v, roc, t, q, m, K, ⟨hs, hr, hv, hroc, ⟨p, hcor⟩, hq, hm, hK⟩, fun w => ?_⟩
    simp only [need, bind_ok, hv, hroc, hc, hq, hm, List.map_map, hl, broadcast2_map_map,
      mapSl_single _ _ _ ht]
    rfl

/-- Everything the cruise requirement uses besides the wing loading. -/
structure CruiseIn (X : Ext) (c : Concept) (s alt t q m : ℝ) (K : ℝ → ℝ → ℝ) : Prop where
  speed : c.cruisespeed_ktas = some s
  altitude : c.cruisealt_m = some alt
  corr : ∃ p, CorrAt X c (kts2mps s) alt t p
  press : Atmos.dynamicpressure_pa c.designatm (kts2mps s) alt = .ok q
  mach : Atmos.mach1 c.designatm (kts2mps s) alt = .ok m
  drag : KFun X c m K

/-- The cruise requirement at one wing loading. -/
def cruiseReq (c : Concept) (b : Bool) (t q : ℝ) (K : ℝ → ℝ → ℝ) (w : ℝ) : ℝ :=
  sl b t (cruisePoint q (pyNum c.cdminclean) (K w (w * pyNum c.cruise_weight_fraction / q))
    (w * pyNum c.cruise_weight_fraction)) * pyNum c.cruise_weight_fraction * (1 / pyNum c.cruisethrustfact)

theorem crs_point (X : Ext) (c : Concept) (b : Bool) :
    (∃ e, ∀ w, twrequired_crs X c w b = .error e) ∨
    ∃ s alt t q m K, CruiseIn X c s alt t q m K ∧
      ∀ w, twrequired_crs X c w b = .ok (Atmos.revert ((recastArray w).map (cruiseReq c b t q K))) := by
  unfold twrequired_crs
  cases hs : c.cruisespeed_ktas with
  | none => left; exact ⟨_, fun w => rfl⟩
  | some s =>
  cases hr : c.cruisealt_m with
  | none => left; exact ⟨_, fun w => rfl⟩
  | some alt =>
  cases hc : slcorr X c (.scalar (kts2mps s)) alt with
  | error e => left; refine ⟨e, fun w => ?_⟩; simp only [need, bind_ok, hc, bind_error]
  | ok tp =>
  cases hq : Atmos.dynamicpressure_pa c.designatm (kts2mps s) alt with
  | error e => left; refine ⟨e, fun w => ?_⟩; simp only [need, bind_ok, hc, hq, bind_error]
  | ok q =>
  cases hm : Atmos.mach1 c.designatm (kts2mps s) alt with
  | error e => left; refine ⟨e, fun w => ?_⟩; simp only [need, bind_ok, hc, hq, hm, bind_error]
  | ok m =>
  rcases lesm_point X c m with ⟨e, he⟩ | ⟨K, hK, hl⟩
  · left
    refine ⟨e, fun w => ?_⟩
    simp only [need, bind_ok, hc, hq, hm, List.map_map, he, bind_error]
  · right
    obtain ⟨t, p, hcor, ht, hp⟩ := corrAt_of hc
    refine ⟨s, alt, t, q, m, K, ⟨hs, hr, ⟨p, hcor⟩, hq, hm, hK⟩, fun w => ?_⟩
    simp only [need, bind_ok, hc, hq, hm, List.map_map, hl, broadcast2_map_map,
      mapSl_single _ _ _ ht]
    rfl

/-- Everything the service ceiling requirement uses besides the wing loading. -/
structure CeilIn (X : Ext) (c : Concept) (s alt v roc t q m : ℝ) (K : ℝ → ℝ → ℝ) : Prop where
  altitude : c.servceil_m = some alt
  speed : c.secclimbspd_kias = some s
  tas : Atmos.eas2tas c.designatm (kts2mps s) alt = .ok v
  troc : Atmos.eas2tas c.designatm (fpm2mps 100) alt = .ok roc
  corr : ∃ p, CorrAt X c v alt t p
  press : Atmos.dynamicpressure_pa c.designatm v alt = .ok q
  mach : Atmos.mach1 c.designatm v alt = .ok m
  drag : KFun X c m K

/-- The service ceiling requirement at one wing loading. -/
def ceilReq (c : Concept) (b : Bool) (v roc t q : ℝ) (K : ℝ → ℝ → ℝ) (w : ℝ) : ℝ :=
  sl b t (ceilingPoint roc v q (pyNum c.cdminclean) (K w (w * pyNum c.sec_weight_fraction / q))
    (w * pyNum c.sec_weight_fraction)) * pyNum c.sec_weight_fraction

theorem sec_point (X : Ext) (c : Concept) (b : Bool) :
    (∃ e, ∀ w, twrequired_sec X c w b = .error e) ∨
    ∃ s alt v roc t q m K, CeilIn X c s alt v roc t q m K ∧
      ∀ w, twrequired_sec X c w b = .ok (Atmos.revert ((recastArray w).map (ceilReq c b v roc t q K))) := by
  unfold twrequired_sec
  cases hr : c.servceil_m with
  | none => left; exact ⟨_, fun w => rfl⟩
  | some alt =>
  cases hs : c.secclimbspd_kias with
  | none => left; exact ⟨_, fun w => rfl⟩
  | some s =>
  cases hv : Atmos.eas2tas c.designatm (kts2mps s) alt with
  | error e => left; refine ⟨e, fun w => ?_⟩; simp only [need, bind_ok, hv, bind_error]
  | ok v =>
  cases hc : slcorr X c (.scalar v) alt with
  | error e => left; refine ⟨e, fun w => ?_⟩; simp only [need, bind_ok, hv, hc, bind_error]
  | ok tp =>
  cases hq : Atmos.dynamicpressure_pa c.designatm v alt with
  | error e => left; refine ⟨e, fun w => ?_⟩; simp only [need, bind_ok, hv, hc, hq, bind_error]
  | ok q =>
  cases hm : Atmos.mach1 c.designatm v alt with
  | error e => left; refine ⟨e, fun w => ?_⟩; simp only [need, bind_ok, hv, hc, hq, hm, bind_error]
  | ok m =>
  rcases lesm_point X c m with ⟨e, he⟩ | ⟨K, hK, hl⟩
  · left
    refine ⟨e, fun w => ?_⟩
    simp only [need, bind_ok, hv, hc, hq, hm, List.map_map, he, bind_error]
  · cases hroc : Atmos.eas2tas c.designatm (fpm2mps 100) alt with
    | error e =>
      left; refine ⟨e, fun w => ?_⟩
      simp only [need, bind_ok, hv, hroc, hc, hq, hm, List.map_map, hl, bind_error]
    | ok roc =>
      right
      obtain ⟨t, p, hcor, ht, hp⟩ := corrAt_of hc
      refine ⟨s, alt, v, roc, t, q, m, K, ⟨hr, hs, hv, hroc, ⟨p, hcor⟩, hq, hm, hK⟩, fun w => ?_⟩
      simp only [need, bind_ok, hv, hroc, hc, hq, hm, List.map_map, hl, broadcast2_map_map,
        mapSl_single _ _ _ ht]
      rfl

/-- Everything the turn requirement uses besides the wing loading. -/
structure TurnIn (X : Ext) (c : Concept) (s n t q m : ℝ) (K : ℝ → ℝ → ℝ) : Prop where
  speed : c.turnspeed_ktas = some s
  load : c.stloadfactor = some n
  corr : ∃ p, CorrAt X c (kts2mps s) (pyNum c.turnalt_m) t p
  press : Atmos.dynamicpressure_pa c.designatm (kts2mps s) (pyNum c.turnalt_m) = .ok q
  mach : Atmos.mach1 c.designatm (kts2mps s) (pyNum c.turnalt_m) = .ok m
  drag : KFun X c m K

/-- Lift coefficient of the turn at one wing loading. -/
def turnCl (c : Concept) (n q w : ℝ) : ℝ :=
  w * pyNum c.turn_weight_fraction * pyNum c.climb_weight_fraction * n / q

/-- The turn requirement at one wing loading. -/
def turnReq (c : Concept) (b : Bool) (n t q : ℝ) (K : ℝ → ℝ → ℝ) (w : ℝ) : ℝ :=
  sl b t (turnPoint q (pyNum c.cdminclean) n (K (w * pyNum c.turn_weight_fraction) (turnCl c n q w))
    (w * pyNum c.turn_weight_fraction) (w * pyNum c.turn_weight_fraction * pyNum c.climb_weight_fraction)) *
    pyNum c.turn_weight_fraction

/-- The feasible turn requirement at one wing loading. -/
def turnFeas (c : Concept) (b : Bool) (n t q : ℝ) (K : ℝ → ℝ → ℝ) (w : ℝ) : Option ℝ :=
  if turnCl c n q w > pyNum c.clmaxclean then none else some (turnReq c b n t q K w)

theorem feasible_map (cm : ℝ) (g h : ℝ → ℝ) (ws : List ℝ) :
    feasible cm (ws.map g) (ws.map h) = ws.map (fun w => if h w > cm then none else some (g w)) := by
  unfold feasible
  induction ws with
  | nil => rfl
  | cons a l ih => simp only [List.map_cons, List.zipWith_cons_cons, ih]

theorem lesm_point_map {X : Ext} {c : Concept} {m : ℝ} {K : ℝ → ℝ → ℝ}
    (hl : ∀ ws g, induceddragfact_lesm X c (some ws) (some (ws.map g)) (some m) = .ok (ws.map (fun w => K w (g w))))
    (ws : List ℝ) (u g : ℝ → ℝ) :
    induceddragfact_lesm X c (some (ws.map u)) (some (ws.map (g ∘ u))) (some m) =
      .ok (ws.map (fun w => K (u w) (g (u w)))) := by
  have := hl (ws.map u) g
  simpa [List.map_map, Function.comp_def] using this

theorem trn_point (X : Ext) (c : Concept) (b : Bool) :
    (∃ e, ∀ w, twrequired_trn X c w b = .error e) ∨
    ∃ s n t q m K, TurnIn X c s n t q m K ∧
      ∀ w, twrequired_trn X c w b = .ok (Atmos.revert ((recastArray w).map (turnReq c b n t q K)),
        Atmos.revert ((recastArray w).map (turnCl c n q)), revertNan ((recastArray w).map (turnFeas c b n t q K))) := by
  unfold twrequired_trn thrusttoweight_sustainedturn
  cases hs : c.turnspeed_ktas with
  | none => left; exact ⟨_, fun w => rfl⟩
  | some s =>
  cases hr : c.stloadfactor with
  | none => left; exact ⟨_, fun w => rfl⟩
  | some n =>
  have e1 : pyNum (some s) = s := rfl
  have e2 : pyNum (some n) = n := rfl
  cases hm : Atmos.mach1 c.designatm (kts2mps s) (pyNum c.turnalt_m) with
  | error e => left; refine ⟨e, fun w => ?_⟩; simp only [need, bind_ok, e1, e2, hm, bind_error]
  | ok m =>
  cases hq : Atmos.dynamicpressure_pa c.designatm (kts2mps s) (pyNum c.turnalt_m) with
  | error e => left; refine ⟨e, fun w => ?_⟩; simp only [need, bind_ok, e1, e2, hm, hq, bind_error]
  | ok q =>
  rcases lesm_point X c m with ⟨e, he⟩ | ⟨K, hK, hl⟩
  · left
    refine ⟨e, fun w => ?_⟩
    have := he ((recastArray w).map (fun w => w * pyNum c.turn_weight_fraction))
      (fun w => w * pyNum c.climb_weight_fraction * n / q)
    simp only [need, bind_ok, e1, e2, hm, hq, List.map_map, Function.comp_def] at this ⊢
    simp only [this, bind_error]
  · cases hc : slcorr X c (.scalar (kts2mps s)) (pyNum c.turnalt_m) with
    | error e =>
      left; refine ⟨e, fun w => ?_⟩
      have := hl ((recastArray w).map (fun w => w * pyNum c.turn_weight_fraction))
        (fun w => w * pyNum c.climb_weight_fraction * n / q)
      simp only [need, bind_ok, e1, e2, hm, hq, List.map_map, Function.comp_def] at this ⊢
      simp only [this, bind_ok, broadcast2_map_map, hc, bind_error]
      rfl
    | ok tp =>
      right
      obtain ⟨t, p, hcor, ht, hp⟩ := corrAt_of hc
      refine ⟨s, n, t, q, m, K, ⟨hs, hr, ⟨p, hcor⟩, hq, hm, hK⟩, fun w => ?_⟩
      have := hl ((recastArray w).map (fun w => w * pyNum c.turn_weight_fraction))
        (fun w => w * pyNum c.climb_weight_fraction * n / q)
      simp only [need, bind_ok, e1, e2, hm, hq, List.map_map, Function.comp_def] at this ⊢
      simp only [this, bind_ok, broadcast2_map_map, hc]
      show (mapSl b _ tp.1 >>= _) = _
      simp only [mapSl_single _ _ _ ht, bind_ok, List.map_map, Function.comp_def, feasible_map]
      rfl

/-- Everything the take-off requirement uses besides the wing loading; `T v` is the thrust correction
at the lift-off speed `v`. -/
structure TakeoffIn (X : Ext) (c : Concept) (g d : ℝ) : Prop where
  run : c.groundrun_m = some g
  dens : Atmos.dens1 c.designatm (pyNum c.rwyelevation_m) = .ok d

/-- Lift-off speed at one wing loading. -/
def toLof (c : Concept) (d w : ℝ) : ℝ := liftoffPoint d (pyNum c.clmaxto) w

/-- The take-off requirement at one wing loading, before mapping to sea level. -/
def toStatic (c : Concept) (g d w : ℝ) : ℝ :=
  map2static c * takeoffPoint g (pyNum c.cdto) (pyNum c.clto) (pyNum c.mu_r) (toLof c d w)

theorem takeoffSlAll_ok (X : Ext) (c : Concept) (g h t : ℝ → ℝ) (ws : List ℝ)
    (hall : ∀ w ∈ ws, ∃ p, CorrAt X c (h w) (pyNum c.rwyelevation_m) (t w) p) :
    takeoffSlAll X c (ws.map g) (ws.map h) = .ok (ws.map (fun w => g w / t w)) := by
  induction ws with
  | nil => rfl
  | cons a l ih =>
    obtain ⟨p, tc, pc, h1, h2, h3⟩ := hall a (by simp)
    have hs : takeoffSl X c (g a) (h a) = .ok (g a / t a) := by
      simp only [takeoffSl, h1, bind_ok, h2]
      rfl
    simp only [List.map_cons, takeoffSlAll, hs, bind_ok]
    rw [ih (fun w hw => hall w (by simp [hw]))]
    rfl

theorem takeoffSlAll_error (X : Ext) (c : Concept) (g h : ℝ → ℝ) (ws : List ℝ) (w : ℝ) (hw : w ∈ ws)
    (hn : ∀ r, slcorr X c (.scalar (h w)) (pyNum c.rwyelevation_m) ≠ .ok r) :
    ∃ e, takeoffSlAll X c (ws.map g) (ws.map h) = .error e := by
  induction ws with
  | nil => cases hw
  | cons a l ih =>
    simp only [List.map_cons, takeoffSlAll]
    cases h1 : takeoffSl X c (g a) (h a) with
    | error e => exact ⟨e, rfl⟩
    | ok x =>
      rcases List.mem_cons.mp hw with rfl | hw
      · unfold takeoffSl at h1
        simp only [bind_ok_iff] at h1
        obtain ⟨r, hr, _⟩ := h1
        exact absurd hr (hn r)
      · obtain ⟨e, he⟩ := ih hw
        simp only [bind_ok, he, bind_error]
        exact ⟨e, rfl⟩

/-- Without the sea-level mapping the take-off requirement is a point function. -/
theorem to_point_static (X : Ext) (c : Concept) :
    (∃ e, ∀ w, twrequired_to X c w false = .error e) ∨
    ∃ g d, TakeoffIn X c g d ∧
      ∀ w, twrequired_to X c w false = .ok (Atmos.revert ((recastArray w).map (toStatic c g d)),
        Atmos.revert ((recastArray w).map (toLof c d)), Atmos.revert ((recastArray w).map (fun w => toLof c d w / √2))) := by
  unfold twrequired_to thrusttoweight_takeoff
  cases hs : c.groundrun_m with
  | none => left; exact ⟨_, fun w => rfl⟩
  | some g =>
  cases hd : Atmos.dens1 c.designatm (pyNum c.rwyelevation_m) with
  | error e => left; refine ⟨e, fun w => ?_⟩; simp only [need, bind_ok, bind_error]
  | ok d =>
    right
    refine ⟨g, d, ⟨hs, hd⟩, fun w => ?_⟩
    simp only [need, bind_ok, List.map_map]
    show Except.ok (Atmos.revert _, Atmos.revert _, Atmos.revert _) = _
    simp only [List.map_map]
    rfl

/-- With the mapping it is one wherever the corrections exist. -/
theorem to_point_sl (X : Ext) (c : Concept) {g d : ℝ} (hi : TakeoffIn X c g d) (w : NumArg) (t : ℝ → ℝ)
    (hall : ∀ x ∈ recastArray w, ∃ p, CorrAt X c (toLof c d x) (pyNum c.rwyelevation_m) (t x) p) :
    twrequired_to X c w true = .ok (Atmos.revert ((recastArray w).map (fun x => toStatic c g d x / t x)),
        Atmos.revert ((recastArray w).map (toLof c d)), Atmos.revert ((recastArray w).map (fun w => toLof c d w / √2))) := by
  have h1 := takeoffSlAll_ok X c (toStatic c g d) (toLof c d) t (recastArray w) hall
  unfold twrequired_to thrusttoweight_takeoff
  simp only [hi.run, hi.dens, need, bind_ok, List.map_map, if_true]
  show (takeoffSlAll X c (List.map _ _) (List.map _ _) >>= _) = _
  have e : ((fun t => map2static c * t) ∘ takeoffPoint (pyNum (some g)) (pyNum c.cdto) (pyNum c.clto) (pyNum c.mu_r) ∘
      liftoffPoint d (pyNum c.clmaxto)) = toStatic c g d := rfl
  rw [List.map_map, List.map_map, e]
  show (takeoffSlAll X c (List.map _ _) (List.map (toLof c d) _) >>= _) = _
  rw [h1]
  show Except.ok (Atmos.revert _, Atmos.revert _, Atmos.revert _) = _
  simp only [List.map_map]
  rfl

end Aircraft

end

end Verif
