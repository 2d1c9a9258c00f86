import Verif.Lemmas.Env
import Verif.Props.Aero2

/-
Properties C46, C47, C48, C80: requirements as functions of the wing loading, feasibility, the combined
requirement, missing brief items.
-/

namespace Verif.Props
open Verif Verif.Aircraft Verif.Units

noncomputable section

/-! ### C80 -/

/-- Independent of the particular array: either every evaluation of at least one wing loading raises the
same exception, or there is one function of a single wing loading that gives each entry of the output
`E`. -/
def PointByPoint {α β : Type} (F : NumArg → PyM β) (E : β → List α) : Prop :=
  (∃ e, ∀ x, recastArray x ≠ [] → F x = .error e) ∨
  (∃ f : ℝ → α, ∀ x, recastArray x ≠ [] → ∃ r, F x = .ok r ∧ E r = (recastArray x).map f)

/-- What the definition says about arrays and their elements. -/
theorem PointByPoint.elements {α β : Type} {F : NumArg → PyM β} {E : β → List α} (h : PointByPoint F E)
    (ws : List ℝ) (hw : ws ≠ []) :
    (∀ r, F (.array ws) = .ok r → (E r).length = ws.length ∧
      ∀ i (hi : i < ws.length), ∃ r', F (.scalar ws[i]) = .ok r' ∧ some (E r') = ((E r)[i]?).map (fun x => [x])) ∧
    (∀ e, F (.array ws) = .error e → ∀ w ∈ ws, F (.scalar w) = .error e) := by
  rcases h with ⟨e, h⟩ | ⟨f, h⟩
  · constructor
    · intro r hr; rw [h (.array ws) hw] at hr; cases hr
    · intro e' he' w _
      rw [h (.array ws) hw] at he'; cases he'
      exact h _ (by simp [recastArray])
  · obtain ⟨r, hr, he⟩ := h (.array ws) hw
    constructor
    · intro r' hr'
      rw [hr] at hr'; cases hr'
      refine ⟨by rw [he]; simp [recastArray], fun i hi => ?_⟩
      obtain ⟨r1, h1, h2⟩ := h (.scalar ws[i]) (by simp [recastArray])
      refine ⟨r1, h1, ?_⟩
      rw [h2, he]
      simp [recastArray, hi]
    · intro e' he'; rw [hr] at he'; cases he'

theorem C80_climb (X : Ext) (c : Concept) (b : Bool) :
    PointByPoint (fun w => twrequired_clm X c w b) recastArray := by
  rcases clm_point X c b with ⟨e, he⟩ | ⟨s, r, v, roc, t, q, m, K, _, h⟩
  · exact Or.inl ⟨e, fun w _ => he w⟩
  · exact Or.inr ⟨_, fun w _ => ⟨_, h w, recast_revert _⟩⟩

theorem C80_cruise (X : Ext) (c : Concept) (b : Bool) :
    PointByPoint (fun w => twrequired_crs X c w b) recastArray := by
  rcases crs_point X c b with ⟨e, he⟩ | ⟨s, r, t, q, m, K, _, h⟩
  · exact Or.inl ⟨e, fun w _ => he w⟩
  · exact Or.inr ⟨_, fun w _ => ⟨_, h w, recast_revert _⟩⟩

theorem C80_ceiling (X : Ext) (c : Concept) (b : Bool) :
    PointByPoint (fun w => twrequired_sec X c w b) recastArray := by
  rcases sec_point X c b with ⟨e, he⟩ | ⟨s, r, v, roc, t, q, m, K, _, h⟩
  · exact Or.inl ⟨e, fun w _ => he w⟩
  · exact Or.inr ⟨_, fun w _ => ⟨_, h w, recast_revert _⟩⟩

/-- Turn: requirement, lift coefficient and feasible requirement. -/
theorem C80_turn (X : Ext) (c : Concept) (b : Bool) :
    PointByPoint (fun w => twrequired_trn X c w b) (fun r => recastArray r.1) ∧
    PointByPoint (fun w => twrequired_trn X c w b) (fun r => recastArray r.2.1) ∧
    PointByPoint (fun w => twrequired_trn X c w b) (fun r => r.2.2.toList) := by
  rcases trn_point X c b with ⟨e, he⟩ | ⟨s, n, t, q, m, K, _, h⟩
  · exact ⟨Or.inl ⟨e, fun w _ => he w⟩, Or.inl ⟨e, fun w _ => he w⟩, Or.inl ⟨e, fun w _ => he w⟩⟩
  · exact ⟨Or.inr ⟨_, fun w _ => ⟨_, h w, recast_revert _⟩⟩, Or.inr ⟨_, fun w _ => ⟨_, h w, recast_revert _⟩⟩,
      Or.inr ⟨_, fun w _ => ⟨_, h w, toList_revertNan _⟩⟩⟩

/-- Take-off: requirement, lift-off speed and average speed. -/
theorem C80_takeoff (X : Ext) (c : Concept) (b : Bool) :
    PointByPoint (fun w => twrequired_to X c w b) (fun r => recastArray r.1) ∧
    PointByPoint (fun w => twrequired_to X c w b) (fun r => recastArray r.2.1) ∧
    PointByPoint (fun w => twrequired_to X c w b) (fun r => recastArray r.2.2) := by
  rcases to_point X c b with ⟨e, he⟩ | ⟨g, d, t, _, _, h⟩
  · exact ⟨Or.inl ⟨e, he⟩, Or.inl ⟨e, he⟩, Or.inl ⟨e, he⟩⟩
  · exact ⟨Or.inr ⟨_, fun w _ => ⟨_, h w, recast_revert _⟩⟩, Or.inr ⟨_, fun w _ => ⟨_, h w, recast_revert _⟩⟩,
      Or.inr ⟨_, fun w _ => ⟨_, h w, recast_revert _⟩⟩⟩

/-- Every entry of the dictionary is computed point by point. -/
def DictPointByPoint (F : NumArg → PyM Req) : Prop :=
  (∀ E ∈ [Req.takeoff, Req.liftoffspeed, Req.avspeed, Req.turn, Req.turncl, Req.climb, Req.cruise, Req.servceil],
    PointByPoint F (fun r => recastArray (E r))) ∧
  (∀ E ∈ [Req.turnfeasible, Req.combined], PointByPoint F (fun r => (E r).toList))

theorem C80_combined (X : Ext) (c : Concept) (fo b : Bool) :
    DictPointByPoint (fun w => twrequired X c w fo b) := by
  rcases tw_point X c fo b with ⟨e, he⟩ | ⟨R, h, -⟩
  · exact ⟨fun _ _ => Or.inl ⟨e, he⟩, fun _ _ => Or.inl ⟨e, he⟩⟩
  · constructor
    · intro E hE
      simp only [List.mem_cons, List.not_mem_nil, or_false] at hE
      rcases hE with rfl | rfl | rfl | rfl | rfl | rfl | rfl | rfl <;>
        exact Or.inr ⟨_, fun w _ => ⟨_, h w, recast_revert _⟩⟩
    · intro E hE
      simp only [List.mem_cons, List.not_mem_nil, or_false] at hE
      rcases hE with rfl | rfl <;>
        exact Or.inr ⟨_, fun w _ => ⟨_, h w, toList_revertNan _⟩⟩

theorem C80_power (X : Ext) (c : Concept) (tow : ℝ) (fo b : Bool) :
    DictPointByPoint (fun w => powerrequired X c w tow fo b) := by
  rcases power_point X c tow fo b with ⟨e, he⟩ | ⟨R, vc, vs, pto, ptrn, pclm, pcrs, psec, _, _, _, h⟩
  · exact ⟨fun _ _ => Or.inl ⟨e, he⟩, fun _ _ => Or.inl ⟨e, he⟩⟩
  · constructor
    · intro E hE
      simp only [List.mem_cons, List.not_mem_nil, or_false] at hE
      rcases hE with rfl | rfl | rfl | rfl | rfl | rfl | rfl | rfl
      · exact Or.inr ⟨_, fun w hw => ⟨_, h w hw, recast_shp _ _⟩⟩
      · exact Or.inr ⟨_, fun w hw => ⟨_, h w hw, recast_revert _⟩⟩
      · exact Or.inr ⟨_, fun w hw => ⟨_, h w hw, recast_revert _⟩⟩
      · exact Or.inr ⟨_, fun w hw => ⟨_, h w hw, recast_shp _ _⟩⟩
      · exact Or.inr ⟨_, fun w hw => ⟨_, h w hw, recast_revert _⟩⟩
      · exact Or.inr ⟨_, fun w hw => ⟨_, h w hw, recast_shp _ _⟩⟩
      · exact Or.inr ⟨_, fun w hw => ⟨_, h w hw, recast_shp _ _⟩⟩
      · exact Or.inr ⟨_, fun w hw => ⟨_, h w hw, recast_shp _ _⟩⟩
    · intro E hE
      simp only [List.mem_cons, List.not_mem_nil, or_false] at hE
      rcases hE with rfl | rfl <;>
        exact Or.inr ⟨_, fun w hw => ⟨_, h w hw, toList_shpNan _ _⟩⟩

/-- The speed for best climb of propeller aircraft. -/
theorem C80_bestclimb (c : Concept) (alt : ℝ) :
    PointByPoint (fun w => bestclimbspeedprop c w alt) recastArray := by
  unfold bestclimbspeedprop
  cases h1 : induceddragfact c none none with
  | error e => exact Or.inl ⟨e, fun w _ => rfl⟩
  | ok k =>
    cases h2 : Atmos.dens1 c.designatm alt with
    | error e => exact Or.inl ⟨e, fun w _ => rfl⟩
    | ok d => exact Or.inr ⟨_, fun w _ => ⟨_, rfl, recast_revert _⟩⟩

/-! ### C48 -/

/-- The brief items each evaluation needs. -/
theorem C48_single (X : Ext) (c : Concept) (w : NumArg) (b : Bool) :
    (c.climbspeed_kias = none ∨ c.climbrate_fpm = none → twrequired_clm X c w b = .error .valueError) ∧
    (c.cruisespeed_ktas = none ∨ c.cruisealt_m = none → twrequired_crs X c w b = .error .valueError) ∧
    (c.servceil_m = none ∨ c.secclimbspd_kias = none → twrequired_sec X c w b = .error .valueError) ∧
    (c.groundrun_m = none → twrequired_to X c w b = .error .valueError) ∧
    (c.turnspeed_ktas = none ∨ c.stloadfactor = none → twrequired_trn X c w b = .error .valueError) := by
  refine ⟨?_, ?_, ?_, ?_, ?_⟩
  · rintro (h | h)
    · simp only [twrequired_clm, h, need, bind_error]
    · cases h2 : c.climbspeed_kias <;> simp only [twrequired_clm, h, h2, need, bind_ok, bind_error]
  · rintro (h | h)
    · simp only [twrequired_crs, h, need, bind_error]
    · cases h2 : c.cruisespeed_ktas <;> simp only [twrequired_crs, h, h2, need, bind_ok, bind_error]
  · rintro (h | h)
    · simp only [twrequired_sec, h, need, bind_error]
    · cases h2 : c.servceil_m <;> simp only [twrequired_sec, h, h2, need, bind_ok, bind_error]
  · intro h
    simp only [twrequired_to, h, need, bind_error]
  · rintro (h | h)
    · simp only [twrequired_trn, h, need, bind_error]
    · cases h2 : c.turnspeed_ktas <;> simp only [twrequired_trn, h, h2, need, bind_ok, bind_error]

example (X : Ext) : twrequired_crs X { exC with cruisealt_m := none } (.scalar 1000) true = .error .valueError :=
  (C48_single X _ _ _).2.1 (Or.inr rfl)

/-- The atmosphere covers the runway, the climb and turn altitudes, and the cruise and ceiling altitudes
as far as they are given; the propulsion data are complete. -/
structure Ready (c : Concept) : Prop where
  sea : EnvOK c.designatm 0
  runway : EnvOK c.designatm (pyNum c.rwyelevation_m)
  climb : EnvOK c.designatm (pyNum c.climbalt_m)
  turn : EnvOK c.designatm (pyNum c.turnalt_m)
  cruise : ∀ alt, c.cruisealt_m = some alt → EnvOK c.designatm alt
  ceiling : ∀ alt, c.servceil_m = some alt → EnvOK c.designatm alt
  prop : PropOK c

/-- Some brief item the combined evaluation needs is missing. -/
def Missing (c : Concept) : Prop :=
  c.climbspeed_kias = none ∨ c.climbrate_fpm = none ∨ c.cruisespeed_ktas = none ∨ c.cruisealt_m = none ∨
  c.servceil_m = none ∨ c.secclimbspd_kias = none ∨ c.groundrun_m = none ∨ c.turnspeed_ktas = none ∨
  c.stloadfactor = none

theorem clm_given {X : Ext} {c : Concept} (hr : Ready c) {s r : ℝ} (h1 : c.climbspeed_kias = some s)
    (h2 : c.climbrate_fpm = some r) : ∃ v roc t q m K, ClimbIn X c s r v roc t q m K := by
  obtain ⟨v, hv⟩ := hr.climb.tas hr.sea (kts2mps s)
  obtain ⟨roc, hroc⟩ := hr.climb.tas hr.sea (fpm2mps r)
  obtain ⟨t, p, hc⟩ := corr_exists X hr.prop hr.climb v
  obtain ⟨q, hq⟩ := hr.climb.dyn v
  obtain ⟨m, hm⟩ := hr.climb.mach v
  obtain ⟨K, hK⟩ := KFun.exists X c m hr.cruise
  exact ⟨v, roc, t, q, m, K, h1, h2, hv, hroc, ⟨p, hc⟩, hq, hm, hK⟩

theorem crs_given {X : Ext} {c : Concept} (hr : Ready c) {s alt : ℝ} (h1 : c.cruisespeed_ktas = some s)
    (h2 : c.cruisealt_m = some alt) : ∃ t q m K, CruiseIn X c s alt t q m K := by
  have ha := hr.cruise alt h2
  obtain ⟨t, p, hc⟩ := corr_exists X hr.prop ha (kts2mps s)
  obtain ⟨q, hq⟩ := ha.dyn (kts2mps s)
  obtain ⟨m, hm⟩ := ha.mach (kts2mps s)
  obtain ⟨K, hK⟩ := KFun.exists X c m hr.cruise
  exact ⟨t, q, m, K, h1, h2, ⟨p, hc⟩, hq, hm, hK⟩

theorem sec_given {X : Ext} {c : Concept} (hr : Ready c) {s alt : ℝ} (h1 : c.secclimbspd_kias = some s)
    (h2 : c.servceil_m = some alt) : ∃ v roc t q m K, CeilIn X c s alt v roc t q m K := by
  have ha := hr.ceiling alt h2
  obtain ⟨v, hv⟩ := ha.tas hr.sea (kts2mps s)
  obtain ⟨roc, hroc⟩ := ha.tas hr.sea (fpm2mps 100)
  obtain ⟨t, p, hc⟩ := corr_exists X hr.prop ha v
  obtain ⟨q, hq⟩ := ha.dyn v
  obtain ⟨m, hm⟩ := ha.mach v
  obtain ⟨K, hK⟩ := KFun.exists X c m hr.cruise
  exact ⟨v, roc, t, q, m, K, h2, h1, hv, hroc, ⟨p, hc⟩, hq, hm, hK⟩

theorem trn_given {X : Ext} {c : Concept} (hr : Ready c) {s n : ℝ} (h1 : c.turnspeed_ktas = some s)
    (h2 : c.stloadfactor = some n) : ∃ t q m K, TurnIn X c s n t q m K := by
  obtain ⟨t, p, hc⟩ := corr_exists X hr.prop hr.turn (kts2mps s)
  obtain ⟨q, hq⟩ := hr.turn.dyn (kts2mps s)
  obtain ⟨m, hm⟩ := hr.turn.mach (kts2mps s)
  obtain ⟨K, hK⟩ := KFun.exists X c m hr.cruise
  exact ⟨t, q, m, K, h1, h2, ⟨p, hc⟩, hq, hm, hK⟩

theorem to_given (X : Ext) {c : Concept} (hr : Ready c) {g : ℝ} (h1 : c.groundrun_m = some g) (w : NumArg) (b : Bool) :
    ∃ d, TakeoffIn X c g d ∧ ∃ r, twrequired_to X c w b = .ok r := by
  obtain ⟨d, _, hd⟩ := hr.runway.dens
  have hi : TakeoffIn X c g d := ⟨h1, hd⟩
  refine ⟨d, hi, ?_⟩
  cases b with
  | false =>
    simp only [twrequired_to, h1, need, bind_ok, thrusttoweight_takeoff, hd]
    exact ⟨_, rfl⟩
  | true =>
    exact ⟨_, to_point_sl X c hi w (fun w => (corr_exists X hr.prop hr.runway (toLof c d w)).choose)
      (fun x _ => (corr_exists X hr.prop hr.runway (toLof c d x)).choose_spec)⟩

/-- A missing item makes the combined evaluation raise ValueError too. -/
theorem C48_missing (X : Ext) (c : Concept) (w : NumArg) (fo b : Bool) (hr : Ready c) (hm : Missing c) :
    twrequired X c w fo b = .error .valueError ∧
    ∀ tow, powerrequired X c w tow fo b = .error .valueError := by
  have key : ∀ b, twrequired X c w fo b = .error .valueError := by
    intro b
    have S := fun w => C48_single X c w b
    cases h1 : c.groundrun_m with
    | none => simp only [twrequired, (S _).2.2.2.1 h1, bind_error]
    | some g =>
    obtain ⟨d, hi, r1, e1⟩ := to_given X hr h1 (.array (recastArray w)) b
    by_cases h2 : c.turnspeed_ktas = none ∨ c.stloadfactor = none
    · simp only [twrequired, e1, bind_ok, (S _).2.2.2.2 h2, bind_error]
    obtain ⟨h2a, h2b⟩ := not_or.mp h2
    obtain ⟨ts, h2a⟩ := Option.ne_none_iff_exists'.mp h2a
    obtain ⟨tn, h2b⟩ := Option.ne_none_iff_exists'.mp h2b
    obtain ⟨_, _, _, _, ht⟩ := trn_given (X := X) hr h2a h2b
    by_cases h3 : c.climbspeed_kias = none ∨ c.climbrate_fpm = none
    · simp only [twrequired, e1, bind_ok, ht.eval, (S _).1 h3, bind_error]
    obtain ⟨h3a, h3b⟩ := not_or.mp h3
    obtain ⟨cs, h3a⟩ := Option.ne_none_iff_exists'.mp h3a
    obtain ⟨cr, h3b⟩ := Option.ne_none_iff_exists'.mp h3b
    obtain ⟨_, _, _, _, _, _, hcl⟩ := clm_given (X := X) hr h3a h3b
    by_cases h4 : c.cruisespeed_ktas = none ∨ c.cruisealt_m = none
    · simp only [twrequired, e1, bind_ok, ht.eval, hcl.eval, (S _).2.1 h4, bind_error]
    obtain ⟨h4a, h4b⟩ := not_or.mp h4
    obtain ⟨rs, h4a⟩ := Option.ne_none_iff_exists'.mp h4a
    obtain ⟨ra, h4b⟩ := Option.ne_none_iff_exists'.mp h4b
    obtain ⟨_, _, _, _, hcr⟩ := crs_given (X := X) hr h4a h4b
    have h5 : c.servceil_m = none ∨ c.secclimbspd_kias = none := by
      simp only [Missing, h1, h2a, h2b, h3a, h3b, h4a, h4b, reduceCtorEq, false_or, or_false] at hm
      exact hm
    simp only [twrequired, e1, bind_ok, ht.eval, hcl.eval, hcr.eval, (S _).2.2.1 h5, bind_error]
  exact ⟨key b, fun tow => by simp only [powerrequired, key false, bind_error]⟩

/-- Without any assumption about atmosphere and propulsion: an item missing, no result. -/
theorem C48_never (X : Ext) (c : Concept) (w : NumArg) (fo b : Bool) (hm : Missing c) (r : Req) :
    twrequired X c w fo b ≠ .ok r ∧ ∀ tow, powerrequired X c w tow fo b ≠ .ok r := by
  have key : ∀ b r, twrequired X c w fo b ≠ .ok r := by
    intro b r h
    have S := fun w => C48_single X c w b
    unfold twrequired at h
    simp only [bind_ok_iff] at h
    obtain ⟨r1, e1, h⟩ := h
    obtain ⟨r2, e2, h⟩ := h
    obtain ⟨r3, e3, r4, e4, r5, e5, h⟩ := h
    rcases hm with hm | hm | hm | hm | hm | hm | hm | hm | hm
    · rw [(S _).1 (Or.inl hm)] at e3; cases e3
    · rw [(S _).1 (Or.inr hm)] at e3; cases e3
    · rw [(S _).2.1 (Or.inl hm)] at e4; cases e4
    · rw [(S _).2.1 (Or.inr hm)] at e4; cases e4
    · rw [(S _).2.2.1 (Or.inl hm)] at e5; cases e5
    · rw [(S _).2.2.1 (Or.inr hm)] at e5; cases e5
    · rw [(S _).2.2.2.1 hm] at e1; cases e1
    · rw [(S _).2.2.2.2 (Or.inl hm)] at e2; cases e2
    · rw [(S _).2.2.2.2 (Or.inr hm)] at e2; cases e2
  refine ⟨key b r, fun tow h => ?_⟩
  unfold powerrequired at h
  simp only [bind_ok_iff] at h
  obtain ⟨r1, e1, h⟩ := h
  exact key _ _ e1

example (X : Ext) (w : NumArg) (r : Req) : twrequired X { exC with servceil_m := none } w true true ≠ .ok r :=
  (C48_never X _ w true true (by simp [Missing]) r).1

/-- Each constraint needs its own items only: with these given it is evaluated, whatever else is missing from the
brief. -/
theorem C48_single_given (X : Ext) (c : Concept) (w : NumArg) (b : Bool) (hr : Ready c) :
    (c.climbspeed_kias ≠ none → c.climbrate_fpm ≠ none → ∃ r, twrequired_clm X c w b = .ok r) ∧
    (c.cruisespeed_ktas ≠ none → c.cruisealt_m ≠ none → ∃ r, twrequired_crs X c w b = .ok r) ∧
    (c.servceil_m ≠ none → c.secclimbspd_kias ≠ none → ∃ r, twrequired_sec X c w b = .ok r) ∧
    (c.groundrun_m ≠ none → ∃ r, twrequired_to X c w b = .ok r) ∧
    (c.turnspeed_ktas ≠ none → c.stloadfactor ≠ none → ∃ r, twrequired_trn X c w b = .ok r) := by
  simp only [Option.ne_none_iff_exists']
  refine ⟨?_, ?_, ?_, ?_, ?_⟩
  · rintro ⟨s, h1⟩ ⟨r, h2⟩
    obtain ⟨_, _, _, _, _, _, h⟩ := clm_given (X := X) hr h1 h2
    exact ⟨_, h.eval b w⟩
  · rintro ⟨s, h1⟩ ⟨r, h2⟩
    obtain ⟨_, _, _, _, h⟩ := crs_given (X := X) hr h1 h2
    exact ⟨_, h.eval b w⟩
  · rintro ⟨s, h1⟩ ⟨r, h2⟩
    obtain ⟨_, _, _, _, _, _, h⟩ := sec_given (X := X) hr h2 h1
    exact ⟨_, h.eval b w⟩
  · rintro ⟨g, h1⟩
    obtain ⟨_, _, h⟩ := to_given X hr h1 w b
    exact h
  · rintro ⟨s, h1⟩ ⟨r, h2⟩
    obtain ⟨_, _, _, _, h⟩ := trn_given (X := X) hr h1 h2
    exact ⟨_, h.eval b w⟩

/-- With all items given, all evaluations succeed. -/
theorem C48_given (X : Ext) (c : Concept) (w : NumArg) (fo b : Bool) (hr : Ready c) (hm : ¬ Missing c) :
    (∃ r, twrequired X c w fo b = .ok r) ∧
    (recastArray w ≠ [] → ∀ tow, ∃ r, powerrequired X c w tow fo b = .ok r) := by
  simp only [Missing, not_or] at hm
  obtain ⟨m1, m2, m3, m4, m5, m6, m7, m8, m9⟩ := hm
  obtain ⟨cs, m1⟩ := Option.ne_none_iff_exists'.mp m1
  obtain ⟨cr, m2⟩ := Option.ne_none_iff_exists'.mp m2
  obtain ⟨rs, m3⟩ := Option.ne_none_iff_exists'.mp m3
  obtain ⟨ra, m4⟩ := Option.ne_none_iff_exists'.mp m4
  obtain ⟨sa, m5⟩ := Option.ne_none_iff_exists'.mp m5
  obtain ⟨ss, m6⟩ := Option.ne_none_iff_exists'.mp m6
  obtain ⟨g, m7⟩ := Option.ne_none_iff_exists'.mp m7
  obtain ⟨ts, m8⟩ := Option.ne_none_iff_exists'.mp m8
  obtain ⟨tn, m9⟩ := Option.ne_none_iff_exists'.mp m9
  obtain ⟨_, _, _, _, ht⟩ := trn_given (X := X) hr m8 m9
  obtain ⟨_, _, _, _, _, _, hcl⟩ := clm_given (X := X) hr m1 m2
  obtain ⟨_, _, _, _, hcr⟩ := crs_given (X := X) hr m3 m4
  obtain ⟨_, _, _, _, _, _, hsc⟩ := sec_given (X := X) hr m6 m5
  have key : ∀ b w, recastArray w ≠ [] → ∃ r, twrequired X c w fo b = .ok r := by
    intro b w hw
    rcases tw_point X c fo b with ⟨e, he⟩ | ⟨R, hR, -⟩
    · exfalso
      have := he w hw
      rcases to_point X c b with ⟨e', he'⟩ | ⟨g', d', t', -, -, h1⟩
      · obtain ⟨d, hi, r1, e1⟩ := to_given X hr m7 w b
        rw [he' w hw] at e1; cases e1
      · rcases trn_point X c b with ⟨e', he'⟩ | ⟨s2, n2, t2, q2, mm2, K2, -, h2⟩
        · have := he' w; rw [ht.eval] at this; cases this
        simp only [twrequired, h1, h2, hcl.eval, hcr.eval, hsc.eval, bind_ok, nan_revert, List.map_map] at this
        cases fo <;>
        · simp only [if_true, if_false, Bool.false_eq_true, amax, List.foldlM_cons, List.foldlM_nil, amax2_revert, bind_ok] at this
          cases this
    · exact ⟨_, hR w⟩
  have key2 : ∃ r, twrequired X c w fo b = .ok r := by
    rcases tw_point X c fo b with ⟨e, he⟩ | ⟨R, hR, -⟩
    · obtain ⟨r, hr⟩ := key b (.scalar 1) (by simp [recastArray])
      rw [he _ (by simp [recastArray])] at hr; cases hr
    · exact ⟨_, hR w⟩
  refine ⟨key2, fun hw tow => ?_⟩
  rcases power_point X c tow fo b with ⟨e, he⟩ | ⟨R, vc, vs, pto, ptrn, pclm, pcrs, psec, _, _, _, h⟩
  · exfalso
    obtain ⟨vk, hvk⟩ := hr.climb.tas hr.sea (pyNum c.climbspeed_kias)
    have hce := hr.ceiling sa m5
    have hcu := hr.cruise ra m4
    obtain ⟨vs, hvs⟩ := hce.tas hr.sea (pyNum c.secclimbspd_kias)
    have := he w hw
    rcases tw_point X c fo false with ⟨e, he⟩ | ⟨R, hR, -⟩
    · obtain ⟨r, hr⟩ := key false w hw
      rw [he w hw] at hr; cases hr
    obtain ⟨t1, p1, hc1⟩ : ∃ t p : ℝ → ℝ, b = true → (∀ v, CorrAt X c v (pyNum c.rwyelevation_m) (t v) (p v)) ∧
        ∀ vs, ∃ tc pc, slcorr X c (.array vs) (pyNum c.rwyelevation_m) = .ok (tc, pc) ∧ Spread t vs tc ∧ Spread p vs pc := by
      rcases slcorr_indep X c (pyNum c.rwyelevation_m) with ⟨e, h1, -⟩ | ⟨t, p, h1, h2⟩
      · obtain ⟨t, p, tc, pc, h, -⟩ := corr_exists X hr.prop hr.runway 0
        rw [h1] at h; cases h
      · exact ⟨t, p, fun _ => ⟨h1, h2⟩⟩
    obtain ⟨t2, p2, hc2⟩ := corr_exists X hr.prop hr.turn (kts2mps (pyNum c.turnspeed_ktas))
    obtain ⟨t3, p3, hc3⟩ := corr_exists X hr.prop hr.climb (kts2mps vk)
    obtain ⟨t4, p4, hc4⟩ := corr_exists X hr.prop hcu (kts2mps (pyNum c.cruisespeed_ktas))
    obtain ⟨t5, p5, hc5⟩ := corr_exists X hr.prop hce (kts2mps vs)
    have e4 : pyNum c.cruisealt_m = ra := by rw [m4]; rfl
    have e5 : pyNum c.servceil_m = sa := by rw [m5]; rfl
    have s1 := fun ws g v => powerSl_revert hc1 ws g v
    simp only [powerrequired, hR, bind_ok, reqOf, powerOf_revert, s1, powerOfNan_scalar, powerOf_scalar,
      powerSlTurn_scalar (b := b) (fun _ => hc2), hvk, powerSl_scalar (b := b) (fun _ => hc3), e4,
      powerSl_scalar (b := b) (fun _ => hc4), e5, hvs,
      powerSl_scalar (b := b) (fun _ => hc5), toNan_shp, List.map_map] at this
    cases fo <;>
    · simp only [if_true, if_false, Bool.false_eq_true, amax, List.foldlM_cons, List.foldlM_nil, amax2_shp, bind_ok] at this
      cases this
  · exact ⟨_, h w hw⟩

/-- Any concept with the standard atmosphere (offset at least -100 degrees) below 50 km and complete
propulsion data. -/
theorem isa_ready (c : Concept) (off : ℝ) (ha : c.designatm = .isa off) (ho : -100 ≤ off)
    (h1 : pyNum c.rwyelevation_m ≤ 50000) (h2 : pyNum c.climbalt_m ≤ 50000) (h3 : pyNum c.turnalt_m ≤ 50000)
    (h4 : pyNum c.cruisealt_m ≤ 50000) (h5 : pyNum c.servceil_m ≤ 50000) (hp : PropOK c) : Ready c := by
  refine ⟨?_, ?_, ?_, ?_, ?_, ?_, hp⟩ <;> rw [ha]
  · exact isa_env off _ ho (by norm_num)
  · exact isa_env off _ ho h1
  · exact isa_env off _ ho h2
  · exact isa_env off _ ho h3
  · intro alt h; rw [h] at h4; exact isa_env off _ ho h4
  · intro alt h; rw [h] at h5; exact isa_env off _ ho h5

theorem exAtm_env (alt : ℝ) (h0 : 0 ≤ alt) (h1 : alt ≤ 10000) : EnvOK exAtm alt := by
  refine ⟨⟨300, by norm_num, ?_⟩, ⟨86115.861, ?_⟩, ⟨1, one_pos, exAtm_dens alt h0 h1⟩⟩
  · unfold Atmos.airtemp_k
    rw [exAtm_alts alt h0 h1]
    simp only [bind_ok, exAtm, List.mapM_cons, List.mapM_nil, exAtm_interp alt 300 h0 h1]
    rfl
  · have h : Atmos.airpress_pa exAtm (.scalar alt) = .ok (.scalar 86115.861) := by
      unfold Atmos.airpress_pa
      rw [exAtm_alts alt h0 h1]
      simp only [bind_ok, exAtm, List.mapM_cons, List.mapM_nil, exAtm_interp alt 86115.861 h0 h1]
      rfl
    unfold Atmos.press1
    rw [h]; rfl

theorem exC_ready : Ready exC := by
  refine ⟨?_, ?_, ?_, ?_, ?_, ?_, ?_⟩
  · exact exAtm_env 0 (by norm_num) (by norm_num)
  · exact exAtm_env 0 (by norm_num) (by norm_num)
  · exact exAtm_env 0 (by norm_num) (by norm_num)
  · exact exAtm_env 1000 (by norm_num) (by norm_num)
  · intro alt h; cases h; exact exAtm_env 3000 (by norm_num) (by norm_num)
  · intro alt h; cases h; exact exAtm_env 6000 (by norm_num) (by norm_num)
  · intro h; exact absurd h (by decide)

/-- The example concept in the standard atmosphere 15 degrees warmer. -/
def exI : Concept := { exC with designatm := .isa 15 }

theorem exI_ready : Ready exI :=
  isa_ready exI 15 rfl (by norm_num) (by norm_num [exI, exC, pyNum]) (by norm_num [exI, exC, pyNum])
    (by norm_num [exI, exC, pyNum]) (by norm_num [exI, exC, pyNum]) (by norm_num [exI, exC, pyNum])
    (by intro h; exact absurd h (by decide))

theorem exI_given : ¬ Missing exI := by simp [Missing, exI, exC]

example (X : Ext) : ∃ r, twrequired X exI (.array [500, 1000, 1500]) true true = .ok r :=
  (C48_given X exI _ _ _ exI_ready exI_given).1

example (X : Ext) : ∃ r, twrequired_sec X { exI with climbspeed_kias := none, groundrun_m := none } (.array [500, 1000]) true = .ok r :=
  (C48_single_given X _ _ _ ⟨exI_ready.sea, exI_ready.runway, exI_ready.climb, exI_ready.turn, exI_ready.cruise, exI_ready.ceiling,
    exI_ready.prop⟩).2.2.1 (by simp [exI, exC]) (by simp [exI, exC])

example (X : Ext) : twrequired X { exI with servceil_m := none } (.array [500, 1000]) true true = .error .valueError := by
  refine (C48_missing X _ _ _ _ (isa_ready _ 15 rfl ?_ ?_ ?_ ?_ ?_ ?_ ?_) ?_).1
  · norm_num
  all_goals first | (norm_num [exI, exC, pyNum]; done) | skip
  · intro h; exact absurd h (by decide)
  · simp [Missing]

end

end Verif.Props
