import Verif.Props.Constraint4
import Verif.Props.Concept3

/-
Properties C38 (choice of the sea-level correction) and C51 (sea-level mapping of power).
-/

namespace Verif.Props
open Verif Verif.Aircraft Verif.Units

noncomputable section

/-! ### C38: specification

The documented choice of the correction model as an inductive relation, clause by clause, independent
of the order of the tests in the code. -/

/-- Correction models. -/
inductive Corr where
  | nothing
  | piston
  | turboprop
  | turbojet
  | lowbpr
  | highbpr
  | deck (e : Engine)

/-- Documented meaning of a propulsion type name. -/
inductive ByName (bpr : ℝ) : String → Corr → Prop
  | electric : ByName bpr "electric" .nothing
  | piston : ByName bpr "piston" .piston
  | turboprop : ByName bpr "turboprop" .turboprop
  | turbojet (h : bpr = 0) : ByName bpr "jet" .turbojet
  | lowbpr (h : 0 < bpr) (h' : bpr < 5) : ByName bpr "jet" .lowbpr
  | highbpr (h : 5 ≤ bpr) : ByName bpr "jet" .highbpr
  | unlisted (s : String) (h : s ∉ ["electric", "piston", "turboprop", "jet"]) : ByName bpr s .nothing

/-- Documented meaning of the bypass ratio when no valid propulsion argument was given. -/
inductive ByCode (bpr : ℝ) : Corr → Prop
  | jet (m : Corr) (h : 0 ≤ bpr) (h' : ByName bpr "jet" m) : ByCode bpr m
  | piston (h : bpr = -1) : ByCode bpr .piston
  | turboprop (h : bpr = -2) : ByCode bpr .turboprop
  | electric (h : bpr = -3) : ByCode bpr .nothing
  | between (h : -3 < bpr) (h' : bpr < 0) (h1 : bpr ≠ -1) (h2 : bpr ≠ -2) : ByCode bpr .nothing

/-- Documented meaning of the propulsion argument. -/
inductive Selects (bpr : ℝ) : PropArg → Corr → Prop
  | name (s : String) (m : Corr) (h : ByName bpr s m) : Selects bpr (.str s) m
  | pair (e : Engine) : Selects bpr (.pair e) (.deck e)
  | object (e : Engine) : Selects bpr (.obj e) (.deck e)
  | absent (m : Corr) (h : ByCode bpr m) : Selects bpr .pyNone m
  | other (m : Corr) (h : ByCode bpr m) : Selects bpr .iterable m

/-- Combinations that are refused. -/
inductive Refused (bpr : ℝ) : PropArg → Prop
  | jet (h : bpr < 0) : Refused bpr (.str "jet")
  | absent (h : bpr < -3) : Refused bpr .pyNone
  | other (h : bpr < -3) : Refused bpr .iterable

/-- The flight condition: temperature (Celsius), pressure, density and throttle ratio. -/
structure Cond where
  temp : ℝ
  press : ℝ
  dens : ℝ
  throttle : ℝ

/-- Thrust and power corrections of a model at the Mach numbers `ms`. -/
def Corr.values (X : Ext) (k : Cond) (alt : ℝ) (ms : List ℝ) : Corr → NumArg × NumArg
  | .nothing => (.array (ms.map (fun _ => 1)), .array (ms.map (fun _ => 1)))
  | .piston => (.array (ms.map (fun _ => Atmos.pistonpowerfactor k.dens)), .array (ms.map (fun _ => 1)))
  | .turboprop => (.array (ms.map (X.turboprop (k.dens / 1.2249998682209657))), .array (ms.map (fun _ => 1)))
  | .turbojet => (.array (ms.map (fun m => Atmos.turbojetthrustfactor k.temp k.press m k.throttle false)),
      .array (ms.map (fun _ => 1)))
  | .lowbpr => (.array (ms.map (fun m => Atmos.turbofanthrustfactor k.temp k.press m k.throttle "lowbpr")),
      .array (ms.map (fun _ => 1)))
  | .highbpr => (.array (ms.map (fun m => Atmos.turbofanthrustfactor k.temp k.press m k.throttle "highbpr")),
      .array (ms.map (fun _ => 1)))
  | .deck (.turboprop f) => (.array (ms.map (fun _ => 1)), .array (ms.map (fun m => f m alt)))
  | .deck (.piston rpm f) => (.array (ms.map (fun _ => 1)), .array [f rpm alt])
  | .deck .electric => (.scalar 1, .scalar 1)
  | .deck (.jet f) => (.array (ms.map (fun m => f m alt)), .array (ms.map (fun _ => 1)))
  | .deck .other => (.array (ms.map (fun _ => 1)), .array (ms.map (fun _ => 1)))

/-- Every argument with every bypass ratio selects a model or is refused. -/
theorem C38_total (bpr : ℝ) (pa : PropArg) : (∃ m, Selects bpr pa m) ∨ Refused bpr pa := by
  have hjet : 0 ≤ bpr → ∃ m, ByName bpr "jet" m := by
    intro h
    rcases h.lt_or_eq with h | h
    · rcases lt_or_ge bpr 5 with h' | h'
      · exact ⟨_, .lowbpr h h'⟩
      · exact ⟨_, .highbpr h'⟩
    · exact ⟨_, .turbojet h.symm⟩
  have hcode : -3 ≤ bpr → ∃ m, ByCode bpr m := by
    intro h
    rcases le_or_gt 0 bpr with h0 | h0
    · obtain ⟨m, hm⟩ := hjet h0; exact ⟨m, .jet m h0 hm⟩
    · by_cases h1 : bpr = -1
      · exact ⟨_, .piston h1⟩
      · by_cases h2 : bpr = -2
        · exact ⟨_, .turboprop h2⟩
        · rcases h.lt_or_eq with h3 | h3
          · exact ⟨_, .between h3 h0 h1 h2⟩
          · exact ⟨_, .electric h3.symm⟩
  cases pa with
  | pair e => exact Or.inl ⟨_, .pair e⟩
  | obj e => exact Or.inl ⟨_, .object e⟩
  | pyNone =>
    rcases le_or_gt (-3) bpr with h | h
    · obtain ⟨m, hm⟩ := hcode h; exact Or.inl ⟨m, .absent m hm⟩
    · exact Or.inr (.absent h)
  | iterable =>
    rcases le_or_gt (-3) bpr with h | h
    · obtain ⟨m, hm⟩ := hcode h; exact Or.inl ⟨m, .other m hm⟩
    · exact Or.inr (.other h)
  | str s =>
    by_cases hj : s = "jet"
    · subst hj
      rcases le_or_gt 0 bpr with h | h
      · obtain ⟨m, hm⟩ := hjet h; exact Or.inl ⟨m, .name _ m hm⟩
      · exact Or.inr (.jet h)
    · left
      by_cases h1 : s = "electric"
      · subst h1; exact ⟨_, .name _ _ .electric⟩
      · by_cases h2 : s = "piston"
        · subst h2; exact ⟨_, .name _ _ .piston⟩
        · by_cases h3 : s = "turboprop"
          · subst h3; exact ⟨_, .name _ _ .turboprop⟩
          · exact ⟨_, .name _ _ (.unlisted s (by simp [h1, h2, h3, hj]))⟩

theorem byName_fun {bpr : ℝ} {s : String} {m m' : Corr} (h : ByName bpr s m) (h' : ByName bpr s m') : m = m' := by
  generalize hs : s = s' at h'
  cases h <;> cases h' <;> first
    | rfl
    | (exfalso; linarith)
    | (exfalso; revert hs; decide)
    | (exfalso; subst hs; simp_all)
    | (exfalso; simp_all)

/-- The choice is a function: no two models for one argument and bypass ratio, and none for a refused
one. -/
theorem C38_function (bpr : ℝ) (pa : PropArg) (m m' : Corr) (h : Selects bpr pa m) :
    (Selects bpr pa m' → m = m') ∧ ¬ Refused bpr pa := by
  have hcode : ∀ m m', ByCode bpr m → ByCode bpr m' → m = m' := by
    intro m m' h h'
    cases h <;> cases h' <;> first
      | rfl
      | (exfalso; linarith)
      | exact byName_fun ‹_› ‹_›
      | (exfalso; contradiction)
  have hneg : ∀ m, ByCode bpr m → ¬ bpr < -3 := by
    intro m h
    cases h <;> intro hb <;> linarith
  refine ⟨fun h' => ?_, fun h' => ?_⟩
  · cases h with
    | name s m hm => cases h' with | name _ _ hm' => exact byName_fun hm hm'
    | pair e => cases h'; rfl
    | object e => cases h'; rfl
    | absent _ hm => cases h' with | absent _ hm' => exact hcode _ _ hm hm'
    | other _ hm => cases h' with | other _ hm' => exact hcode _ _ hm hm'
  · cases h' with
    | jet hb =>
      cases h with | name _ _ hm =>
      generalize hs : "jet" = s at hm
      cases hm <;> first
        | linarith
        | (revert hs; decide)
        | (subst hs; simp_all)
    | absent hb => cases h with | absent _ hm => exact hneg _ hm hb
    | other hb => cases h with | other _ hm => exact hneg _ hm hb

example : ¬ Refused 6.5 .pyNone := (C38_function 6.5 .pyNone .highbpr .highbpr
  (.absent _ (.jet _ (by norm_num) (.highbpr (by norm_num))))).2

/-- A generic name gives the factor of its model at every Mach number. -/
theorem strCorr_byName {X : Ext} {c : Concept} {s : String} {m : Corr} (h : ByName (pyNum c.bpr) s m) {T P d alt : ℝ}
    (hT : temp1c c.designatm alt = .ok T) (hP : Atmos.press1 c.designatm alt = .ok P)
    (hd : Atmos.dens1 c.designatm alt = .ok d) (ms : List ℝ) :
    corrOf X c (.str s) ms alt = .ok (m.values X ⟨T, P, d, pyNum c.throttle_r⟩ alt ms) := by
  have key : ∀ f : ℝ → ℝ, (∀ x, strCorr X c s T P d x = .ok (f x)) →
      corrOf X c (.str s) ms alt = .ok (.array (ms.map f), .array (ms.map (fun _ => 1))) := by
    intro f hf
    simp only [corrOf, hT, hP, hd, bind_ok, mapM_ok hf]
    rfl
  cases h with
  | electric => exact key _ (fun x => rfl)
  | piston => exact key _ (fun x => rfl)
  | turboprop => exact key _ (fun x => rfl)
  | turbojet h =>
    refine key _ (fun x => ?_)
    show jetFactor c T P x = _
    simp only [jetFactor, h, if_true]
  | lowbpr h h' =>
    refine key _ (fun x => ?_)
    show jetFactor c T P x = _
    simp only [jetFactor, h.ne', h, h', and_self, if_true, if_false]
  | highbpr h =>
    refine key _ (fun x => ?_)
    show jetFactor c T P x = _
    simp only [jetFactor, (by linarith : pyNum c.bpr ≠ 0), not_lt.mpr h, h, and_false, if_true, if_false]
  | unlisted s h =>
    simp only [List.mem_cons, List.not_mem_nil, or_false, not_or] at h
    refine key _ (fun x => ?_)
    show strCorr X c s T P d x = .ok 1
    simp only [strCorr, h.1, h.2.1, h.2.2.1, h.2.2.2, if_false]

theorem resolve_byCode {c : Concept} {m : Corr} (h : ByCode (pyNum c.bpr) m) :
    ∃ pr, bprPropulsion (pyNum c.bpr) = .ok pr ∧
      ((pr = .pyFalse ∧ m = .nothing) ∨ ∃ s, pr = .str s ∧ ByName (pyNum c.bpr) s m) := by
  cases h with
  | jet _ h h' => exact ⟨_, by rw [bprPropulsion, if_pos h], Or.inr ⟨_, rfl, h'⟩⟩
  | piston h => exact ⟨.str "piston", by rw [bprPropulsion, h]; norm_num, Or.inr ⟨_, rfl, .piston⟩⟩
  | turboprop h => exact ⟨.str "turboprop", by rw [bprPropulsion, h]; norm_num, Or.inr ⟨_, rfl, .turboprop⟩⟩
  | electric h => exact ⟨.str "electric", by rw [bprPropulsion, h]; norm_num, Or.inr ⟨_, rfl, .electric⟩⟩
  | between h h' h1 h2 =>
    refine ⟨.pyFalse, ?_, Or.inl ⟨rfl, rfl⟩⟩
    rw [bprPropulsion, if_neg (not_le.mpr h'), if_neg h1, if_neg h2, if_neg h.ne', if_pos ⟨h.le, h'⟩]

theorem construct_propulsion {b d p : Dict} {a : Option Atmos.Atm} {pa : PropArg} {r : Built}
    (h : construct b d p a pa = .ok r) : r.concept.propulsion = parsePropulsion pa := by
  obtain ⟨fb, fd, fp, d1, d2, d3, d4, p1, n, -, -, -, -, -, -, -, -, -, -, -, -, h⟩ := construct_ok h
  unfold readConcept at h
  simp only [bind_ok_iff, pure_ok_iff] at h
  repeat obtain ⟨_, _, h⟩ := h
  rw [← h]

/-- The corrections used by a concept built with the propulsion argument `pa` are those of the model the
documentation assigns to `pa` and the bypass ratio. -/
theorem C38_correction {b dd p : Dict} {a : Option Atmos.Atm} {pa : PropArg} {r : Built}
    (hb : construct b dd p a pa = .ok r) (X : Ext) (v : NumArg) (alt T P d : ℝ) (ms : List ℝ)
    (hm : Atmos.mach r.concept.designatm v (.scalar alt) = .ok ms)
    (hT : temp1c r.concept.designatm alt = .ok T) (hP : Atmos.press1 r.concept.designatm alt = .ok P)
    (hd : Atmos.dens1 r.concept.designatm alt = .ok d) (m : Corr) (hs : Selects (pyNum r.concept.bpr) pa m) :
    slcorr X r.concept v alt = .ok (m.values X ⟨T, P, d, pyNum r.concept.throttle_r⟩ alt ms) := by
  have hp := construct_propulsion hb
  obtain ⟨c, hc⟩ : ∃ c, c = r.concept := ⟨_, rfl⟩
  rw [← hc] at hm hT hP hd hs hp ⊢
  have hcode : c.propulsion = .pyFalse → ByCode (pyNum c.bpr) m →
      slcorr X c v alt = .ok (m.values X ⟨T, P, d, pyNum c.throttle_r⟩ alt ms) := by
    intro hp h
    obtain ⟨pr, h1, h2⟩ := resolve_byCode h
    simp only [slcorr, resolvePropulsion, hp, h1, bind_ok, hm]
    rcases h2 with ⟨rfl, rfl⟩ | ⟨s, rfl, h2⟩
    · rfl
    · exact strCorr_byName h2 hT hP hd ms
  cases hs with
  | name s _ h =>
    simp only [slcorr, resolvePropulsion, hp, parsePropulsion, bind_ok, hm]
    exact strCorr_byName h hT hP hd ms
  | pair e =>
    simp only [slcorr, resolvePropulsion, hp, parsePropulsion, bind_ok, hm]
    cases e <;> rfl
  | object e =>
    simp only [slcorr, resolvePropulsion, hp, parsePropulsion, bind_ok, hm]
    cases e <;> rfl
  | absent _ h => exact hcode hp h
  | other _ h => exact hcode hp h

/-- A refused combination raises ValueError at every speed and altitude the atmosphere covers. -/
theorem C38_refused {b dd p : Dict} {a : Option Atmos.Atm} {pa : PropArg} {r : Built}
    (hb : construct b dd p a pa = .ok r) (X : Ext) (v : NumArg) (alt T P d : ℝ) (ms : List ℝ)
    (hm : Atmos.mach r.concept.designatm v (.scalar alt) = .ok ms) (hms : ms ≠ [])
    (hT : temp1c r.concept.designatm alt = .ok T) (hP : Atmos.press1 r.concept.designatm alt = .ok P)
    (hd : Atmos.dens1 r.concept.designatm alt = .ok d) (hs : Refused (pyNum r.concept.bpr) pa) :
    slcorr X r.concept v alt = .error .valueError := by
  have hp := construct_propulsion hb
  obtain ⟨c, hc⟩ : ∃ c, c = r.concept := ⟨_, rfl⟩
  rw [← hc] at hm hT hP hd hs hp ⊢
  have hcode : c.propulsion = .pyFalse → pyNum c.bpr < -3 → slcorr X c v alt = .error .valueError := by
    intro hp h
    have : bprPropulsion (pyNum c.bpr) = .error .valueError := by
      rw [bprPropulsion, if_neg (by linarith), if_neg (by linarith), if_neg (by linarith), if_neg (by linarith),
        if_neg (by intro h'; linarith [h'.1])]
    simp only [slcorr, resolvePropulsion, hp, this, bind_error]
  cases hs with
  | jet h =>
    simp only [slcorr, resolvePropulsion, hp, parsePropulsion, bind_ok, hm, corrOf, hT, hP, hd]
    match ms, hms with
    | x :: l, _ =>
      have : strCorr X c "jet" T P d x = .error .valueError := by
        show jetFactor c T P x = _
        simp only [jetFactor, h.ne, not_lt.mpr h.le, (by linarith : ¬ (5:ℝ) ≤ pyNum c.bpr), false_and, if_false]
      simp only [List.mapM_cons, this, bind_error]
  | absent h => exact hcode hp h
  | other h => exact hcode hp h

/-- A built concept in the standard atmosphere: the hypotheses of the two theorems above hold at 3000 m and
100 m/s for every propulsion argument. -/
example (pa : PropArg) : ∃ r T P d m, construct exBrief exDesign exPerf none pa = .ok r ∧
    Atmos.mach r.concept.designatm (.scalar 100) (.scalar 3000) = .ok [m] ∧
    temp1c r.concept.designatm 3000 = .ok T ∧ Atmos.press1 r.concept.designatm 3000 = .ok P ∧
    Atmos.dens1 r.concept.designatm 3000 = .ok d := by
  obtain ⟨r, h⟩ := ex_construct none pa
  have ha : r.concept.designatm = .isa 0 := by
    obtain ⟨fb, fd, fp, d1, d2, d3, d4, p1, n, -, -, -, -, -, -, -, -, -, -, -, -, h⟩ := construct_ok h
    unfold readConcept at h
    simp only [bind_ok_iff, pure_ok_iff] at h
    repeat obtain ⟨_, _, h⟩ := h
    rw [← h]; rfl
  have he : EnvOK r.concept.designatm 3000 := by rw [ha]; exact isa_env _ _ (by norm_num) (by norm_num)
  obtain ⟨T, hT⟩ := he.tempc
  obtain ⟨P, hP⟩ := he.press
  obtain ⟨d, _, hd⟩ := he.dens
  obtain ⟨cs, hcs⟩ := he.vsound
  exact ⟨r, T, P, d, _, h, (C18_ratio _ _ cs hcs).1 100, hT, hP, hd⟩

example : Selects 6.5 .pyNone .highbpr := .absent _ (.jet _ (by norm_num) (.highbpr (by norm_num)))
example : Selects (-1.5) .pyNone .nothing :=
  .absent _ (.between (by norm_num) (by norm_num) (by norm_num) (by norm_num))
example : Refused (-1) (.str "jet") := .jet (by norm_num)

/-! ### C51 -/

/-- No engine object was given: a type name, or nothing (then the bypass ratio decides). -/
def Generic (c : Concept) : Prop := ∀ e, c.propulsion ≠ .pair e

theorem generic_power {X : Ext} {c : Concept} (hg : Generic c) {v alt t p : ℝ} (h : CorrAt X c v alt t p) : p = 1 := by
  obtain ⟨tc, pc, h, -, hp⟩ := h
  unfold slcorr at h
  simp only [bind_ok_iff] at h
  obtain ⟨pr, hpr, ms, hm, h⟩ := h
  obtain ⟨l, hl⟩ : ∃ l : List ℝ, pc = .array (l.map (fun _ => 1)) := by
    cases pr with
    | pyFalse => cases h; exact ⟨ms, rfl⟩
    | str s =>
      simp only [corrOf, bind_ok_iff, pure_ok_iff] at h
      obtain ⟨_, _, _, _, _, _, ts, _, h⟩ := h
      cases h; exact ⟨ms, rfl⟩
    | pair e =>
      exfalso
      unfold resolvePropulsion at hpr
      split at hpr
      · unfold bprPropulsion at hpr
        repeat' split at hpr
        all_goals cases hpr
      · exact hg e (by injection hpr)
  subst hl
  match l, hp with
  | [x], hp => simp only [recastArray, List.map_cons, List.map_nil, List.cons.injEq, and_true] at hp; exact hp.symm

/-- Two requirement dictionaries hold the same numbers (an array of one element counts as its element). -/
def SameNumbers (r r' : Req) : Prop :=
  recastArray r.takeoff = recastArray r'.takeoff ∧ recastArray r.liftoffspeed = recastArray r'.liftoffspeed ∧
  recastArray r.avspeed = recastArray r'.avspeed ∧ recastArray r.turn = recastArray r'.turn ∧
  r.turnfeasible.toList = r'.turnfeasible.toList ∧ recastArray r.turncl = recastArray r'.turncl ∧
  recastArray r.climb = recastArray r'.climb ∧ recastArray r.cruise = recastArray r'.cruise ∧
  recastArray r.servceil = recastArray r'.servceil ∧ r.combined.toList = r'.combined.toList

/-- For every generic propulsion type the sea-level mapping leaves the power requirement as it is, at every
altitude, wing loading and mass. -/
theorem C51_mapping_violated (X : Ext) (c : Concept) (hg : Generic c) (w : NumArg) (hw : recastArray w ≠ [])
    (tow : ℝ) (fo : Bool) (r : Req) (h : powerrequired X c w tow fo true = .ok r) :
    ∃ r', powerrequired X c w tow fo false = .ok r' ∧ SameNumbers r r' := by
  rcases power_point X c tow fo true with ⟨e, he⟩ | ⟨R, vc, vs, pto, ptrn, pclm, pcrs, psec, hin, htw, -, hp⟩
  · rw [he w hw] at h; cases h
  rcases power_point X c tow fo false with ⟨e, he⟩ | ⟨R', vc', vs', pto', ptrn', pclm', pcrs', psec', hin', htw', -, hp'⟩
  · exfalso
    obtain ⟨s, hs, -⟩ := hin.climbspeed
    obtain ⟨s', hs', -⟩ := hin.secspeed
    have := he w hw
    simp only [powerrequired, htw, bind_ok, reqOf, powerOf_revert, powerOfNan_scalar, powerOf_scalar, powerSl, powerSlTurn,
      hs, hs', Bool.false_eq_true, if_false] at this
    have hl : ∀ f g : ℝ → Option ℝ, amax2 (revertNan ((recastArray w).map f)) (revertNan ((recastArray w).map g)) =
      .ok (revertNan ((recastArray w).map (fun w => nanMax (f w) (g w)))) := fun f g => amax2_revert _ f g
    cases fo <;>
      simp only [nan_revert, List.map_map, amax, List.foldlM_cons, List.foldlM_nil, hl, bind_ok, Bool.false_eq_true, if_true, if_false] at this <;>
      cases this
  · rw [hp w hw] at h
    cases h
    refine ⟨_, hp' w hw, ?_⟩
    obtain ⟨s, hs, e1⟩ := hin.climbspeed
    obtain ⟨s1, hs1, e2⟩ := hin'.climbspeed
    rw [hs] at hs1; cases hs1
    obtain ⟨u, hu, e3⟩ := hin.secspeed
    obtain ⟨u1, hu1, e4⟩ := hin'.secspeed
    rw [hu] at hu1; cases hu1
    have hR : ∀ x, R x = R' x := by
      intro x
      have h1 := htw (.scalar x)
      rw [htw' (.scalar x)] at h1
      have h2 : reqOf [x] R' = reqOf [x] R := by injection h1
      simp only [reqOf, List.map_cons, List.map_nil, Atmos.revert, revertNan, Req.mk.injEq, NumArg.scalar.injEq,
        NanArg.scalar.injEq] at h2
      obtain ⟨a1, a2, a3, a4, a5, a6, a7, a8, a9, a10⟩ := h2
      cases hx : R x; cases hx' : R' x
      rw [hx, hx'] at a1 a2 a3 a4 a5 a6 a7 a8 a9 a10
      simp only at a1 a2 a3 a4 a5 a6 a7 a8 a9 a10
      rw [a1, a2, a3, a4, a5, a6, a7, a8, a9, a10]
    have p1 : ∀ v, pto v = 1 := fun v => (hin.tko rfl v).elim fun _ h => generic_power hg h
    have p2 : ptrn = 1 := (hin.trn rfl).elim fun _ h => generic_power hg h
    have p3 : pclm = 1 := (hin.clm rfl).elim fun _ h => generic_power hg h
    have p4 : pcrs = 1 := (hin.crs rfl).elim fun _ h => generic_power hg h
    have p5 : psec = 1 := (hin.sec rfl).elim fun _ h => generic_power hg h
    have hpt : ∀ x, powerAt c tow fo true vc vs pto ptrn pclm pcrs psec (R x) =
        powerAt c tow fo false vc' vs' pto' ptrn' pclm' pcrs' psec' (R' x) := by
      intro x
      have hs : ∀ y z : ℝ, sl true 1 z = sl false y z := fun y z => by simp [sl]
      have hs' : sl true 1 = fun z => z := by funext z; simp [sl]
      have hs'' : ∀ y, sl false y = fun z => z := by intro y; funext z; simp [sl]
      simp only [powerAt, hR, p1, p2, p3, p4, p5, e1, e2, e3, e4, hs', hs'']
    simp only [hpt]
    refine ⟨?_, rfl, rfl, ?_, ?_, rfl, ?_, ?_, ?_, ?_⟩ <;>
      simp only [preqOf, recast_shp, toList_shpNan]

/-- The piston engine of the example is generic; its power factor at the cruise altitude is not one, so
the mapped requirement ought to differ. -/
example : Generic exC ∧ Atmos.dens1 exC.designatm 3000 = .ok 1 ∧ Atmos.pistonpowerfactor 1 ≠ 1 := by
  refine ⟨fun e h => by injection h, exAtm_dens 3000 (by norm_num) (by norm_num), ?_⟩
  norm_num [Atmos.pistonpowerfactor]

example (X : Ext) : ∃ r, powerrequired X exI (.array [500, 1000]) 1500 true true = .ok r :=
  (C48_given X exI (.array [500, 1000]) true true exI_ready exI_given).2 (by simp [recastArray]) 1500

end

end Verif.Props
