import Verif.Lemmas.DeckReq2
import Verif.Props.DeckCorr
import Verif.Props.Warnings

/-
Requirements of a concept whose propulsion argument is an engine deck (C150).
-/

namespace Verif.Aircraft
open Verif Verif.Units Verif.Propulsion Verif.Props

noncomputable section

/-! ### Specification -/

/-- Entry `i` of a number or array. -/
def Entry (a : NumArg) (i : ℕ) (x : ℝ) : Prop := (recastArray a)[i]? = some x

/-- Entry `i` of a number or array with NaN entries. -/
def EntryN (a : NanArg) (i : ℕ) (x : Option ℝ) : Prop := a.toList[i]? = some x

/-- `y` is `x` divided by the correction `o`, NaN if there is none. -/
def Mapped (o : Option ℝ) (x : ℝ) (y : Option ℝ) : Prop :=
  (o = none ∧ y = none) ∨ ∃ k, o = some k ∧ y = some (x / k)

/-- `m` is the largest of the values, NaN if one of them is. -/
def Top (m : Option ℝ) (l : List (Option ℝ)) : Prop :=
  (none ∈ l ∧ m = none) ∨ ∃ x, m = some x ∧ some x ∈ l ∧ ∀ y ∈ l, ∃ z, y = some z ∧ z ≤ x

/-- The requirements `R` are the requirements `r` at the flight conditions, each divided by the correction of its own flight condition: `oto`
at the lift-off speed, and one correction each for turn, climb, cruise and service ceiling. The combined requirement is the largest of the five. -/
structure SeaLevel (fo : Bool) (r : Req) (oto : ℝ → Option ℝ) (otrn oclm ocrs osec : Option ℝ) (R : ReqN) : Prop where
  liftoffspeed : R.liftoffspeed = r.liftoffspeed
  avspeed : R.avspeed = r.avspeed
  turncl : R.turncl = r.turncl
  takeoff : ∀ i y, EntryN R.takeoff i y ↔ ∃ x v, Entry r.takeoff i x ∧ Entry r.liftoffspeed i v ∧ Mapped (oto v) x y
  turn : ∀ i y, EntryN R.turn i y ↔ ∃ x, Entry r.turn i x ∧ Mapped otrn x y
  turnfeasible : ∀ i y, EntryN R.turnfeasible i y ↔ (EntryN r.turnfeasible i none ∧ y = none) ∨
    ∃ x, EntryN r.turnfeasible i (some x) ∧ Mapped otrn x y
  climb : ∀ i y, EntryN R.climb i y ↔ ∃ x, Entry r.climb i x ∧ Mapped oclm x y
  cruise : ∀ i y, EntryN R.cruise i y ↔ ∃ x, Entry r.cruise i x ∧ Mapped ocrs x y
  servceil : ∀ i y, EntryN R.servceil i y ↔ ∃ x, Entry r.servceil i x ∧ Mapped osec x y
  combined : ∀ i m, EntryN R.combined i m ↔ ∃ t n k u s, EntryN R.takeoff i t ∧ EntryN (if fo then R.turnfeasible else R.turn) i n ∧
    EntryN R.climb i k ∧ EntryN R.cruise i u ∧ EntryN R.servceil i s ∧ Top m [t, n, k, u, s]

/-- The flight conditions of the brief: true climb speeds `vclm` and `vsec`, speeds of sound at the altitudes of turn, climb, cruise,
service ceiling and runway. -/
structure Flight (c : Concept) (vclm vsec atrn aclm acrs asec ato : ℝ) : Prop where
  climb : Atmos.eas2tas c.designatm (kts2mps (pyNum c.climbspeed_kias)) (pyNum c.climbalt_m) = .ok vclm
  ceiling : Atmos.eas2tas c.designatm (kts2mps (pyNum c.secclimbspd_kias)) (pyNum c.servceil_m) = .ok vsec
  sturn : Atmos.vsound_mps c.designatm (.scalar (pyNum c.turnalt_m)) = .ok (.scalar atrn)
  sclimb : Atmos.vsound_mps c.designatm (.scalar (pyNum c.climbalt_m)) = .ok (.scalar aclm)
  scruise : Atmos.vsound_mps c.designatm (.scalar (pyNum c.cruisealt_m)) = .ok (.scalar acrs)
  sceiling : Atmos.vsound_mps c.designatm (.scalar (pyNum c.servceil_m)) = .ok (.scalar asec)
  srunway : Atmos.vsound_mps c.designatm (.scalar (pyNum c.rwyelevation_m)) = .ok (.scalar ato)

/-- The deck corrects thrust by `tf` and power by `pf`, functions of Mach number and altitude. -/
structure Corrects (G : Grid) (e : DeckObj) (tf pf : ℝ → ℝ → Option ℝ) : Prop where
  one : ∀ m alt, ∃ t p, deckCorr G e [m] alt = .ok (t, p) ∧ t.toList = [tf m alt] ∧ p.toList = [pf m alt]
  all : ∀ ms alt, ∃ t p, deckCorr G e ms alt = .ok (t, p) ∧
    (p.toList = ms.map (fun m => pf m alt) ∨ ∃ y, p.toList = [y] ∧ ∀ m ∈ ms, pf m alt = y)

/-- The requirements `R` are those without mapping. -/
structure Unmapped (r : Req) (R : ReqN) : Prop where
  takeoff : ∀ i y, EntryN R.takeoff i y ↔ ∃ x, y = some x ∧ Entry r.takeoff i x
  turn : ∀ i y, EntryN R.turn i y ↔ ∃ x, y = some x ∧ Entry r.turn i x
  turnfeasible : ∀ i y, EntryN R.turnfeasible i y ↔ EntryN r.turnfeasible i y
  climb : ∀ i y, EntryN R.climb i y ↔ ∃ x, y = some x ∧ Entry r.climb i x
  cruise : ∀ i y, EntryN R.cruise i y ↔ ∃ x, y = some x ∧ Entry r.cruise i x
  servceil : ∀ i y, EntryN R.servceil i y ↔ ∃ x, y = some x ∧ Entry r.servceil i x

/-! ### Lemmas -/

theorem mapped_over (o : Option ℝ) (x : ℝ) (y : Option ℝ) : Mapped o x y ↔ y = over o x := by
  unfold Mapped over
  cases o <;> simp

theorem top_nanMax (a b c d e m : Option ℝ) :
    Top m [a, b, c, d, e] ↔ m = nanMax (nanMax (nanMax (nanMax a b) c) d) e := by
  have hn : ∀ x, nanMax none x = none := fun x => by cases x <;> rfl
  have hn' : ∀ x, nanMax x none = none := fun x => by cases x <;> rfl
  by_cases h : none ∈ [a, b, c, d, e]
  · have e1 : nanMax (nanMax (nanMax (nanMax a b) c) d) e = none := by
      simp only [List.mem_cons, List.not_mem_nil, or_false] at h
      rcases h with h | h | h | h | h <;> subst h <;> simp only [hn, hn']
    rw [e1]
    constructor
    · rintro (⟨-, h'⟩ | ⟨x, -, -, h'⟩)
      · exact h'
      · obtain ⟨z, hz, -⟩ := h' none h
        cases hz
    · exact fun h' => .inl ⟨h, h'⟩
  · simp only [List.mem_cons, List.not_mem_nil, or_false, not_or] at h
    obtain ⟨h1, h2, h3, h4, h5⟩ := h
    cases a with
    | none => exact absurd rfl h1
    | some a =>
    cases b with
    | none => exact absurd rfl h2
    | some b =>
    cases c with
    | none => exact absurd rfl h3
    | some c =>
    cases d with
    | none => exact absurd rfl h4
    | some d =>
    cases e with
    | none => exact absurd rfl h5
    | some e =>
    have key : ∀ x, (some x ∈ [some a, some b, some c, some d, some e] ∧ ∀ y ∈ [some a, some b, some c, some d, some e], ∃ z, y = some z ∧ z ≤ x) ↔
        x = max (max (max (max a b) c) d) e := by
      intro x
      simp only [List.mem_cons, List.not_mem_nil, or_false, forall_eq_or_imp, forall_eq, Option.some.injEq, exists_eq_left']
      constructor
      · rintro ⟨h, h1, h2, h3, h4, h5⟩
        refine le_antisymm ?_ (by simp [h1, h2, h3, h4, h5])
        rcases h with rfl | rfl | rfl | rfl | rfl <;> simp
      · rintro rfl
        refine ⟨?_, by simp⟩
        rcases max_choice (max (max (max a b) c) d) e with h | h <;> rw [h]
        · rcases max_choice (max (max a b) c) d with h | h <;> rw [h]
          · rcases max_choice (max a b) c with h | h <;> rw [h]
            · rcases max_choice a b with h | h <;> rw [h] <;> simp
            · simp
          · simp
        · simp
    unfold Top
    simp only [nanMax]
    constructor
    · rintro (⟨h, -⟩ | ⟨x, rfl, h⟩)
      · simp at h
      · rw [(key x).mp h]
    · rintro rfl
      exact .inr ⟨_, rfl, (key _).mpr rfl⟩

theorem map_entry {α : Type} (ws : List ℝ) (f : ℝ → α) (i : ℕ) (y : α) :
    (ws.map f)[i]? = some y ↔ ∃ w, ws[i]? = some w ∧ f w = y := by
  rw [List.getElem?_map, Option.map_eq_some_iff]

/-- Two dictionaries made of point functions, one divided by the corrections. -/
theorem sealevel_of (k fo : Bool) (ws : List ℝ) (R : ℝ → ReqAt) (r : Req) (oto : ℝ → Option ℝ) (otrn oclm ocrs osec : Option ℝ)
    (h1 : recastArray r.takeoff = ws.map (fun w => (R w).takeoff)) (h2 : r.liftoffspeed = Atmos.revert (ws.map (fun w => (R w).liftoffspeed)))
    (h3 : r.avspeed = Atmos.revert (ws.map (fun w => (R w).avspeed))) (h4 : recastArray r.turn = ws.map (fun w => (R w).turn))
    (h5 : r.turnfeasible.toList = ws.map (fun w => (R w).turnfeasible)) (h6 : r.turncl = Atmos.revert (ws.map (fun w => (R w).turncl)))
    (h7 : recastArray r.climb = ws.map (fun w => (R w).climb)) (h8 : recastArray r.cruise = ws.map (fun w => (R w).cruise))
    (h9 : recastArray r.servceil = ws.map (fun w => (R w).servceil)) :
    SeaLevel fo r oto otrn oclm ocrs osec (reqNOf k fo ws R (fun w => divided true oto otrn oclm ocrs osec (R w))) := by
  have sc : ∀ o x, scaleO true o x = over o x := fun o x => rfl
  have one : ∀ (l : List ℝ) (f : ℝ → ℝ) (o : Option ℝ) (i : ℕ) (y : Option ℝ), l = ws.map f →
      (EntryN (shpNan k (ws.map (fun w => scaleO true o (f w)))) i y ↔ ∃ x, l[i]? = some x ∧ Mapped o x y) := by
    rintro l f o i y rfl
    unfold EntryN
    simp only [toList_shpNan, map_entry, mapped_over, sc]
    constructor
    · rintro ⟨w, hw, rfl⟩; exact ⟨_, ⟨w, hw, rfl⟩, rfl⟩
    · rintro ⟨_, ⟨w, hw, rfl⟩, rfl⟩; exact ⟨w, hw, rfl⟩
  refine ⟨h2.symm, h3.symm, h6.symm, fun i y => ?_, fun i y => one _ _ _ i y h4, fun i y => ?_, fun i y => one _ _ _ i y h7,
    fun i y => one _ _ _ i y h8, fun i y => one _ _ _ i y h9, fun i m => ?_⟩
  · unfold EntryN Entry reqNOf
    simp only [toList_shpNan, h1, h2, recast_revert, map_entry, mapped_over, divided, sc]
    constructor
    · rintro ⟨w, hw, rfl⟩; exact ⟨_, _, ⟨w, hw, rfl⟩, ⟨w, hw, rfl⟩, rfl⟩
    · rintro ⟨_, _, ⟨w, hw, rfl⟩, ⟨w', hw', rfl⟩, rfl⟩
      rw [hw] at hw'
      cases hw'
      exact ⟨w, hw, rfl⟩
  · unfold EntryN reqNOf
    simp only [toList_shpNan, h5, map_entry, mapped_over, divided]
    constructor
    · rintro ⟨w, hw, rfl⟩
      cases hf : (R w).turnfeasible with
      | none => exact .inl ⟨⟨w, hw, hf⟩, rfl⟩
      | some x => exact .inr ⟨x, ⟨w, hw, hf⟩, rfl⟩
    · rintro (⟨⟨w, hw, hf⟩, rfl⟩ | ⟨x, ⟨w, hw, hf⟩, rfl⟩)
      · exact ⟨w, hw, by rw [hf]; rfl⟩
      · exact ⟨w, hw, by rw [hf]; rfl⟩
  · have e : (if fo = true then shpNan k (ws.map (fun w => (divided true oto otrn oclm ocrs osec (R w)).turnfeasible))
        else shpNan k (ws.map (fun w => (divided true oto otrn oclm ocrs osec (R w)).turn))) =
        shpNan k (ws.map (fun w => if fo then (divided true oto otrn oclm ocrs osec (R w)).turnfeasible
          else (divided true oto otrn oclm ocrs osec (R w)).turn)) := by cases fo <;> rfl
    unfold EntryN reqNOf
    simp only [e, toList_shpNan, map_entry, top_nanMax]
    constructor
    · rintro ⟨w, hw, rfl⟩
      exact ⟨_, _, _, _, _, ⟨w, hw, rfl⟩, ⟨w, hw, rfl⟩, ⟨w, hw, rfl⟩, ⟨w, hw, rfl⟩, ⟨w, hw, rfl⟩, rfl⟩
    · rintro ⟨_, _, _, _, _, ⟨w, hw, rfl⟩, ⟨w2, hw2, rfl⟩, ⟨w3, hw3, rfl⟩, ⟨w4, hw4, rfl⟩, ⟨w5, hw5, rfl⟩, rfl⟩
      rw [hw] at hw2 hw3 hw4 hw5
      cases hw2; cases hw3; cases hw4; cases hw5
      exact ⟨w, hw, rfl⟩

theorem reqOf_inj {R R' : ℝ → ReqAt} (h : ∀ w : ℝ, reqOf [w] R = reqOf [w] R') : R = R' := by
  funext w
  have := h w
  unfold reqOf at this
  simp only [List.map_cons, List.map_nil, Atmos.revert, revertNan, Req.mk.injEq, NumArg.scalar.injEq, NanArg.scalar.injEq] at this
  obtain ⟨h1, h2, h3, h4, h5, h6, h7, h8, h9, h10⟩ := this
  cases hr : R w
  cases hr' : R' w
  rw [hr, hr'] at h1 h2 h3 h4 h5 h6 h7 h8 h9 h10
  simp only [ReqAt.mk.injEq]
  exact ⟨h1, h2, h3, h4, h5, h6, h7, h8, h9, h10⟩

theorem tw_deck {G : Grid} {e : DeckObj} {X : Ext} {c : Concept} {otrn oclm ocrs osec : Option ℝ} (hT : DeckTs G e c otrn oclm ocrs osec)
    {fo : Bool} {R : ℝ → ReqAt} (h : ∀ w, twrequired X c w fo false = .ok (reqOf (recastArray w) R)) (w : NumArg) (oto : ℝ → Option ℝ) (b : Bool)
    (ho : b = true → ∀ x ∈ recastArray w, DeckT G e c (R x).liftoffspeed (pyNum c.rwyelevation_m) (oto (R x).liftoffspeed)) :
    twrequiredD G e X c w fo b = .ok (reqNOf false fo (recastArray w) R (fun w => divided b oto otrn oclm ocrs osec (R w))) := by
  rcases tw_point X c fo false with ⟨er, he⟩ | ⟨R', h0, h1, h2, h3, h4, h5, -⟩
  · have := he (.scalar 1) (by simp [recastArray])
    rw [h] at this; cases this
  · have : R = R' := reqOf_inj (fun x => by
      have := h0 (.scalar x)
      rw [h] at this
      exact Except.ok.inj this)
    subst this
    exact twD_eq hT oto fo b w (h1 _) (h2 _) (h3 _) (h4 _) (h5 _) ho

theorem tw_ok {X : Ext} {c : Concept} {fo : Bool} {w : NumArg} {r : Req} (hw : recastArray w ≠ []) (h : twrequired X c w fo false = .ok r) :
    ∃ R, r = reqOf (recastArray w) R ∧ ∀ w, twrequired X c w fo false = .ok (reqOf (recastArray w) R) := by
  rcases tw_point X c fo false with ⟨er, he⟩ | ⟨R, h0, -⟩
  · rw [he w hw] at h; cases h
  · rw [h0 w] at h
    cases h
    exact ⟨R, rfl, h0⟩

/-! ### Theorems -/

/-- Thrust: each requirement at its flight condition divided by the deck's thrust correction there. -/
theorem C150_thrust {G : Grid} {e : DeckObj} {X : Ext} {c : Concept} {otrn oclm ocrs osec : Option ℝ} (hT : DeckTs G e c otrn oclm ocrs osec)
    {fo : Bool} {w : NumArg} {r : Req} (hw : recastArray w ≠ []) (h : twrequired X c w fo false = .ok r) {oto : ℝ → Option ℝ}
    (ho : ∀ v ∈ recastArray r.liftoffspeed, DeckT G e c v (pyNum c.rwyelevation_m) (oto v)) :
    ∃ R, twrequiredD G e X c w fo true = .ok R ∧ SeaLevel fo r oto otrn oclm ocrs osec R := by
  obtain ⟨R, rfl, hR⟩ := tw_ok hw h
  refine ⟨_, tw_deck hT hR w oto true (fun _ x hx => ho _ ?_), sealevel_of false fo (recastArray w) R _ oto otrn oclm ocrs osec ?_ rfl rfl ?_ ?_ rfl ?_ ?_ ?_⟩
  · unfold reqOf
    rw [recast_revert]
    exact List.mem_map_of_mem (f := fun w => (R w).liftoffspeed) hx
  all_goals simp only [reqOf, recast_revert, toList_revert]

/-- Power: the same with the power corrections. -/
theorem C150_power {G : Grid} {e : DeckObj} {X : Ext} {c : Concept} {utrn uclm ucrs usec otrn oclm ocrs osec : Option ℝ}
    (hT : DeckTs G e c utrn uclm ucrs usec) (hP : DeckPows G e c otrn oclm ocrs osec) {fo : Bool} {w : NumArg} {r : Req} {tow : ℝ}
    (hw : recastArray w ≠ []) (h : powerrequired X c w tow fo false = .ok r) {oto : ℝ → Option ℝ}
    (ho : DeckPs G e c r.liftoffspeed (pyNum c.rwyelevation_m) oto) :
    ∃ R, powerrequiredD G e X c w tow fo true = .ok R ∧ SeaLevel fo r oto otrn oclm ocrs osec R := by
  rcases power_point X c tow fo false with ⟨er, he⟩ | ⟨R, vc, vs, p0, p1, p2, p3, p4, hI, h1, -, h2⟩
  · rw [he w hw] at h; cases h
  · rw [h2 w hw] at h
    cases h
    have hR := tw_deck hT h1 w (fun _ => none) false (fun h => absurd h (by decide))
    refine ⟨_, powerD_eq (b := true) hI hR (fun _ => hP) (fun _ => ho), ?_⟩
    have e : reqNOf (true && arrDeck e) fo (recastArray w) R
        (fun w => divided true oto otrn oclm ocrs osec (powerAt c tow fo false vc vs p0 p1 p2 p3 p4 (R w))) =
      reqNOf (true && arrDeck e) fo (recastArray w) (fun w => powerAt c tow fo false vc vs p0 p1 p2 p3 p4 (R w))
        (fun w => divided true oto otrn oclm ocrs osec (powerAt c tow fo false vc vs p0 p1 p2 p3 p4 (R w))) := rfl
    rw [e]
    refine sealevel_of _ fo (recastArray w) _ _ oto otrn oclm ocrs osec ?_ rfl rfl ?_ ?_ rfl ?_ ?_ ?_ <;>
      simp only [preqOf, recast_shp, toList_shpNan]

/-- What the four kinds of deck correct: jet decks thrust, turboprop and piston decks power, electric motors nothing. -/
theorem C150_kinds (G : Grid) (rows : List Row) (M : ℝ) (hc : Complete rows) (hM : Largest M rows) :
    (∀ d : JetDeck, d.avail.out[0]? = some true → d.thr_data = some rows →
      Corrects G (.jet d) (relative G rows M) (fun _ _ => some 1)) ∧
    (∀ d : TurbopropDeck, d.avail.out[1]? = some true → d.pwr_data = some rows →
      Corrects G (.turboprop d) (fun _ _ => some 1) (relative G rows M)) ∧
    (∀ (d : PistonDeck) (lo hi : ℝ), d.avail.out[0]? = some true → d.pwr_data = some rows → Spans (rows.map (fun r => r.1)) lo hi → lo < hi →
      ∃ s, Considered lo hi s ∧ hi - 1 ≤ s ∧ Corrects G (.piston d) (fun _ _ => some 1) (fun _ alt => relative G rows M s alt)) ∧
    ∀ d : ElectricDeck, Corrects G (.electric d) (fun _ _ => some 1) (fun _ _ => some 1) := by
  refine ⟨fun d h1 h2 => ⟨fun m alt => ?_, fun ms alt => ?_⟩, fun d h1 h2 => ⟨fun m alt => ?_, fun ms alt => ?_⟩,
    fun d lo hi h1 h2 h3 h4 => ?_, fun d => ⟨fun m alt => ⟨_, _, rfl, rfl, rfl⟩, fun ms alt => ⟨_, _, rfl, .inr ⟨_, rfl, fun _ _ => rfl⟩⟩⟩⟩
  · exact ⟨_, _, (C118_others G rows M hc hM [m] alt).2.1 d h1 h2, rfl, rfl⟩
  · exact ⟨_, _, (C118_others G rows M hc hM ms alt).2.1 d h1 h2, .inl rfl⟩
  · exact ⟨_, _, (C118_others G rows M hc hM [m] alt).1 d h1 h2, rfl, rfl⟩
  · exact ⟨_, _, (C118_others G rows M hc hM ms alt).1 d h1 h2, .inl rfl⟩
  · obtain ⟨s, hs, hs2, hp⟩ := C118_piston h1 h2 hc hM h3 h4
    exact ⟨s, hs, hs2, fun m alt => ⟨_, _, hp G [m] alt, rfl, rfl⟩, fun ms alt => ⟨_, _, hp G ms alt, .inr ⟨_, rfl, fun _ _ => rfl⟩⟩⟩

theorem deck_at {G : Grid} {e : DeckObj} {tf pf : ℝ → ℝ → Option ℝ} (hK : Corrects G e tf pf) {c : Concept} {alt a : ℝ}
    (h : Atmos.vsound_mps c.designatm (.scalar alt) = .ok (.scalar a)) (v : ℝ) :
    DeckT G e c v alt (tf (v / a) alt) ∧ DeckP G e c v alt (pf (v / a) alt) := by
  obtain ⟨t, p, h1, h2, h3⟩ := hK.one (v / a) alt
  have e : deckSlcorr G e c (.scalar v) alt = .ok (t, p) := by
    unfold deckSlcorr
    rw [(Props.C18_ratio _ _ _ h).1 v, bind_ok, h1]
  exact ⟨⟨t, p, e, h2⟩, ⟨t, p, e, h3⟩⟩

theorem deck_all {G : Grid} {e : DeckObj} {tf pf : ℝ → ℝ → Option ℝ} (hK : Corrects G e tf pf) {c : Concept} {alt a : ℝ}
    (h : Atmos.vsound_mps c.designatm (.scalar alt) = .ok (.scalar a)) (v : NumArg) :
    DeckPs G e c v alt (fun x => pf (x / a) alt) := by
  have hm : Atmos.mach c.designatm v (.scalar alt) = .ok ((recastArray v).map (fun x => x / a)) := by
    cases v with
    | scalar x => exact (Props.C18_ratio _ _ _ h).1 x
    | array xs => exact (Props.C18_ratio _ _ _ h).2 xs
  obtain ⟨t, p, h1, h2⟩ := hK.all ((recastArray v).map (fun x => x / a)) alt
  refine ⟨t, p, by unfold deckSlcorr; rw [hm, bind_ok, h1], ?_⟩
  rcases h2 with h2 | ⟨y, h2, h3⟩
  · left; rw [h2, List.map_map]; rfl
  · right; exact ⟨y, h2, fun x hx => h3 _ (List.mem_map_of_mem hx)⟩

theorem deckTs_of {G : Grid} {e : DeckObj} {tf pf : ℝ → ℝ → Option ℝ} (hK : Corrects G e tf pf) {c : Concept}
    {vclm vsec atrn aclm acrs asec ato : ℝ} (hF : Flight c vclm vsec atrn aclm acrs asec ato) :
    DeckTs G e c (tf (kts2mps (pyNum c.turnspeed_ktas) / atrn) (pyNum c.turnalt_m)) (tf (vclm / aclm) (pyNum c.climbalt_m))
      (tf (kts2mps (pyNum c.cruisespeed_ktas) / acrs) (pyNum c.cruisealt_m)) (tf (vsec / asec) (pyNum c.servceil_m)) := by
  refine ⟨fun s hs => ?_, fun s v hs hv => ?_, fun s a hs ha => ?_, fun s a v hs ha hv => ?_⟩
  · have e : s = pyNum c.turnspeed_ktas := by rw [hs]; rfl
    subst e
    exact (deck_at hK hF.sturn _).1
  · have e : s = pyNum c.climbspeed_kias := by rw [hs]; rfl
    subst e
    rw [hF.climb] at hv
    cases hv
    exact (deck_at hK hF.sclimb _).1
  · have e : s = pyNum c.cruisespeed_ktas := by rw [hs]; rfl
    have e' : a = pyNum c.cruisealt_m := by rw [ha]; rfl
    subst e e'
    exact (deck_at hK hF.scruise _).1
  · have e : s = pyNum c.secclimbspd_kias := by rw [hs]; rfl
    have e' : a = pyNum c.servceil_m := by rw [ha]; rfl
    subst e e'
    rw [hF.ceiling] at hv
    cases hv
    exact (deck_at hK hF.sceiling _).1

theorem tas_kts {a : Atmos.Atm} {s t alt v : ℝ} (h : Atmos.eas2tas a (kts2mps s) alt = .ok v) (h' : Atmos.eas2tas a s alt = .ok t) :
    kts2mps t = v := by
  unfold Atmos.eas2tas at h h'
  simp only [bind_ok_iff] at h h'
  obtain ⟨d, h1, h2⟩ := h
  obtain ⟨d', h1', h2'⟩ := h'
  rw [h1] at h1'
  cases h1'
  cases h2
  cases h2'
  unfold kts2mps
  ring

theorem deckPows_of {G : Grid} {e : DeckObj} {tf pf : ℝ → ℝ → Option ℝ} (hK : Corrects G e tf pf) {c : Concept}
    {vclm vsec atrn aclm acrs asec ato : ℝ} (hF : Flight c vclm vsec atrn aclm acrs asec ato) :
    DeckPows G e c (pf (kts2mps (pyNum c.turnspeed_ktas) / atrn) (pyNum c.turnalt_m)) (pf (vclm / aclm) (pyNum c.climbalt_m))
      (pf (kts2mps (pyNum c.cruisespeed_ktas) / acrs) (pyNum c.cruisealt_m)) (pf (vsec / asec) (pyNum c.servceil_m)) := by
  refine ⟨(deck_at hK hF.sturn _).2, fun s hs => ?_, (deck_at hK hF.scruise _).2, fun s hs => ?_⟩
  · rw [← tas_kts hF.climb hs]
    exact (deck_at hK hF.sclimb _).2
  · rw [← tas_kts hF.ceiling hs]
    exact (deck_at hK hF.sceiling _).2

/-- With a deck, the requirements are those at the flight conditions divided by the deck's correction at the Mach number and altitude of
each condition: thrust by the thrust correction, power by the power correction. -/
theorem C150_sealevel {G : Grid} {e : DeckObj} {tf pf : ℝ → ℝ → Option ℝ} (hK : Corrects G e tf pf) {X : Ext} {c : Concept}
    {vclm vsec atrn aclm acrs asec ato : ℝ} (hF : Flight c vclm vsec atrn aclm acrs asec ato) {fo : Bool} {w : NumArg}
    (hw : recastArray w ≠ []) :
    (∀ r, twrequired X c w fo false = .ok r → ∃ R, twrequiredD G e X c w fo true = .ok R ∧
      SeaLevel fo r (fun v => tf (v / ato) (pyNum c.rwyelevation_m)) (tf (kts2mps (pyNum c.turnspeed_ktas) / atrn) (pyNum c.turnalt_m))
        (tf (vclm / aclm) (pyNum c.climbalt_m)) (tf (kts2mps (pyNum c.cruisespeed_ktas) / acrs) (pyNum c.cruisealt_m))
        (tf (vsec / asec) (pyNum c.servceil_m)) R) ∧
    ∀ r tow, powerrequired X c w tow fo false = .ok r → ∃ R, powerrequiredD G e X c w tow fo true = .ok R ∧
      SeaLevel fo r (fun v => pf (v / ato) (pyNum c.rwyelevation_m)) (pf (kts2mps (pyNum c.turnspeed_ktas) / atrn) (pyNum c.turnalt_m))
        (pf (vclm / aclm) (pyNum c.climbalt_m)) (pf (kts2mps (pyNum c.cruisespeed_ktas) / acrs) (pyNum c.cruisealt_m))
        (pf (vsec / asec) (pyNum c.servceil_m)) R :=
  ⟨fun _ hr => C150_thrust (deckTs_of hK hF) hw hr (fun v _ => (deck_at hK hF.srunway v).1),
    fun _ _ hr => C150_power (deckTs_of hK hF) (deckPows_of hK hF) hw hr (deck_all hK hF.srunway _)⟩

/-- Where the deck has no value at the turn, climb, cruise or ceiling condition, the combined requirement is NaN at every wing loading; where
it has none at a lift-off speed, at that wing loading. -/
theorem C150_outside {fo : Bool} {r : Req} {oto : ℝ → Option ℝ} {otrn oclm ocrs osec : Option ℝ} {R : ReqN}
    (h : SeaLevel fo r oto otrn oclm ocrs osec R) :
    ((otrn = none ∨ oclm = none ∨ ocrs = none ∨ osec = none) → ∀ i m, EntryN R.combined i m → m = none) ∧
    ∀ i v m, Entry r.liftoffspeed i v → oto v = none → EntryN R.combined i m → m = none := by
  have hm : ∀ x y, Mapped none x y → y = none := by
    rintro x y (⟨-, h⟩ | ⟨k, h, -⟩)
    · exact h
    · cases h
  have ht : ∀ m l, Top m l → none ∈ l → m = none := by
    rintro m l (⟨-, h⟩ | ⟨x, -, -, h⟩) hn
    · exact h
    · obtain ⟨z, hz, -⟩ := h none hn
      cases hz
  refine ⟨fun ho i m hi => ?_, fun i v m hv ho hi => ?_⟩
  · obtain ⟨t, n, k, u, s, h1, h2, h3, h4, h5, h6⟩ := (h.combined i m).mp hi
    refine ht m _ h6 ?_
    rcases ho with rfl | rfl | rfl | rfl
    · have : n = none := by
        cases fo with
        | true =>
          rcases (h.turnfeasible i n).mp h2 with ⟨-, h⟩ | ⟨x, -, h⟩
          · exact h
          · exact hm _ _ h
        | false =>
          obtain ⟨x, -, h⟩ := (h.turn i n).mp h2
          exact hm _ _ h
      simp [this]
    · obtain ⟨x, -, h⟩ := (h.climb i k).mp h3
      simp [hm _ _ h]
    · obtain ⟨x, -, h⟩ := (h.cruise i u).mp h4
      simp [hm _ _ h]
    · obtain ⟨x, -, h⟩ := (h.servceil i s).mp h5
      simp [hm _ _ h]
  · obtain ⟨t, n, k, u, s, h1, h2, h3, h4, h5, h6⟩ := (h.combined i m).mp hi
    refine ht m _ h6 ?_
    obtain ⟨x, v', -, hv', h⟩ := (h.takeoff i t).mp h1
    have e : v' = v := Option.some.inj (hv'.symm.trans hv)
    subst e
    rw [ho] at h
    simp [hm _ _ h]

/-- Turboprop, piston and electric decks: the thrust requirements "mapped to sea level" are the unmapped ones. Jet and electric decks: the same
for power. -/
theorem C150_mapping_violated {G : Grid} {e : DeckObj} {tf pf : ℝ → ℝ → Option ℝ} (hK : Corrects G e tf pf) {X : Ext} {c : Concept}
    {vclm vsec atrn aclm acrs asec ato : ℝ} (hF : Flight c vclm vsec atrn aclm acrs asec ato) {fo : Bool} {w : NumArg}
    (hw : recastArray w ≠ []) :
    ((tf = fun _ _ => some 1) → ∀ r, twrequired X c w fo false = .ok r → ∃ R, twrequiredD G e X c w fo true = .ok R ∧ Unmapped r R) ∧
    ((pf = fun _ _ => some 1) → ∀ r tow, powerrequired X c w tow fo false = .ok r →
      ∃ R, powerrequiredD G e X c w tow fo true = .ok R ∧ Unmapped r R) := by
  have hm : ∀ x y, Mapped (some 1) x y ↔ y = some x := by
    intro x y
    rw [mapped_over]
    simp [over]
  have key : ∀ (r : Req) (R : ReqN), (recastArray r.takeoff).length = (recastArray r.liftoffspeed).length →
      SeaLevel fo r (fun _ => some 1) (some 1) (some 1) (some 1) (some 1) R → Unmapped r R := by
    intro r R hl h
    refine ⟨fun i y => ?_, fun i y => ?_, fun i y => ?_, fun i y => ?_, fun i y => ?_, fun i y => ?_⟩
    · rw [h.takeoff]
      simp only [hm]
      constructor
      · rintro ⟨x, v, h1, -, h2⟩; exact ⟨x, h2, h1⟩
      · rintro ⟨x, h2, h1⟩
        have h3 := (List.getElem?_eq_some_iff.mp h1).1
        rw [hl] at h3
        exact ⟨x, _, h1, List.getElem?_eq_getElem h3, h2⟩
    · rw [h.turn]; simp only [hm]; exact ⟨fun ⟨x, a, b⟩ => ⟨x, b, a⟩, fun ⟨x, a, b⟩ => ⟨x, b, a⟩⟩
    · rw [h.turnfeasible]
      simp only [hm]
      constructor
      · rintro (⟨h1, rfl⟩ | ⟨x, h1, rfl⟩) <;> exact h1
      · intro h1
        cases y with
        | none => exact .inl ⟨h1, rfl⟩
        | some x => exact .inr ⟨x, h1, rfl⟩
    · rw [h.climb]; simp only [hm]; exact ⟨fun ⟨x, a, b⟩ => ⟨x, b, a⟩, fun ⟨x, a, b⟩ => ⟨x, b, a⟩⟩
    · rw [h.cruise]; simp only [hm]; exact ⟨fun ⟨x, a, b⟩ => ⟨x, b, a⟩, fun ⟨x, a, b⟩ => ⟨x, b, a⟩⟩
    · rw [h.servceil]; simp only [hm]; exact ⟨fun ⟨x, a, b⟩ => ⟨x, b, a⟩, fun ⟨x, a, b⟩ => ⟨x, b, a⟩⟩
  obtain ⟨h1, h2⟩ := C150_sealevel hK hF (X := X) (fo := fo) hw
  constructor
  · rintro rfl r hr
    obtain ⟨R, hR, hs⟩ := h1 r hr
    refine ⟨R, hR, key r R ?_ hs⟩
    obtain ⟨R0, rfl, -⟩ := tw_ok hw hr
    simp [reqOf, recast_revert]
  · rintro rfl r tow hr
    obtain ⟨R, hR, hs⟩ := h2 r tow hr
    refine ⟨R, hR, key r R ?_ hs⟩
    rcases power_point X c tow fo false with ⟨er, he⟩ | ⟨R, vc, vs, p0, p1, p2, p3, p4, hI, h1, -, h2⟩
    · rw [he w hw] at hr; cases hr
    · rw [h2 w hw] at hr
      cases hr
      simp [preqOf, recast_shp, recast_revert]

/-- A deck without the table it needs stops the evaluation even when no mapping to sea level is asked for. -/
theorem C150_missing_violated (G : Grid) {e : DeckObj} {X : Ext} {c : Concept} {er : PyErr} (he : ∀ ms alt, deckCorr G e ms alt = .error er)
    {fo : Bool} {w : NumArg} (hw : recastArray w ≠ []) :
    (∀ r, twrequired X c w fo false = .ok r → twrequiredD G e X c w fo false = .error er) ∧
    ∀ r tow, powerrequired X c w tow fo false = .ok r → powerrequiredD G e X c w tow fo false = .error er := by
  have key : ∀ r, twrequired X c w fo false = .ok r → twrequiredD G e X c w fo false = .error er := by
    intro r h
    unfold twrequired at h
    simp only [bind_ok_iff] at h
    obtain ⟨⟨t, l, a⟩, h1, ⟨n, cl, fe⟩, h2, -⟩ := h
    have e1 := toD_eq (G := G) (e := e) (fun _ => none) false h1 (fun h => absurd h (by decide))
    unfold twrequired_trn at h2
    simp only [bind_ok_iff] at h2
    obtain ⟨s, h3, m, h4, ⟨tw, cl'⟩, h5, ⟨tc, pc⟩, h6, -⟩ := h2
    unfold slcorr at h6
    simp only [bind_ok_iff] at h6
    obtain ⟨pr, -, ms, h7, -⟩ := h6
    unfold twrequiredD
    simp only [e1, bind_ok]
    unfold twrequired_trnD deckSlcorr
    simp only [h3, h4, h5, h7, he, bind_ok, bind_error]
  refine ⟨key, fun r tow h => ?_⟩
  unfold powerrequired at h
  simp only [bind_ok_iff] at h
  obtain ⟨r', h1, -⟩ := h
  unfold powerrequiredD
  rw [key r' h1, bind_error]

/-! ### Cases -/

/-- A table that ends at 5000 m. -/
def lowRows : List Row :=
  [(some 0, some 0, some 20000), (some 0.6, some 0, some 15000), (some 0, some 5000, some 12000), (some 0.6, some 5000, some 9000)]

/-- Bilinear interpolation inside the table, NaN outside. -/
def lowGrid : Grid := fun _ m h =>
  if 0 ≤ m ∧ m ≤ 0.6 ∧ 0 ≤ h ∧ h ≤ 5000 then some (20000 * (1 - 0.4 * (h / 5000)) * (1 - 0.25 * (m / 0.6))) else none

theorem low_complete : Complete lowRows := by
  intro r hr
  simp only [lowRows, List.mem_cons, List.not_mem_nil, or_false] at hr
  rcases hr with rfl | rfl | rfl | rfl <;> exact ⟨_, rfl⟩

theorem low_largest : Largest 20000 lowRows := by
  refine ⟨⟨_, List.mem_cons_self, rfl⟩, fun r hr v hv => ?_⟩
  simp only [lowRows, List.mem_cons, List.not_mem_nil, or_false] at hr
  rcases hr with rfl | rfl | rfl | rfl <;> cases hv <;> norm_num

theorem low_reproduces : Reproduces lowGrid lowRows := by
  intro x y z h
  simp only [lowRows, List.mem_cons, List.not_mem_nil, or_false, Prod.mk.injEq, Option.some.injEq] at h
  rcases h with ⟨rfl, rfl, rfl⟩ | ⟨rfl, rfl, rfl⟩ | ⟨rfl, rfl, rfl⟩ | ⟨rfl, rfl, rfl⟩ <;>
    (unfold lowGrid; norm_num)

def lowJet : JetDeck := ⟨⟨[true], [false], false, false⟩, some lowRows, none, none, none⟩

def lowProp : TurbopropDeck := ⟨⟨[true, true], [false], false, false⟩, some lowRows, some lowRows, none⟩

theorem exC_flight : ∃ vc vs a1 a2 a3 a4 a5, Flight exC vc vs a1 a2 a3 a4 a5 := by
  have hr := exC_ready
  obtain ⟨vc, h1⟩ := hr.climb.tas hr.sea (kts2mps (pyNum exC.climbspeed_kias))
  obtain ⟨vs, h2⟩ := (hr.ceiling 6000 rfl).tas hr.sea (kts2mps (pyNum exC.secclimbspd_kias))
  obtain ⟨a1, h3⟩ := hr.turn.vsound
  obtain ⟨a2, h4⟩ := hr.climb.vsound
  obtain ⟨a3, h5⟩ := (hr.cruise 3000 rfl).vsound
  obtain ⟨a4, h6⟩ := (hr.ceiling 6000 rfl).vsound
  obtain ⟨a5, h7⟩ := hr.runway.vsound
  exact ⟨vc, vs, a1, a2, a3, a4, a5, h1, h2, h3, h4, h5, h6, h7⟩

/-- A service ceiling of 6000 m with a jet deck that ends at 5000 m: evaluated without complaint, all combined requirements are NaN. -/
example (X : Ext) : Reproduces lowGrid lowRows ∧ ∃ R, twrequiredD lowGrid (.jet lowJet) X exC (.array [500, 1000]) true true = .ok R ∧
    R.combined.toList = [none, none] := by
  obtain ⟨vc, vs, a1, a2, a3, a4, a5, hF⟩ := exC_flight
  obtain ⟨r, hr⟩ := (C48_given X exC (.array [500, 1000]) true false exC_ready (by simp [Missing, exC])).1
  have hK := (C150_kinds lowGrid lowRows 20000 low_complete low_largest).1 lowJet rfl rfl
  obtain ⟨R, hR, hs⟩ := (C150_sealevel hK hF (X := X) (fo := true) (w := .array [500, 1000]) (by simp [recastArray])).1 r hr
  refine ⟨low_reproduces, R, hR, ?_⟩
  have hn : relative lowGrid lowRows 20000 (vs / a4) (pyNum exC.servceil_m) = none := by
    unfold relative lowGrid
    rw [if_neg (by simp only [exC, pyNum]; norm_num)]
    rfl
  have hl : R.combined.toList.length = 2 := by
    obtain ⟨R0, -, h0⟩ := tw_ok (by simp [recastArray]) hr
    have := tw_deck (deckTs_of hK hF) h0 (.array [500, 1000]) (fun v => relative lowGrid lowRows 20000 (v / a5) (pyNum exC.rwyelevation_m)) true
      (fun _ x _ => (deck_at hK hF.srunway _).1)
    rw [hR] at this
    cases this
    simp [reqNOf, toList_shpNan, recastArray]
  have ho := (C150_outside hs).1 (.inr (.inr (.inr hn)))
  match hc : R.combined.toList, hl with
  | [x, y], _ =>
    rw [ho 0 x (by unfold EntryN; rw [hc]; rfl), ho 1 y (by unfold EntryN; rw [hc]; rfl)]

/-- A turboprop deck: the thrust needed at 1000 m is reported as the sea-level thrust. -/
example (X : Ext) : ∃ r R, twrequired X exC (.array [500, 1000]) true false = .ok r ∧
    twrequiredD lowGrid (.turboprop lowProp) X exC (.array [500, 1000]) true true = .ok R ∧ Unmapped r R := by
  obtain ⟨vc, vs, a1, a2, a3, a4, a5, hF⟩ := exC_flight
  obtain ⟨r, hr⟩ := (C48_given X exC (.array [500, 1000]) true false exC_ready (by simp [Missing, exC])).1
  have hK := (C150_kinds lowGrid lowRows 20000 low_complete low_largest).2.1 lowProp rfl rfl
  obtain ⟨R, hR, hs⟩ := (C150_mapping_violated hK hF (X := X) (fo := true) (w := .array [500, 1000]) (by simp [recastArray])).1 rfl r hr
  exact ⟨r, R, hr, hR, hs⟩

/-- The power needed with this deck. -/
example (X : Ext) : ∃ r R, powerrequired X exC (.array [500, 1000]) 1000 true false = .ok r ∧
    powerrequiredD lowGrid (.turboprop lowProp) X exC (.array [500, 1000]) 1000 true true = .ok R ∧
    ∀ i m, EntryN R.combined i m → m = none := by
  obtain ⟨vc, vs, a1, a2, a3, a4, a5, hF⟩ := exC_flight
  obtain ⟨r, hr⟩ := (C48_given X exC (.array [500, 1000]) true false exC_ready (by simp [Missing, exC])).2 (by simp [recastArray]) 1000
  have hK := (C150_kinds lowGrid lowRows 20000 low_complete low_largest).2.1 lowProp rfl rfl
  obtain ⟨R, hR, hs⟩ := (C150_sealevel hK hF (X := X) (fo := true) (w := .array [500, 1000]) (by simp [recastArray])).2 r 1000 hr
  refine ⟨r, R, hr, hR, (C150_outside hs).1 (.inr (.inr (.inr ?_)))⟩
  unfold relative lowGrid
  rw [if_neg (by simp only [exC, pyNum]; norm_num)]
  rfl

/-- A jet deck without thrust table. -/
example (X : Ext) : twrequiredD lowGrid (.jet ⟨⟨[false], [false], false, false⟩, none, none, none, none⟩) X exC (.array [500, 1000]) true false =
    .error .attributeError := by
  obtain ⟨r, hr⟩ := (C48_given X exC (.array [500, 1000]) true false exC_ready (by simp [Missing, exC])).1
  exact (C150_missing_violated lowGrid (fun ms alt => (C118_missing lowGrid ms alt).2.2 _ rfl rfl) (by simp [recastArray])).1 r hr

end

end Verif.Aircraft
