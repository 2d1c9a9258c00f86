import Verif.Lemmas.DeckReq

/-
Requirements with an engine deck: the dictionaries.
-/

namespace Verif.Aircraft
open Verif Verif.Units Verif.Propulsion

noncomputable section

/-- The entries at one wing loading when they may be NaN. -/
structure ReqNAt where
  takeoff : Option ℝ
  turn : Option ℝ
  turnfeasible : Option ℝ
  climb : Option ℝ
  cruise : Option ℝ
  servceil : Option ℝ

/-- Largest of the five requirements. -/
def ReqNAt.top (r : ReqNAt) (fo : Bool) : Option ℝ :=
  nanMax (nanMax (nanMax (nanMax r.takeoff (if fo then r.turnfeasible else r.turn)) r.climb) r.cruise) r.servceil

/-- The dictionary made up of point functions. -/
def reqNOf (k fo : Bool) (ws : List ℝ) (R : ℝ → ReqAt) (N : ℝ → ReqNAt) : ReqN where
  takeoff := shpNan k (ws.map (fun w => (N w).takeoff))
  liftoffspeed := Atmos.revert (ws.map (fun w => (R w).liftoffspeed))
  avspeed := Atmos.revert (ws.map (fun w => (R w).avspeed))
  turn := shpNan k (ws.map (fun w => (N w).turn))
  turnfeasible := shpNan k (ws.map (fun w => (N w).turnfeasible))
  turncl := Atmos.revert (ws.map (fun w => (R w).turncl))
  climb := shpNan k (ws.map (fun w => (N w).climb))
  cruise := shpNan k (ws.map (fun w => (N w).cruise))
  servceil := shpNan k (ws.map (fun w => (N w).servceil))
  combined := shpNan k (ws.map (fun w => (N w).top fo))

/-- The entries at one wing loading divided by the corrections of their flight conditions. -/
def divided (b : Bool) (oto : ℝ → Option ℝ) (otrn oclm ocrs osec : Option ℝ) (r : ReqAt) : ReqNAt where
  takeoff := scaleO b (oto r.liftoffspeed) r.takeoff
  turn := scaleO b otrn r.turn
  turnfeasible := r.turnfeasible.bind (scaleO b otrn)
  climb := scaleO b oclm r.climb
  cruise := scaleO b ocrs r.cruise
  servceil := scaleO b osec r.servceil

/-- The thrust corrections of the deck at the flight conditions of a concept (except take-off). -/
structure DeckTs (G : Grid) (e : DeckObj) (c : Concept) (otrn oclm ocrs osec : Option ℝ) : Prop where
  turn : ∀ s, c.turnspeed_ktas = some s → DeckT G e c (kts2mps s) (pyNum c.turnalt_m) otrn
  climb : ∀ s v, c.climbspeed_kias = some s → Atmos.eas2tas c.designatm (kts2mps s) (pyNum c.climbalt_m) = .ok v →
    DeckT G e c v (pyNum c.climbalt_m) oclm
  cruise : ∀ s a, c.cruisespeed_ktas = some s → c.cruisealt_m = some a → DeckT G e c (kts2mps s) a ocrs
  ceiling : ∀ s a v, c.secclimbspd_kias = some s → c.servceil_m = some a → Atmos.eas2tas c.designatm (kts2mps s) a = .ok v →
    DeckT G e c v a osec

theorem zipWith_maps {α : Type} (ws : List ℝ) (f : ℝ → ℝ → α) (g h : ℝ → ℝ) :
    List.zipWith f (ws.map g) (ws.map h) = ws.map (fun w => f (g w) (h w)) := by
  induction ws with
  | nil => rfl
  | cons x l ih => simp only [List.map_cons, List.zipWith_cons_cons, ih]

theorem bind_of {α β : Type} {x : PyM α} {a : α} {f : α → PyM β} (h : x = .ok a) : (x >>= f) = f a := by rw [h]; rfl

theorem amax_shp5 (k fo : Bool) (ws : List ℝ) (N : ℝ → ReqNAt) :
    amax (shpNan k (ws.map (fun w => (N w).takeoff)))
      [if fo then shpNan k (ws.map (fun w => (N w).turnfeasible)) else shpNan k (ws.map (fun w => (N w).turn)),
        shpNan k (ws.map (fun w => (N w).climb)), shpNan k (ws.map (fun w => (N w).cruise)),
        shpNan k (ws.map (fun w => (N w).servceil))] = .ok (shpNan k (ws.map (fun w => (N w).top fo))) := by
  have e : (if fo = true then shpNan k (ws.map (fun w => (N w).turnfeasible)) else shpNan k (ws.map (fun w => (N w).turn))) =
      shpNan k (ws.map (fun w => if fo then (N w).turnfeasible else (N w).turn)) := by cases fo <;> rfl
  rw [e]
  simp only [amax, List.foldlM_cons, List.foldlM_nil, amax2_shp, bind_ok]
  rfl

/-- The thrust requirements with a deck from those without mapping. -/
theorem twD_eq {G : Grid} {e : DeckObj} {X : Ext} {c : Concept} {otrn oclm ocrs osec : Option ℝ} (hT : DeckTs G e c otrn oclm ocrs osec)
    (oto : ℝ → Option ℝ) (fo b : Bool) {R : ℝ → ReqAt} (w : NumArg)
    (hto : twrequired_to X c (.array (recastArray w)) false = .ok (Atmos.revert ((recastArray w).map (fun w => (R w).takeoff)),
        Atmos.revert ((recastArray w).map (fun w => (R w).liftoffspeed)),
        Atmos.revert ((recastArray w).map (fun w => (R w).avspeed))))
    (htrn : twrequired_trn X c (.array (recastArray w)) false = .ok (Atmos.revert ((recastArray w).map (fun w => (R w).turn)),
        Atmos.revert ((recastArray w).map (fun w => (R w).turncl)),
        revertNan ((recastArray w).map (fun w => (R w).turnfeasible))))
    (hclm : twrequired_clm X c (.array (recastArray w)) false = .ok (Atmos.revert ((recastArray w).map (fun w => (R w).climb))))
    (hcrs : twrequired_crs X c (.array (recastArray w)) false = .ok (Atmos.revert ((recastArray w).map (fun w => (R w).cruise))))
    (hsec : twrequired_sec X c (.array (recastArray w)) false = .ok (Atmos.revert ((recastArray w).map (fun w => (R w).servceil))))
    (ho : b = true → ∀ x ∈ recastArray w, DeckT G e c (R x).liftoffspeed (pyNum c.rwyelevation_m) (oto (R x).liftoffspeed)) :
    twrequiredD G e X c w fo b =
      .ok (reqNOf false fo (recastArray w) R (fun w => divided b oto otrn oclm ocrs osec (R w))) := by
  have e1 := toD_eq (G := G) (e := e) oto b hto (by
    intro hb v hv
    rw [recast_revert] at hv
    obtain ⟨x, hx, rfl⟩ := List.mem_map.mp hv
    exact ho hb x hx)
  have e2 := trnD_eq (G := G) (e := e) b htrn hT.turn
  have e3 := clmD_eq (G := G) (e := e) b hclm hT.climb
  have e4 := crsD_eq (G := G) (e := e) b hcrs hT.cruise
  have e5 := secD_eq (G := G) (e := e) b hsec hT.ceiling
  simp only [recast_revert, toList_revert, List.map_map, zipWith_maps] at e1 e2 e3 e4 e5
  unfold twrequiredD
  have e6 := amax_shp5 false fo (recastArray w) (fun w => divided b oto otrn oclm ocrs osec (R w))
  simp only [e1, e2, e3, e4, e5, bind_ok]
  exact bind_of e6

/-! ### Power -/

/-- The power correction of the deck at one speed and altitude is `o`. -/
def DeckP (G : Grid) (e : DeckObj) (c : Concept) (v alt : ℝ) (o : Option ℝ) : Prop :=
  ∃ t p, deckSlcorr G e c (.scalar v) alt = .ok (t, p) ∧ p.toList = [o]

/-- Electric motors have a number as correction, other decks an array. -/
def arrDeck : DeckObj → Bool
  | .electric _ => false
  | _ => true

theorem deck_shape {G : Grid} {e : DeckObj} {c : Concept} {v : NumArg} {alt : ℝ} {t p : NanArg}
    (h : deckSlcorr G e c v alt = .ok (t, p)) :
    (arrDeck e = true ∧ ∃ l, p = .array l) ∨ (arrDeck e = false ∧ p = .scalar (some 1)) := by
  unfold deckSlcorr at h
  simp only [bind_ok_iff] at h
  obtain ⟨ms, -, h⟩ := h
  unfold deckCorr at h
  cases e with
  | turboprop d =>
    simp only [bind_ok_iff] at h
    obtain ⟨p', -, h⟩ := h
    cases h
    exact .inl ⟨rfl, _, rfl⟩
  | piston d =>
    simp only [bind_ok_iff] at h
    obtain ⟨s, -, p', -, h⟩ := h
    cases h
    exact .inl ⟨rfl, _, rfl⟩
  | electric d =>
    cases h
    exact .inr ⟨rfl, rfl⟩
  | jet d =>
    simp only [bind_ok_iff] at h
    obtain ⟨p', -, h⟩ := h
    cases h
    exact .inl ⟨rfl, _, rfl⟩

/-- Division of a value that may be NaN. -/
def scaleN (b : Bool) (o x : Option ℝ) : Option ℝ := x.bind (scaleO b o)

theorem scaleN_false (o x : Option ℝ) : scaleN false o x = x := by cases x <;> rfl

theorem ndiv_scale (x o : Option ℝ) : ndiv x o = scaleN true o x := by cases x <;> cases o <;> rfl

theorem bcast_maps (ws : List ℝ) (f g : ℝ → Option ℝ) :
    bcast ndiv (ws.map f) (ws.map g) = .ok (ws.map (fun w => scaleN true (g w) (f w))) := by
  unfold bcast
  simp only [List.length_map, if_true]
  congr 1
  induction ws with
  | nil => rfl
  | cons x l ih => simp only [List.map_cons, List.zipWith_cons_cons, ih, ndiv_scale]

theorem bcast_map_one (ws : List ℝ) (f : ℝ → Option ℝ) (o : Option ℝ) :
    bcast ndiv (ws.map f) [o] = .ok (ws.map (fun w => scaleN true o (f w))) := by
  unfold bcast
  match ws with
  | [] => rfl
  | [x] => simp [ndiv_scale]
  | x :: y :: l => simp [ndiv_scale]

theorem opNan_array (a : NanArg) (l : List (Option ℝ)) : opNan ndiv a (.array l) = (do
    let r ← bcast ndiv a.toList l
    pure (.array r)) := by
  cases a <;> rfl

theorem opNan_scalar (ws : List ℝ) (f : ℝ → Option ℝ) (o : Option ℝ) :
    opNan ndiv (revertNan (ws.map f)) (.scalar o) = .ok (revertNan (ws.map (fun w => scaleN true o (f w)))) := by
  have := bcast_map_one ws f o
  match ws with
  | [] => rfl
  | [x] => simp [revertNan, opNan, ndiv_scale]
  | x :: y :: l =>
    simp only [List.map_cons, revertNan, opNan, NanArg.toList] at this ⊢
    simp only [this, bind_ok]
    rfl

/-- Division by the correction at one speed. -/
theorem opNan_deck {G : Grid} {e : DeckObj} {c : Concept} {v : NumArg} {alt : ℝ} {t p : NanArg} {o : Option ℝ}
    (h : deckSlcorr G e c v alt = .ok (t, p)) (hp : p.toList = [o]) (ws : List ℝ) (f : ℝ → Option ℝ) :
    opNan ndiv (revertNan (ws.map f)) p = .ok (shpNan (arrDeck e) (ws.map (fun w => scaleN true o (f w)))) := by
  rcases deck_shape h with ⟨ha, l, rfl⟩ | ⟨ha, rfl⟩
  · cases hp
    rw [opNan_array, toList_revert, bcast_map_one, bind_ok, ha]
    rfl
  · cases hp
    rw [opNan_scalar, ha]
    rfl

theorem powerSlD_eq {G : Grid} {e : DeckObj} {c : Concept} {v alt : ℝ} {o : Option ℝ} {b : Bool} (h : b = true → DeckP G e c v alt o)
    (ws : List ℝ) (f : ℝ → Option ℝ) :
    powerSlD G e c b (.scalar v) alt (revertNan (ws.map f)) =
      .ok (shpNan (b && arrDeck e) (ws.map (fun w => scaleN b o (f w)))) := by
  cases b with
  | false => simp only [powerSlD, Bool.false_eq_true, if_false, Bool.false_and, scaleN_false]; rfl
  | true =>
    obtain ⟨t, p, h1, h2⟩ := h rfl
    simp only [powerSlD, if_true, h1, bind_ok, Bool.true_and, opNan_deck h1 h2]

theorem powerSlTurnD_eq {G : Grid} {e : DeckObj} {c : Concept} {v alt : ℝ} {o : Option ℝ} {b : Bool} (h : b = true → DeckP G e c v alt o)
    (ws : List ℝ) (f g : ℝ → Option ℝ) :
    powerSlTurnD G e c b (.scalar v) alt (revertNan (ws.map f)) (revertNan (ws.map g)) =
      .ok (shpNan (b && arrDeck e) (ws.map (fun w => scaleN b o (f w))), shpNan (b && arrDeck e) (ws.map (fun w => scaleN b o (g w)))) := by
  cases b with
  | false => simp only [powerSlTurnD, Bool.false_eq_true, if_false, Bool.false_and, scaleN_false]; rfl
  | true =>
    obtain ⟨t, p, h1, h2⟩ := h rfl
    simp only [powerSlTurnD, if_true, h1, bind_ok, Bool.true_and, opNan_deck h1 h2]
    rfl

/-- The power corrections at the lift-off speeds: one for each, or one for all. -/
def DeckPs (G : Grid) (e : DeckObj) (c : Concept) (v : NumArg) (alt : ℝ) (o : ℝ → Option ℝ) : Prop :=
  ∃ t p, deckSlcorr G e c v alt = .ok (t, p) ∧
    (p.toList = (recastArray v).map o ∨ ∃ y, p.toList = [y] ∧ ∀ x ∈ recastArray v, o x = y)

theorem powerSlD_array {G : Grid} {e : DeckObj} {c : Concept} {alt : ℝ} {o : ℝ → Option ℝ} {b : Bool} (ws : List ℝ) (v : ℝ → ℝ)
    (h : b = true → DeckPs G e c (Atmos.revert (ws.map v)) alt o) (f : ℝ → Option ℝ) :
    powerSlD G e c b (Atmos.revert (ws.map v)) alt (revertNan (ws.map f)) =
      .ok (shpNan (b && arrDeck e) (ws.map (fun w => scaleN b (o (v w)) (f w)))) := by
  cases b with
  | false => simp only [powerSlD, Bool.false_eq_true, if_false, Bool.false_and, scaleN_false]; rfl
  | true =>
    obtain ⟨t, p, h1, h2⟩ := h rfl
    simp only [powerSlD, if_true, h1, bind_ok, Bool.true_and]
    rw [recast_revert] at h2
    have one : ∀ y, p.toList = [y] → (∀ x ∈ ws.map v, o x = y) → opNan ndiv (revertNan (ws.map f)) p =
        .ok (shpNan (arrDeck e) (ws.map (fun w => scaleN true (o (v w)) (f w)))) := by
      intro y hy hx
      rw [opNan_deck h1 hy]
      congr 2
      exact List.map_congr_left (fun w hw => by rw [hx (v w) (List.mem_map_of_mem hw)])
    rcases h2 with h2 | ⟨y, h2, h3⟩
    · rcases deck_shape h1 with ⟨ha, l, rfl⟩ | ⟨ha, rfl⟩
      · have h2' : l = (ws.map v).map o := h2
        subst h2'
        rw [opNan_array, toList_revert, List.map_map, bcast_maps, bind_ok, ha]
        rfl
      · have h2' : [some 1] = (ws.map v).map o := h2
        refine one (some 1) rfl (fun x hx => ?_)
        have : o x ∈ (ws.map v).map o := List.mem_map_of_mem hx
        rw [← h2'] at this
        simpa using this
    · exact one y h2 h3

theorem powerOfNan_some (tow eta : ℝ) (ws : List ℝ) (g v : ℝ → ℝ) :
    powerOfNan tow eta (revertNan (ws.map (fun w => some (g w)))) (Atmos.revert (ws.map v)) =
      .ok (revertNan (ws.map (fun w => some (hp tow eta (g w) (v w))))) := by
  match ws with
  | [] => rfl
  | [x] => rfl
  | x :: y :: l =>
    obtain ⟨ws, hws⟩ : ∃ ws, ws = x :: y :: l := ⟨_, rfl⟩
    have h1 : revertNan ((x :: y :: l).map (fun w => some (g w))) = .array ((x :: y :: l).map (fun w => some (g w))) := rfl
    have h2 : Atmos.revert ((x :: y :: l).map v) = .array ((x :: y :: l).map v) := rfl
    have h3 : revertNan ((x :: y :: l).map (fun w => some (hp tow eta (g w) (v w)))) =
      .array ((x :: y :: l).map (fun w => some (hp tow eta (g w) (v w)))) := rfl
    rw [h1, h2, h3, ← hws]
    simp only [powerOfNan, op2nan, NanArg.toList, recastArray, broadcastNan, List.length_map, if_true, bind_ok, mapNan]
    have : List.zipWith (fun (x : Option ℝ) y => x.map (fun t => tw2pw t y eta)) (ws.map (fun w => some (g w))) (ws.map v) =
        ws.map (fun w => some (tw2pw (g w) (v w) eta)) := by
      clear hws
      induction ws with
      | nil => rfl
      | cons x l ih => simp only [List.map_cons, List.zipWith_cons_cons, ih]; rfl
    rw [this]
    show (Except.ok _ : PyM NanArg) = _
    simp only [mapNan, List.map_map]
    rfl

/-- The power corrections of the deck at the flight conditions of a concept (except take-off). -/
structure DeckPows (G : Grid) (e : DeckObj) (c : Concept) (otrn oclm ocrs osec : Option ℝ) : Prop where
  turn : DeckP G e c (kts2mps (pyNum c.turnspeed_ktas)) (pyNum c.turnalt_m) otrn
  climb : ∀ s, Atmos.eas2tas c.designatm (pyNum c.climbspeed_kias) (pyNum c.climbalt_m) = .ok s →
    DeckP G e c (kts2mps s) (pyNum c.climbalt_m) oclm
  cruise : DeckP G e c (kts2mps (pyNum c.cruisespeed_ktas)) (pyNum c.cruisealt_m) ocrs
  ceiling : ∀ s, Atmos.eas2tas c.designatm (pyNum c.secclimbspd_kias) (pyNum c.servceil_m) = .ok s →
    DeckP G e c (kts2mps s) (pyNum c.servceil_m) osec

/-- The power requirements with a deck from those without mapping. -/
theorem powerD_eq {G : Grid} {e : DeckObj} {X : Ext} {c : Concept} {tow : ℝ} {fo b : Bool} {R : ℝ → ReqAt} {w : NumArg}
    {vc vs : ℝ} {p0 : ℝ → ℝ} {p1 p2 p3 p4 : ℝ} (hI : PowerIn X c false vc vs p0 p1 p2 p3 p4)
    {uto : ℝ → Option ℝ} {utrn uclm ucrs usec : Option ℝ}
    (hR : twrequiredD G e X c w fo false = .ok (reqNOf false fo (recastArray w) R (fun w => divided false uto utrn uclm ucrs usec (R w))))
    {oto : ℝ → Option ℝ} {otrn oclm ocrs osec : Option ℝ}
    (hP : b = true → DeckPows G e c otrn oclm ocrs osec)
    (hto : b = true → DeckPs G e c (Atmos.revert ((recastArray w).map (fun w => (R w).liftoffspeed))) (pyNum c.rwyelevation_m) oto) :
    powerrequiredD G e X c w tow fo b =
      .ok (reqNOf (b && arrDeck e) fo (recastArray w) R
        (fun w => divided b oto otrn oclm ocrs osec (powerAt c tow fo false vc vs p0 p1 p2 p3 p4 (R w)))) := by
  obtain ⟨sc, hc1, hc2⟩ := hI.climbspeed
  obtain ⟨ss, hs1, hs2⟩ := hI.secspeed
  subst hc2 hs2
  have s1 := fun f => powerSlD_array (b := b) (recastArray w) (fun w => (R w).liftoffspeed) hto f
  have s2 := fun f g => powerSlTurnD_eq (b := b) (fun hb => (hP hb).turn) (recastArray w) f g
  have s3 := fun f => powerSlD_eq (b := b) (fun hb => (hP hb).climb sc hc1) (recastArray w) f
  have s4 := fun f => powerSlD_eq (b := b) (fun hb => (hP hb).cruise) (recastArray w) f
  have s5 := fun f => powerSlD_eq (b := b) (fun hb => (hP hb).ceiling ss hs1) (recastArray w) f
  obtain ⟨N, hN⟩ : ∃ N : ℝ → ReqNAt, N = fun w =>
      { takeoff := scaleN b (oto (R w).liftoffspeed) (some (hp tow (pyNum c.etaprop_to) (R w).takeoff (R w).liftoffspeed))
        turn := scaleN b otrn (some (hp tow (pyNum c.etaprop_turn) (R w).turn (kts2mps (pyNum c.turnspeed_ktas))))
        turnfeasible := scaleN b otrn ((R w).turnfeasible.map (fun t => hp tow (pyNum c.etaprop_turn) t (kts2mps (pyNum c.turnspeed_ktas))))
        climb := scaleN b oclm (some (hp tow (pyNum c.etaprop_climb) (R w).climb (kts2mps sc)))
        cruise := scaleN b ocrs (some (hp tow (pyNum c.etaprop_cruise) (R w).cruise (kts2mps (pyNum c.cruisespeed_ktas))))
        servceil := scaleN b osec (some (hp tow (pyNum c.etaprop_sec) (R w).servceil (kts2mps ss))) } := ⟨_, rfl⟩
  have hd : (fun w => divided b oto otrn oclm ocrs osec (powerAt c tow fo false (kts2mps sc) (kts2mps ss) p0 p1 p2 p3 p4 (R w))) = N := by
    rw [hN]
    funext w
    unfold divided powerAt
    have : ∀ t : Option ℝ, t.map (sl false p1) = t := fun t => by cases t <;> rfl
    simp only [this]
    rfl
  rw [hd]
  have e6 := amax_shp5 (b && arrDeck e) fo (recastArray w) N
  have sf : ∀ l, shpNan false l = revertNan l := fun l => rfl
  have eb : ∀ t : Option ℝ, t.bind some = t := fun t => by cases t <;> rfl
  have es : scaleO false = fun _ => some := rfl
  unfold powerrequiredD
  simp only [hR, bind_ok, reqNOf, divided, sf, es, eb, powerOfNan_some, s1, powerOfNan_scalar, s2,
    hc1, hs1, s3, s4, s5, Option.map_some]
  rw [hN] at e6 ⊢
  exact bind_of e6

end

end Verif.Aircraft
