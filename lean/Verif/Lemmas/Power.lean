import Verif.Lemmas.Point2

/-
The power requirement as a function of one wing loading.
-/

namespace Verif.Aircraft
open Verif Verif.Units

noncomputable section

theorem recast_revert (l : List ℝ) : recastArray (Atmos.revert l) = l := by
  match l with
  | [] => rfl
  | [_] => rfl
  | _ :: _ :: _ => rfl

theorem toList_revertNan (l : List (Option ℝ)) : (revertNan l).toList = l := by
  match l with
  | [] => rfl
  | [_] => rfl
  | _ :: _ :: _ => rfl

/-- A result that stays an array (`true`) or turns into a number for one wing loading. -/
def shp (b : Bool) (l : List ℝ) : NumArg := if b then .array l else Atmos.revert l

/-- The same with NaN entries. -/
def shpNan (b : Bool) (l : List (Option ℝ)) : NanArg := if b then .array l else revertNan l

theorem recast_shp (b : Bool) (l : List ℝ) : recastArray (shp b l) = l := by
  cases b
  · exact recast_revert l
  · rfl

theorem toList_shpNan (b : Bool) (l : List (Option ℝ)) : (shpNan b l).toList = l := by
  cases b
  · exact toList_revertNan l
  · rfl

theorem op2_revert_scalar (f : ℝ → ℝ → ℝ) (ws : List ℝ) (g : ℝ → ℝ) (y : ℝ) :
    op2 f (Atmos.revert (ws.map g)) (.scalar y) = .ok (Atmos.revert (ws.map (fun w => f (g w) y))) := by
  match ws with
  | [] => rfl
  | [_] => rfl
  | a :: b :: l =>
    have := broadcast2_map_single f g (a :: b :: l) y
    simp only [List.map_cons, Atmos.revert, op2, recastArray] at this ⊢
    simp only [this, bind_ok]
    rfl

theorem op2_revert_revert (f : ℝ → ℝ → ℝ) (ws : List ℝ) (g h : ℝ → ℝ) :
    op2 f (Atmos.revert (ws.map g)) (Atmos.revert (ws.map h)) = .ok (Atmos.revert (ws.map (fun w => f (g w) (h w)))) := by
  match ws with
  | [] => rfl
  | [_] => rfl
  | a :: b :: l =>
    have := broadcast2_map_map f g h (a :: b :: l)
    simp only [List.map_cons, Atmos.revert, op2, recastArray] at this ⊢
    simp only [this, bind_ok]
    rfl

theorem op2_revert_array (f : ℝ → ℝ → ℝ) (ws : List ℝ) (g : ℝ → ℝ) (ys : List ℝ) :
    op2 f (Atmos.revert (ws.map g)) (.array ys) = (broadcast2 f (ws.map g) ys >>= fun r => pure (.array r)) := by
  match ws with
  | [] => rfl
  | [_] => rfl
  | a :: b :: l => rfl

theorem broadcastNan_single (f : ℝ → ℝ → ℝ) (ws : List ℝ) (g : ℝ → Option ℝ) (y : ℝ) :
    broadcastNan f (ws.map g) [y] = .ok (ws.map (fun w => (g w).map (f · y))) := by
  match ws with
  | [] => simp [broadcastNan]
  | [_] => simp [broadcastNan]
  | a :: b :: l => simp [broadcastNan]

theorem op2nan_scalar (f : ℝ → ℝ → ℝ) (ws : List ℝ) (g : ℝ → Option ℝ) (y : ℝ) :
    op2nan f (revertNan (ws.map g)) (.scalar y) = .ok (revertNan (ws.map (fun w => (g w).map (f · y)))) := by
  match ws with
  | [] => rfl
  | [_] => rfl
  | a :: b :: l =>
    have := broadcastNan_single f (a :: b :: l) g y
    simp only [List.map_cons, revertNan, op2nan, recastArray, NanArg.toList] at this ⊢
    simp only [this, bind_ok]
    rfl

theorem op2nan_array (f : ℝ → ℝ → ℝ) (ws : List ℝ) (g : ℝ → Option ℝ) (y : ℝ) :
    op2nan f (revertNan (ws.map g)) (.array [y]) = .ok (.array (ws.map (fun w => (g w).map (f · y)))) := by
  have := broadcastNan_single f ws g y
  match ws with
  | [] => rfl
  | [_] => rfl
  | a :: b :: l =>
    simp only [List.map_cons, revertNan, op2nan, recastArray, NanArg.toList] at this ⊢
    simp only [this, bind_ok]
    rfl

theorem mapArg_revert (f : ℝ → ℝ) (l : List ℝ) : mapArg f (Atmos.revert l) = Atmos.revert (l.map f) := by
  match l with
  | [] => rfl
  | [_] => rfl
  | _ :: _ :: _ => rfl

theorem mapNan_revert (f : ℝ → ℝ) (l : List (Option ℝ)) : mapNan f (revertNan l) = revertNan (l.map (Option.map f)) := by
  match l with
  | [] => rfl
  | [_] => rfl
  | _ :: _ :: _ => rfl

/-- Horsepower needed at one point for a thrust-to-weight ratio, speed, efficiency and mass. -/
def hp (tow eta tw v : ℝ) : ℝ := wn2hpkg (tw * v / eta) * tow

theorem powerOf_scalar (tow eta : ℝ) (ws : List ℝ) (g : ℝ → ℝ) (v : ℝ) :
    powerOf tow eta (Atmos.revert (ws.map g)) (.scalar v) = .ok (Atmos.revert (ws.map (fun w => hp tow eta (g w) v))) := by
  simp only [powerOf, op2_revert_scalar, bind_ok, mapArg_revert, List.map_map]
  rfl

theorem powerOf_revert (tow eta : ℝ) (ws : List ℝ) (g v : ℝ → ℝ) :
    powerOf tow eta (Atmos.revert (ws.map g)) (Atmos.revert (ws.map v)) =
      .ok (Atmos.revert (ws.map (fun w => hp tow eta (g w) (v w)))) := by
  simp only [powerOf, op2_revert_revert, bind_ok, mapArg_revert, List.map_map]
  rfl

theorem powerOfNan_scalar (tow eta : ℝ) (ws : List ℝ) (g : ℝ → Option ℝ) (v : ℝ) :
    powerOfNan tow eta (revertNan (ws.map g)) (.scalar v) =
      .ok (revertNan (ws.map (fun w => (g w).map (fun t => hp tow eta t v)))) := by
  simp only [powerOfNan, op2nan_scalar, bind_ok, mapNan_revert, List.map_map]
  congr 3
  funext w
  simp only [Function.comp_apply]
  cases g w <;> rfl

open Classical in
/-- The power correction is an array except for an electric engine deck. -/
def arrCorr (c : Concept) : Bool := decide (c.propulsion ≠ .pair .electric)

theorem slcorr_shape {X : Ext} {c : Concept} {v : NumArg} {alt : ℝ} {tc pc : NumArg}
    (h : slcorr X c v alt = .ok (tc, pc)) :
    (arrCorr c = true ∧ ∃ l, pc = .array l) ∨ (arrCorr c = false ∧ ∃ x, pc = .scalar x) := by
  unfold slcorr at h
  simp only [bind_ok_iff] at h
  obtain ⟨pr, hpr, ms, hm, h⟩ := h
  have hpe : ∀ e, pr = .pair e → c.propulsion = .pair e := by
    intro e he
    unfold resolvePropulsion at hpr
    split at hpr
    · unfold bprPropulsion at hpr
      subst he
      repeat' split at hpr
      all_goals cases hpr
    · cases hpr; exact he
  cases pr with
  | pyFalse =>
    cases h; left
    refine ⟨?_, _, rfl⟩
    simp only [arrCorr, decide_eq_true_eq]
    intro hc
    rw [resolvePropulsion, hc] at hpr; cases hpr
  | str s =>
    simp only [corrOf, bind_ok_iff, pure_ok_iff] at h
    obtain ⟨_, _, _, _, _, _, ts, _, h⟩ := h
    cases h; left
    refine ⟨?_, _, rfl⟩
    simp only [arrCorr, decide_eq_true_eq]
    intro hc
    rw [resolvePropulsion, hc] at hpr; cases hpr
  | pair e =>
    have hc := hpe e rfl
    cases e with
    | electric => cases h; right; exact ⟨by simp only [arrCorr, hc, ne_eq, not_true, decide_false], _, rfl⟩
    | turboprop f => cases h; left; exact ⟨by simp [arrCorr, hc], _, rfl⟩
    | piston f r => cases h; left; exact ⟨by simp [arrCorr, hc], _, rfl⟩
    | jet f => cases h; left; exact ⟨by simp [arrCorr, hc], _, rfl⟩
    | other => cases h; left; exact ⟨by simp [arrCorr, hc], _, rfl⟩

/-- Mapped power at a fixed speed. -/
theorem powerSl_scalar {X : Ext} {c : Concept} {b : Bool} {v alt t p : ℝ} (hc : b = true → CorrAt X c v alt t p)
    (ws : List ℝ) (g : ℝ → ℝ) :
    powerSl X c b (.scalar v) alt (Atmos.revert (ws.map g)) =
      .ok (shp (b && arrCorr c) (ws.map (fun w => sl b p (g w)))) := by
  cases b with
  | false => simp [powerSl, shp, sl]
  | true =>
    obtain ⟨tc, pc, h, _, h3⟩ := hc rfl
    simp only [powerSl, if_true, h, bind_ok, Bool.true_and, sl]
    rcases slcorr_shape h with ⟨ha, l, rfl⟩ | ⟨ha, x, rfl⟩
    · simp only [recastArray] at h3
      subst h3
      simp only [op2_revert_array, broadcast2_map_single, bind_ok, ha, shp, if_true]
      rfl
    · simp only [recastArray, List.cons.injEq, and_true] at h3
      subst h3
      simp only [op2_revert_scalar, ha, shp]
      rfl

theorem powerSlTurn_scalar {X : Ext} {c : Concept} {b : Bool} {v alt t p : ℝ} (hc : b = true → CorrAt X c v alt t p)
    (ws : List ℝ) (g : ℝ → ℝ) (f : ℝ → Option ℝ) :
    powerSlTurn X c b (.scalar v) alt (Atmos.revert (ws.map g)) (revertNan (ws.map f)) =
      .ok (shp (b && arrCorr c) (ws.map (fun w => sl b p (g w))),
        shpNan (b && arrCorr c) (ws.map (fun w => (f w).map (sl b p)))) := by
  cases b with
  | false =>
    have : (fun w => (f w).map (sl false p)) = f := by
      funext w
      cases f w <;> rfl
    rw [this]
    simp [powerSlTurn, shp, shpNan, sl]
  | true =>
    obtain ⟨tc, pc, h, _, h3⟩ := hc rfl
    simp only [powerSlTurn, if_true, h, bind_ok, Bool.true_and, sl]
    rcases slcorr_shape h with ⟨ha, l, rfl⟩ | ⟨ha, x, rfl⟩
    · simp only [recastArray] at h3
      subst h3
      simp only [op2_revert_array, broadcast2_map_single, op2nan_array, bind_ok, ha, shp, shpNan, if_true]
      rfl
    · simp only [recastArray, List.cons.injEq, and_true] at h3
      subst h3
      simp only [op2_revert_scalar, op2nan_scalar, bind_ok, ha, shp, shpNan]
      rfl

/-- Mapped take-off power: the speed depends on the wing loading. -/
theorem powerSl_revert {X : Ext} {c : Concept} {b : Bool} {alt : ℝ} {t p : ℝ → ℝ}
    (hc : b = true → (∀ v, CorrAt X c v alt (t v) (p v)) ∧
      ∀ vs, ∃ tc pc, slcorr X c (.array vs) alt = .ok (tc, pc) ∧ Spread t vs tc ∧ Spread p vs pc)
    (ws : List ℝ) (g v : ℝ → ℝ) :
    powerSl X c b (Atmos.revert (ws.map v)) alt (Atmos.revert (ws.map g)) =
      .ok (shp (b && arrCorr c) (ws.map (fun w => sl b (p (v w)) (g w)))) := by
  cases b with
  | false => simp [powerSl, shp, sl]
  | true =>
    obtain ⟨h1, h2⟩ := hc rfl
    match ws with
    | [w] => exact powerSl_scalar (b := true) (fun _ => h1 (v w)) [w] g
    | [] =>
      obtain ⟨tc, pc, h, _, h3⟩ := h2 []
      show powerSl X c true (.array []) alt (.array []) = _
      simp only [powerSl, if_true, h, bind_ok, Bool.true_and]
      rcases slcorr_shape h with ⟨ha, l, rfl⟩ | ⟨ha, x, rfl⟩
      · simp only [ha, shp, if_true]
        cases h3 <;> rfl
      · simp only [ha, shp]
        cases h3; rfl
    | a :: a' :: l =>
      obtain ⟨tc, pc, h, _, h3⟩ := h2 ((a :: a' :: l).map v)
      have e : Atmos.revert ((a :: a' :: l).map v) = .array ((a :: a' :: l).map v) := rfl
      rw [e]
      obtain ⟨ws, hws⟩ : ∃ ws, ws = a :: a' :: l := ⟨_, rfl⟩
      rw [← hws] at h h3 ⊢
      simp only [powerSl, if_true, h, bind_ok, Bool.true_and, sl]
      rcases slcorr_shape h with ⟨ha, l, rfl⟩ | ⟨ha, x, rfl⟩
      · simp only [ha, shp, if_true, op2_revert_array]
        cases h3 with
        | each => simp only [List.map_map, broadcast2_map_map, bind_ok]; rfl
        | one x hx => simp only [broadcast2_map_single, bind_ok, hx]; rfl
      · simp only [ha, shp]
        cases h3 with
        | num _ hx => simp only [op2_revert_scalar, hx]; rfl

theorem amax2_shp (k : Bool) (ws : List ℝ) (f g : ℝ → Option ℝ) :
    amax2 (shpNan k (ws.map f)) (shpNan k (ws.map g)) = .ok (shpNan k (ws.map (fun w => nanMax (f w) (g w)))) := by
  cases k with
  | false => exact amax2_revert ws f g
  | true =>
    simp only [shpNan, if_true, amax2, List.length_map]
    congr 2
    induction ws with
    | nil => rfl
    | cons x l ih => simp only [List.map_cons, List.zipWith_cons_cons, ih]

theorem toNan_shp (k : Bool) (l : List ℝ) : toNan (shp k l) = shpNan k (l.map some) := by
  cases k
  · exact nan_revert l
  · rfl

/-- The dictionary of the power requirement made up of point functions; `k` tells whether mapped
results stay arrays. -/
def preqOf (k : Bool) (ws : List ℝ) (R : ℝ → ReqAt) : Req where
  takeoff := shp k (ws.map (fun w => (R w).takeoff))
  liftoffspeed := Atmos.revert (ws.map (fun w => (R w).liftoffspeed))
  avspeed := Atmos.revert (ws.map (fun w => (R w).avspeed))
  turn := shp k (ws.map (fun w => (R w).turn))
  turnfeasible := shpNan k (ws.map (fun w => (R w).turnfeasible))
  turncl := Atmos.revert (ws.map (fun w => (R w).turncl))
  climb := shp k (ws.map (fun w => (R w).climb))
  cruise := shp k (ws.map (fun w => (R w).cruise))
  servceil := shp k (ws.map (fun w => (R w).servceil))
  combined := shpNan k (ws.map (fun w => (R w).combined))

/-- The true climb speeds and the power corrections of the five flight conditions (the corrections are
used with the mapping only). -/
structure PowerIn (X : Ext) (c : Concept) (b : Bool) (vc vs : ℝ) (pto : ℝ → ℝ) (ptrn pclm pcrs psec : ℝ) : Prop where
  climbspeed : ∃ s, Atmos.eas2tas c.designatm (pyNum c.climbspeed_kias) (pyNum c.climbalt_m) = .ok s ∧ vc = kts2mps s
  secspeed : ∃ s, Atmos.eas2tas c.designatm (pyNum c.secclimbspd_kias) (pyNum c.servceil_m) = .ok s ∧ vs = kts2mps s
  tko : b = true → ∀ v, ∃ t, CorrAt X c v (pyNum c.rwyelevation_m) t (pto v)
  trn : b = true → ∃ t, CorrAt X c (kts2mps (pyNum c.turnspeed_ktas)) (pyNum c.turnalt_m) t ptrn
  clm : b = true → ∃ t, CorrAt X c vc (pyNum c.climbalt_m) t pclm
  crs : b = true → ∃ t, CorrAt X c (kts2mps (pyNum c.cruisespeed_ktas)) (pyNum c.cruisealt_m) t pcrs
  sec : b = true → ∃ t, CorrAt X c vs (pyNum c.servceil_m) t psec

/-- The power requirement at one wing loading from the thrust requirement there. -/
def powerAt (c : Concept) (tow : ℝ) (fo b : Bool) (vc vs : ℝ) (pto : ℝ → ℝ) (ptrn pclm pcrs psec : ℝ) (r : ReqAt) : ReqAt :=
  let tko := sl b (pto r.liftoffspeed) (hp tow (pyNum c.etaprop_to) r.takeoff r.liftoffspeed)
  let vt := kts2mps (pyNum c.turnspeed_ktas)
  let trn := sl b ptrn (hp tow (pyNum c.etaprop_turn) r.turn vt)
  let fe := (r.turnfeasible.map (fun t => hp tow (pyNum c.etaprop_turn) t vt)).map (sl b ptrn)
  let clm := sl b pclm (hp tow (pyNum c.etaprop_climb) r.climb vc)
  let crs := sl b pcrs (hp tow (pyNum c.etaprop_cruise) r.cruise (kts2mps (pyNum c.cruisespeed_ktas)))
  let sec := sl b psec (hp tow (pyNum c.etaprop_sec) r.servceil vs)
  { takeoff := tko, liftoffspeed := r.liftoffspeed, avspeed := r.avspeed, turn := trn, turnfeasible := fe,
    turncl := r.turncl, climb := clm, cruise := crs, servceil := sec,
    combined := max5 tko (if fo then fe else some trn) clm crs sec }

/-- The correction at a fixed speed when the mapping is selected: the same error for all, or a value. -/
theorem corr_dich (X : Ext) (c : Concept) (b : Bool) (v alt : ℝ) :
    (∃ e, ∀ ws : List ℝ, ∀ g : ℝ → ℝ, ∀ f : ℝ → Option ℝ,
      powerSl X c b (.scalar v) alt (Atmos.revert (ws.map g)) = .error e ∧
      powerSlTurn X c b (.scalar v) alt (Atmos.revert (ws.map g)) (revertNan (ws.map f)) = .error e) ∨
    ∃ p, b = true → ∃ t, CorrAt X c v alt t p := by
  cases b with
  | false => right; exact ⟨0, fun h => absurd h (by decide)⟩
  | true =>
    cases h : slcorr X c (.scalar v) alt with
    | error e =>
      left
      exact ⟨e, fun ws g f => ⟨by simp only [powerSl, if_true, h, bind_error],
        by simp only [powerSlTurn, if_true, h, bind_error]⟩⟩
    | ok r =>
      right
      obtain ⟨t, p, hc, _⟩ := corrAt_of h
      exact ⟨p, fun _ => ⟨t, hc⟩⟩

theorem power_point (X : Ext) (c : Concept) (tow : ℝ) (fo b : Bool) :
    (∃ e, ∀ w, recastArray w ≠ [] → powerrequired X c w tow fo b = .error e) ∨
    ∃ (R : ℝ → ReqAt) (vc vs : ℝ) (pto : ℝ → ℝ) (ptrn pclm pcrs psec : ℝ),
      PowerIn X c b vc vs pto ptrn pclm pcrs psec ∧
      (∀ w, twrequired X c w fo false = .ok (reqOf (recastArray w) R)) ∧
      (∀ w, (R w).turnfeasible = if (R w).turncl > pyNum c.clmaxclean then none else some (R w).turn) ∧
      ∀ w, recastArray w ≠ [] → powerrequired X c w tow fo b = .ok (preqOf (b && arrCorr c) (recastArray w)
        (fun w => powerAt c tow fo b vc vs pto ptrn pclm pcrs psec (R w))) := by
  rcases tw_point X c fo false with ⟨e, he⟩ | ⟨R, hR, -, -, -, -, -, -, hfe⟩
  · left; exact ⟨e, fun w hw => by simp only [powerrequired, he w hw, bind_error]⟩
  have hto : (∃ e, b = true ∧ (∀ v, slcorr X c (.scalar v) (pyNum c.rwyelevation_m) = .error e) ∧
      ∀ vs, vs ≠ [] → slcorr X c (.array vs) (pyNum c.rwyelevation_m) = .error e) ∨
      ∃ t p : ℝ → ℝ, b = true → (∀ v, CorrAt X c v (pyNum c.rwyelevation_m) (t v) (p v)) ∧
        ∀ vs, ∃ tc pc, slcorr X c (.array vs) (pyNum c.rwyelevation_m) = .ok (tc, pc) ∧ Spread t vs tc ∧ Spread p vs pc := by
    cases b with
    | false => right; exact ⟨id, id, fun h => absurd h (by decide)⟩
    | true =>
      rcases slcorr_indep X c (pyNum c.rwyelevation_m) with ⟨e, h1, h2⟩ | ⟨t, p, h1, h2⟩
      · left; exact ⟨e, rfl, h1, h2⟩
      · right; exact ⟨t, p, fun _ => ⟨h1, h2⟩⟩
  rcases hto with ⟨e, rfl, h1, h2⟩ | ⟨tt, pto, hto⟩
  · left
    refine ⟨e, fun w hw => ?_⟩
    simp only [powerrequired, hR, bind_ok, reqOf, powerOf_revert, powerSl, if_true]
    have : slcorr X c (Atmos.revert ((recastArray w).map (fun w => (R w).liftoffspeed))) (pyNum c.rwyelevation_m) = .error e := by
      match h : recastArray w with
      | [] => exact absurd h hw
      | [a] => exact h1 _
      | a :: a' :: l => exact h2 _ (by simp)
    rw [this]; rfl
  have s1 := fun ws => powerSl_revert hto ws (fun w => hp tow (pyNum c.etaprop_to) (R w).takeoff (R w).liftoffspeed)
    (fun w => (R w).liftoffspeed)
  rcases corr_dich X c b (kts2mps (pyNum c.turnspeed_ktas)) (pyNum c.turnalt_m) with ⟨e, he⟩ | ⟨ptrn, htrn⟩
  · left
    refine ⟨e, fun w hw => ?_⟩
    simp only [powerrequired, hR, bind_ok, reqOf, powerOf_revert, s1, powerOfNan_scalar, powerOf_scalar, (he _ _ _).2, bind_error]
  have s2 := fun ws g f => powerSlTurn_scalar (X := X) (c := c) (b := b) (p := ptrn) (t := if h : b = true then (htrn h).choose else 0)
    (fun hb => by rw [dif_pos hb]; exact (htrn hb).choose_spec) ws g f
  cases hvc : Atmos.eas2tas c.designatm (pyNum c.climbspeed_kias) (pyNum c.climbalt_m) with
  | error e =>
    left
    refine ⟨e, fun w hw => ?_⟩
    simp only [powerrequired, hR, bind_ok, reqOf, powerOf_revert, s1, powerOfNan_scalar, powerOf_scalar, s2, hvc, bind_error]
  | ok kc =>
  rcases corr_dich X c b (kts2mps kc) (pyNum c.climbalt_m) with ⟨e, he⟩ | ⟨pclm, hclm⟩
  · left
    refine ⟨e, fun w hw => ?_⟩
    simp only [powerrequired, hR, bind_ok, reqOf, powerOf_revert, s1, powerOfNan_scalar, powerOf_scalar, s2, hvc,
      (he _ _ (fun _ => none)).1, bind_error]
  have s3 := fun ws g => powerSl_scalar (X := X) (c := c) (b := b) (p := pclm) (t := if h : b = true then (hclm h).choose else 0)
    (fun hb => by rw [dif_pos hb]; exact (hclm hb).choose_spec) ws g
  rcases corr_dich X c b (kts2mps (pyNum c.cruisespeed_ktas)) (pyNum c.cruisealt_m) with ⟨e, he⟩ | ⟨pcrs, hcrs⟩
  · left
    refine ⟨e, fun w hw => ?_⟩
    simp only [powerrequired, hR, bind_ok, reqOf, powerOf_revert, s1, powerOfNan_scalar, powerOf_scalar, s2, hvc, s3,
      (he _ _ (fun _ => none)).1, bind_error]
  have s4 := fun ws g => powerSl_scalar (X := X) (c := c) (b := b) (p := pcrs) (t := if h : b = true then (hcrs h).choose else 0)
    (fun hb => by rw [dif_pos hb]; exact (hcrs hb).choose_spec) ws g
  cases hvs : Atmos.eas2tas c.designatm (pyNum c.secclimbspd_kias) (pyNum c.servceil_m) with
  | error e =>
    left
    refine ⟨e, fun w hw => ?_⟩
    simp only [powerrequired, hR, bind_ok, reqOf, powerOf_revert, s1, powerOfNan_scalar, powerOf_scalar, s2, hvc, s3, s4,
      hvs, bind_error]
  | ok ks =>
  rcases corr_dich X c b (kts2mps ks) (pyNum c.servceil_m) with ⟨e, he⟩ | ⟨psec, hsec⟩
  · left
    refine ⟨e, fun w hw => ?_⟩
    simp only [powerrequired, hR, bind_ok, reqOf, powerOf_revert, s1, powerOfNan_scalar, powerOf_scalar, s2, hvc, s3, s4, hvs,
      (he _ _ (fun _ => none)).1, bind_error]
  have s5 := fun ws g => powerSl_scalar (X := X) (c := c) (b := b) (p := psec) (t := if h : b = true then (hsec h).choose else 0)
    (fun hb => by rw [dif_pos hb]; exact (hsec hb).choose_spec) ws g
  right
  refine ⟨R, kts2mps kc, kts2mps ks, pto, ptrn, pclm, pcrs, psec,
    ⟨⟨kc, hvc, rfl⟩, ⟨ks, hvs, rfl⟩, fun hb v => ⟨_, (hto hb).1 v⟩, htrn, hclm, hcrs, hsec⟩, hR, hfe, fun w hw => ?_⟩
  simp only [powerrequired, hR, bind_ok, reqOf, powerOf_revert, s1, powerOfNan_scalar, powerOf_scalar, s2, hvc, s3, s4, hvs, s5,
    toNan_shp, List.map_map]
  have e1 : ∀ (k : Bool) (ws : List ℝ) (f : ℝ → Option ℝ) (g : ℝ → ℝ),
      (if fo = true then shpNan k (ws.map f) else shpNan k (ws.map (some ∘ g))) =
      shpNan k (ws.map (fun x => if fo then f x else some (g x))) := by
    intro k ws f g
    cases fo <;> rfl
  rw [e1]
  simp only [amax, List.foldlM_cons, List.foldlM_nil, amax2_shp, bind_ok, Function.comp_def, nanMax_max5]
  rfl

end

end Verif.Aircraft
