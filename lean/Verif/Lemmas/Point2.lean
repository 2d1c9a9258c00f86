import Verif.Lemmas.Point

/-
Point functions, continued: corrections, take-off, combined requirement, power.
-/

namespace Verif
open Verif.Aircraft Verif.Units

noncomputable section

namespace Atmos

/-- Whether a Mach number exists does not depend on the speed. -/
theorem mach_indep (a : Atm) (alt : ℝ) :
    (∃ e, ∀ v, mach a v (.scalar alt) = .error e) ∨
    ∃ cs, vsound_mps a (.scalar alt) = .ok (.scalar cs) ∧
      (∀ v, mach a (.scalar v) (.scalar alt) = .ok [v / cs]) ∧
      (∀ vs, mach a (.array vs) (.scalar alt) = .ok (vs.map (fun v => v / cs))) := by
  cases h1 : alttest a (.scalar alt) with
  | error e => left; exact ⟨e, fun v => by simp only [mach, h1, bind_error]⟩
  | ok alts =>
    have e1 := (Props.alttest_ok h1).1
    simp only [recastArray] at e1
    subst e1
    cases h2 : vsound_mps a (.array [alt]) with
    | error e => left; exact ⟨e, fun v => by simp only [mach, h1, bind_ok, h2, bind_error]⟩
    | ok vs =>
      obtain ⟨x, rfl, hx⟩ := vsound_scalar h2
      right
      exact ⟨x, hx, (Props.C18_ratio a alt x hx).1, (Props.C18_ratio a alt x hx).2⟩

theorem mach1_of {a : Atm} {alt cs v : ℝ} (h : vsound_mps a (.scalar alt) = .ok (.scalar cs)) :
    mach1 a v alt = .ok (v / cs) := by
  unfold mach1
  rw [(Props.C18_ratio a alt cs h).1 v]
  rfl

end Atmos

namespace Aircraft

theorem jetFactor_indep (c : Concept) (T P : ℝ) :
    (∃ e, ∀ m, jetFactor c T P m = .error e) ∨ ∃ f : ℝ → ℝ, ∀ m, jetFactor c T P m = .ok (f m) := by
  unfold jetFactor
  by_cases h1 : pyNum c.bpr = 0
  · right; exact ⟨_, fun m => by simp only [h1, if_true]; rfl⟩
  · by_cases h2 : 0 < pyNum c.bpr ∧ pyNum c.bpr < 5
    · right; exact ⟨_, fun m => by simp only [h1, h2, if_false]; rfl⟩
    · by_cases h3 : 5 ≤ pyNum c.bpr
      · right; exact ⟨_, fun m => by simp only [h1, h2, h3, if_true, if_false]; rfl⟩
      · left; exact ⟨.valueError, fun m => by simp only [h1, h2, h3, if_false]⟩

theorem strCorr_indep (X : Ext) (c : Concept) (s : String) (T P d : ℝ) :
    (∃ e, ∀ m, strCorr X c s T P d m = .error e) ∨ ∃ f : ℝ → ℝ, ∀ m, strCorr X c s T P d m = .ok (f m) := by
  unfold strCorr
  by_cases h1 : s = "turboprop"
  · right; exact ⟨_, fun m => by rw [if_pos h1]⟩
  · by_cases h2 : s = "piston"
    · right; exact ⟨fun _ => _, fun m => by rw [if_neg h1, if_pos h2]⟩
    · by_cases h3 : s = "electric"
      · right; exact ⟨fun _ => 1, fun m => by rw [if_neg h1, if_neg h2, if_pos h3]⟩
      · by_cases h4 : s = "jet"
        · rcases jetFactor_indep c T P with ⟨e, he⟩ | ⟨f, hf⟩
          · left; exact ⟨e, fun m => by rw [if_neg h1, if_neg h2, if_neg h3, if_pos h4, he]⟩
          · right; exact ⟨f, fun m => by rw [if_neg h1, if_neg h2, if_neg h3, if_pos h4, hf]⟩
        · right; exact ⟨fun _ => 1, fun m => by rw [if_neg h1, if_neg h2, if_neg h3, if_neg h4]⟩

theorem mapM_ok {f : ℝ → PyM ℝ} {g : ℝ → ℝ} (h : ∀ x, f x = .ok (g x)) (l : List ℝ) : l.mapM f = .ok (l.map g) := by
  induction l with
  | nil => rfl
  | cons a l ih => simp only [List.mapM_cons, h, bind_ok, ih, List.map_cons]; rfl

/-- How the power correction of several speeds relates to that of one speed: entry by entry, or one
entry for all, or a number. -/
inductive Spread (p : ℝ → ℝ) (vs : List ℝ) : NumArg → Prop
  | each : Spread p vs (.array (vs.map p))
  | one (x : ℝ) (h : ∀ v, p v = x) : Spread p vs (.array [x])
  | num (x : ℝ) (h : ∀ v, p v = x) : Spread p vs (.scalar x)

/-- Whether the corrections exist does not depend on the speed (for at least one speed). -/
theorem slcorr_indep (X : Ext) (c : Concept) (alt : ℝ) :
    (∃ e, (∀ v, slcorr X c (.scalar v) alt = .error e) ∧ ∀ vs, vs ≠ [] → slcorr X c (.array vs) alt = .error e) ∨
    ∃ t p : ℝ → ℝ, (∀ v, CorrAt X c v alt (t v) (p v)) ∧
      ∀ vs, ∃ tc pc, slcorr X c (.array vs) alt = .ok (tc, pc) ∧ Spread t vs tc ∧ Spread p vs pc := by
  cases h1 : resolvePropulsion c with
  | error e => left; exact ⟨e, fun v => by simp only [slcorr, h1, bind_error], fun v _ => by simp only [slcorr, h1, bind_error]⟩
  | ok pr =>
  rcases Atmos.mach_indep c.designatm alt with ⟨e, he⟩ | ⟨cs, _, hm, hm2⟩
  · left
    exact ⟨e, fun v => by simp only [slcorr, h1, bind_ok, he, bind_error],
      fun v _ => by simp only [slcorr, h1, bind_ok, he, bind_error]⟩
  · have hsl : ∀ v, slcorr X c (.scalar v) alt = corrOf X c pr [v / cs] alt := by
      intro v; simp only [slcorr, h1, bind_ok, hm]
    have hsl2 : ∀ vs, slcorr X c (.array vs) alt = corrOf X c pr (vs.map (fun v => v / cs)) alt := by
      intro v; simp only [slcorr, h1, bind_ok, hm2]
    simp only [CorrAt, hsl, hsl2]
    cases pr with
    | pyFalse =>
      right
      refine ⟨fun _ => 1, fun _ => 1, fun v => ⟨_, _, rfl, rfl, rfl⟩, fun vs => ⟨_, _, rfl, ?_, ?_⟩⟩ <;>
      · rw [List.map_map]; exact Spread.each
    | pair e =>
      right
      cases e with
      | turboprop f =>
        refine ⟨fun _ => 1, fun v => f (v / cs) alt, fun v => ⟨_, _, rfl, rfl, rfl⟩, fun vs => ⟨_, _, rfl, ?_, ?_⟩⟩ <;>
        · simp only [List.map_map]; exact Spread.each
      | piston r f =>
        refine ⟨fun _ => 1, fun v => f r alt, fun v => ⟨_, _, rfl, rfl, rfl⟩, fun vs => ⟨_, _, rfl, ?_, ?_⟩⟩
        · simp only [List.map_map]; exact Spread.each
        · exact Spread.one _ (fun _ => rfl)
      | electric =>
        exact ⟨fun _ => 1, fun v => 1, fun v => ⟨_, _, rfl, rfl, rfl⟩, fun vs => ⟨_, _, rfl,
          Spread.num _ (fun _ => rfl), Spread.num _ (fun _ => rfl)⟩⟩
      | jet f =>
        refine ⟨fun v => f (v / cs) alt, fun _ => 1, fun v => ⟨_, _, rfl, rfl, rfl⟩, fun vs => ⟨_, _, rfl, ?_, ?_⟩⟩ <;>
        · simp only [List.map_map]; exact Spread.each
      | other =>
        refine ⟨fun _ => 1, fun _ => 1, fun v => ⟨_, _, rfl, rfl, rfl⟩, fun vs => ⟨_, _, rfl, ?_, ?_⟩⟩ <;>
        · simp only [List.map_map]; exact Spread.each
    | str s =>
      unfold corrOf
      cases ht : temp1c c.designatm alt with
      | error e => left; exact ⟨e, fun v => rfl, fun v _ => rfl⟩
      | ok T =>
      cases hp : Atmos.press1 c.designatm alt with
      | error e => left; exact ⟨e, fun v => rfl, fun v _ => rfl⟩
      | ok P =>
      cases hd : Atmos.dens1 c.designatm alt with
      | error e => left; exact ⟨e, fun v => rfl, fun v _ => rfl⟩
      | ok d =>
      simp only [bind_ok]
      rcases strCorr_indep X c s T P d with ⟨e, he⟩ | ⟨f, hf⟩
      · left
        refine ⟨e, fun v => ?_, fun vs hvs => ?_⟩
        · simp only [List.mapM_cons, he, bind_error]
        · cases vs with
          | nil => exact absurd rfl hvs
          | cons a l => simp only [List.map_cons, List.mapM_cons, he, bind_error]
      · right
        refine ⟨fun v => f (v / cs), fun _ => 1, fun v => ⟨.array [f (v / cs)], .array [1], ?_, rfl, rfl⟩,
          fun vs => ⟨.array ((vs.map (fun v => v / cs)).map f), .array ((vs.map (fun v => v / cs)).map (fun _ => 1)), ?_, ?_, ?_⟩⟩
        · simp only [mapM_ok hf, bind_ok]; rfl
        · simp only [mapM_ok hf, bind_ok]; rfl
        · rw [List.map_map]; exact Spread.each
        · rw [List.map_map]; exact Spread.each

theorem CorrAt.unique {X : Ext} {c : Concept} {v alt t p t' p' : ℝ} (h : CorrAt X c v alt t p)
    (h' : CorrAt X c v alt t' p') : t = t' ∧ p = p' := by
  obtain ⟨tc, pc, h1, h2, h3⟩ := h
  obtain ⟨tc', pc', h1', h2', h3'⟩ := h'
  rw [h1] at h1'
  cases h1'
  rw [h2] at h2'; rw [h3] at h3'
  cases h2'; cases h3'
  exact ⟨rfl, rfl⟩

/-- The take-off requirement at one wing loading; `t` is the thrust correction at its lift-off speed. -/
def toReq (c : Concept) (b : Bool) (g d : ℝ) (t : ℝ → ℝ) (w : ℝ) : ℝ := sl b (t w) (toStatic c g d w)

/-- The take-off requirement is a point function (with the mapping: for arrays that are not empty). -/
theorem to_point (X : Ext) (c : Concept) (b : Bool) :
    (∃ e, ∀ w, recastArray w ≠ [] → twrequired_to X c w b = .error e) ∨
    ∃ g d t, TakeoffIn X c g d ∧
      (b = true → ∀ w, ∃ p, CorrAt X c (toLof c d w) (pyNum c.rwyelevation_m) (t w) p) ∧
      ∀ w, twrequired_to X c w b = .ok (Atmos.revert ((recastArray w).map (toReq c b g d t)),
        Atmos.revert ((recastArray w).map (toLof c d)), Atmos.revert ((recastArray w).map (fun w => toLof c d w / √2))) := by
  cases b with
  | false =>
    rcases to_point_static X c with ⟨e, he⟩ | ⟨g, d, hi, h⟩
    · left; exact ⟨e, fun w _ => he w⟩
    · right; exact ⟨g, d, fun _ => 0, hi, fun hb => absurd hb (by decide), h⟩
  | true =>
    cases hg : c.groundrun_m with
    | none => left; exact ⟨.valueError, fun w _ => by simp only [twrequired_to, hg, need, bind_error]⟩
    | some g =>
    cases hd : Atmos.dens1 c.designatm (pyNum c.rwyelevation_m) with
    | error e => left; exact ⟨e, fun w _ => by simp only [twrequired_to, hg, need, bind_ok, thrusttoweight_takeoff, hd, bind_error]⟩
    | ok d =>
    have hi : TakeoffIn X c g d := ⟨hg, hd⟩
    rcases slcorr_indep X c (pyNum c.rwyelevation_m) with ⟨e, he, _⟩ | ⟨t, p, htp, _⟩
    · left
      refine ⟨e, fun w hw => ?_⟩
      simp only [twrequired_to, hg, need, bind_ok, thrusttoweight_takeoff, hd, if_true]
      cases hl : recastArray w with
      | nil => exact absurd hl hw
      | cons a l =>
        show (takeoffSlAll X c _ _ >>= _) = _
        simp only [List.map_cons, takeoffSlAll, takeoffSl, he, bind_error]
    · right
      refine ⟨g, d, fun w => t (toLof c d w), hi, fun _ w => ⟨_, htp _⟩, fun w => ?_⟩
      exact to_point_sl X c hi w (fun w => t (toLof c d w)) (fun x _ => ⟨_, htp _⟩)

/-! ### Combination -/

theorem nan_revert (l : List ℝ) : toNan (Atmos.revert l) = revertNan (l.map some) := by
  match l with
  | [] => rfl
  | [_] => rfl
  | _ :: _ :: _ => rfl

theorem amax2_revert (ws : List ℝ) (f g : ℝ → Option ℝ) :
    amax2 (revertNan (ws.map f)) (revertNan (ws.map g)) = .ok (revertNan (ws.map (fun w => nanMax (f w) (g w)))) := by
  match ws with
  | [] => rfl
  | [a] => rfl
  | a :: b :: l =>
    simp only [List.map_cons, revertNan, amax2, List.length_cons, List.length_map, if_true]
    congr 2
    simp only [List.zipWith_cons_cons]
    congr 2
    induction l with
    | nil => rfl
    | cons x l ih => simp only [List.map_cons, List.zipWith_cons_cons, ih]

/-- The entries of the requirement dictionary at one wing loading. -/
structure ReqAt where
  takeoff : ℝ
  liftoffspeed : ℝ
  avspeed : ℝ
  turn : ℝ
  turnfeasible : Option ℝ
  turncl : ℝ
  climb : ℝ
  cruise : ℝ
  servceil : ℝ
  combined : Option ℝ

/-- The dictionary made up of point functions. -/
def reqOf (ws : List ℝ) (R : ℝ → ReqAt) : Req where
  takeoff := Atmos.revert (ws.map (fun w => (R w).takeoff))
  liftoffspeed := Atmos.revert (ws.map (fun w => (R w).liftoffspeed))
  avspeed := Atmos.revert (ws.map (fun w => (R w).avspeed))
  turn := Atmos.revert (ws.map (fun w => (R w).turn))
  turnfeasible := revertNan (ws.map (fun w => (R w).turnfeasible))
  turncl := Atmos.revert (ws.map (fun w => (R w).turncl))
  climb := Atmos.revert (ws.map (fun w => (R w).climb))
  cruise := Atmos.revert (ws.map (fun w => (R w).cruise))
  servceil := Atmos.revert (ws.map (fun w => (R w).servceil))
  combined := revertNan (ws.map (fun w => (R w).combined))

/-- Largest of five, NaN if the second is. -/
def max5 (a : ℝ) (b : Option ℝ) (x y z : ℝ) : Option ℝ :=
  b.map (fun b => max (max (max (max a b) x) y) z)

theorem nanMax_max5 (a : ℝ) (b : Option ℝ) (x y z : ℝ) :
    nanMax (nanMax (nanMax (nanMax (some a) b) (some x)) (some y)) (some z) = max5 a b x y z := by
  cases b <;> rfl

/-- The combined evaluation succeeds exactly when the five evaluations do, and is a point function. -/
theorem tw_point (X : Ext) (c : Concept) (fo b : Bool) :
    (∃ e, ∀ w, recastArray w ≠ [] → twrequired X c w fo b = .error e) ∨
    ∃ (R : ℝ → ReqAt), (∀ w, twrequired X c w fo b = .ok (reqOf (recastArray w) R)) ∧
      (∀ w, twrequired_to X c w b = .ok (Atmos.revert ((recastArray w).map (fun w => (R w).takeoff)),
        Atmos.revert ((recastArray w).map (fun w => (R w).liftoffspeed)),
        Atmos.revert ((recastArray w).map (fun w => (R w).avspeed)))) ∧
      (∀ w, twrequired_trn X c w b = .ok (Atmos.revert ((recastArray w).map (fun w => (R w).turn)),
        Atmos.revert ((recastArray w).map (fun w => (R w).turncl)),
        revertNan ((recastArray w).map (fun w => (R w).turnfeasible)))) ∧
      (∀ w, twrequired_clm X c w b = .ok (Atmos.revert ((recastArray w).map (fun w => (R w).climb)))) ∧
      (∀ w, twrequired_crs X c w b = .ok (Atmos.revert ((recastArray w).map (fun w => (R w).cruise)))) ∧
      (∀ w, twrequired_sec X c w b = .ok (Atmos.revert ((recastArray w).map (fun w => (R w).servceil)))) ∧
      (∀ w, (R w).combined = max5 (R w).takeoff (if fo then (R w).turnfeasible else some (R w).turn)
        (R w).climb (R w).cruise (R w).servceil) ∧
      (∀ w, (R w).turnfeasible = if (R w).turncl > pyNum c.clmaxclean then none else some (R w).turn) := by
  rcases to_point X c b with ⟨e, he⟩ | ⟨g, d, t, _, _, hto⟩
  · left; refine ⟨e, fun w hw => ?_⟩
    simp only [twrequired, he (.array (recastArray w)) hw, bind_error]
  rcases trn_point X c b with ⟨e, he⟩ | ⟨ts, tn, tt, tq, tm, tK, _, htrn⟩
  · left; refine ⟨e, fun w hw => ?_⟩
    simp only [twrequired, hto, bind_ok, he, bind_error]
  rcases clm_point X c b with ⟨e, he⟩ | ⟨cs, cr, cv, croc, ct, cq, cm, cK, _, hclm⟩
  · left; refine ⟨e, fun w hw => ?_⟩
    simp only [twrequired, hto, htrn, bind_ok, he, bind_error]
  rcases crs_point X c b with ⟨e, he⟩ | ⟨rs, ra, rt, rq, rm, rK, _, hcrs⟩
  · left; refine ⟨e, fun w hw => ?_⟩
    simp only [twrequired, hto, htrn, hclm, bind_ok, he, bind_error]
  rcases sec_point X c b with ⟨e, he⟩ | ⟨ss, sa, sv, sroc, st, sq, sm, sK, _, hsec⟩
  · left; refine ⟨e, fun w hw => ?_⟩
    simp only [twrequired, hto, htrn, hclm, hcrs, bind_ok, he, bind_error]
  right
  refine ⟨fun w =>
    { takeoff := toReq c b g d t w
      liftoffspeed := toLof c d w
      avspeed := toLof c d w / √2
      turn := turnReq c b tn tt tq tK w
      turnfeasible := turnFeas c b tn tt tq tK w
      turncl := turnCl c tn tq w
      climb := climbReq c b cv croc ct cq cK w
      cruise := cruiseReq c b rt rq rK w
      servceil := ceilReq c b sv sroc st sq sK w
      combined := max5 (toReq c b g d t w)
        (if fo then turnFeas c b tn tt tq tK w else some (turnReq c b tn tt tq tK w))
        (climbReq c b cv croc ct cq cK w) (cruiseReq c b rt rq rK w) (ceilReq c b sv sroc st sq sK w) },
    fun w => ?_, hto, htrn, hclm, hcrs, hsec, fun w => rfl, fun w => rfl⟩
  simp only [twrequired, hto, htrn, hclm, hcrs, hsec, bind_ok, nan_revert, List.map_map]
  have e1 : (if fo = true then revertNan ((recastArray (NumArg.array (recastArray w))).map (turnFeas c b tn tt tq tK))
      else revertNan ((recastArray (NumArg.array (recastArray w))).map (some ∘ turnReq c b tn tt tq tK))) =
      revertNan ((recastArray w).map (fun x => if fo then turnFeas c b tn tt tq tK x else some (turnReq c b tn tt tq tK x))) := by
    cases fo <;> rfl
  rw [e1]
  have e2 : recastArray (NumArg.array (recastArray w)) = recastArray w := rfl
  simp only [e2, amax, List.foldlM_cons, List.foldlM_nil, amax2_revert, bind_ok, Function.comp_def, nanMax_max5]
  rfl

end Aircraft

end

end Verif
