import Verif.Model.DeckReq
import Verif.Lemmas.Power
import Verif.Lemmas.Tac

/-
Requirements with an engine deck, evaluation by evaluation: each is the requirement without mapping divided by the correction.
-/

namespace Verif.Aircraft
open Verif Verif.Units Verif.Propulsion

noncomputable section

/-- Division by a correction that may be NaN. -/
def over (o : Option ℝ) (x : ℝ) : Option ℝ := o.map (fun y => x / y)

/-- Division if the mapping is selected. -/
def scaleO (b : Bool) (o : Option ℝ) (x : ℝ) : Option ℝ := if b then over o x else some x

/-- The thrust correction of the deck at one speed and altitude is `o`. -/
def DeckT (G : Grid) (e : DeckObj) (c : Concept) (v alt : ℝ) (o : Option ℝ) : Prop :=
  ∃ t p, deckSlcorr G e c (.scalar v) alt = .ok (t, p) ∧ t.toList = [o]

theorem bcast_one (l : List ℝ) (o : Option ℝ) : bcast ndiv (l.map some) [o] = .ok (l.map (over o)) := by
  have e : ∀ x : ℝ, ndiv (some x) o = over o x := by intro x; cases o <;> rfl
  unfold bcast
  match l with
  | [] => rfl
  | [x] => simp [e]
  | x :: y :: l => simp [e]

theorem mapSlD_eq (b : Bool) (l : List ℝ) {t : NanArg} {o : Option ℝ} (h : t.toList = [o]) :
    mapSlD b l t = .ok (l.map (scaleO b o)) := by
  cases b
  · rfl
  · simp only [mapSlD, if_true, h, bcast_one]
    rfl

theorem timesNan_scale (b : Bool) (o : Option ℝ) (x : ℝ) (l : List ℝ) :
    timesNan x (l.map (scaleO b o)) = (l.map (fun t => t * x)).map (scaleO b o) := by
  unfold timesNan
  simp only [List.map_map]
  refine List.map_congr_left (fun t _ => ?_)
  cases b
  · rfl
  · cases o with
    | none => rfl
    | some y => simp only [Function.comp, scaleO, over, if_true, Option.map_some]; congr 1; ring

theorem toList_revert (l : List (Option ℝ)) : (revertNan l).toList = l := by
  match l with
  | [] => rfl
  | [_] => rfl
  | _ :: _ :: _ => rfl

theorem mapSl_false (l : List ℝ) (t : NumArg) : mapSl false l t = .ok l := rfl

/-- Climb. -/
theorem clmD_eq {G : Grid} {e : DeckObj} {X : Ext} {c : Concept} {w r : NumArg} {o : Option ℝ} (b : Bool)
    (h : twrequired_clm X c w false = .ok r)
    (ho : ∀ s v, c.climbspeed_kias = some s → Atmos.eas2tas c.designatm (kts2mps s) (pyNum c.climbalt_m) = .ok v →
      DeckT G e c v (pyNum c.climbalt_m) o) :
    twrequired_clmD G e X c w b = .ok (revertNan ((recastArray r).map (scaleO b o))) := by
  unfold twrequired_clm at h
  simp only [bind_ok_iff, mapSl_false] at h
  obtain ⟨s, h1, rr, h2, v, h3, roc, h4, ⟨t0, p0⟩, -, q, h5, m, h6, k, h7, tw, h8, tw', h9, h10⟩ := h
  cases h9
  cases h10
  obtain ⟨t, p, e1, e2⟩ := ho s v (by revert h1; cases c.climbspeed_kias <;> simp [need]) h3
  unfold twrequired_clmD
  simp only [h1, h2, h3, h4, e1, h5, h6, h7, h8, bind_ok, mapSlD_eq b tw e2, timesNan_scale, recast_revert]
  rfl

/-- Cruise. -/
theorem crsD_eq {G : Grid} {e : DeckObj} {X : Ext} {c : Concept} {w r : NumArg} {o : Option ℝ} (b : Bool)
    (h : twrequired_crs X c w false = .ok r)
    (ho : ∀ s a, c.cruisespeed_ktas = some s → c.cruisealt_m = some a → DeckT G e c (kts2mps s) a o) :
    twrequired_crsD G e X c w b = .ok (revertNan ((recastArray r).map (scaleO b o))) := by
  unfold twrequired_crs at h
  simp only [bind_ok_iff, mapSl_false] at h
  obtain ⟨s, h1, a, h2, ⟨t0, p0⟩, -, q, h5, m, h6, k, h7, tw, h8, tw', h9, h10⟩ := h
  cases h9
  cases h10
  obtain ⟨t, p, e1, e2⟩ := ho s a (by revert h1; cases c.cruisespeed_ktas <;> simp [need])
    (by revert h2; cases c.cruisealt_m <;> simp [need])
  unfold twrequired_crsD
  simp only [h1, h2, e1, h5, h6, h7, h8, bind_ok, mapSlD_eq b tw e2, timesNan_scale, recast_revert]
  rfl

/-- Service ceiling. -/
theorem secD_eq {G : Grid} {e : DeckObj} {X : Ext} {c : Concept} {w r : NumArg} {o : Option ℝ} (b : Bool)
    (h : twrequired_sec X c w false = .ok r)
    (ho : ∀ s a v, c.secclimbspd_kias = some s → c.servceil_m = some a → Atmos.eas2tas c.designatm (kts2mps s) a = .ok v →
      DeckT G e c v a o) :
    twrequired_secD G e X c w b = .ok (revertNan ((recastArray r).map (scaleO b o))) := by
  unfold twrequired_sec at h
  simp only [bind_ok_iff, mapSl_false] at h
  obtain ⟨a, h1, s, h2, v, h3, ⟨t0, p0⟩, -, q, h5, m, h6, k, h7, roc, h4, tw, h8, tw', h9, h10⟩ := h
  cases h9
  cases h10
  obtain ⟨t, p, e1, e2⟩ := ho s a v (by revert h2; cases c.secclimbspd_kias <;> simp [need])
    (by revert h1; cases c.servceil_m <;> simp [need]) h3
  unfold twrequired_secD
  simp only [h1, h2, h3, h4, e1, h5, h6, h7, h8, bind_ok, mapSlD_eq b tw e2, timesNan_scale, recast_revert]
  rfl

theorem feasible_scale (b : Bool) (o : Option ℝ) (x : ℝ) : ∀ l cl : List ℝ,
    feasibleNan x (l.map (scaleO b o)) cl = (feasible x l cl).map (fun t => t.bind (scaleO b o))
  | [], _ => rfl
  | _ :: _, [] => rfl
  | t :: l, y :: cl => by
    have ih := feasible_scale b o x l cl
    unfold feasibleNan feasible at ih ⊢
    simp only [List.map_cons, List.zipWith_cons_cons, ih]
    congr 1
    split_ifs <;> rfl

/-- Turn. -/
theorem trnD_eq {G : Grid} {e : DeckObj} {X : Ext} {c : Concept} {w r cl : NumArg} {fe : NanArg} {o : Option ℝ} (b : Bool)
    (h : twrequired_trn X c w false = .ok (r, cl, fe))
    (ho : ∀ s, c.turnspeed_ktas = some s → DeckT G e c (kts2mps s) (pyNum c.turnalt_m) o) :
    twrequired_trnD G e X c w b =
      .ok (revertNan ((recastArray r).map (scaleO b o)), cl, revertNan (fe.toList.map (fun t => t.bind (scaleO b o)))) := by
  unfold twrequired_trn at h
  simp only [bind_ok_iff, mapSl_false] at h
  obtain ⟨s, h1, n, h2, ⟨tw, cl'⟩, h3, ⟨t0, p0⟩, -, tw', h9, h10⟩ := h
  cases h9
  cases h10
  obtain ⟨t, p, e1, e2⟩ := ho s (by revert h1; cases c.turnspeed_ktas <;> simp [need])
  unfold twrequired_trnD
  simp only [h1, h2, h3, e1, bind_ok, mapSlD_eq b tw e2, timesNan_scale, recast_revert, toList_revert, feasible_scale]
  rfl

theorem takeoffAllD {G : Grid} {e : DeckObj} {c : Concept} (oto : ℝ → Option ℝ) : ∀ tws lofs : List ℝ,
    (∀ v ∈ lofs, DeckT G e c v (pyNum c.rwyelevation_m) (oto v)) →
    takeoffSlAllD G e c tws lofs = .ok (List.zipWith (fun x v => over (oto v) x) tws lofs)
  | [], _, _ => by unfold takeoffSlAllD; rfl
  | _ :: _, [], _ => rfl
  | t :: tws, v :: lofs, h => by
    have ih := takeoffAllD oto tws lofs (fun v hv => h v (List.mem_cons_of_mem _ hv))
    obtain ⟨tc, p, e1, e2⟩ := h v List.mem_cons_self
    unfold takeoffSlAllD takeoffSlD
    have e3 : ndiv (some t) (oto v) = over (oto v) t := by cases oto v <;> rfl
    simp only [e1, e2, bind_ok, ih, e3]
    rfl

/-- Take-off. -/
theorem toD_eq {G : Grid} {e : DeckObj} {X : Ext} {c : Concept} {w r lof av : NumArg} (oto : ℝ → Option ℝ) (b : Bool)
    (h : twrequired_to X c w false = .ok (r, lof, av))
    (ho : b = true → ∀ v ∈ recastArray lof, DeckT G e c v (pyNum c.rwyelevation_m) (oto v)) :
    twrequired_toD G e c w b =
      .ok (revertNan (List.zipWith (fun x v => scaleO b (oto v) x) (recastArray r) (recastArray lof)), lof, av) := by
  unfold twrequired_to at h
  simp only [bind_ok_iff, Bool.false_eq_true, if_false] at h
  obtain ⟨g, h1, ⟨tw, lof'⟩, h2, tw', h3, h4⟩ := h
  cases h3
  cases h4
  rw [recast_revert] at ho
  unfold twrequired_toD
  simp only [h1, h2, bind_ok, recast_revert]
  cases b with
  | true =>
    simp only [if_true, takeoffAllD oto _ _ (ho rfl), bind_ok]
    rfl
  | false =>
    have hl : tw.length = lof'.length := by
      unfold thrusttoweight_takeoff at h2
      simp only [bind_ok_iff] at h2
      obtain ⟨d, -, h2⟩ := h2
      cases h2
      simp
    have : ∀ a b : List ℝ, a.length = b.length → List.zipWith (fun x v => scaleO false (oto v) x) a b = a.map some := by
      intro a b hab
      induction a generalizing b with
      | nil => rfl
      | cons x a ih =>
        cases b with
        | nil => cases hab
        | cons y b => simp only [List.zipWith_cons_cons, List.map_cons, ih b (by simpa using hab)]; rfl
    rw [this _ _ (by simpa using hl)]
    rfl

end

end Verif.Aircraft
