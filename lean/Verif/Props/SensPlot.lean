import Verif.Props.Sensitivity2
import Verif.Lemmas.SensPlot

/-
The charts of the sensitivity study: shaded region, masks, limits (properties C97, C98, C99).
-/

namespace Verif.Props
open Verif Verif.Units Verif.Aircraft

noncomputable section

/-! ### Specification -/

/-- The value of constraint `q` among the requirements at one wing loading. -/
def valueOf (e : ReqAt) : Constr → ℝ
  | .climb => e.climb
  | .cruise => e.cruise
  | .servceil => e.servceil
  | .takeoff => e.takeoff
  | .turn => e.turn

/-- The nominal requirements the charts show, wing loading by wing loading: the five curves and the combined
one, which is the largest of the five where the turn is feasible, and no number elsewhere. -/
structure Shown (nom : Req) (ws : List ℝ) (E : ℝ → ReqAt) : Prop where
  curve : ∀ q, recastArray (fieldOf q nom) = ws.map (fun w => valueOf (E w) q)
  combined : nom.combined.toList = ws.map (fun w => (E w).combined)
  largest : ∀ w, Largest true (E w)

theorem Shown.entry {nom : Req} {ws : List ℝ} {E : ℝ → ReqAt} (h : Shown nom ws E) (q : Constr) :
    recastArray (nom.entry q) = ws.map (fun w => valueOf (E w) q) := by
  rw [← fieldOf_eq]; exact h.curve q

/-- `v` is the wing loading at which the aircraft, at sea level and in clean configuration, flies at its
maximum lift coefficient at the stall speed, both given. -/
def CleanStall (c : Concept) (v : ℝ) : Prop :=
  ∃ cl vs d, c.clmaxclean = some cl ∧ cl ≠ 0 ∧ c.vstallclean_kcas = some vs ∧ vs ≠ 0 ∧
    Atmos.dens1 c.designatm 0 = .ok d ∧ v = 0.5 * d * kts2mps vs ^ 2 * cl

/-- Non-negative data of the turn. -/
structure TurnData (c : Concept) : Prop where
  dens : ∃ d, Atmos.dens1 c.designatm (pyNum c.turnalt_m) = .ok d ∧ 0 ≤ d
  turn : 0 ≤ pyNum c.turn_weight_fraction
  climb : 0 ≤ pyNum c.climb_weight_fraction
  load : 0 ≤ pyNum c.stloadfactor

/-! ### Lemmas -/

theorem turncl_eq {X : Ext} {c : Concept} {b : Bool} {w : ℝ} {e : ReqAt}
    (h : twrequired X c (.scalar w) true b = .ok (reqOf [w] (fun _ => e))) :
    ∃ s n t q m K, TurnIn X c s n t q m K ∧ e.turncl = turnCl c n q w := by
  have h2 := (C47_entries X c (.scalar w) true b _ h (by simp [recastArray])).2.1
  rcases trn_point X c b with ⟨e', he⟩ | ⟨s, n, t, q, m, K, hin, h'⟩
  · rw [he] at h2; cases h2
  · rw [h'] at h2
    simp only [Except.ok.injEq, Prod.mk.injEq] at h2
    refine ⟨s, n, t, q, m, K, hin, ?_⟩
    have := h2.2.1
    simp only [reqOf, recastArray, List.map_cons, List.map_nil, Atmos.revert, NumArg.scalar.injEq] at this
    exact this.symm

/-- The nominal requirement is shown, with the turn feasible up to the maximum lift coefficient. -/
theorem nominal_point {X : Ext} {power : Bool} {m : ℝ} {ws : List ℝ} {c : Concept} {r : Req}
    (h : seaLevelReq X power m ws c = .ok r) (hw : ws ≠ []) :
    ∃ E : ℝ → ReqAt, Shown r ws E ∧ (∀ w, (E w).turnfeasible = none ↔ (E w).turncl > pyNum c.clmaxclean) ∧
      ∀ w, ∃ s n t q m K, TurnIn X c s n t q m K ∧ (E w).turncl = turnCl c n q w := by
  unfold seaLevelReq at h
  have hw' : recastArray (.array ws) ≠ [] := hw
  split at h
  · rcases power_point X c m true true with ⟨e, he⟩ | ⟨R, vc, vs, pto, ptrn, pclm, pcrs, psec, -, hR, hf, hp⟩
    · rw [he _ hw'] at h; cases h
    · rw [hp _ hw'] at h
      cases h
      refine ⟨_, ⟨fun q => ?_, toList_shpNan _ _, fun w => largest_of rfl ?_⟩, fun w => ?_, fun w => ?_⟩
      · cases q <;> exact recast_shp _ _
      · simp only [powerAt, hf]
        split
        · left; rfl
        · right; rfl
      · simp only [powerAt, hf]
        split
        · rename_i h1; simp [h1]
        · rename_i h1; simp only [Option.map_some, reduceCtorEq, false_iff]; exact h1
      · exact turncl_eq (b := false) (e := R w) (by rw [hR]; rfl)
  · rcases tw_point X c true true with ⟨e, he⟩ | ⟨R, hR, -, -, -, -, -, hc, hf⟩
    · rw [he _ hw'] at h; cases h
    · rw [hR] at h
      cases h
      refine ⟨R, ⟨fun q => ?_, toList_revertNan _, fun w => largest_of (hc w) ?_⟩, fun w => ?_, fun w => ?_⟩
      · cases q <;> exact recast_revert _
      · rw [hf]
        split
        · left; rfl
        · right; rfl
      · rw [hf]
        split
        · rename_i h1; simp [h1]
        · rename_i h1; simp only [reduceCtorEq, false_iff]; exact h1
      · exact turncl_eq (b := true) (e := R w) (by rw [hR]; rfl)

theorem turnIn_unique {X : Ext} {c : Concept} {s n t q m s' n' t' q' m' : ℝ} {K K' : ℝ → ℝ → ℝ}
    (h : TurnIn X c s n t q m K) (h' : TurnIn X c s' n' t' q' m' K') : n = n' ∧ q = q' := by
  have e1 := h.load.symm.trans h'.load
  have e2 := h.speed.symm.trans h'.speed
  cases e1; cases e2
  have e3 := h.press.symm.trans h'.press
  cases e3
  exact ⟨rfl, rfl⟩

/-- Infeasible at a wing loading, infeasible at every larger one. -/
theorem nominal_upward {X : Ext} {c : Concept} {E : ℝ → ReqAt} (hd : TurnData c)
    (hL : ∀ w, Largest true (E w)) (hf : ∀ w, (E w).turnfeasible = none ↔ (E w).turncl > pyNum c.clmaxclean)
    (ht : ∀ w, ∃ s n t q m K, TurnIn X c s n t q m K ∧ (E w).turncl = turnCl c n q w) {w v : ℝ} (hwv : w ≤ v)
    (h : (E w).combined = none) : (E v).combined = none := by
  rw [(hL w).2.1 rfl, hf] at h
  rw [(hL v).2.1 rfl, hf]
  obtain ⟨s, n, t, q, m, K, hin, e1⟩ := ht w
  obtain ⟨s', n', t', q', m', K', hin', e2⟩ := ht v
  obtain ⟨rfl, rfl⟩ := turnIn_unique hin hin'
  rw [e1] at h
  rw [e2]
  refine lt_of_lt_of_le h ?_
  obtain ⟨⟨d, hd1, hd0⟩, h1, h2, h3⟩ := hd
  have hq : 0 ≤ q := by
    have := hin.press
    unfold Atmos.dynamicpressure_pa at this
    rw [hd1] at this; cases this
    positivity
  have hn : 0 ≤ n := by have := hin.load; rw [this] at h3; exact h3
  unfold turnCl
  gcongr

theorem getD_map' {α : Type} (ws : List ℝ) (f : ℝ → α) (d : α) {i : ℕ} (hi : i < ws.length) : (ws.map f).getD i d = f (ws.getD i 0) := by
  rw [List.getD_eq_getElem _ _ (by simpa using hi), List.getElem_map, List.getD_eq_getElem _ _ hi]

theorem shown_prefix {ws : List ℝ} {f : ℝ → Option ℝ} (hs : ws.Pairwise (· < ·))
    (hf : ∀ w v, w ≤ v → f w = none → f v = none) : Prefix (ws.map f) := by
  intro i j hij h
  by_cases hj : j < ws.length
  · rw [getD_map' _ _ _ (by omega)] at h
    rw [getD_map' _ _ _ hj]
    refine hf _ _ ?_ h
    rcases eq_or_lt_of_le hij with q | q
    · rw [q]
    · rw [List.getD_eq_getElem _ _ (by omega), List.getD_eq_getElem _ _ hj]
      exact (List.pairwise_iff_getElem.mp hs i j (by omega) hj q).le
  · exact List.getD_eq_default _ _ (by simpa using hj)

theorem asc_of_pairwise {ws : List ℝ} (hs : ws.Pairwise (· < ·)) : Asc ws := by
  intro i j hij hj
  rw [List.getD_eq_getElem _ _ (by omega), List.getD_eq_getElem _ _ hj]
  exact List.pairwise_iff_getElem.mp hs i j (by omega) hj hij

theorem desc_of_pairwise {ws : List ℝ} {W : ℝ} (hW : 0 < W) (hs : ws.Pairwise (· < ·)) (hp : ∀ w ∈ ws, 0 < w) :
    Desc (ws.map (fun w => W / w)) := by
  intro i j hij hj
  rw [List.length_map] at hj
  rw [getD_map' ws (fun w => W / w) 0 hj, getD_map' ws (fun w => W / w) 0 (by omega)]
  have h1 := asc_of_pairwise hs i j hij hj
  have h2 : 0 < ws.getD i 0 := hp _ (by rw [List.getD_eq_getElem _ _ (by omega)]; exact List.getElem_mem _)
  exact div_lt_div_of_pos_left hW h2 h1

/-- What the charts are made of. -/
theorem charts_ok {X : Ext} {r : Built} {w : NumArg} {power area : Bool} {y : Option ℝ} {mb : Bool} {C : Charts}
    (h : charts X r w power area y mb = .ok C) :
    ∃ W R nom b, r.concept.weight_n = some W ∧ study X r w power = .ok (R, nom) ∧
      C.x = xAxis W area (recastArray w) ∧ xcritStall r.concept area (W / gAcc) = .ok C.xcrit ∧ ylimHi y nom = .ok C.ylim ∧
      infeasBounds C.x nom.combined.toList = .ok b ∧ C.mask = clMask C.xcrit b ∧
      C.front = feasFront C.x nom.combined.toList C.mask ∧ stallLine C.x C.xcrit = .ok C.stall ∧
      turnLine C.x nom.combined.toList = .ok C.turn ∧
      (∀ q, if mb then focusMasks C.x (recastArray (nom.entry q)) nom.combined.toList = .ok (C.focus q) else C.focus q = []) := by
  unfold charts at h
  simp only [bind_ok_iff, pure_ok_iff] at h
  obtain ⟨W, hW, ⟨R, nom⟩, hst, xc, hxc, yl, hyl, b, hb, m1, h1, m2, h2, m3, h3, m4, h4, m5, h5, sl, hsl, tl, htl, rfl⟩ := h
  have hW' : r.concept.weight_n = some W := by
    cases hq : r.concept.weight_n with
    | none => rw [hq] at hW; cases hW
    | some x => rw [hq] at hW; cases hW; rfl
  refine ⟨W, R, nom, b, hW', hst, rfl, hxc, hyl, hb, rfl, rfl, hsl, htl, fun q => ?_⟩
  cases mb with
  | true =>
    simp only [if_true] at h1 h2 h3 h4 h5 ⊢
    cases q <;> assumption
  | false =>
    simp only [Bool.false_eq_true, if_false, Except.ok.injEq] at h1 h2 h3 h4 h5 ⊢
    subst h1 h2 h3 h4 h5
    cases q <;> rfl

theorem need_ok_plot {x : Option ℝ} {y : ℝ} (h : need x = .ok y) : x = some y := by
  cases x with
  | none => cases h
  | some z => cases h; rfl

/-- The stall position on the axis is that of the clean stall wing loading. -/
theorem xcrit_spec {c : Concept} {area : Bool} {W : ℝ} {x : Option ℝ} (h : xcritStall c area (W / gAcc) = .ok x) (s : ℝ) :
    x = some s ↔ ∃ v, CleanStall c v ∧ s = if area then W / v else v := by
  unfold xcritStall at h
  have hg : kg2n (W / gAcc) = W := by unfold kg2n gAcc; norm_num
  by_cases hc : pyNum c.vstallclean_kcas ≠ 0 ∧ pyNum c.clmaxclean ≠ 0
  · rw [if_pos hc] at h
    simp only [bind_ok_iff, pure_ok_iff] at h
    obtain ⟨x', hx', rfl⟩ := h
    have key : ∃ v, CleanStall c v ∧ x' = if area then W / v else v := by
      have core : ∀ v, wsmaxcleanstall_pa c = .ok v → CleanStall c v := by
        intro v hv
        unfold wsmaxcleanstall_pa at hv
        simp only [bind_ok_iff, pure_ok_iff] at hv
        obtain ⟨cl, h1, vs, h2, q, h3, rfl⟩ := hv
        have e1 := need_ok_plot h1
        have e2 := need_ok_plot h2
        unfold Atmos.dynamicpressure_pa at h3
        simp only [bind_ok_iff, pure_ok_iff] at h3
        obtain ⟨d, hd, rfl⟩ := h3
        rw [e1, e2] at hc
        exact ⟨cl, vs, d, e1, hc.2, e2, hc.1, hd, rfl⟩
      unfold whereCleanStall at hx'
      cases area with
      | true =>
        simp only [if_true] at hx'
        unfold smincleanstall_m2 at hx'
        simp only [bind_ok_iff, pure_ok_iff] at hx'
        obtain ⟨v, hv, rfl⟩ := hx'
        exact ⟨v, core v hv, by rw [hg]; rfl⟩
      | false => exact ⟨x', core x' hx', rfl⟩
    obtain ⟨v, hv, e⟩ := key
    constructor
    · intro h; cases h; exact ⟨v, hv, e⟩
    · rintro ⟨v', hv', rfl⟩
      obtain ⟨cl, vs, d, a1, -, a2, -, a3, rfl⟩ := hv
      obtain ⟨cl', vs', d', b1, -, b2, -, b3, rfl⟩ := hv'
      rw [a1] at b1; rw [a2] at b2; rw [a3] at b3
      cases b1; cases b2; cases b3
      rw [e]
  · rw [if_neg hc] at h
    cases h
    constructor
    · intro h; cases h
    · rintro ⟨v, ⟨cl, vs, d, a1, n1, a2, n2, -⟩, -⟩
      rw [a1, a2] at hc
      exact absurd ⟨n2, n1⟩ hc

/-- Everything the charts of a built concept rest on. -/
theorem charts_shown {b dd p : Dict} {a : Option Atmos.Atm} {pa : PropArg} {r : Built} (hb : construct b dd p a pa = .ok r)
    {X : Ext} {w : NumArg} {power area : Bool} {y : Option ℝ} {mb : Bool} {C : Charts}
    (h : charts X r w power area y mb = .ok C) (hne : recastArray w ≠ []) (hs : (recastArray w).Pairwise (· < ·))
    (hp : ∀ x ∈ recastArray w, 0 < x) (hW : ∀ W, r.concept.weight_n = some W → 0 < W) (hd : TurnData r.concept) :
    ∃ W nom E bd, r.concept.weight_n = some W ∧ 0 < W ∧
      seaLevelReq X power (W / gAcc) (recastArray w) (studied r.concept) = .ok nom ∧ Shown nom (recastArray w) E ∧
      Prefix nom.combined.toList ∧ C.x.length = (recastArray w).length ∧ (if area then Desc C.x else Asc C.x) ∧
      (∀ i, i < (recastArray w).length → C.x.getD i 0 = if area then W / (recastArray w).getD i 0 else (recastArray w).getD i 0) ∧
      xcritStall r.concept area (W / gAcc) = .ok C.xcrit ∧ ylimHi y nom = .ok C.ylim ∧
      infeasBounds C.x nom.combined.toList = .ok bd ∧ C.mask = clMask C.xcrit bd ∧
      C.front = feasFront C.x nom.combined.toList C.mask ∧ stallLine C.x C.xcrit = .ok C.stall ∧
      turnLine C.x nom.combined.toList = .ok C.turn ∧
      (∀ q, if mb then focusMasks C.x (recastArray (nom.entry q)) nom.combined.toList = .ok (C.focus q) else C.focus q = []) := by
  obtain ⟨W, R, nom, bd, hW', hst, hx, h1, h2, h3, h4, h5, h6, h7, h8⟩ := charts_ok h
  obtain ⟨W2, hW2, hn⟩ := C54_nominal hb X w power hst
  rw [hW'] at hW2; cases hW2
  obtain ⟨E, hE, hf, ht⟩ := nominal_point hn hne
  have hd' : TurnData (studied r.concept) := ⟨hd.dens, hd.turn, hd.climb, hd.load⟩
  refine ⟨W, nom, E, bd, hW', hW W hW', hn, hE, ?_, ?_, ?_, ?_, h1, h2, h3, h4, h5, h6, h7, h8⟩
  · rw [hE.combined]
    exact shown_prefix hs (fun u v huv hu => nominal_upward hd' hE.largest hf ht huv hu)
  · rw [hx]; unfold xAxis; split <;> simp
  · rw [hx]
    cases area with
    | true => exact desc_of_pairwise (hW W hW') hs hp
    | false => exact asc_of_pairwise hs
  · intro i hi
    rw [hx]
    cases area with
    | true => exact getD_map' _ _ _ hi
    | false => rfl

theorem atEnd_map {ws : List ℝ} {f : ℝ → Option ℝ} {i : ℕ} (hi : i < ws.length) :
    AtEnd (ws.map f) i ↔ f ws[i] = none ∨ ∀ j (hj : j < ws.length), i < j → f ws[j] = none := by
  unfold AtEnd
  rw [getD_map' _ _ _ hi, List.getD_eq_getElem _ _ hi]
  refine or_congr_right ⟨fun h j hj hij => ?_, fun h j hij => ?_⟩
  · have := h j hij
    rwa [getD_map' _ _ _ hj, List.getD_eq_getElem _ _ hj] at this
  · by_cases hj : j < ws.length
    · rw [getD_map' _ _ _ hj, List.getD_eq_getElem _ _ hj]
      exact h j hj hij
    · exact List.getD_eq_default _ _ (by simpa using hj)

/-! ### C97 -/

/-- The region shaded in the combined chart covers exactly these wing loadings: those where the turn is not
feasible, the largest feasible one, and those from the clean stall limit on. The same on both axes. -/
theorem C97_shaded {b dd p : Dict} {a : Option Atmos.Atm} {pa : PropArg} {r : Built} (hb : construct b dd p a pa = .ok r)
    {X : Ext} {w : NumArg} {power area : Bool} {y : Option ℝ} {mb : Bool} {C : Charts}
    (h : charts X r w power area y mb = .ok C) (hne : recastArray w ≠ []) (hs : (recastArray w).Pairwise (· < ·))
    (hp : ∀ x ∈ recastArray w, 0 < x) (hW : ∀ W, r.concept.weight_n = some W → 0 < W) (hd : TurnData r.concept)
    (hv : ∀ v, CleanStall r.concept v → 0 < v) :
    ∃ W nom E, r.concept.weight_n = some W ∧
      seaLevelReq X power (W / gAcc) (recastArray w) (studied r.concept) = .ok nom ∧ Shown nom (recastArray w) E ∧
      ∀ i (hi : i < (recastArray w).length),
        let u := (recastArray w)[i]
        let x := if area then W / u else u
        C.x.getD i 0 = x ∧ ((C.mask.1 ≤ x ∧ x ≤ C.mask.2) ↔
          ((E u).combined = none ∨ (∀ j (hj : j < (recastArray w).length), i < j → (E (recastArray w)[j]).combined = none) ∨
            ∃ v, CleanStall r.concept v ∧ v ≤ u)) := by
  obtain ⟨W, nom, E, bd, hW', hW0, hn, hE, hpre, hlen, hmon, hx, h1, h2, h3, h4, -⟩ := charts_shown hb h hne hs hp hW hd
  refine ⟨W, nom, E, hW', hn, hE, fun i hi => ?_⟩
  have hu : (recastArray w).getD i 0 = (recastArray w)[i] := List.getD_eq_getElem _ _ hi
  have hxi := hx i hi
  rw [hu] at hxi
  have hu0 : 0 < (recastArray w)[i] := hp _ (List.getElem_mem _)
  refine ⟨hxi, ?_⟩
  have hne' : C.x ≠ [] := by
    intro e; rw [e] at hlen; simp only [List.length_nil] at hlen; omega
  have hcl : nom.combined.toList.length = C.x.length := by rw [hE.combined, List.length_map, hlen]
  obtain ⟨lo, hi'⟩ := bd
  have hat := atEnd_map (f := fun w => (E w).combined) hi
  rw [← hE.combined] at hat
  beta_reduce at hat
  rw [← hxi, h4, ← or_assoc, ← hat]
  cases area with
  | true =>
    simp only [if_true] at hmon
    rw [shaded_desc hmon hpre hcl h3 hne' C.xcrit i (by omega), hxi]
    refine or_congr_right ?_
    constructor
    · rintro ⟨s, e, -, hs'⟩
      obtain ⟨v, hv', rfl⟩ := (xcrit_spec h1 s).mp e
      refine ⟨v, hv', ?_⟩
      simp only [if_true] at hs'
      by_contra hc
      have := div_lt_div_of_pos_left hW0 hu0 (not_le.mp hc)
      linarith
    · rintro ⟨v, hv', hle⟩
      have h0 := hv v hv'
      refine ⟨W / v, (xcrit_spec h1 _).mpr ⟨v, hv', rfl⟩, (div_pos hW0 h0).ne', ?_⟩
      simp only [if_true]
      exact div_le_div_of_nonneg_left hW0.le h0 hle
  | false =>
    simp only [Bool.false_eq_true, if_false] at hmon
    rw [shaded_asc hmon hpre hcl h3 hne' C.xcrit i (by omega), hxi]
    refine or_congr_right ?_
    constructor
    · rintro ⟨s, e, -, hs'⟩
      obtain ⟨v, hv', e'⟩ := (xcrit_spec h1 s).mp e
      exact ⟨v, hv', by rw [e'] at hs'; exact hs'⟩
    · rintro ⟨v, hv', hle⟩
      exact ⟨v, (xcrit_spec h1 _).mpr ⟨v, hv', rfl⟩, (hv v hv').ne', hle⟩

/-- The lower bound drawn for the feasible region: a point outside the shaded region for each of its ends, whose
requirement is a number and the largest of the five; if everything is shaded, the first point. -/
theorem C97_front {b dd p : Dict} {a : Option Atmos.Atm} {pa : PropArg} {r : Built} (hb : construct b dd p a pa = .ok r)
    {X : Ext} {w : NumArg} {power area : Bool} {y : Option ℝ} {mb : Bool} {C : Charts}
    (h : charts X r w power area y mb = .ok C) (hne : recastArray w ≠ []) (hs : (recastArray w).Pairwise (· < ·))
    (hp : ∀ x ∈ recastArray w, 0 < x) (hW : ∀ W, r.concept.weight_n = some W → 0 < W) (hd : TurnData r.concept)
    (hv : ∀ v, CleanStall r.concept v → 0 < v) :
    ∃ W nom E, r.concept.weight_n = some W ∧
      seaLevelReq X power (W / gAcc) (recastArray w) (studied r.concept) = .ok nom ∧ Shown nom (recastArray w) E ∧
      ((∃ x ∈ C.x, ¬ (C.mask.1 ≤ x ∧ x ≤ C.mask.2)) →
        ∀ x z, (x, z) ∈ C.front ↔ ∃ u ∈ recastArray w, x = (if area then W / u else u) ∧ ¬ (C.mask.1 ≤ x ∧ x ≤ C.mask.2) ∧
          ∃ t, z = some t ∧ (E u).combined = some t ∧
            IsGreatest {(E u).takeoff, (E u).turn, (E u).climb, (E u).cruise, (E u).servceil} t) ∧
      ((∀ x ∈ C.x, C.mask.1 ≤ x ∧ x ≤ C.mask.2) →
        ∃ u, (recastArray w)[0]? = some u ∧ C.front = [(if area then W / u else u, (E u).combined)]) := by
  obtain ⟨W, nom, E, hW', hn, hE, hsh⟩ := C97_shaded hb h hne hs hp hW hd hv
  obtain ⟨W2, nom2, E2, bd, hW2, hW0, hn2, hE2, hpre, hlen, hmon, hx, h1, h2, h3, h4, h5, -⟩ := charts_shown hb h hne hs hp hW hd
  rw [hW'] at hW2; cases hW2
  rw [hn] at hn2; cases hn2
  refine ⟨W, nom, E, hW', hn, hE, fun ⟨x0, hx0, hx0'⟩ x z => ?_, fun hall => ?_⟩
  · have hex : ∃ j, j < C.x.length ∧ ¬ (C.mask.1 ≤ C.x.getD j 0 ∧ C.x.getD j 0 ≤ C.mask.2) := by
      obtain ⟨j, hj, e⟩ := List.mem_iff_getElem.mp hx0
      exact ⟨j, hj, by rw [List.getD_eq_getElem _ _ hj, e]; exact hx0'⟩
    rw [h5]
    unfold feasFront
    rw [List.mem_map]
    constructor
    · rintro ⟨i, hi, e⟩
      rw [mem_solnIdx hex] at hi
      obtain ⟨hi1, hi2⟩ := hi
      have hi' : i < (recastArray w).length := by omega
      obtain ⟨hs1, hs2⟩ := hsh i hi'
      rw [hE.combined, getD_map' _ _ _ hi', List.getD_eq_getElem _ _ hi', hs1, Prod.mk.injEq] at e
      obtain ⟨rfl, rfl⟩ := e
      rw [hs1] at hi2
      refine ⟨_, List.getElem_mem hi', rfl, hi2, ?_⟩
      rw [hs2, not_or] at hi2
      obtain ⟨t, ht⟩ := Option.ne_none_iff_exists'.mp hi2.1
      exact ⟨t, ht, ht, (hE.largest _).2.2 t ht⟩
    · rintro ⟨u, hu, rfl, hi2, t, rfl, ht, -⟩
      obtain ⟨i, hi', rfl⟩ := List.mem_iff_getElem.mp hu
      obtain ⟨hs1, -⟩ := hsh i hi'
      refine ⟨i, (mem_solnIdx hex).mpr ⟨by omega, by rw [hs1]; exact hi2⟩, ?_⟩
      rw [hE.combined, getD_map' _ _ _ hi', List.getD_eq_getElem _ _ hi', hs1, ht]
  · have h0 : 0 < (recastArray w).length := List.length_pos_of_ne_nil hne
    obtain ⟨hs1, -⟩ := hsh 0 h0
    refine ⟨(recastArray w)[0], List.getElem?_eq_getElem h0, ?_⟩
    have hmem : ∀ i, i < C.x.length → C.mask.1 ≤ C.x.getD i 0 ∧ C.x.getD i 0 ≤ C.mask.2 := fun i hi =>
      hall _ (by rw [List.getD_eq_getElem _ _ hi]; exact List.getElem_mem _)
    have : solnIdx C.x C.mask = [0] := by
      unfold solnIdx
      simp only []
      rw [if_pos]
      rw [List.append_eq_nil_iff]
      constructor <;> rw [List.filter_eq_nil_iff] <;> intro i hi <;> rw [List.mem_range] at hi <;>
        have := hmem i hi <;> simp only [decide_eq_true_eq, gt_iff_lt, not_lt]
      · exact this.2
      · exact this.1
    rw [h5]
    unfold feasFront
    rw [this, List.map_cons, List.map_nil, hs1, hE.combined, getD_map' _ _ _ h0, List.getD_eq_getElem _ _ h0]

/-- The line of the turn stall limit stands at the largest feasible wing loading, if that is not the first or
the last one; otherwise there is none. -/
theorem C97_turn_line {b dd p : Dict} {a : Option Atmos.Atm} {pa : PropArg} {r : Built} (hb : construct b dd p a pa = .ok r)
    {X : Ext} {w : NumArg} {power area : Bool} {y : Option ℝ} {mb : Bool} {C : Charts}
    (h : charts X r w power area y mb = .ok C) (hne : recastArray w ≠ []) (hs : (recastArray w).Pairwise (· < ·))
    (hp : ∀ x ∈ recastArray w, 0 < x) (hW : ∀ W, r.concept.weight_n = some W → 0 < W) (hd : TurnData r.concept) :
    ∃ W nom E, r.concept.weight_n = some W ∧
      seaLevelReq X power (W / gAcc) (recastArray w) (studied r.concept) = .ok nom ∧ Shown nom (recastArray w) E ∧
      ∀ x, C.turn = some x ↔ ∃ i, 0 < i ∧ ∃ (hi : i + 1 < (recastArray w).length),
        (E (recastArray w)[i]).combined ≠ none ∧ (E (recastArray w)[i+1]).combined = none ∧
        x = if area then W / (recastArray w)[i] else (recastArray w)[i] := by
  obtain ⟨W, nom, E, bd, hW', hW0, hn, hE, hpre, hlen, hmon, hx, h1, h2, h3, h4, h5, h6, h7, -⟩ := charts_shown hb h hne hs hp hW hd
  refine ⟨W, nom, E, hW', hn, hE, fun x => ?_⟩
  have hcomb : ∀ i (hi : i < (recastArray w).length), nom.combined.toList.getD i none = (E (recastArray w)[i]).combined := by
    intro i hi
    rw [hE.combined, getD_map' _ _ _ hi, List.getD_eq_getElem _ _ hi]
  have hmon' : Asc C.x ∨ Desc C.x := by
    cases area with
    | true => exact Or.inr hmon
    | false => exact Or.inl hmon
  unfold turnLine at h7
  cases hl : (feasIdx nom.combined.toList).getLast? with
  | none =>
    rw [hl] at h7
    simp only [Except.ok.injEq] at h7
    rw [← h7]
    have hnil := List.getLast?_eq_none_iff.mp hl
    constructor
    · intro h; cases h
    · rintro ⟨i, -, hi, hc, -⟩
      have : i ∈ feasIdx nom.combined.toList := by
        rw [mem_feasIdx, hcomb i (by omega), Option.isSome_iff_ne_none]; exact hc
      rw [hnil] at this; cases this
  | some k =>
    rw [hl] at h7
    simp only at h7
    have hkm := List.mem_of_getLast? hl
    have hkmax : ∀ j ∈ feasIdx nom.combined.toList, j ≤ k := by
      intro j hj
      by_contra hc
      obtain ⟨l', e⟩ := List.getLast?_eq_some_iff.mp hl
      have hsrt := feasIdx_sorted nom.combined.toList
      rw [e] at hsrt hj
      rcases List.mem_append.mp hj with q | q
      · have := (List.pairwise_append.mp hsrt).2.2 j q k (by simp)
        omega
      · simp only [List.mem_singleton] at q; omega
    have hkl : k < C.x.length := by
      unfold feasIdx at hkm
      rw [List.mem_filter, List.mem_range, hE.combined, List.length_map] at hkm
      omega
    have hk' : k < (recastArray w).length := by omega
    rw [drawnLine_idx hmon' hkl] at h7
    simp only [Except.ok.injEq] at h7
    rw [← h7]
    have hxk := hx k hk'
    rw [List.getD_eq_getElem (recastArray w) 0 hk'] at hxk
    have hkn : (E (recastArray w)[k]).combined ≠ none := by
      rw [← hcomb k hk', ← Option.isSome_iff_ne_none, ← mem_feasIdx]; exact hkm
    constructor
    · intro h
      split_ifs at h with hc
      cases h
      refine ⟨k, hc.1, by omega, hkn, ?_, hxk⟩
      by_contra hcc
      have : k + 1 ∈ feasIdx nom.combined.toList := by
        rw [mem_feasIdx, hcomb _ (by omega), Option.isSome_iff_ne_none]; exact hcc
      have := hkmax _ this
      omega
    · rintro ⟨i, hi0, hi, hc1, hc2, rfl⟩
      have hik : i = k := by
        have h1 : i ≤ k := hkmax i (by rw [mem_feasIdx, hcomb i (by omega), Option.isSome_iff_ne_none]; exact hc1)
        by_contra hcc
        have := hpre (i + 1) k (by omega) (by rw [hcomb _ hi]; exact hc2)
        rw [hcomb k hk'] at this
        exact hkn this
      subst hik
      rw [if_pos ⟨hi0, by omega⟩, hxk]

/-- The line of the clean stall stands at the clean stall limit if that lies strictly between the least and the largest wing loading
of the axis; otherwise there is none. -/
theorem C97_stall_line {X : Ext} {r : Built} {w : NumArg} {power area : Bool} {y : Option ℝ} {mb : Bool} {C : Charts}
    (h : charts X r w power area y mb = .ok C) (hne : recastArray w ≠ []) (hp : ∀ x ∈ recastArray w, 0 < x)
    (hW : ∀ W, r.concept.weight_n = some W → 0 < W) (hv : ∀ v, CleanStall r.concept v → 0 < v) :
    ∃ W, r.concept.weight_n = some W ∧ ∀ x, C.stall = some x ↔ ∃ v, CleanStall r.concept v ∧ x = (if area then W / v else v) ∧
      (∃ u ∈ recastArray w, u < v) ∧ ∃ u ∈ recastArray w, v < u := by
  obtain ⟨W, R, nom, bd, hW', -, hx, h1, -, -, -, -, h6, -, -⟩ := charts_ok h
  have hW0 := hW W hW'
  refine ⟨W, hW', fun x => ?_⟩
  have hne' : C.x ≠ [] := by
    rw [hx]; unfold xAxis; split
    · simpa using hne
    · exact hne
  obtain ⟨hi, e1, m1, b1⟩ := listMax_mem hne'
  obtain ⟨lo, e2, m2, b2⟩ := listMin_mem hne'
  have hdr : ∀ z, drawnLine C.x z = .ok (if lo < z ∧ z < hi then some z else none) := by
    intro z; unfold drawnLine; rw [e1, e2]; rfl
  have hin : ∀ v, 0 < v → ((lo < (if area then W / v else v) ∧ (if area then W / v else v) < hi) ↔
      ((∃ u ∈ recastArray w, u < v) ∧ ∃ u ∈ recastArray w, v < u)) := by
    intro v h0
    have l : ∀ z, lo < z ↔ ∃ t ∈ C.x, t < z := fun z =>
      ⟨fun h => ⟨lo, m2, h⟩, fun ⟨t, ht, h⟩ => lt_of_le_of_lt (b2 t ht) h⟩
    have g : ∀ z, z < hi ↔ ∃ t ∈ C.x, z < t := fun z =>
      ⟨fun h => ⟨hi, m1, h⟩, fun ⟨t, ht, h⟩ => lt_of_lt_of_le h (b1 t ht)⟩
    rw [l, g, hx]
    cases area with
    | true =>
      simp only [xAxis, if_true, List.mem_map, exists_exists_and_eq_and]
      rw [and_comm]
      refine and_congr (exists_congr fun u => and_congr_right fun hu => ?_) (exists_congr fun u => and_congr_right fun hu => ?_)
      · exact div_lt_div_iff_of_pos_left hW0 h0 (hp u hu)
      · exact div_lt_div_iff_of_pos_left hW0 (hp u hu) h0
    | false => simp only [xAxis, Bool.false_eq_true, if_false]
  unfold stallLine at h6
  cases hc : C.xcrit with
  | none =>
    rw [hc] at h6
    rw [← Except.ok.inj h6]
    constructor
    · intro h; cases h
    · rintro ⟨v, hv', -⟩
      have := (xcrit_spec h1 _).mpr ⟨v, hv', rfl⟩
      rw [hc] at this; cases this
  | some s =>
    obtain ⟨v, hv', rfl⟩ := (xcrit_spec h1 s).mp hc
    have h0 := hv v hv'
    rw [hc] at h6
    simp only at h6
    rw [if_neg (by split_ifs; exacts [(div_pos hW0 h0).ne', h0.ne']), hdr] at h6
    rw [← Except.ok.inj h6]
    constructor
    · intro h
      by_cases hlh : (lo < if area then W / v else v) ∧ (if area then W / v else v) < hi
      · rw [if_pos hlh] at h
        exact ⟨v, hv', (Option.some.inj h).symm, (hin v h0).mp hlh⟩
      · rw [if_neg hlh] at h; cases h
    · rintro ⟨v', hv'', rfl, hr⟩
      have e := (xcrit_spec h1 _).mpr ⟨v', hv'', rfl⟩
      rw [hc] at e
      rw [Option.some.inj e, if_pos ((hin v' (hv v' hv'')).mpr hr)]

theorem drawnLine_ok {xs : List ℝ} (hne : xs ≠ []) (x : ℝ) : ∃ l, drawnLine xs x = .ok l := by
  obtain ⟨hi, e1, -⟩ := listMax_mem hne
  obtain ⟨lo, e2, -⟩ := listMin_mem hne
  unfold drawnLine
  rw [e1, e2]
  exact ⟨_, rfl⟩

/-- Without masks the charts can be drawn whenever the study succeeds at distinct positions on the axis and the
design atmosphere has a density at sea level. -/
theorem C97_draws {b dd p : Dict} {a : Option Atmos.Atm} {pa : PropArg} {r : Built} (hb : construct b dd p a pa = .ok r)
    {X : Ext} {w : NumArg} {power : Bool} (area : Bool) (y : Option ℝ) {R : Recorded} {nom : Req}
    (h : study X r w power = .ok (R, nom)) (hlen2 : 2 ≤ (recastArray w).length)
    (hx : ∀ W, r.concept.weight_n = some W → (xAxis W area (recastArray w)).Nodup)
    (hd : ∃ d, Atmos.dens1 r.concept.designatm 0 = .ok d) : ∃ C, charts X r w power area y false = .ok C := by
  have hne : recastArray w ≠ [] := fun e => by rw [e] at hlen2; simp at hlen2
  obtain ⟨W, hW, hn⟩ := C54_nominal hb X w power h
  obtain ⟨E, hE, -, -⟩ := nominal_point hn hne
  obtain ⟨d, hd⟩ := hd
  have hax : xAxis W area (recastArray w) ≠ [] := by
    unfold xAxis
    split
    · simpa using hne
    · exact hne
  have hlen : nom.combined.toList.length = (xAxis W area (recastArray w)).length := by
    rw [hE.combined, List.length_map]
    unfold xAxis
    split <;> simp
  have h1 : ∃ x, xcritStall r.concept area (W / gAcc) = .ok x := by
    unfold xcritStall
    split_ifs with hc
    · have : ∃ v, wsmaxcleanstall_pa r.concept = .ok v := by
        unfold wsmaxcleanstall_pa
        cases hcl : r.concept.clmaxclean with
        | none => rw [hcl] at hc; exact absurd rfl hc.2
        | some cl =>
          cases hvs : r.concept.vstallclean_kcas with
          | none => rw [hvs] at hc; exact absurd rfl hc.1
          | some vs =>
            unfold Atmos.dynamicpressure_pa
            rw [hd]
            exact ⟨_, rfl⟩
      obtain ⟨v, hv⟩ := this
      unfold whereCleanStall smincleanstall_m2
      rw [hv]
      cases area <;> exact ⟨_, rfl⟩
    · exact ⟨_, rfl⟩
  obtain ⟨xc, hxc⟩ := h1
  have h2 : ∃ yl, ylimHi y nom = .ok yl := by
    obtain ⟨ac, hac⟩ := seaLevelReq_array hn hlen2 .climb
    have hac' : nom.climb = .array ac := hac.1
    unfold ylimHi
    rw [hac']
    dsimp only
    cases y with
    | some v => exact ⟨v, rfl⟩
    | none =>
      have key : ∀ q, ∃ m, listMax (recastArray (nom.entry q)) = .ok m := by
        intro q
        obtain ⟨m, hm, -⟩ := listMax_mem (l := recastArray (nom.entry q)) (by rw [hE.entry]; simpa using hne)
        exact ⟨m, hm⟩
      obtain ⟨m1, a1⟩ := key .climb
      obtain ⟨m2, a2⟩ := key .cruise
      obtain ⟨m3, a3⟩ := key .servceil
      obtain ⟨m4, a4⟩ := key .takeoff
      obtain ⟨m5, a5⟩ := key .turn
      simp only [Req.entry] at a1 a2 a3 a4 a5
      rw [hac'] at a1
      simp only [a1, a2, a3, a4, a5, bind_ok]
      exact ⟨_, rfl⟩
  obtain ⟨yl, hyl⟩ := h2
  obtain ⟨lo, hi, hbd, -⟩ := infeasBounds_spec (hx W hW) hlen hax
  have h3 : ∃ l, stallLine (xAxis W area (recastArray w)) xc = .ok l := by
    unfold stallLine
    cases xc with
    | none => exact ⟨_, rfl⟩
    | some x =>
      simp only
      split_ifs
      · exact ⟨_, rfl⟩
      · exact drawnLine_ok hax x
  have h4 : ∃ l, turnLine (xAxis W area (recastArray w)) nom.combined.toList = .ok l := by
    unfold turnLine
    cases (feasIdx nom.combined.toList).getLast? with
    | none => exact ⟨_, rfl⟩
    | some i => exact drawnLine_ok hax _
  obtain ⟨l1, h3⟩ := h3
  obtain ⟨l2, h4⟩ := h4
  unfold charts
  rw [hW, show need (some W) = .ok W from rfl, bind_ok, h, bind_ok]
  simp only [hxc, hyl, hbd, h3, h4, bind_ok, Bool.false_eq_true, if_false]
  exact ⟨_, rfl⟩

/-! ### The worked case -/

theorem st_turn : TurnData stBuilt.concept := by
  refine ⟨⟨1, exAtm_dens 1000 (by norm_num) (by norm_num), by norm_num⟩, ?_, ?_, ?_⟩ <;>
    simp [stBuilt, stC, exC, pyNum]

theorem st_weight (W : ℝ) (h : stBuilt.concept.weight_n = some W) : 0 < W := by
  simp only [stBuilt, stC, exC, Option.some.injEq] at h
  rw [← h]; norm_num

/-- The clean stall limit of the worked case is above 700 Pa. -/
theorem st_stall (v : ℝ) (h : CleanStall stBuilt.concept v) : 700 < v := by
  obtain ⟨cl, vs, d, h1, -, h2, -, h3, rfl⟩ := h
  simp only [stBuilt, stC, exC, Option.some.injEq] at h1 h2 h3
  rw [exAtm_dens 0 (by norm_num) (by norm_num)] at h3
  cases h3
  rw [← h1, ← h2]
  unfold kts2mps
  norm_num

theorem st_charts (X : Ext) (power area : Bool) (y : Option ℝ) (ws : List ℝ) (hl : 2 ≤ ws.length) (hs : ws.Pairwise (· < ·))
    (hp : ∀ x ∈ ws, 0 < x) : ∃ C, charts X stBuilt (.array ws) power area y false = .ok C := by
  obtain ⟨R, nom, hst⟩ := st_study X power (.array ws) hl
  refine C97_draws st_built area y hst hl (fun W hW => ?_) ⟨1, exAtm_dens 0 (by norm_num) (by norm_num)⟩
  unfold xAxis
  split
  · exact (desc_of_pairwise (st_weight W hW) hs hp).nodup
  · exact (asc_of_pairwise hs).nodup

/-- With the turn data of the worked case the turn is feasible up to 1428 Pa and infeasible from 1430 Pa on. -/
theorem turn_feasible {X : Ext} {power : Bool} {m : ℝ} {ws : List ℝ} {nom : Req} {c : Concept}
    (h : seaLevelReq X power m ws c = .ok nom) (hne : ws ≠ []) {E : ℝ → ReqAt} (hE : Shown nom ws E)
    {u : ℝ} (hu : u ∈ ws) (c1 : c.turnspeed_ktas = some 120) (c2 : c.stloadfactor = some 2) (c3 : c.designatm = exAtm)
    (c4 : pyNum c.turnalt_m = 1000) (c5 : pyNum c.turn_weight_fraction = 1) (c6 : pyNum c.climb_weight_fraction = 1)
    (c7 : pyNum c.clmaxclean = 1.5) : (u ≤ 1428 → (E u).combined ≠ none) ∧ (1430 ≤ u → (E u).combined = none) := by
  obtain ⟨E', hE', hf, ht⟩ := nominal_point h hne
  have hcomb : (E u).combined = (E' u).combined := by
    have := hE.combined.symm.trans hE'.combined
    exact List.map_inj_left.mp this u hu
  rw [hcomb, Ne, (hE'.largest u).2.1 rfl, hf]
  obtain ⟨s, n, t, q, m', K, hin, e⟩ := ht u
  have hs := c1.symm.trans hin.speed
  have hn := c2.symm.trans hin.load
  cases hs; cases hn
  have hq : q = 0.5 * 1 * kts2mps 120 ^ 2 := by
    have := hin.press
    unfold Atmos.dynamicpressure_pa at this
    rw [c3, c4, exAtm_dens 1000 (by norm_num) (by norm_num)] at this
    cases this; rfl
  rw [e]
  have hcl : turnCl c 2 q u = u * 2 / (0.5 * 1 * kts2mps 120 ^ 2) := by
    rw [hq]
    unfold turnCl
    rw [c5, c6]
    simp
  rw [hcl, c7]
  unfold kts2mps
  constructor
  · intro hle
    rw [gt_iff_lt, not_lt, div_le_iff₀ (by norm_num)]
    norm_num
    linarith
  · intro hle
    rw [gt_iff_lt, lt_div_iff₀ (by norm_num)]
    norm_num
    linarith

theorem st_feasible {X : Ext} {power : Bool} {m : ℝ} {ws : List ℝ} {nom : Req}
    (h : seaLevelReq X power m ws (studied stBuilt.concept) = .ok nom) (hne : ws ≠ []) {E : ℝ → ReqAt} (hE : Shown nom ws E)
    {u : ℝ} (hu : u ∈ ws) : (u ≤ 1428 → (E u).combined ≠ none) ∧ (1430 ≤ u → (E u).combined = none) :=
  turn_feasible h hne hE hu rfl rfl rfl rfl rfl rfl rfl

example (X : Ext) (power area : Bool) : ∃ C, charts X stBuilt (.array [500, 1000, 1500]) power area none false = .ok C ∧
    recastArray (.array [500, 1000, 1500]) ≠ [] ∧ (recastArray (.array [500, 1000, 1500])).Pairwise (· < ·) ∧
    (∀ x ∈ recastArray (.array [500, 1000, 1500]), 0 < x) ∧ (∀ W, stBuilt.concept.weight_n = some W → 0 < W) ∧
    TurnData stBuilt.concept ∧ ∀ v, CleanStall stBuilt.concept v → 0 < v := by
  have h1 : ([500, 1000, 1500] : List ℝ).Pairwise (· < ·) := by norm_num
  have h2 : ∀ x ∈ ([500, 1000, 1500] : List ℝ), 0 < x := by
    intro x hx; simp only [List.mem_cons, List.not_mem_nil, or_false] at hx
    rcases hx with rfl | rfl | rfl <;> norm_num
  obtain ⟨C, hC⟩ := st_charts X power area none [500, 1000, 1500] (by simp) h1 h2
  exact ⟨C, hC, by simp [recastArray], h1, h2, st_weight, st_turn, fun v hv => by linarith [st_stall v hv]⟩

/-- The stall line is drawn in the worked case with wing loadings up to 1500 Pa, and not with wing loadings up to 600 Pa. -/
example (X : Ext) (power area : Bool) : (∃ C, charts X stBuilt (.array [500, 1000, 1500]) power area none false = .ok C ∧ C.stall ≠ none) ∧
    ∃ C, charts X stBuilt (.array [500, 600]) power area none false = .ok C ∧ C.stall = none := by
  have h1 : ([500, 1000, 1500] : List ℝ).Pairwise (· < ·) := by norm_num
  have h2 : ∀ x ∈ ([500, 1000, 1500] : List ℝ), 0 < x := by
    intro x hx; simp only [List.mem_cons, List.not_mem_nil, or_false] at hx
    rcases hx with rfl | rfl | rfl <;> norm_num
  have h3 : ([500, 600] : List ℝ).Pairwise (· < ·) := by norm_num
  have h4 : ∀ x ∈ ([500, 600] : List ℝ), 0 < x := by
    intro x hx; simp only [List.mem_cons, List.not_mem_nil, or_false] at hx
    rcases hx with rfl | rfl <;> norm_num
  obtain ⟨C, hC⟩ := st_charts X power area none [500, 1000, 1500] (by simp) h1 h2
  obtain ⟨D, hD⟩ := st_charts X power area none [500, 600] (by simp) h3 h4
  have pos : ∀ v, CleanStall stBuilt.concept v → 0 < v := fun v hv => by linarith [st_stall v hv]
  refine ⟨⟨C, hC, ?_⟩, D, hD, ?_⟩
  · obtain ⟨W, -, h⟩ := C97_stall_line hC (by simp [recastArray]) h2 st_weight pos
    obtain ⟨v, hv, hv1⟩ : ∃ v, CleanStall stBuilt.concept v ∧ v < 1500 := by
      refine ⟨_, ⟨_, _, 1, rfl, ?_, rfl, ?_, exAtm_dens 0 (by norm_num) (by norm_num), rfl⟩, ?_⟩ <;>
        norm_num [stBuilt, stC, exC, kts2mps]
    rw [(h _).mpr ⟨v, hv, rfl, ⟨500, by simp [recastArray], by linarith [st_stall v hv]⟩, 1500, by simp [recastArray], hv1⟩]
    simp
  · obtain ⟨W, -, h⟩ := C97_stall_line hD (by simp [recastArray]) h4 st_weight pos
    cases hs : D.stall with
    | none => rfl
    | some x =>
      obtain ⟨v, hv, -, -, u, hu, hlt⟩ := (h x).mp hs
      have := st_stall v hv
      simp only [recastArray, List.mem_cons, List.not_mem_nil, or_false] at hu
      rcases hu with rfl | rfl <;> linarith

/-- A feasible wing loading below the clean stall limit is shaded as unattainable: always the largest feasible one,
so with wing loadings 100 and 200 Pa in the worked case the second. -/
theorem C97_last_violated (X : Ext) (power area : Bool) : ∃ C W nom E, charts X stBuilt (.array [100, 200]) power area none false = .ok C ∧
    stBuilt.concept.weight_n = some W ∧ seaLevelReq X power (W / gAcc) [100, 200] (studied stBuilt.concept) = .ok nom ∧
    Shown nom [100, 200] E ∧ (∃ t, (E 200).combined = some t) ∧ (∀ v, CleanStall stBuilt.concept v → 200 < v) ∧
    C.mask.1 ≤ (if area then W / 200 else 200) ∧ (if area then W / 200 else 200) ≤ C.mask.2 := by
  have h1 : ([100, 200] : List ℝ).Pairwise (· < ·) := by norm_num
  have h2 : ∀ x ∈ ([100, 200] : List ℝ), 0 < x := by
    intro x hx; simp only [List.mem_cons, List.not_mem_nil, or_false] at hx
    rcases hx with rfl | rfl <;> norm_num
  obtain ⟨C, hC⟩ := st_charts X power area none [100, 200] (by simp) h1 h2
  obtain ⟨W, nom, E, hW, hn, hE, hsh⟩ := C97_shaded st_built hC (by simp [recastArray]) h1 h2 st_weight st_turn
    (fun v hv => by linarith [st_stall v hv])
  obtain ⟨-, hm⟩ := hsh 1 (by simp [recastArray])
  have hend : ∀ j (hj : j < (recastArray (.array [100, 200])).length), 1 < j →
      (E (recastArray (.array [100, 200]))[j]).combined = none := by
    intro j hj hij
    have : j < 2 := hj
    omega
  have hm' := hm.mpr (Or.inr (Or.inl hend))
  refine ⟨C, W, nom, E, hC, hW, hn, hE, ?_, fun v hv => by linarith [st_stall v hv], hm'⟩
  exact Option.ne_none_iff_exists'.mp ((st_feasible hn (by simp [recastArray]) hE (u := 200) (by simp [recastArray])).1 (by norm_num))

/-! ### C98 -/

/-- The charts with masks: a wing loading is masked in the chart of a constraint exactly if the constraint is
below the combined requirement there, or if the turn is not feasible there and the constraint is below the
combined requirement at the largest feasible wing loading. -/
theorem C98_masked {b dd p : Dict} {a : Option Atmos.Atm} {pa : PropArg} {r : Built} (hb : construct b dd p a pa = .ok r)
    {X : Ext} {w : NumArg} {power area : Bool} {y : Option ℝ} {C : Charts}
    (h : charts X r w power area y true = .ok C) (hne : recastArray w ≠ []) (hs : (recastArray w).Pairwise (· < ·))
    (hp : ∀ x ∈ recastArray w, 0 < x) (hW : ∀ W, r.concept.weight_n = some W → 0 < W) (hd : TurnData r.concept) :
    ∃ W nom E, r.concept.weight_n = some W ∧
      seaLevelReq X power (W / gAcc) (recastArray w) (studied r.concept) = .ok nom ∧ Shown nom (recastArray w) E ∧
      ∀ q, (∀ u ∈ recastArray w, (E u).combined = none → 0 ≤ valueOf (E u) q) →
        ∀ u ∈ recastArray w, (∃ m ∈ C.focus q, (if area then W / u else u) ∈ Set.uIcc m.1 m.2) ↔
          ((∃ t, (E u).combined = some t ∧ valueOf (E u) q < t) ∨
            ((E u).combined = none ∧ ∃ v ∈ recastArray w, (∃ t, (E v).combined = some t ∧ valueOf (E v) q < t) ∧
              ∀ v' ∈ recastArray w, (E v').combined ≠ none → v' ≤ v)) := by
  obtain ⟨W, nom, E, bd, hW', hW0, hn, hE, hpre, hlen, hmon, hx, h1, h2, h3, h4, h5, h6, h7, h8⟩ := charts_shown hb h hne hs hp hW hd
  refine ⟨W, nom, E, hW', hn, hE, fun q h0 u hu => ?_⟩
  obtain ⟨i, hi, rfl⟩ := List.mem_iff_getElem.mp hu
  have hmon' : Asc C.x ∨ Desc C.x := by
    cases area with
    | true => exact Or.inr hmon
    | false => exact Or.inl hmon
  have h8' := h8 q
  simp only [if_true] at h8'
  have hcomb : ∀ i (hi : i < (recastArray w).length), nom.combined.toList.getD i none = (E (recastArray w)[i]).combined := by
    intro i hi
    rw [hE.combined, getD_map' _ _ _ hi, List.getD_eq_getElem _ _ hi]
  have hcurve : ∀ i (hi : i < (recastArray w).length), (recastArray (nom.entry q)).getD i 0 = valueOf (E (recastArray w)[i]) q := by
    intro i hi
    rw [hE.entry, getD_map' _ _ _ hi, List.getD_eq_getElem _ _ hi]
  have hcl : (recastArray (nom.entry q)).length = (recastArray w).length := by rw [hE.entry, List.length_map]
  have h0' : ∀ i, i < (recastArray (nom.entry q)).length → nom.combined.toList.getD i none = none →
      0 ≤ (recastArray (nom.entry q)).getD i 0 := by
    intro i hi hc
    rw [hcl] at hi
    rw [hcurve i hi]
    rw [hcomb i hi] at hc
    exact h0 _ (List.getElem_mem _) hc
  have hmask : ∀ i (hi : i < (recastArray w).length), i ∈ maskIdx (recastArray (nom.entry q)) nom.combined.toList ↔
      ∃ t, (E (recastArray w)[i]).combined = some t ∧ valueOf (E (recastArray w)[i]) q < t := by
    intro i hi
    rw [mem_maskIdx, hcl, hcurve i hi, hcomb i hi]
    constructor
    · rintro ⟨-, h2⟩
      cases hc : (E (recastArray w)[i]).combined with
      | none =>
        rw [hc] at h2
        have := h0 _ (List.getElem_mem hi) hc
        simp only [Option.getD_none] at h2
        linarith
      | some t => rw [hc] at h2; exact ⟨t, rfl, h2⟩
    · rintro ⟨t, e, h2⟩
      rw [e]
      exact ⟨hi, h2⟩
  have hxi := hx i hi
  rw [List.getD_eq_getElem (recastArray w) 0 hi] at hxi
  rw [← hxi, covered hmon' hpre (by rw [hE.combined, List.length_map, hlen]) (by rw [hcl, hlen]) h0' h8' i (by omega),
    hmask i hi, hcomb i hi]
  have hle : ∀ a b (ha : a < (recastArray w).length) (hb : b < (recastArray w).length), (recastArray w)[a] ≤ (recastArray w)[b] ↔ a ≤ b := by
    intro a b ha hb
    have := (asc_of_pairwise hs).le_iff ha hb
    rwa [List.getD_eq_getElem _ _ ha, List.getD_eq_getElem _ _ hb] at this
  refine or_congr_right (and_congr_right fun _ => ?_)
  have hfl : ∀ j ∈ feasIdx nom.combined.toList, j < (recastArray w).length := by
    intro j hj
    unfold feasIdx at hj
    rw [List.mem_filter, List.mem_range, hE.combined, List.length_map] at hj
    exact hj.1
  constructor
  · rintro ⟨k, hk, hmax⟩
    have hkl : k < (recastArray w).length := by rw [← hcl]; exact (mem_maskIdx.mp hk).1
    refine ⟨_, List.getElem_mem hkl, (hmask k hkl).mp hk, ?_⟩
    intro v' hv' hc
    obtain ⟨j, hj, rfl⟩ := List.mem_iff_getElem.mp hv'
    rw [hle j k hj hkl]
    exact hmax j (by rw [mem_feasIdx, hcomb j hj, Option.isSome_iff_ne_none]; exact hc)
  · rintro ⟨v, hv, hvt, hmax⟩
    obtain ⟨k, hk, rfl⟩ := List.mem_iff_getElem.mp hv
    refine ⟨k, (hmask k hk).mpr hvt, fun j hj => ?_⟩
    have hjl := hfl j hj
    rw [← hle j k hjl hk]
    refine hmax _ (List.getElem_mem hjl) ?_
    rw [mem_feasIdx, hcomb j hjl, Option.isSome_iff_ne_none] at hj
    exact hj

theorem charts_masked {X : Ext} {r : Built} {w : NumArg} {power area : Bool} {y : Option ℝ} {C : Charts}
    (h : charts X r w power area y false = .ok C) {R : Recorded} {nom : Req} (hst : study X r w power = .ok (R, nom)) :
    ((∃ C', charts X r w power area y true = .ok C') ↔
      ∀ q, ∃ ms, focusMasks C.x (recastArray (nom.entry q)) nom.combined.toList = .ok ms) ∧
    ((¬ ∃ C', charts X r w power area y true = .ok C') → charts X r w power area y true = .error .valueError) := by
  obtain ⟨W, R', nom', bd, hW', hst', hx, h1, h2, h3, -, -, h6, h7, -⟩ := charts_ok h
  rw [hst] at hst'
  cases hst'
  have e : charts X r w power area y true = (do
      let climb ← focusMasks C.x (recastArray (nom.entry .climb)) nom.combined.toList
      let cruise ← focusMasks C.x (recastArray (nom.entry .cruise)) nom.combined.toList
      let servceil ← focusMasks C.x (recastArray (nom.entry .servceil)) nom.combined.toList
      let takeoff ← focusMasks C.x (recastArray (nom.entry .takeoff)) nom.combined.toList
      let turn ← focusMasks C.x (recastArray (nom.entry .turn)) nom.combined.toList
      pure { x := C.x, ylim := C.ylim, xcrit := C.xcrit, stall := C.stall, turn := C.turn, mask := clMask C.xcrit bd,
             front := feasFront C.x nom.combined.toList (clMask C.xcrit bd),
             focus := fun q => match q with
              | .climb => climb | .cruise => cruise | .servceil => servceil | .takeoff => takeoff | .turn => turn }) := by
    unfold charts
    rw [hW', show need (some W) = .ok W from rfl, bind_ok, hst, bind_ok]
    simp only [← hx, h1, h2, h3, h6, h7, bind_ok, if_true]
    rfl
  rw [e]
  refine ⟨⟨?_, ?_⟩, ?_⟩
  · rintro ⟨C', hC⟩
    simp only [bind_ok_iff, pure_ok_iff] at hC
    obtain ⟨m1, a1, m2, a2, m3, a3, m4, a4, m5, a5, -⟩ := hC
    intro q
    cases q <;> exact ⟨_, by assumption⟩
  · intro hq
    obtain ⟨m1, a1⟩ := hq .climb
    obtain ⟨m2, a2⟩ := hq .cruise
    obtain ⟨m3, a3⟩ := hq .servceil
    obtain ⟨m4, a4⟩ := hq .takeoff
    obtain ⟨m5, a5⟩ := hq .turn
    rw [a1, a2, a3, a4, a5]
    exact ⟨_, rfl⟩
  · intro hne
    cases a1 : focusMasks C.x (recastArray (nom.entry .climb)) nom.combined.toList with
    | error e' => rw [bind_error, focusMasks_err a1]
    | ok m1 =>
    cases a2 : focusMasks C.x (recastArray (nom.entry .cruise)) nom.combined.toList with
    | error e' => rw [bind_ok, bind_error, focusMasks_err a2]
    | ok m2 =>
    cases a3 : focusMasks C.x (recastArray (nom.entry .servceil)) nom.combined.toList with
    | error e' => rw [bind_ok, bind_ok, bind_error, focusMasks_err a3]
    | ok m3 =>
    cases a4 : focusMasks C.x (recastArray (nom.entry .takeoff)) nom.combined.toList with
    | error e' => rw [bind_ok, bind_ok, bind_ok, bind_error, focusMasks_err a4]
    | ok m4 =>
    cases a5 : focusMasks C.x (recastArray (nom.entry .turn)) nom.combined.toList with
    | error e' => rw [bind_ok, bind_ok, bind_ok, bind_ok, bind_error, focusMasks_err a5]
    | ok m5 =>
      rw [a1, a2, a3, a4, a5] at hne
      exact absurd ⟨_, rfl⟩ hne

/-- Charts that can be drawn without masks can be drawn with masks only if every constraint is below the
combined requirement somewhere; otherwise asking for masks ends in a ValueError. -/
theorem C98_completes {b dd p : Dict} {a : Option Atmos.Atm} {pa : PropArg} {r : Built} (hb : construct b dd p a pa = .ok r)
    {X : Ext} {w : NumArg} {power area : Bool} {y : Option ℝ} {C : Charts}
    (h : charts X r w power area y false = .ok C) (hne : recastArray w ≠ []) :
    ∃ W nom E, r.concept.weight_n = some W ∧
      seaLevelReq X power (W / gAcc) (recastArray w) (studied r.concept) = .ok nom ∧ Shown nom (recastArray w) E ∧
      ((∀ q, ∀ u ∈ recastArray w, (E u).combined = none → 0 ≤ valueOf (E u) q) →
        (∀ q, ∃ u ∈ recastArray w, ∃ t, (E u).combined = some t ∧ valueOf (E u) q < t) →
        ∃ C', charts X r w power area y true = .ok C') ∧
      (∀ q, (∀ u ∈ recastArray w, (E u).combined = none → 0 ≤ valueOf (E u) q) →
        (∀ u ∈ recastArray w, ∀ t, (E u).combined = some t → valueOf (E u) q = t) →
        charts X r w power area y true = .error .valueError) := by
  obtain ⟨W, R, nom, bd, hW', hst, -⟩ := charts_ok h
  obtain ⟨W2, hW2, hn⟩ := C54_nominal hb X w power hst
  rw [hW'] at hW2; cases hW2
  obtain ⟨E, hE, -, -⟩ := nominal_point hn hne
  obtain ⟨k1, k2⟩ := charts_masked h hst
  refine ⟨W, nom, E, hW', hn, hE, ?_, ?_⟩
  · intro h0 hq
    rw [k1]
    intro q
    refine (focusMasks_iff ?_).mpr ?_
    · intro i hi hc
      rw [hE.entry, List.length_map] at hi
      rw [hE.entry, getD_map' _ _ _ hi]
      rw [hE.combined, getD_map' _ _ _ hi] at hc
      exact h0 q _ (by rw [List.getD_eq_getElem _ _ hi]; exact List.getElem_mem _) hc
    · obtain ⟨u, hu, t, e1, e2⟩ := hq q
      obtain ⟨i, hi, rfl⟩ := List.mem_iff_getElem.mp hu
      refine ⟨i, mem_maskIdx.mpr ⟨by rw [hE.entry, List.length_map]; exact hi, ?_⟩⟩
      rw [hE.entry, hE.combined, getD_map' _ _ _ hi, getD_map' _ _ _ hi, List.getD_eq_getElem _ _ hi, e1]
      exact e2
  · intro q h0 hall
    apply k2
    rw [k1]
    intro hq
    obtain ⟨ms, hms⟩ := hq q
    have hnil : maskIdx (recastArray (nom.entry q)) nom.combined.toList = [] := by
      rw [List.eq_nil_iff_forall_not_mem]
      intro i hi
      obtain ⟨hi1, hi2⟩ := mem_maskIdx.mp hi
      rw [hE.entry, List.length_map] at hi1
      rw [hE.entry, hE.combined, getD_map' _ _ _ hi1, getD_map' _ _ _ hi1, List.getD_eq_getElem _ _ hi1] at hi2
      cases hc : (E (recastArray w)[i]).combined with
      | none =>
        rw [hc] at hi2
        have := h0 _ (List.getElem_mem hi1) hc
        simp only [Option.getD_none] at hi2
        linarith
      | some t =>
        rw [hc] at hi2
        have := hall _ (List.getElem_mem hi1) t hc
        simp only [Option.getD_some] at hi2
        linarith
    rw [focusMasks_nil hnil] at hms
    cases hms

example (X : Ext) (power area : Bool) : ∃ C, charts X stBuilt (.array [100, 200]) power area none false = .ok C ∧
    recastArray (.array [100, 200]) ≠ [] := by
  obtain ⟨C, W, nom, E, h, -⟩ := C97_last_violated X power area
  exact ⟨C, h, by simp [recastArray]⟩

/-- Masks fail although the charts without masks can be drawn: wing loadings 2000 and 3000 Pa in the worked case,
where no turn is feasible. -/
theorem C98_infeasible_violated (X : Ext) (area : Bool) (y : Option ℝ) :
    (∃ C, charts X stBuilt (.array [2000, 3000]) false area y false = .ok C) ∧
    charts X stBuilt (.array [2000, 3000]) false area y true = .error .valueError := by
  have h1 : ([2000, 3000] : List ℝ).Pairwise (· < ·) := by norm_num
  have h2 : ∀ x ∈ ([2000, 3000] : List ℝ), 0 < x := by
    intro x hx; simp only [List.mem_cons, List.not_mem_nil, or_false] at hx
    rcases hx with rfl | rfl <;> norm_num
  obtain ⟨C, hC⟩ := st_charts X false area y [2000, 3000] (by simp) h1 h2
  refine ⟨⟨C, hC⟩, ?_⟩
  obtain ⟨W, nom, E, hW, hn, hE, -, hfail⟩ := C98_completes st_built hC (by simp [recastArray])
  have hinf : ∀ u ∈ ([2000, 3000] : List ℝ), (E u).combined = none := by
    intro u hu
    refine (st_feasible hn (by simp [recastArray]) hE hu).2 ?_
    simp only [List.mem_cons, List.not_mem_nil, or_false] at hu
    rcases hu with rfl | rfl <;> norm_num
  refine hfail .takeoff (fun u hu _ => ?_) (fun u hu t ht => ?_)
  · have hc := hE.entry .takeoff
    have hst := st_takeoff X 400 (by norm_num) [2000, 3000] (fun w hw => (h2 w hw).le) (by simp) nom (W / gAcc) hn
    have := List.map_inj_left.mp (hc.symm.trans hst) u hu
    rw [this]
    have := h2 u hu
    unfold gAcc
    positivity
  · rw [hinf u hu] at ht
    cases ht

/-! ### C99 -/

/-- Upper end of the vertical axis: without a limit from the user 5% above the largest value of the five curves;
with one exactly that. -/
theorem C99_limit {b dd p : Dict} {a : Option Atmos.Atm} {pa : PropArg} {r : Built} (hb : construct b dd p a pa = .ok r)
    {X : Ext} {w : NumArg} {power area : Bool} {y : Option ℝ} {mb : Bool} {C : Charts}
    (h : charts X r w power area y mb = .ok C) (hne : recastArray w ≠ []) :
    ∃ W nom E, r.concept.weight_n = some W ∧
      seaLevelReq X power (W / gAcc) (recastArray w) (studied r.concept) = .ok nom ∧ Shown nom (recastArray w) E ∧
      (∀ v, y = some v → C.ylim = v) ∧
      (y = none → ∃ t, IsGreatest {x | ∃ q, ∃ u ∈ recastArray w, x = valueOf (E u) q} t ∧ C.ylim = 1.05 * t) := by
  obtain ⟨W, R, nom, bd, hW', hst, -, -, hy, -⟩ := charts_ok h
  obtain ⟨W2, hW2, hn⟩ := C54_nominal hb X w power hst
  rw [hW'] at hW2; cases hW2
  obtain ⟨E, hE, -, -⟩ := nominal_point hn hne
  refine ⟨W, nom, E, hW', hn, hE, ?_, ?_⟩
  · rintro v rfl
    unfold ylimHi at hy
    split at hy
    · cases hy
    · cases hy; rfl
  · rintro rfl
    have hy : (do
      let a ← listMax (recastArray nom.climb)
      let b ← listMax (recastArray nom.cruise)
      let c ← listMax (recastArray nom.servceil)
      let d ← listMax (recastArray nom.takeoff)
      let e ← listMax (recastArray nom.turn)
      let m ← listMax [a, b, c, d, e]
      pure (m * 1.05)) = .ok C.ylim := by
      unfold ylimHi at hy
      split at hy
      · cases hy
      · exact hy
    simp only [bind_ok_iff, pure_ok_iff] at hy
    obtain ⟨m1, a1, m2, a2, m3, a3, m4, a4, m5, a5, m, am, e⟩ := hy
    have c1 := hE.entry .climb
    have c2 := hE.entry .cruise
    have c3 := hE.entry .servceil
    have c4 := hE.entry .takeoff
    have c5 := hE.entry .turn
    simp only [Req.entry] at c1 c2 c3 c4 c5
    have g : ∀ q, ∃ mq, mq ∈ [m1, m2, m3, m4, m5] ∧ ∀ u ∈ recastArray w, valueOf (E u) q ≤ mq := by
      intro q
      cases q
      · exact ⟨m1, by simp, fun u hu => (listMax_ok a1).2 _ (by rw [c1]; exact List.mem_map_of_mem hu)⟩
      · exact ⟨m2, by simp, fun u hu => (listMax_ok a2).2 _ (by rw [c2]; exact List.mem_map_of_mem hu)⟩
      · exact ⟨m3, by simp, fun u hu => (listMax_ok a3).2 _ (by rw [c3]; exact List.mem_map_of_mem hu)⟩
      · exact ⟨m4, by simp, fun u hu => (listMax_ok a4).2 _ (by rw [c4]; exact List.mem_map_of_mem hu)⟩
      · exact ⟨m5, by simp, fun u hu => (listMax_ok a5).2 _ (by rw [c5]; exact List.mem_map_of_mem hu)⟩
    obtain ⟨hm1, hm2⟩ := listMax_ok am
    refine ⟨m, ⟨?_, ?_⟩, by rw [← e]; ring⟩
    · have k1 := (listMax_ok a1).1
      have k2 := (listMax_ok a2).1
      have k3 := (listMax_ok a3).1
      have k4 := (listMax_ok a4).1
      have k5 := (listMax_ok a5).1
      rw [c1, List.mem_map] at k1
      rw [c2, List.mem_map] at k2
      rw [c3, List.mem_map] at k3
      rw [c4, List.mem_map] at k4
      rw [c5, List.mem_map] at k5
      simp only [List.mem_cons, List.not_mem_nil, or_false] at hm1
      rcases hm1 with q | q | q | q | q <;> rw [q]
      · obtain ⟨u, hu, e'⟩ := k1; exact ⟨_, u, hu, e'.symm⟩
      · obtain ⟨u, hu, e'⟩ := k2; exact ⟨_, u, hu, e'.symm⟩
      · obtain ⟨u, hu, e'⟩ := k3; exact ⟨_, u, hu, e'.symm⟩
      · obtain ⟨u, hu, e'⟩ := k4; exact ⟨_, u, hu, e'.symm⟩
      · obtain ⟨u, hu, e'⟩ := k5; exact ⟨_, u, hu, e'.symm⟩
    · rintro x ⟨q, u, hu, rfl⟩
      obtain ⟨mq, hmq, hle⟩ := g q
      exact (hle u hu).trans (hm2 mq hmq)

/-- With the default limit every point of the curves and of the combined front is inside the chart, provided
some requirement is not negative. -/
theorem C99_inside {b dd p : Dict} {a : Option Atmos.Atm} {pa : PropArg} {r : Built} (hb : construct b dd p a pa = .ok r)
    {X : Ext} {w : NumArg} {power area : Bool} {mb : Bool} {C : Charts}
    (h : charts X r w power area none mb = .ok C) (hne : recastArray w ≠ []) :
    ∃ W nom E, r.concept.weight_n = some W ∧
      seaLevelReq X power (W / gAcc) (recastArray w) (studied r.concept) = .ok nom ∧ Shown nom (recastArray w) E ∧
      ((∃ q, ∃ u ∈ recastArray w, 0 ≤ valueOf (E u) q) →
        ∀ u ∈ recastArray w, (∀ q, valueOf (E u) q ≤ C.ylim) ∧ ∀ t, (E u).combined = some t → t ≤ C.ylim) := by
  obtain ⟨W, nom, E, hW, hn, hE, -, hy⟩ := C99_limit hb h hne
  obtain ⟨t, ⟨-, ht⟩, e⟩ := hy rfl
  refine ⟨W, nom, E, hW, hn, hE, ?_⟩
  rintro ⟨q, u, hu, h0⟩ v hv
  have ht0 : 0 ≤ t := h0.trans (ht ⟨q, u, hu, rfl⟩)
  have hle : ∀ q, valueOf (E v) q ≤ C.ylim := by
    intro q
    have := ht ⟨q, v, hv, rfl⟩
    rw [e]
    norm_num
    linarith
  refine ⟨hle, fun s hs => ?_⟩
  have := ((hE.largest v).2.2 s hs).1
  simp only [Set.mem_insert_iff, Set.mem_singleton_iff] at this
  rcases this with q | q | q | q | q <;> rw [q]
  · exact hle .takeoff
  · exact hle .turn
  · exact hle .climb
  · exact hle .cruise
  · exact hle .servceil

end

end Verif.Props
