import Verif.Lemmas.SensWarnings
import Verif.Lemmas.VnWarnings
import Verif.Props.Warnings
import Verif.Props.SensShow
import Verif.Lemmas.Settled

/-
Property C149: the warnings of the sensitivity study.
-/

namespace Verif.Props
open Verif Verif.Units Verif.Aircraft Verif.Airworthiness

/-! ### Specification -/

/-- What is announced about the arguments of the call. -/
inductive Replaced (A : SensArgs) (f : FigSize) : Warning → Prop
  | quantity (h : A.y_var ≠ "tw") (h' : A.y_var ≠ "p_hp") : Replaced A f .unsupportedY
  | axis (h : A.x_var ≠ "ws_pa") (h' : A.x_var ≠ "s_m2") : Replaced A f .unsupportedX
  | limit (h : A.y_lim = .other) : Replaced A f .unsupportedLim
  | numpy (x : ℝ) (h : A.y_lim = .numpy x) (hx : x ≠ 0) : Replaced A f .unsupportedLim
  | figure (l : List ℝ) (h : f = .list l) (hl : l.length ≠ 2) : Replaced A f .figureSize

/-- The concepts the study evaluates: the nominal one, and for each range those with the largest and the smallest listed value. -/
inductive Evaluated (r : Built) : Concept → Prop
  | nominal : Evaluated r (studied r.concept)
  | extreme (i : Fin 3) (k : String) (xs : List ℝ) (v : ℝ) (h : (k, .list xs) ∈ dictNo (spaceOf r) i) (hv : IsLargest xs v ∨ IsSmallest xs v) :
      Evaluated r (varied (studied r.concept) i k v)

/-- The concept can turn at none of the wing loadings. -/
def CannotTurn (X : Ext) (ws : List ℝ) (c : Concept) : Prop :=
  ∃ q, twrequired X c (.array ws) true false = .ok q ∧ NoTurn q.turnfeasible

/-! ### Lemmas -/

/-- What the evaluation of one concept announces. -/
def StateSays (X : Ext) (r : Built) (power : Bool) (ws : List ℝ) (c : Concept) (w : Warning) : Prop :=
  (w = .unknownType ∧ ∃ s, r.concept.propulsion = .str s ∧ s ∉ ["turboprop", "piston", "electric", "jet"]) ∨
  (w = .allInfeasible ∧ power = true ∧ CannotTurn X ws c)

theorem announced_handed {r : Built} {c : Concept} (hp : c.propulsion = handedOn r.concept.propulsion) (w : Warning) :
    Announced c w ↔ w = .unknownType ∧ ∃ s, r.concept.propulsion = .str s ∧ s ∉ ["turboprop", "piston", "electric", "jet"] := by
  constructor
  · intro h
    have no : c.propulsion ≠ .pyFalse := by
      rw [hp]; unfold handedOn; split
      · exact fun h => nomatch h
      · rename_i h; exact h
    cases h with
    | absent h => exact absurd h no
    | code h => exact absurd h no
    | unknown s h h' =>
      refine ⟨rfl, s, ?_, h'⟩
      rw [hp] at h
      cases hc : r.concept.propulsion with
      | pyFalse => rw [hc] at h; cases h
      | str t => rw [hc] at h; exact h
      | pair e => rw [hc] at h; cases h
  · rintro ⟨rfl, s, h, h'⟩
    exact .unknown s (by rw [hp, h]; rfl) h'

theorem yFunction_says (X : Ext) {r : Built} {S : StudyIn} {ws : List ℝ} (hS : S.ws = .array ws) {c : Concept} (u : Option ℝ)
    (hp : c.propulsion = handedOn r.concept.propulsion) :
    Issues (yFunctionW X S (otherWeight c 0 u)) (StateSays X r S.power ws c) := by
  intro q hq w hw
  have hp' : (otherWeight c 0 u).propulsion = handedOn r.concept.propulsion := hp
  unfold StateSays
  rw [← announced_handed hp' w]
  unfold yFunctionW at hq ⊢
  cases hpw : S.power with
  | false =>
    rw [hpw] at hq
    simp only [Bool.false_eq_true, if_false] at hq ⊢
    rw [C146_thrust X _ S.ws true true q ((tw_erase X _ _ _ _).symm.trans hq) w hw]
    simp
  | true =>
    rw [hpw] at hq
    simp only [if_true] at hq ⊢
    obtain ⟨t, ht, hall⟩ := C146_power X _ S.ws S.mass true true q ((power_erase X _ _ _ _ _).symm.trans hq)
    rw [hall w hw]
    rw [twrequired_weight, hS] at ht
    unfold CannotTurn
    constructor
    · rintro (h | ⟨-, h⟩ | ⟨h, h'⟩)
      · exact Or.inl h
      · exact absurd h (lt_irrefl 0)
      · exact Or.inr ⟨h, trivial, t, ht, h'⟩
    · rintro (h | ⟨h, -, t', ht', h'⟩)
      · exact Or.inl h
      · rw [ht] at ht'; cases ht'
        exact Or.inr (Or.inr ⟨h, h'⟩)

theorem varied_says {b dd p : Dict} {a : Option Atmos.Atm} {pa : PropArg} {r : Built} (hb : construct b dd p a pa = .ok r)
    (X : Ext) {S : StudyIn} {ws : List ℝ} (hS : StudyOf r S ws) (i : Fin 3) (k : String) (v : ℝ) (hk : Scalar i k) :
    Issues (evalStateW X S (S.state.set i k v)) (StateSays X r S.power ws (varied (studied r.concept) i k v)) := by
  obtain ⟨r', h1, h2⟩ := construct_varied (a' := some S.atm) (pa' := S.propulsion.asArg) hb i k v hk
  have e : r'.concept = otherWeight (varied (studied r.concept) i k v) 0 (varied (studied r.concept) i k v).weight_n := by
    rw [h2, hS.propulsion, hS.atm, parse_asArg]; rfl
  refine Issues.silent (issues_quiet _) fun k' hk' => ?_
  have : k' = r' := by
    have hk'' : construct _ _ _ _ _ = .ok k' := hk'
    rw [hS.state, h1] at hk''
    cases hk''; rfl
  rw [this, e]
  exact yFunction_says X hS.ws _ rfl

theorem nominal_says {b dd p : Dict} {a : Option Atmos.Atm} {pa : PropArg} {r : Built} (hb : construct b dd p a pa = .ok r)
    (X : Ext) {S : StudyIn} {ws : List ℝ} (hS : StudyOf r S ws) :
    Issues (evalStateW X S S.state) (StateSays X r S.power ws (studied r.concept)) := by
  obtain ⟨_, _, _, _, _, _, _, _, _, _, _, _, _, _, _, _, _, _, _, _, _, hr⟩ := construct_ok hb
  obtain ⟨hat, -, ha, hp⟩ := readConcept_ok hr
  have hat' : AttrsFrom r.brief r.design r.performance (studied r.concept) := by
    obtain ⟨a0, a1, a2, a3, a4, a5, a6, a7, a8, a9, a10, a11, a12, a13, a14, a15, a16, a17, a18, a19, a20, a21, a22, a23, a24, a25, a26, a27, a28, a29, a30, a31, a32, a33, a34, a35, a36, a37, a38, a39, a40⟩ := hat
    exact ⟨a0, a1, a2, a3, a4, a5, a6, a7, a8, a9, a10, a11, a12, a13, a14, a15, a16, a17, a18, a19, a20, a21, a22, a23, a24, a25, a26, a27, a28, a29, a30, a31, a32, a33, a34, a35, a36, a37, a38, a39, a40⟩
  have hc := construct_settled (settled_construct hb) hat' (some S.atm) S.propulsion.asArg (by rw [hS.atm]; rfl)
    (by rw [parse_asArg, hS.propulsion]; rfl)
  refine Issues.silent (issues_quiet _) fun k' hk' => ?_
  have e : k'.concept = otherWeight (studied r.concept) 0 (studied r.concept).weight_n := by
    have hk'' : construct _ _ _ _ _ = .ok k' := hk'
    rw [hS.state, hc] at hk''
    cases hk''; rfl
  rw [e]
  exact yFunction_says X hS.ws _ rfl

theorem fold_issues {α β : Type} {f : β → α → W β} {T : α → Warning → Prop} (l : List α) (h : ∀ a ∈ l, ∀ b, Issues (f b a) (T a)) (b : β) :
    Issues (l.foldlM f b) (fun w => ∃ a ∈ l, T a w) := by
  induction l generalizing b with
  | nil => exact Issues.congr (issues_pure b) fun _ _ w => by simp [Nothing]
  | cons a l ih =>
    rw [List.foldlM_cons]
    refine Issues.congr (Issues.bind (h a (by simp) b) fun b' _ => ih (fun a' ha' => h a' (by simp [ha'])) b') fun _ _ w => ?_
    simp

/-- What one entry of the design space announces. -/
def EntrySays (X : Ext) (r : Built) (power : Bool) (ws : List ℝ) (i : Fin 3) (e : String × Val) (w : Warning) : Prop :=
  ∃ xs v, e.2 = .list xs ∧ (IsLargest xs v ∨ IsSmallest xs v) ∧ StateSays X r power ws (varied (studied r.concept) i e.1 v) w

theorem largest_unique {xs : List ℝ} {u v : ℝ} (h : IsLargest xs u) (h' : IsLargest xs v) : u = v := le_antisymm (h'.2 u h.1) (h.2 v h'.1)

theorem smallest_unique {xs : List ℝ} {u v : ℝ} (h : IsSmallest xs u) (h' : IsSmallest xs v) : u = v := le_antisymm (h.2 v h'.1) (h'.2 u h.1)

theorem entry_says {b dd p : Dict} {a : Option Atmos.Atm} {pa : PropArg} {r : Built} (hb : construct b dd p a pa = .ok r)
    (X : Ext) {S : StudyIn} {ws : List ℝ} (hS : StudyOf r S ws) (i : Fin 3) (R : Recorded) (e : String × Val)
    (hk : ∀ xs, e.2 = .list xs → Scalar i e.1) :
    Issues (studyEntryW X S i R e) (EntrySays X r S.power ws i e) := by
  obtain ⟨k, x⟩ := e
  have other : (∀ xs, x ≠ .list xs) → Issues (pure R : W Recorded) (EntrySays X r S.power ws i (k, x)) := fun h =>
    Issues.congr (issues_pure R) fun _ _ w => ⟨fun h => h.elim, fun ⟨xs, _, hx, _⟩ => h xs hx⟩
  cases x with
  | flag => exact other fun _ h => nomatch h
  | num _ => exact other fun _ h => nomatch h
  | sub _ => exact other fun _ h => nomatch h
  | list xs =>
    have hk' := hk xs rfl
    intro R' hR' w hw
    have hR : (studyEntryW X S i R (k, .list xs)).2 = .ok R' := hR'
    obtain ⟨hi, h1, k1, e1⟩ := bind_success hR
    obtain ⟨lo, h2, k2, e2⟩ := bind_success k1
    obtain ⟨rmax, h3, k3, e3⟩ := bind_success k2
    obtain ⟨rmin, h4, k4, e4⟩ := bind_success k3
    have e0 : (studyEntryW X S i R (k, .list xs)).1 = _ := e1
    have q1 := listMax_ok h1
    have q2 := listMin_ok h2
    rw [e0, e2, e3, e4]
    simp only [List.mem_append, quiet_none, List.not_mem_nil, false_or, or_false]
    rw [varied_says hb X hS i k hi hk' rmax h3 w hw, varied_says hb X hS i k lo hk' rmin h4 w hw]
    constructor
    · rintro (h | h)
      · exact ⟨xs, hi, rfl, Or.inl q1, h⟩
      · exact ⟨xs, lo, rfl, Or.inr q2, h⟩
    · rintro ⟨xs', v, hx, hv, h⟩
      cases hx
      rcases hv with hv | hv
      · rw [largest_unique hv q1] at h; exact Or.inl h
      · rw [smallest_unique hv q2] at h; exact Or.inr h

theorem study_says {b dd p : Dict} {a : Option Atmos.Atm} {pa : PropArg} {r : Built} (hb : construct b dd p a pa = .ok r)
    (X : Ext) (w : NumArg) (power : Bool) (hn : KeysDistinct (spaceOf r)) :
    Issues (studyW X r w power) (fun v => ∃ c, Evaluated r c ∧ StateSays X r power (recastArray w) c v) := by
  unfold KeysDistinct spaceOf at hn
  simp only [List.nodup_append, List.mem_append] at hn
  obtain ⟨⟨n1, n2, n12⟩, n3, n123⟩ := hn
  obtain ⟨rs1, rs2⟩ := ranged_scalar hb
  refine Issues.silent (issues_quiet _) fun S hS' => ?_
  have hS : StudyOf r S (recastArray w) ∧ S.power = power := by
    have h : studyIn r w power = .ok S := hS'
    unfold studyIn at h
    simp only [bind_ok_iff, pure_ok_iff] at h
    obtain ⟨W, -, rfl⟩ := h
    exact ⟨⟨rfl, rfl, rfl, rfl⟩, rfl⟩
  obtain ⟨hS, rfl⟩ := hS
  have l0 := fun R => fold_issues (f := studyEntryW X S 0) r.space.1
    (fun e _ R => entry_says hb X hS 0 R e fun xs _ => ⟨by simp, by simp⟩) R
  have l1 := fun R => fold_issues (f := studyEntryW X S 1) r.space.2.1
    (fun e he R => entry_says hb X hS 1 R e fun xs hx =>
      ⟨fun h => rs1 xs (by rw [← h.2]; exact dget_of_mem_nodup _ n2 _ _ (by rw [← hx]; exact he)), by simp⟩) R
  have l2 := fun R => fold_issues (f := studyEntryW X S 2) r.space.2.2
    (fun e he R => entry_says hb X hS 2 R e fun xs hx =>
      ⟨by simp, fun h => rs2 xs (by rw [← h.2]; exact dget_of_mem_nodup _ n3 _ _ (by rw [← hx]; exact he))⟩) R
  have loop : Issues (studyLoopW X S ⟨r.space.1, r.space.2.1, r.space.2.2⟩) _ := Issues.bind (l0 _) fun R _ => Issues.bind (l1 R) fun R _ => l2 R
  refine Issues.congr (Issues.bind loop fun R _ => Issues.last (nominal_says hb X hS) fun nom _ => issues_pure _) fun _ _ v => ?_
  constructor
  · rintro ((⟨e, he, xs, u, hx, hu, h⟩ | ⟨e, he, xs, u, hx, hu, h⟩ | ⟨e, he, xs, u, hx, hu, h⟩) | h)
    · exact ⟨_, .extreme 0 e.1 xs u (by show (e.1, Val.list xs) ∈ r.space.1; rw [← hx]; exact he) hu, h⟩
    · exact ⟨_, .extreme 1 e.1 xs u (by show (e.1, Val.list xs) ∈ r.space.2.1; rw [← hx]; exact he) hu, h⟩
    · exact ⟨_, .extreme 2 e.1 xs u (by show (e.1, Val.list xs) ∈ r.space.2.2; rw [← hx]; exact he) hu, h⟩
    · exact ⟨_, .nominal, h⟩
  · rintro ⟨c, hc, h⟩
    cases hc with
    | nominal => exact Or.inr h
    | extreme i k xs u hm hu =>
      left
      have hi : i = 0 ∨ i = 1 ∨ i = 2 := by omega
      rcases hi with rfl | rfl | rfl
      · exact Or.inl ⟨(k, .list xs), hm, xs, u, rfl, hu, h⟩
      · exact Or.inr (Or.inl ⟨(k, .list xs), hm, xs, u, rfl, hu, h⟩)
      · exact Or.inr (Or.inr ⟨(k, .list xs), hm, xs, u, rfl, hu, h⟩)

open Classical in
theorem replaced_iff (A : SensArgs) (f : FigSize) (w : Warning) :
    ((w = .unsupportedY ∧ A.y_var ∉ ["tw", "p_hp"]) ∨ (w = .unsupportedLim ∧ A.y_lim.wrong) ∨
      (w = .unsupportedX ∧ A.x_var ∉ ["ws_pa", "s_m2"]) ∨ (w = .figureSize ∧ f.wrong = true)) ↔ Replaced A f w := by
  constructor
  · rintro (⟨rfl, h⟩ | ⟨rfl, h⟩ | ⟨rfl, h⟩ | ⟨rfl, h⟩)
    · simp only [List.mem_cons, List.not_mem_nil, or_false, not_or] at h
      exact .quantity h.1 h.2
    · cases hl : A.y_lim with
      | none => rw [hl] at h; exact h.elim
      | number x => rw [hl] at h; exact h.elim
      | numpy x => rw [hl] at h; exact .numpy x hl h
      | other => exact .limit hl
    · simp only [List.mem_cons, List.not_mem_nil, or_false, not_or] at h
      exact .axis h.1 h.2
    · cases f with
      | none => cases h
      | other => cases h
      | list l => exact .figure l rfl (by simpa [FigSize.wrong] using h)
  · intro h
    cases h with
    | quantity h h' => exact Or.inl ⟨rfl, by simp [h, h']⟩
    | axis h h' => exact Or.inr (Or.inr (Or.inl ⟨rfl, by simp [h, h']⟩))
    | limit h => exact Or.inr (Or.inl ⟨rfl, by rw [h]; trivial⟩)
    | numpy x h hx => exact Or.inr (Or.inl ⟨rfl, by rw [h]; exact hx⟩)
    | figure l h hl => exact Or.inr (Or.inr (Or.inr ⟨rfl, by rw [h]; simpa [FigSize.wrong] using hl⟩))

/-! ### C149 -/

/-- The charts are those of C116. -/
theorem C149_values (X : Ext) (r : Built) (w : NumArg) (A : SensArgs) (f : FigSize) :
    (propulsionsensitivity_monotheticW X r w A f).2 = propulsionsensitivity_monothetic X r w A := sens_erase X r w A f

/-- Arguments that are replaced are announced, whether or not the study completes. -/
theorem C149_arguments (X : Ext) (r : Built) (w : NumArg) (A : SensArgs) (f : FigSize) (v : Warning) (h : Replaced A f v) :
    v ∈ (propulsionsensitivity_monotheticW X r w A f).1 := by
  classical
  have step : ∀ {p : Prop} [Decidable p] {u : Warning} {β : Type} {g : Unit → W β}, (warnIf p u >>= g).1 = (warnIf p u).1 ++ (g ()).1 := by
    intro p _ u β g
    unfold warnIf
    split <;> rfl
  unfold propulsionsensitivity_monotheticW
  rw [step, step, step, step]
  simp only [List.mem_append, warnIf_mem]
  rcases (replaced_iff A f v).mpr h with h | h | h | h
  · exact Or.inl h
  · exact Or.inr (Or.inl h)
  · exact Or.inr (Or.inr (Or.inl h))
  · exact Or.inr (Or.inr (Or.inr (Or.inl h)))

/-- A study that completes announces exactly: the arguments it replaced, an unknown engine type, and (for the power) that one of the
concepts it evaluates cannot turn at any of the wing loadings; besides the bounded span efficiencies of C146. -/
theorem C149_warnings {b dd p : Dict} {a : Option Atmos.Atm} {pa : PropArg} {r : Built} (hb : construct b dd p a pa = .ok r)
    (X : Ext) (w : NumArg) (A : SensArgs) (f : FigSize) (hn : KeysDistinct (spaceOf r)) {L : List Drawn}
    (h : propulsionsensitivity_monothetic X r w A = .ok L) (v : Warning) (hv : v ≠ .outOfBounds) :
    v ∈ (propulsionsensitivity_monotheticW X r w A f).1 ↔ Replaced A f v ∨
      (v = .unknownType ∧ ∃ s, r.concept.propulsion = .str s ∧ s ∉ ["turboprop", "piston", "electric", "jet"]) ∨
      (v = .allInfeasible ∧ A.y_var = "p_hp" ∧ ∃ c, Evaluated r c ∧ CannotTurn X (recastArray w) c) := by
  classical
  have data : Issues (sensDataW X r w (yVar A.y_var) (xVar A.x_var) (yLim A.y_lim)) _ :=
    (issues_quiet _).silent fun W _ => Issues.last (study_says hb X w (decide (yVar A.y_var = "p_hp")) hn) fun ⟨R, nom⟩ _ =>
      (issues_quiet _).silent fun _ _ => (issues_quiet _).silent fun _ _ => (issues_quiet _).silent fun _ _ => issues_pure _
  have all : Issues (propulsionsensitivity_monotheticW X r w A f) _ :=
    Issues.bind (warnIf_issues _ _) fun _ _ => Issues.bind (warnIf_issues _ _) fun _ _ => Issues.bind (warnIf_issues _ _) fun _ _ =>
      Issues.bind (warnIf_issues _ _) fun _ _ => Issues.last data fun _ _ => issues_quiet _
  rw [all L ((sens_erase X r w A f).trans h) v hv, ← replaced_iff, yVar_power]
  constructor
  · rintro (h | h | h | h | ⟨c, hc, h | ⟨h1, h2, h3⟩⟩)
    · exact Or.inl (Or.inl h)
    · exact Or.inl (Or.inr (Or.inl h))
    · exact Or.inl (Or.inr (Or.inr (Or.inl h)))
    · exact Or.inl (Or.inr (Or.inr (Or.inr h)))
    · exact Or.inr (Or.inl h)
    · exact Or.inr (Or.inr ⟨h1, of_decide_eq_true h2, c, hc, h3⟩)
  · rintro ((h | h | h | h) | h | ⟨h1, h2, c, hc, h3⟩)
    · exact Or.inl h
    · exact Or.inr (Or.inl h)
    · exact Or.inr (Or.inr (Or.inl h))
    · exact Or.inr (Or.inr (Or.inr (Or.inl h)))
    · exact Or.inr (Or.inr (Or.inr (Or.inr ⟨_, .nominal, Or.inl h⟩)))
    · exact Or.inr (Or.inr (Or.inr (Or.inr ⟨c, hc, Or.inr ⟨h1, decide_eq_true h2, h3⟩⟩)))

/-- What the requirement of the concept itself announces, the study of it keeps quiet about: that no propulsion system was given (which
the study then takes for one without corrections), that a bypass ratio is no type code, that efficiencies were set to defaults. -/
theorem C149_silent_violated {b dd p : Dict} {a : Option Atmos.Atm} {pa : PropArg} {r : Built} (hb : construct b dd p a pa = .ok r)
    (X : Ext) (w : NumArg) (A : SensArgs) (f : FigSize) (hn : KeysDistinct (spaceOf r)) {L : List Drawn}
    (h : propulsionsensitivity_monothetic X r w A = .ok L) :
    (.noPropulsion ∉ (propulsionsensitivity_monotheticW X r w A f).1 ∧ .deprecatedBpr ∉ (propulsionsensitivity_monotheticW X r w A f).1 ∧
      ∀ n, .etaDefaults n ∉ (propulsionsensitivity_monotheticW X r w A f).1) ∧
    (r.concept.propulsion = .pyFalse → ∀ q, twrequired X r.concept w true true = .ok q →
      .noPropulsion ∈ (twrequiredW X r.concept w true true).1) ∧
    (0 < r.concept.etadefaultflag → ∀ m q, powerrequired X r.concept w m true true = .ok q →
      .etaDefaults r.concept.etadefaultflag ∈ (powerrequiredW X r.concept w m true true).1) := by
  have no : ∀ v, v ≠ .outOfBounds → v ≠ .unknownType → v ≠ .allInfeasible → ¬ Replaced A f v →
      v ∉ (propulsionsensitivity_monotheticW X r w A f).1 := by
    intro v h1 h2 h3 h4 hm
    rcases (C149_warnings hb X w A f hn h v h1).mp hm with h | h | h
    · exact h4 h
    · exact h2 h.1
    · exact h3 h.1
  refine ⟨⟨?_, ?_, fun n => ?_⟩, fun hp q hq => ?_, fun hf m q hq => ?_⟩
  · exact no _ (by simp) (by simp) (by simp) (fun h => nomatch h)
  · exact no _ (by simp) (by simp) (by simp) (fun h => nomatch h)
  · exact no _ (by simp) (by simp) (by simp) (fun h => nomatch h)
  · exact (C146_thrust X _ w true true q hq _ (by simp)).mpr (.absent hp)
  · obtain ⟨t, -, ht⟩ := C146_power X _ w m true true q hq
    exact (ht _ (by simp)).mpr (Or.inr (Or.inl ⟨rfl, hf⟩))

/-- A text that names no chart draws nothing, and nothing is said of it: the warnings are those of the call that shows all charts. -/
theorem C149_show_violated {b dd p : Dict} {a : Option Atmos.Atm} {pa : PropArg} {r : Built} (hb : construct b dd p a pa = .ok r)
    (X : Ext) (w : NumArg) (A : SensArgs) (f : FigSize) (hn : KeysDistinct (spaceOf r)) {L : List Drawn}
    (h : propulsionsensitivity_monothetic X r w { A with shown := .yes } = .ok L) (s : String) (hs : s ∉ chartNames) :
    propulsionsensitivity_monothetic X r w { A with shown := .text s } = .ok [] ∧
    ∀ v, v ≠ .outOfBounds → (v ∈ (propulsionsensitivity_monotheticW X r w { A with shown := .text s } f).1 ↔
      v ∈ (propulsionsensitivity_monotheticW X r w { A with shown := .yes } f).1) := by
  have h' := (C116_show X r w A h).2.2.2 s hs
  refine ⟨h', fun v hv => ?_⟩
  have e : Replaced { A with shown := .text s } f v ↔ Replaced { A with shown := .yes } f v := by
    rw [← replaced_iff, ← replaced_iff]
  rw [C149_warnings hb X w _ f hn h' v hv, C149_warnings hb X w _ f hn h v hv, e]

/-- A limit of 0 is not looked at: it is kept as the limit of the vertical axis, without a warning. -/
theorem C149_limit_violated {b dd p : Dict} {a : Option Atmos.Atm} {pa : PropArg} {r : Built} (hb : construct b dd p a pa = .ok r)
    (X : Ext) (w : NumArg) (A : SensArgs) (f : FigSize) (hn : KeysDistinct (spaceOf r)) {L : List Drawn}
    (h : propulsionsensitivity_monothetic X r w { A with y_lim := .number 0 } = .ok L) :
    .unsupportedLim ∉ (propulsionsensitivity_monotheticW X r w { A with y_lim := .number 0 } f).1 ∧
    ∀ c, Drawn.combined c ∈ L → c.ylim = 0 := by
  refine ⟨fun hm => ?_, fun c hc => (C116_numpy_violated X r w A 0).1 L c h hc⟩
  rcases (C149_warnings hb X w _ f hn h _ (by simp)).mp hm with h | h | h
  · cases h with
    | limit h => cases h
    | numpy x h _ => cases h
  · cases h.1
  · cases h.1

/-! ### Cases -/

/-- The light aircraft without propulsion data, an unknown quantity, a figure size of three numbers: the arguments are announced, the
missing propulsion system is not, though the requirement itself announces it. -/
example (X : Ext) : .unsupportedY ∈ (propulsionsensitivity_monotheticW X stBuilt (.array [500, 1000]) stArgs (.list [1, 2, 3])).1 ∧
    .figureSize ∈ (propulsionsensitivity_monotheticW X stBuilt (.array [500, 1000]) stArgs (.list [1, 2, 3])).1 ∧
    .unsupportedX ∉ (propulsionsensitivity_monotheticW X stBuilt (.array [500, 1000]) stArgs (.list [1, 2, 3])).1 ∧
    .noPropulsion ∉ (propulsionsensitivity_monotheticW X stBuilt (.array [500, 1000]) stArgs (.list [1, 2, 3])).1 ∧
    .noPropulsion ∈ (twrequiredW X stBuilt.concept (.array [500, 1000]) true true).1 := by
  obtain ⟨L, hL⟩ := st_call X stArgs rfl
  have hL' : propulsionsensitivity_monothetic X stBuilt (.array [500, 1000]) stArgs = .ok L := hL
  obtain ⟨⟨h1, -, -⟩, h2, -⟩ := C149_silent_violated st_built X _ stArgs (.list [1, 2, 3]) st_distinct hL'
  obtain ⟨q, hq⟩ := exC_tw X (-1) .pyFalse (by norm_num [PropOK, pyNum]) (.array [500, 1000]) true true
  refine ⟨C149_arguments X _ _ _ _ _ (.quantity (by simp [stArgs]) (by simp [stArgs])), C149_arguments X _ _ _ _ _ (.figure _ rfl (by simp)),
    fun hm => ?_, h1, h2 rfl q hq⟩
  rcases (C149_warnings st_built X _ _ _ st_distinct hL' _ (by simp)).mp hm with h | h | h
  · cases h with
    | axis h h' => exact h' rfl
  · cases h.1
  · cases h.1

/-- A misspelt chart is not drawn, in silence; a limit of 0 is kept. -/
example (X : Ext) : propulsionsensitivity_monothetic X stBuilt (.array [500, 1000]) { stArgs with shown := .text "takeoff" } = .ok [] ∧
    (∃ L, propulsionsensitivity_monothetic X stBuilt (.array [500, 1000]) { stArgs with y_lim := .number 0 } = .ok L ∧
      .unsupportedLim ∉ (propulsionsensitivity_monotheticW X stBuilt (.array [500, 1000]) { stArgs with y_lim := .number 0 } .none).1) := by
  obtain ⟨L, hL⟩ := st_call X stArgs rfl
  obtain ⟨L', hL'⟩ := st_call X { stArgs with y_lim := .number 0 } rfl
  exact ⟨(C149_show_violated st_built X _ stArgs .none st_distinct hL "takeoff" (by decide)).1, L', hL',
    (C149_limit_violated st_built X _ stArgs .none st_distinct hL').1⟩

/-- At wing loadings of 100 and 200 kPa the light aircraft cannot turn at all: the power study announces it, the thrust study does not. -/
example (X : Ext) : CannotTurn X [100000, 200000] (studied stBuilt.concept) ∧
    .allInfeasible ∈ (propulsionsensitivity_monotheticW X stBuilt (.array [100000, 200000]) { stArgs with y_var := "p_hp" } .none).1 ∧
    .allInfeasible ∉ (propulsionsensitivity_monotheticW X stBuilt (.array [100000, 200000]) stArgs .none).1 := by
  have call : ∀ A : SensArgs, A.maskbool = false →
      ∃ L, propulsionsensitivity_monothetic X stBuilt (.array [100000, 200000]) { A with shown := .yes } = .ok L := by
    intro A hm
    refine (C116_charts X stBuilt (.array [100000, 200000]) A (by simp [recastArray])).1.mpr ?_
    rw [hm]
    exact st_charts X _ _ _ [100000, 200000] (by simp) (by norm_num) (by norm_num)
  have turn : CannotTurn X [100000, 200000] (studied stBuilt.concept) := by
    rcases tw_point X (studied stBuilt.concept) true false with ⟨e, he⟩ | ⟨R, hR, -, -, -, -, -, -, hf⟩
    · obtain ⟨r, hr⟩ := (C48_given X (studied stC) (.array [100000, 200000]) true false st_ready (by simp [Missing, stC, studied, exC])).1
      have := he (.array [100000, 200000]) (by simp [recastArray])
      rw [show studied stBuilt.concept = studied stC from rfl, hr] at this
      cases this
    · have big : ∀ w, 100000 ≤ w → (R w).turnfeasible = none := by
        intro w hw
        obtain ⟨s, n, t, q, m, K, hin, e⟩ := turncl_eq (b := false) (e := R w) (by rw [hR]; rfl)
        have hn := hin.load
        have hs := hin.speed
        have hq := hin.press
        have e1 : n = 2 := by simpa [stBuilt, stC, studied, exC] using hn.symm
        have e2 : s = 120 := by simpa [stBuilt, stC, studied, exC] using hs.symm
        subst e1 e2
        unfold Atmos.dynamicpressure_pa at hq
        have hd : Atmos.dens1 (studied stBuilt.concept).designatm (pyNum (studied stBuilt.concept).turnalt_m) = .ok 1 :=
          exAtm_dens 1000 (by norm_num) (by norm_num)
        rw [hd, bind_ok] at hq
        cases hq
        have e' : (R w).turncl = w * 1 * 1 * 2 / (0.5 * 1 * kts2mps 120 ^ 2) := e
        rw [hf, if_pos]
        show (R w).turncl > 1.5
        rw [e', gt_iff_lt, lt_div_iff₀ (by norm_num [kts2mps])]
        refine lt_of_lt_of_le (b := 100000 * 1 * 1 * 2) (by norm_num [kts2mps]) (by linarith)
      refine ⟨_, hR (.array [100000, 200000]), ?_⟩
      show ∀ y ∈ _, y = none
      simp [recastArray, big 100000 (by norm_num), big 200000 (by norm_num)]
  obtain ⟨L, hL⟩ := call { stArgs with y_var := "p_hp" } rfl
  obtain ⟨L', hL'⟩ := call stArgs rfl
  refine ⟨turn, (C149_warnings st_built X _ _ _ st_distinct hL _ (by simp)).mpr (Or.inr (Or.inr ⟨rfl, rfl, _, .nominal, turn⟩)), fun hm => ?_⟩
  rcases (C149_warnings st_built X _ _ _ st_distinct hL' _ (by simp)).mp hm with h | h | h
  · cases h
  · cases h.1
  · exact absurd h.2.1 (by simp [stArgs])

end Verif.Props
