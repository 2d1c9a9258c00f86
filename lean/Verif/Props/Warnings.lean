import Verif.Lemmas.Warnings
import Verif.Lemmas.Point
import Verif.Props.Constraint5
import Verif.Props.Concept3

/-
Property C146: the warnings of the thrust and power requirements.
-/

namespace Verif.Props
open Verif Verif.Units Verif.Aircraft

variable {α β : Type}

/-- What is announced about the propulsion system of a concept: that none was given, that the bypass ratio is none of the type codes,
that a type name is not known. -/
inductive Announced (c : Concept) : Warning → Prop
  | absent (h : c.propulsion = .pyFalse) : Announced c .noPropulsion
  | code (h : c.propulsion = .pyFalse) (h0 : -3 < pyNum c.bpr) (h1 : pyNum c.bpr < 0) (h2 : pyNum c.bpr ≠ -1) (h3 : pyNum c.bpr ≠ -2) :
      Announced c .deprecatedBpr
  | unknown (s : String) (h : c.propulsion = .str s) (h' : s ∉ ["turboprop", "piston", "electric", "jet"]) : Announced c .unknownType

/-- A computation that, when it succeeds, issues no warnings other than those of the set and `outOfBounds`. -/
def AtMost (x : W α) (S : Warning → Prop) : Prop := ∀ a, x.2 = .ok a → ∀ w, w ≠ .outOfBounds → w ∈ x.1 → S w

theorem AtMost.bind {x : W α} {f : α → W β} {S : Warning → Prop} (h : AtMost x S) (k : ∀ a, x.2 = .ok a → AtMost (f a) S) :
    AtMost (x >>= f) S := by
  intro b hb w hw hm
  obtain ⟨a, h1, h2, h3⟩ := bind_success hb
  rw [h3, List.mem_append] at hm
  rcases hm with hm | hm
  · exact h a h1 w hw hm
  · exact k a h1 b h2 w hw hm

theorem Issues.most {x : W α} {S : Warning → Prop} (h : Issues x S) : AtMost x S := fun a ha w hw hm => (h a ha w hw).mp hm

theorem Issues.mono_most {x : W α} {S T : Warning → Prop} (h : Issues x S) (hs : ∀ w, S w → T w) : AtMost x T :=
  fun a ha w hw hm => hs w ((h a ha w hw).mp hm)

theorem AtMost.bind_issues {x : W α} {f : α → W β} {S T : Warning → Prop} (h : AtMost x S) (hs : ∀ w, S w → T w)
    (k : ∀ a, x.2 = .ok a → Issues (f a) T) : Issues (x >>= f) T := by
  intro b hb w hw
  obtain ⟨a, h1, h2, h3⟩ := bind_success hb
  rw [h3, List.mem_append, k a h1 b h2 w hw]
  constructor
  · rintro (hm | hm)
    · exact hs w (h a h1 w hw hm)
    · exact hm
  · exact Or.inr

theorem Issues.bind_most {x : W α} {f : α → W β} {S : Warning → Prop} (h : Issues x S) (k : ∀ a, x.2 = .ok a → AtMost (f a) S) :
    Issues (x >>= f) S := by
  intro b hb w hw
  obtain ⟨a, h1, h2, h3⟩ := bind_success hb
  rw [h3, List.mem_append, h a h1 w hw]
  constructor
  · rintro (hm | hm)
    · exact hm
    · exact k a h1 b h2 w hw hm
  · exact Or.inl

theorem Issues.congr {x : W α} {S T : Warning → Prop} (h : Issues x S) (e : ∀ a, x.2 = .ok a → ∀ w, S w ↔ T w) : Issues x T :=
  fun a ha w hw => (h a ha w hw).trans (e a ha w)

theorem no_most {x : W α} {S : Warning → Prop} (h : Issues x Nothing) : AtMost x S := Issues.mono_most h fun _ h => h.elim

theorem strAll_warnings (X : Ext) (c : Concept) (s : String) (t p d : ℝ) (ms : List ℝ) (w : Warning) (r : List ℝ)
    (h : (strCorrAllW X c s t p d ms).2 = .ok r) :
    w ∈ (strCorrAllW X c s t p d ms).1 ↔ w = .unknownType ∧ s ∉ ["turboprop", "piston", "electric", "jet"] ∧ ms ≠ [] := by
  induction ms generalizing r with
  | nil => simp [strCorrAllW, pure]
  | cons m ms ih =>
    obtain ⟨x, h1, h2, h3⟩ := bind_success h
    obtain ⟨xs, h4, h5, h6⟩ := bind_success h2
    have e : (strCorrAllW X c s t p d (m :: ms)).1 = _ := h3
    rw [e, h6, List.mem_append, List.mem_append, ih xs h4]
    have hn : ∀ {γ : Type} (y : γ), (pure y : W γ).1 = [] := fun _ => rfl
    rw [hn]
    unfold strCorrW
    split_ifs with a1 a2 a3 a4
    · subst a1; simp [hn]
    · subst a2; simp [hn]
    · subst a3; simp [hn]
    · subst a4; simp [quiet]
    · have hw : ∀ y : ℝ, (warn .unknownType >>= fun _ => (pure y : W ℝ)).1 = [.unknownType] := fun _ => rfl
      rw [hw]
      simp [a1, a2, a3, a4]
      tauto

/-- The warnings of one correction. -/
theorem slcorr_warnings (X : Ext) (c : Concept) (v : NumArg) (alt : ℝ) :
    AtMost (slcorrW X c v alt) (Announced c) ∧
    ((∀ ms, Atmos.mach c.designatm v (.scalar alt) = .ok ms → ms ≠ []) → Issues (slcorrW X c v alt) (Announced c)) := by
  have key : ∀ a, (slcorrW X c v alt).2 = .ok a → ∃ ms, Atmos.mach c.designatm v (.scalar alt) = .ok ms ∧
      ∀ w, (w ∈ (slcorrW X c v alt).1 → Announced c w) ∧ (ms ≠ [] → Announced c w → w ∈ (slcorrW X c v alt).1) := by
    intro a ha
    obtain ⟨pr, h1, h2, h3⟩ := bind_success ha
    obtain ⟨ms, h4, h5, h6⟩ := bind_success h2
    refine ⟨ms, (machW_erase _ _ _).symm.trans h4, fun w => ?_⟩
    have e : (slcorrW X c v alt).1 = (resolvePropulsionW c).1 ++ (corrOfW X c pr ms alt).1 := by
      refine h3.trans ?_
      rw [h6, machW_silent]; rfl
    rw [e]
    have str : ∀ s, (corrOfW X c (.str s) ms alt).2 = .ok a →
        (w ∈ (corrOfW X c (.str s) ms alt).1 ↔ w = .unknownType ∧ s ∉ ["turboprop", "piston", "electric", "jet"] ∧ ms ≠ []) := by
      intro s hs
      obtain ⟨t, _, k1, e1⟩ := bind_success hs
      obtain ⟨p, _, k2, e2⟩ := bind_success k1
      obtain ⟨d, _, k3, e3⟩ := bind_success k2
      obtain ⟨ts, k4, _, e4⟩ := bind_success k3
      have : (corrOfW X c (.str s) ms alt).1 = (strCorrAllW X c s t p d ms).1 := by
        refine e1.trans ?_
        rw [e2, e3, e4]
        show ([] ++ ([] ++ ([] ++ (_ ++ [])))) = _
        simp
      rw [this]
      exact strAll_warnings X c s t p d ms w ts k4
    unfold resolvePropulsionW at h1 ⊢
    cases hp : c.propulsion with
    | pair e =>
      rw [hp] at h1
      cases h1
      have hno : ∀ w, ¬ Announced c w := by
        intro w hw
        cases hw with
        | absent h => rw [hp] at h; cases h
        | code h => rw [hp] at h; cases h
        | unknown s h => rw [hp] at h; cases h
      exact ⟨fun hm => (by cases hm), fun _ hw => absurd hw (hno w)⟩
    | str s =>
      rw [hp] at h1
      cases h1
      show (w ∈ [] ++ _ → _) ∧ (_ → _ → w ∈ [] ++ _)
      rw [List.nil_append, str s h5]
      constructor
      · rintro ⟨rfl, hs, -⟩
        exact .unknown s hp hs
      · intro hne hw
        cases hw with
        | absent h => rw [hp] at h; cases h
        | code h => rw [hp] at h; cases h
        | unknown s' h h' => rw [hp] at h; cases h; exact ⟨rfl, h', hne⟩
    | pyFalse =>
      rw [hp] at h1
      dsimp only at h1 ⊢
      have h1' : (bprPropulsionW (pyNum c.bpr)).2 = .ok pr := h1
      have e1 : (warn .noPropulsion >>= fun _ => bprPropulsionW (pyNum c.bpr)).1 = .noPropulsion :: (bprPropulsionW (pyNum c.bpr)).1 := rfl
      rw [e1]
      have known : ∀ s, s ∈ ["turboprop", "piston", "electric", "jet"] → pr = .str s → (bprPropulsionW (pyNum c.bpr)).1 = [] →
          (∀ h0 : -3 < pyNum c.bpr, ∀ h1 : pyNum c.bpr < 0, pyNum c.bpr ≠ -1 → pyNum c.bpr ≠ -2 → False) →
          (w ∈ .noPropulsion :: (bprPropulsionW (pyNum c.bpr)).1 ++ (corrOfW X c pr ms alt).1 → Announced c w) ∧
          (ms ≠ [] → Announced c w → w ∈ .noPropulsion :: (bprPropulsionW (pyNum c.bpr)).1 ++ (corrOfW X c pr ms alt).1) := by
        rintro s hs rfl hb hcode
        have := str s h5
        rw [hb]
        constructor
        · intro hm
          simp only [List.cons_append, List.nil_append, List.mem_cons] at hm
          rcases hm with rfl | hm
          · exact .absent hp
          · exact absurd hs (this.mp hm).2.1
        · intro _ hw
          cases hw with
          | absent h => simp
          | code h h0 h1 h2 h3 => exact absurd trivial (fun _ => hcode h0 h1 h2 h3)
          | unknown s' h h' => rw [hp] at h; cases h
      unfold bprPropulsionW at h1' ⊢ known
      split_ifs at h1' ⊢ known with b1 b2 b3 b4 b5
      · cases h1'; exact known "jet" (by simp) rfl rfl (fun _ h _ _ => absurd h (not_lt.mpr b1))
      · cases h1'; exact known "piston" (by simp) rfl rfl (fun _ _ h _ => h b2)
      · cases h1'; exact known "turboprop" (by simp) rfl rfl (fun _ _ _ h => h b3)
      · cases h1'; exact known "electric" (by simp) rfl rfl (fun h _ _ _ => absurd h (by rw [b4]; exact lt_irrefl _))
      · cases h1'
        constructor
        · intro hm
          have hm' : w ∈ [Warning.noPropulsion, Warning.deprecatedBpr] := hm
          simp only [List.mem_cons, List.not_mem_nil, or_false] at hm'
          rcases hm' with rfl | rfl
          · exact .absent hp
          · exact .code hp (lt_of_le_of_ne b5.1 (Ne.symm b4)) b5.2 b2 b3
        · intro _ hw
          show w ∈ [Warning.noPropulsion, Warning.deprecatedBpr]
          cases hw with
          | absent h => simp
          | code h h0 h1 h2 h3 => simp
          | unknown s' h h' => rw [hp] at h; cases h
      · cases h1'
  constructor
  · intro a ha w _ hm
    obtain ⟨ms, _, k⟩ := key a ha
    exact (k w).1 hm
  · intro hne a ha w _
    obtain ⟨ms, h1, k⟩ := key a ha
    exact ⟨(k w).1, (k w).2 (hne ms h1)⟩

theorem slcorr_scalar (X : Ext) (c : Concept) (v alt : ℝ) : Issues (slcorrW X c (.scalar v) alt) (Announced c) := by
  refine (slcorr_warnings X c _ alt).2 fun ms h => ?_
  obtain ⟨m, h⟩ := Atmos.mach_scalar h
  rw [h]; simp

/-- The cruise lift coefficient is not known. -/
def NoCruise (c : Concept) (w : Warning) : Prop := w = .cruiseMissing ∧ (c.cruisespeed_ktas = none ∨ c.cruisealt_m = none)

theorem clm_warnings (X : Ext) (c : Concept) (w : NumArg) (b : Bool) :
    Issues (twrequired_clmW X c w b) (fun w => Announced c w ∨ NoCruise c w) := by
  refine (issues_quiet _).silent fun _ _ => (issues_quiet _).silent fun _ _ => (issues_quiet _).silent fun _ _ =>
    (issues_quiet _).silent fun _ _ => ?_
  refine (slcorr_scalar X c _ _).bind fun ⟨_, _⟩ _ => ?_
  refine (issues_quiet _).silent fun _ _ => (issues_mach1 _ _ _).silent fun _ _ => ?_
  exact (issues_lesm X c _ _ _).last fun _ _ => (issues_quiet _).silent fun _ _ => (issues_quiet _).silent fun _ _ => issues_pure _

theorem sec_warnings (X : Ext) (c : Concept) (w : NumArg) (b : Bool) :
    Issues (twrequired_secW X c w b) (fun w => Announced c w ∨ NoCruise c w) := by
  refine (issues_quiet _).silent fun _ _ => (issues_quiet _).silent fun _ _ => (issues_quiet _).silent fun _ _ => ?_
  refine (slcorr_scalar X c _ _).bind fun ⟨_, _⟩ _ => ?_
  refine (issues_quiet _).silent fun _ _ => (issues_mach1 _ _ _).silent fun _ _ => ?_
  exact (issues_lesm X c _ _ _).last fun _ _ => (issues_quiet _).silent fun _ _ => (issues_quiet _).silent fun _ _ =>
    (issues_quiet _).silent fun _ _ => issues_pure _

theorem crs_warnings (X : Ext) (c : Concept) (w : NumArg) (b : Bool) :
    Issues (twrequired_crsW X c w b) (fun w => Announced c w ∨ NoCruise c w) := by
  refine (issues_quiet _).silent fun _ _ => (issues_quiet _).silent fun _ _ => ?_
  refine (slcorr_scalar X c _ _).bind fun ⟨_, _⟩ _ => ?_
  refine (issues_quiet _).silent fun _ _ => (issues_mach1 _ _ _).silent fun _ _ => ?_
  exact (issues_lesm X c _ _ _).last fun _ _ => (issues_quiet _).silent fun _ _ => (issues_quiet _).silent fun _ _ => issues_pure _

theorem trn_warnings (X : Ext) (c : Concept) (w : NumArg) (b : Bool) :
    Issues (twrequired_trnW X c w b) (fun w => Announced c w ∨ NoCruise c w) := by
  refine (issues_quiet _).silent fun _ _ => (issues_quiet _).silent fun _ _ => ?_
  refine Issues.congr (Issues.bind (S := NoCruise c) (T := Announced c) ?_ fun ⟨_, _⟩ _ => ?_) fun _ _ _ => or_comm
  · refine (issues_mach1 _ _ _).silent fun _ _ => (issues_quiet _).silent fun _ _ => ?_
    exact (issues_lesm X c _ _ _).last fun _ _ => (issues_quiet _).silent fun _ _ => issues_pure _
  · exact (slcorr_scalar X c _ _).last fun ⟨_, _⟩ _ => (issues_quiet _).silent fun _ _ => issues_pure _

theorem toAll_warnings (X : Ext) (c : Concept) (tws lofs : List ℝ) : AtMost (takeoffSlAllW X c tws lofs) (Announced c) := by
  induction tws generalizing lofs with
  | nil => cases lofs <;> exact no_most (issues_pure _)
  | cons t tws ih =>
    cases lofs with
    | nil => exact no_most (issues_pure _)
    | cons l lofs =>
      refine AtMost.bind ?_ fun _ _ => AtMost.bind (ih lofs) fun _ _ => no_most (issues_pure _)
      exact Issues.most ((slcorr_scalar X c _ _).last fun ⟨_, _⟩ _ => (issues_quiet _).silent fun _ _ => issues_pure _)

theorem to_warnings (X : Ext) (c : Concept) (w : NumArg) (b : Bool) : AtMost (twrequired_toW X c w b) (Announced c) := by
  have no : ∀ {γ : Type} {x : W γ}, Issues x Nothing → AtMost x (Announced c) := no_most
  refine (no (issues_quiet _)).bind fun _ _ => (no (issues_quiet _)).bind fun ⟨tw, lof⟩ _ => ?_
  refine AtMost.bind ?_ fun _ _ => no (issues_pure _)
  unfold takeoffMapW
  split
  · exact toAll_warnings X c _ _
  · exact no (issues_pure _)

/-- The results are those of the calls without regard to warnings. -/
theorem C146_values (X : Ext) (c : Concept) (w : NumArg) (tow : ℝ) (f b : Bool) :
    (twrequiredW X c w f b).2 = twrequired X c w f b ∧ (powerrequiredW X c w tow f b).2 = powerrequired X c w tow f b :=
  ⟨tw_erase X c w f b, power_erase X c w tow f b⟩

theorem tw_warnings (X : Ext) (c : Concept) (w : NumArg) (f b : Bool) : Issues (twrequiredW X c w f b) (Announced c) := by
  refine (to_warnings X c _ _).bind_issues (fun _ h => h) fun ⟨_, _, _⟩ _ => ?_
  have given : ∀ x, (twrequired_crsW X c (.array (recastArray w)) b).2 = .ok x → ∀ w, ¬ NoCruise c w := by
    rintro x hx w ⟨-, h⟩
    rw [crs_erase] at hx
    unfold twrequired_crs at hx
    simp only [bind_ok_iff] at hx
    obtain ⟨v, h1, alt, h2, -⟩ := hx
    rcases h with h | h
    · rw [h] at h1; cases h1
    · rw [h] at h2; cases h2
  intro r hr
  obtain ⟨⟨a1, a2, a3⟩, h1, hr1, e1⟩ := bind_success hr
  obtain ⟨a4, h2, hr2, e2⟩ := bind_success hr1
  obtain ⟨a5, h3, hr3, e3⟩ := bind_success hr2
  obtain ⟨a6, h4, hr4, e4⟩ := bind_success hr3
  intro w hw
  have n := given _ h3 w
  have t1 := trn_warnings X c _ b _ h1 w hw
  have t2 := clm_warnings X c _ b _ h2 w hw
  have t3 := crs_warnings X c _ b _ h3 w hw
  have t4 := sec_warnings X c _ b _ h4 w hw
  obtain ⟨a7, -, -, e5⟩ := bind_success hr4
  have e6 := e5.trans (show _ ++ _ = ([] : List Warning) from rfl)
  rw [e1, e2, e3, e4, e6]
  simp only [List.mem_append, t1, t2, t3, t4, List.not_mem_nil, or_false]
  tauto

/-- A thrust requirement announces what it assumes of the propulsion system, no more and no less (apart from bounded span
efficiencies). -/
theorem C146_thrust (X : Ext) (c : Concept) (ws : NumArg) (f b : Bool) (r : Req) (h : twrequired X c ws f b = .ok r) (w : Warning)
    (hw : w ≠ .outOfBounds) : w ∈ (twrequiredW X c ws f b).1 ↔ Announced c w :=
  tw_warnings X c ws f b r ((tw_erase X c ws f b).trans h) w hw

/-- Single requirements announce a missing cruise condition as well, which the lift coefficient of the drag polar refers to. -/
theorem C146_single (X : Ext) (c : Concept) (ws : NumArg) (b : Bool) (w : Warning) (hw : w ≠ .outOfBounds) :
    (∀ r, twrequired_clm X c ws b = .ok r → (w ∈ (twrequired_clmW X c ws b).1 ↔
      Announced c w ∨ (w = .cruiseMissing ∧ (c.cruisespeed_ktas = none ∨ c.cruisealt_m = none)))) ∧
    (∀ r, twrequired_sec X c ws b = .ok r → (w ∈ (twrequired_secW X c ws b).1 ↔
      Announced c w ∨ (w = .cruiseMissing ∧ (c.cruisespeed_ktas = none ∨ c.cruisealt_m = none)))) ∧
    (∀ r, twrequired_trn X c ws b = .ok r → (w ∈ (twrequired_trnW X c ws b).1 ↔
      Announced c w ∨ (w = .cruiseMissing ∧ (c.cruisespeed_ktas = none ∨ c.cruisealt_m = none)))) ∧
    ∀ r, twrequired_crs X c ws b = .ok r → (w ∈ (twrequired_crsW X c ws b).1 ↔ Announced c w) := by
  refine ⟨fun r h => clm_warnings X c ws b r ((clm_erase X c ws b).trans h) w hw, fun r h => sec_warnings X c ws b r ((sec_erase X c ws b).trans h) w hw,
    fun r h => trn_warnings X c ws b r ((trn_erase X c ws b).trans h) w hw, fun r h => ?_⟩
  rw [crs_warnings X c ws b r ((crs_erase X c ws b).trans h) w hw]
  unfold twrequired_crs at h
  simp only [bind_ok_iff] at h
  obtain ⟨v, h1, alt, h2, -⟩ := h
  constructor
  · rintro (h | ⟨-, h | h⟩)
    · exact h
    · rw [h] at h1; cases h1
    · rw [h] at h2; cases h2
  · exact Or.inl

/-- Every turn is infeasible. -/
def NoTurn (x : NanArg) : Prop := match x with
  | .scalar y => y = none
  | .array ys => ∀ y ∈ ys, y = none

theorem allNan_iff (x : NanArg) : allNan x = true ↔ NoTurn x := by
  cases x with
  | scalar y => simp [allNan, NoTurn]
  | array ys => simp [allNan, NoTurn]

theorem warnIf_issues (p : Prop) [Decidable p] (v : Warning) : Issues (warnIf p v) (fun w => w = v ∧ p) := by
  intro a _ w hw
  unfold warnIf
  split
  next h => simp [warn, h]
  next h => rw [issues_pure () () rfl w hw]; simp [Nothing, h]

theorem powerSl_warnings (X : Ext) (c : Concept) (b : Bool) (v : NumArg) (alt : ℝ) (p : NumArg) :
    AtMost (powerSlW X c b v alt p) (Announced c) := by
  have no : ∀ {γ : Type} {x : W γ}, Issues x Nothing → AtMost x (Announced c) := no_most
  unfold powerSlW
  split
  · exact ((slcorr_warnings X c v alt).1).bind fun ⟨_, _⟩ _ => no (issues_quiet _)
  · exact no (issues_pure _)

theorem powerSlTurn_warnings (X : Ext) (c : Concept) (b : Bool) (v : NumArg) (alt : ℝ) (p : NumArg) (fe : NanArg) :
    AtMost (powerSlTurnW X c b v alt p fe) (Announced c) := by
  have no : ∀ {γ : Type} {x : W γ}, Issues x Nothing → AtMost x (Announced c) := no_most
  unfold powerSlTurnW
  split
  · exact ((slcorr_warnings X c v alt).1).bind fun ⟨_, _⟩ _ => (no (issues_quiet _)).bind fun _ _ => (no (issues_quiet _)).bind fun _ _ =>
      no (issues_pure _)
  · exact no (issues_pure _)

theorem broadcastNan_pick (g : ℝ → ℝ → ℝ) (xs : List (Option ℝ)) (y : ℝ) :
    broadcastNan g xs [y] = .ok (xs.map (fun x => x.map (g · y))) := by
  match xs with
  | [] => simp [broadcastNan]
  | [_] => simp [broadcastNan]
  | a :: b :: l => simp [broadcastNan]

theorem powerOfNan_none {tow eta v : ℝ} {x y : NanArg} (h : powerOfNan tow eta x (.scalar v) = .ok y) : NoTurn y ↔ NoTurn x := by
  unfold powerOfNan at h
  obtain ⟨z, hz, hy⟩ := bind_ok_iff.mp h
  cases hy
  cases x with
  | scalar x =>
    cases hz
    cases x <;> simp [NoTurn, mapNan]
  | array xs =>
    obtain ⟨l, hl, hz⟩ := bind_ok_iff.mp hz
    cases hz
    have e := broadcastNan_pick (fun t v => tw2pw t v eta) xs v
    rw [show l = _ from (Except.ok.inj (hl.symm.trans e))]
    simp [NoTurn, mapNan]

/-- A power requirement announces the same, the number of efficiencies it assumes, and that no turn is feasible. -/
theorem C146_power (X : Ext) (c : Concept) (ws : NumArg) (tow : ℝ) (f b : Bool) (r : Req) (h : powerrequired X c ws tow f b = .ok r) :
    ∃ q, twrequired X c ws f false = .ok q ∧ ∀ w, w ≠ .outOfBounds → (w ∈ (powerrequiredW X c ws tow f b).1 ↔
      Announced c w ∨ (w = .etaDefaults c.etadefaultflag ∧ 0 < c.etadefaultflag) ∨ (w = .allInfeasible ∧ NoTurn q.turnfeasible)) := by
  have hr := (power_erase X c ws tow f b).trans h
  obtain ⟨u1, h1, k1, e1⟩ := bind_success hr
  obtain ⟨q, h2, k2, e2⟩ := bind_success k1
  obtain ⟨u3, h3, k3, e3⟩ := bind_success k2
  obtain ⟨u4, h4, k4, e4⟩ := bind_success k3
  obtain ⟨u5, h5, k5, e5⟩ := bind_success k4
  obtain ⟨u6, h6, k6, e6⟩ := bind_success k5
  refine ⟨q, (tw_erase X c ws f false).symm.trans h2, fun w hw => ?_⟩
  have no : ∀ {γ : Type} {x : W γ}, Issues x Nothing → AtMost x (Announced c) := no_most
  have use : ∀ {γ : Type} {x : W γ} {a : γ}, x.2 = .ok a → AtMost x (Announced c) → w ∈ x.1 → Announced c w :=
    fun h k hm => k _ h w hw hm
  have t7 := use k6 (by
    refine (no (issues_quiet _)).bind fun _ _ => (powerSlTurn_warnings X c b _ _ _ _).bind fun ⟨_, _⟩ _ => ?_
    refine (no (issues_quiet _)).bind fun _ _ => (no (issues_quiet _)).bind fun _ _ => (powerSl_warnings X c b _ _ _).bind fun _ _ => ?_
    refine (no (issues_quiet _)).bind fun _ _ => (powerSl_warnings X c b _ _ _).bind fun _ _ => ?_
    refine (no (issues_quiet _)).bind fun _ _ => (no (issues_quiet _)).bind fun _ _ => (powerSl_warnings X c b _ _ _).bind fun _ _ => ?_
    exact (no (issues_quiet _)).bind fun _ _ => no (issues_pure _))
  have t1 := warnIf_issues _ _ _ h1 w hw
  have t2 := tw_warnings X c ws f false q h2 w hw
  have t3 : w ∈ _ ↔ False := issues_quiet _ _ h3 w hw
  have t4 := powerSl_warnings X c b _ _ _ _ h4 w hw
  have t5 : w ∈ _ ↔ False := issues_quiet _ _ h5 w hw
  have t6 := warnIf_issues _ _ _ h6 w hw
  have e : (powerrequiredW X c ws tow f b).1 = _ := e1
  rw [e, e2, e3, e4, e5, e6]
  simp only [List.mem_append, t1, t2, t3, t5, t6]
  rw [allNan_iff, powerOfNan_none h5]
  clear e e1 e2 e3 e4 e5 e6 k1 k2 k3 k4 k5 k6 hr h use no t1 t2 t3 t5 t6
  constructor
  · rintro (h | h | h | h | h | h | h)
    · exact Or.inr (Or.inl h)
    · exact Or.inl h
    · exact h.elim
    · exact Or.inl (t4 h)
    · exact h.elim
    · exact Or.inr (Or.inr h)
    · exact Or.inl (t7 h)
  · rintro (h | h | h)
    · exact Or.inr (Or.inl h)
    · exact Or.inl h
    · exact Or.inr (Or.inr (Or.inr (Or.inr (Or.inr (Or.inl h)))))

theorem givenMach_issues (m : Option ℝ) : Issues (givenMach m) (fun w => w = .machMissing ∧ m = none) := by
  intro a _ w _
  cases m with
  | none =>
    have : (givenMach none).1 = [.machMissing] := rfl
    rw [this]; simp
  | some m =>
    have : (givenMach (some m)).1 = [] := rfl
    rw [this]; simp

/-- The aerodynamic estimates announce a Mach number, a lift coefficient or a cruise condition that was not given. -/
theorem C146_aero (X : Ext) (c : Concept) (m : Option ℝ) (w : Warning) (hw : w ≠ .outOfBounds) :
    (w ∈ (oswaldspaneff4W c m).1 ↔ w = .machMissing ∧ m = none) ∧
    (∀ a, liftslope_prad X c m = .ok a → (w ∈ (liftslope_pradW X c m).1 ↔ w = .machMissing ∧ m = none)) ∧
    (∀ (n : ℤ) a, induceddragfact c (some n) m = .ok a →
      (w ∈ (induceddragfactW c (some n) m).1 ↔ w = .machMissing ∧ m = none ∧ HasDigit n.toNat 4)) ∧
    ∀ ws cl a, induceddragfact_lesm X c ws cl m = .ok a → (w ∈ (induceddragfact_lesmW X c ws cl m).1 ↔
      (w = .machMissing ∧ m = none) ∨ (w = .clMissing ∧ cl = none) ∨
      (w = .cruiseMissing ∧ (c.cruisespeed_ktas = none ∨ c.cruisealt_m = none))) := by
  have bounded : ∀ e, Issues (boundedW e) Nothing := by
    intro e
    unfold boundedW
    split
    · intro a _ w hw
      show w ∈ [Warning.outOfBounds] ↔ _
      simp [Nothing, hw]
    · exact issues_pure _
  refine ⟨?_, fun a h => ?_, fun n a h => ?_, fun ws cl a h => ?_⟩
  · have k : Issues (oswaldspaneff4W c m) _ := (givenMach_issues m).last fun m _ => bounded _
    exact k _ (oswald4_erase c m) w hw
  · have k : Issues (liftslope_pradW X c m) _ := (givenMach_issues m).last fun _ _ => issues_quiet _
    exact k _ ((liftslope_erase X c m).trans h) w hw
  · have k : Issues (induceddragfactW c (some n) m) (fun w => w = .machMissing ∧ m = none ∧ HasDigit n.toNat 4) := by
      refine Issues.last ?_ fun l _ => ?_
      · unfold oswaldlistW
        dsimp only
        split
        · intro a ha; cases ha
        · split
          next h4 =>
            refine Issues.congr ((givenMach_issues m).last fun m _ => (issues_oswald4 c m).silent fun _ _ => issues_pure _) fun _ _ w => ?_
            rw [mem_digits_iff] at h4
            tauto
          next h4 =>
            refine Issues.congr (issues_pure _) fun _ _ w => ?_
            rw [mem_digits_iff] at h4
            unfold Nothing
            tauto
      · split
        · exact issues_pure _
        · exact (issues_oswald4 c _).silent fun _ _ => issues_pure _
    exact k _ ((induced_erase c (some n) m).trans h) w hw
  · have k : Issues (induceddragfact_lesmW X c ws cl m) _ := (givenMach_issues m).bind fun m' _ => Issues.bind (warnIf_issues (cl = none) .clMissing)
      fun _ _ => (issues_quiet (lesmWingloading c ws)).silent fun ws' _ => Issues.last
        (S := fun w => w = .cruiseMissing ∧ (c.cruisespeed_ktas = none ∨ c.cruisealt_m = none))
        (Issues.last (warnIf_issues (c.cruisespeed_ktas = none ∨ c.cruisealt_m = none) .cruiseMissing) fun _ _ => issues_quiet _) fun cc _ => by
          refine Issues.silent ?_ fun ⟨_, _, _⟩ _ => Issues.silent ?_ fun _ _ => issues_quiet _
          · refine (issues_induced c _ _).silent fun _ _ => ?_
            refine Issues.silent ?_ fun _ _ => Issues.silent ?_ fun _ _ => issues_pure _
            · exact (issues_pure m').silent fun _ _ => issues_quiet _
            · exact (issues_pure _).silent fun _ _ => issues_quiet _
          · cases cl with
            | none => exact issues_pure _
            | some cl => exact issues_quiet _
    exact k _ ((lesm_erase X c ws cl m).trans h) w hw

/-- The average of the second and fourth estimates at no Mach number, and the second alone. -/
example : .machMissing ∈ (induceddragfactW exC (some 24) none).1 ∧ .machMissing ∉ (induceddragfactW exC (some 2) none).1 := by
  have d4 : HasDigit (24 : ℤ).toNat 4 := ⟨0, by decide, by decide⟩
  have d2 : ¬ HasDigit (2 : ℤ).toNat 4 := by rw [← mem_digits_iff]; decide
  obtain ⟨a, ha⟩ : ∃ a, induceddragfact exC (some 24) none = .ok a := ⟨_, rfl⟩
  obtain ⟨b, hb⟩ : ∃ b, induceddragfact exC (some 2) none = .ok b := ⟨_, rfl⟩
  refine ⟨((C146_aero ⟨fun _ _ _ => 0, fun _ _ => 0⟩ exC none _ (by simp)).2.2.1 24 a ha).mpr ⟨rfl, rfl, d4⟩, fun hm => ?_⟩
  exact d2 (((C146_aero ⟨fun _ _ _ => 0, fun _ _ => 0⟩ exC none _ (by simp)).2.2.1 2 b hb).mp hm).2.2

/-- For a concept as constructed, the number announced is the number of efficiencies missing from the performance data. -/
theorem C146_etas (X : Ext) (bf d p : Dict) (a : Option Atmos.Atm) (pa : PropArg) (k : Built) (hk : construct bf d p a pa = .ok k)
    (hn : ∀ s0, dget p "etaprop" = some (.sub s0) → (s0.map (·.1)).Nodup) (ws : NumArg) (tow : ℝ) (f b : Bool) (r : Req)
    (h : powerrequired X k.concept ws tow f b = .ok r) (n : ℕ) :
    .etaDefaults n ∈ (powerrequiredW X k.concept ws tow f b).1 ↔
      n = (["climb", "cruise", "servceil", "take-off", "turn"].filter (fun s => (givenEta p s).isNone)).length ∧ 0 < n := by
  obtain ⟨q, -, hq⟩ := C146_power X k.concept ws tow f b r h
  rw [hq _ (by simp), ← C37_count hk hn]
  constructor
  · rintro (h | ⟨h, h0⟩ | ⟨h, -⟩)
    · cases h
    · cases h; exact ⟨rfl, h0⟩
    · cases h
  · rintro ⟨rfl, h0⟩
    exact Or.inr (Or.inl ⟨rfl, h0⟩)

/-- The estimate of the span efficiency is announced to be bounded exactly when it is. -/
theorem C146_bounded (c : Concept) (m : ℝ) :
    (.outOfBounds ∈ (oswaldspaneff4W c (some m)).1 ↔ oswaldspaneff4 c (some m) ≠ oswaldRaw c m) ∧
    (.outOfBounds ∈ (oswaldspaneff4W c (some m)).1 → oswaldspaneff4 c (some m) = 1e-3) := by
  have e : oswaldspaneff4 c (some m) = if oswaldRaw c m < 1e-3 then 1e-3 else oswaldRaw c m := rfl
  have e' : (oswaldspaneff4W c (some m)).1 = (boundedW (oswaldRaw c m)).1 := rfl
  rw [e, e']
  unfold boundedW
  by_cases h : oswaldRaw c m < 1e-3
  · rw [if_pos h, if_pos h]
    exact ⟨⟨fun _ => ne_of_gt h, fun _ => List.mem_singleton.mpr rfl⟩, fun _ => rfl⟩
  · rw [if_neg h, if_neg h]
    refine ⟨⟨fun hm => ?_, fun hm => absurd rfl hm⟩, fun hm => ?_⟩ <;> cases hm

/-- A pair that does not begin with an engine deck corrects nothing, and nothing is announced. -/
theorem C146_silent_violated (X : Ext) (c : Concept) (hp : c.propulsion = .pair .other) (ws : NumArg) (f b : Bool) (r : Req)
    (h : twrequired X c ws f b = .ok r) (w : Warning) (hw : w ≠ .outOfBounds) : w ∉ (twrequiredW X c ws f b).1 := by
  rw [C146_thrust X c ws f b r h w hw]
  rintro (h | ⟨h⟩ | ⟨s, h⟩) <;> rw [hp] at h <;> cases h

/-- The deprecated codes −1, −2 and −3 are accepted without the warning of deprecation; the bypass ratios between them, which were
never codes, receive it. -/
theorem C146_deprecated_violated (X : Ext) (c : Concept) (hp : c.propulsion = .pyFalse) (ws : NumArg) (f b : Bool) (r : Req)
    (h : twrequired X c ws f b = .ok r) :
    (pyNum c.bpr ∈ ({-1, -2, -3} : Set ℝ) → .deprecatedBpr ∉ (twrequiredW X c ws f b).1) ∧
    (pyNum c.bpr = -3 / 2 → .deprecatedBpr ∈ (twrequiredW X c ws f b).1) := by
  rw [C146_thrust X c ws f b r h _ (by simp)]
  constructor
  · rintro (hb | hb | hb) (_ | ⟨_, h0, h1, h2, h3⟩)
    · exact h2 hb
    · exact h3 hb
    · rw [hb] at h0; exact lt_irrefl _ h0
  · intro hb
    refine .code hp ?_ ?_ ?_ ?_ <;> rw [hb] <;> norm_num

/-- No airspeed draws the warning of negative airspeeds. -/
theorem C146_negative_violated (a : Atmos.Atm) (v alt : NumArg) : (machW a v alt).1 = [] := machW_silent a v alt

/-- A Mach number given without a choice of estimates makes no difference, and nothing is announced of it. -/
theorem C146_mach_violated (c : Concept) (m : ℝ) :
    induceddragfactW c none (some m) = induceddragfactW c none none ∧ .machMissing ∉ (induceddragfactW c none (some m)).1 := by
  refine ⟨rfl, fun hm => ?_⟩
  have e : (induceddragfactW c none (some m)).2 = induceddragfact c none (some m) := induced_erase c none (some m)
  exact ((issues_induced c none m) _ (e.trans rfl) _ (by simp)).mp hm

/-! ### Cases -/

/-- The light aircraft without propulsion data, or with a given bypass ratio and propulsion. -/
theorem exC_prop (b : ℝ) (pr : PropAttr) (hp : PropOK { exC with bpr := some b, propulsion := pr }) :
    Ready { exC with bpr := some b, propulsion := pr } :=
  ⟨exC_ready.sea, exC_ready.runway, exC_ready.climb, exC_ready.turn, exC_ready.cruise, exC_ready.ceiling, hp⟩

theorem exC_tw (X : Ext) (b : ℝ) (pr : PropAttr) (hp : PropOK { exC with bpr := some b, propulsion := pr }) (ws : NumArg) (f m : Bool) :
    ∃ r, twrequired X { exC with bpr := some b, propulsion := pr } ws f m = .ok r :=
  (C48_given X _ ws f m (exC_prop b pr hp) (by simp [Missing, exC])).1

/-- A bypass ratio of −1.5: no propulsion data, and none of the type codes. -/
example (X : Ext) : .noPropulsion ∈ (twrequiredW X { exC with bpr := some (-3 / 2), propulsion := .pyFalse } (.array [500, 1000]) true true).1 ∧
    .deprecatedBpr ∈ (twrequiredW X { exC with bpr := some (-3 / 2), propulsion := .pyFalse } (.array [500, 1000]) true true).1 ∧
    .unknownType ∉ (twrequiredW X { exC with bpr := some (-3 / 2), propulsion := .pyFalse } (.array [500, 1000]) true true).1 := by
  obtain ⟨r, h⟩ := exC_tw X (-3 / 2) .pyFalse (by norm_num [PropOK, pyNum]) (.array [500, 1000]) true true
  refine ⟨(C146_thrust X _ _ _ _ r h _ (by simp)).mpr (.absent rfl), (C146_deprecated_violated X _ rfl _ _ _ r h).2 rfl, fun hm => ?_⟩
  rcases (C146_thrust X _ _ _ _ r h _ (by simp)).mp hm with _ | _ | ⟨s, h, -⟩
  cases h

/-- A piston engine announced as −1. -/
example (X : Ext) : .noPropulsion ∈ (twrequiredW X { exC with bpr := some (-1), propulsion := .pyFalse } (.array [500, 1000]) true true).1 ∧
    .deprecatedBpr ∉ (twrequiredW X { exC with bpr := some (-1), propulsion := .pyFalse } (.array [500, 1000]) true true).1 := by
  obtain ⟨r, h⟩ := exC_tw X (-1) .pyFalse (by norm_num [PropOK, pyNum]) (.array [500, 1000]) true true
  exact ⟨(C146_thrust X _ _ _ _ r h _ (by simp)).mpr (.absent rfl), (C146_deprecated_violated X _ rfl _ _ _ r h).1 (Or.inl rfl)⟩

/-- A misspelt type name. -/
example (X : Ext) : .unknownType ∈ (twrequiredW X { exC with bpr := some (-1), propulsion := .str "Piston" } (.array [500, 1000]) true true).1 := by
  obtain ⟨r, h⟩ := exC_tw X (-1) (.str "Piston") (by intro h; exact absurd h (by decide)) (.array [500, 1000]) true true
  exact (C146_thrust X _ _ _ _ r h _ (by simp)).mpr (.unknown _ rfl (by decide))

/-- A pair without a deck. -/
example (X : Ext) : .noPropulsion ∉ (twrequiredW X { exC with bpr := some (-1), propulsion := .pair .other } (.array [500, 1000]) true true).1 := by
  obtain ⟨r, h⟩ := exC_tw X (-1) (.pair .other) trivial (.array [500, 1000]) true true
  exact C146_silent_violated X _ rfl _ _ _ r h _ (by simp)

/-- A climb without cruise data. -/
example (X : Ext) : .cruiseMissing ∈ (twrequired_clmW X { exC with cruisespeed_ktas := none } (.array [500, 1000]) true).1 := by
  have hr : Ready { exC with cruisespeed_ktas := none } :=
    ⟨exC_ready.sea, exC_ready.runway, exC_ready.climb, exC_ready.turn, exC_ready.cruise, exC_ready.ceiling, exC_ready.prop⟩
  obtain ⟨_, _, _, _, _, _, hc⟩ := clm_given (X := X) hr (s := 100) (r := 1000) rfl rfl
  exact ((C146_single X _ (.array [500, 1000]) true _ (by simp)).1 _ (hc.eval true _)).mpr (Or.inr ⟨rfl, Or.inl rfl⟩)

/-- The brief of a case with no other data given. -/
def warnBrief : Dict := [("groundrun_m", .num 60), ("stloadfactor", .num 1.41), ("turnspeed_ktas", .num 40), ("climbspeed_kias", .num 46.4),
  ("climbrate_fpm", .num 591), ("cruisealt_m", .num 122), ("cruisespeed_ktas", .num 58.3), ("servceil_m", .num 152), ("secclimbspd_kias", .num 40)]

/-- Three of five efficiencies missing, no propulsion data. -/
example (X : Ext) : ∃ k, construct warnBrief [] [("etaprop", .sub [("climb", some 0.7), ("turn", none), ("cruise", some 0.8)])] none .pyNone = .ok k ∧
    .etaDefaults 3 ∈ (powerrequiredW X k.concept (.array [50, 100]) 15 true true).1 ∧
    .noPropulsion ∈ (powerrequiredW X k.concept (.array [50, 100]) 15 true true).1 := by
  obtain ⟨k, hk, a1, a2, a3, a4, a5, a6, a7, a8, a9, b0, b1, b2, b3, b4, b5⟩ : ∃ k, construct warnBrief []
      [("etaprop", .sub [("climb", some 0.7), ("turn", none), ("cruise", some 0.8)])] none .pyNone = .ok k ∧
      k.concept.designatm = .isa 0 ∧ k.concept.bpr = some (-1) ∧ k.concept.propulsion = .pyFalse ∧ k.concept.groundrun_m = some 60 ∧
      k.concept.stloadfactor = some 1.41 ∧ k.concept.turnspeed_ktas = some 40 ∧ k.concept.climbspeed_kias = some 46.4 ∧
      k.concept.climbrate_fpm = some 591 ∧ k.concept.cruisealt_m = some 122 ∧ k.concept.cruisespeed_ktas = some 58.3 ∧
      k.concept.servceil_m = some 152 ∧ k.concept.secclimbspd_kias = some 40 ∧ k.concept.climbalt_m = some 0 ∧
      k.concept.turnalt_m = some 0 ∧ k.concept.rwyelevation_m = some 0 := by
    apply Exists.intro; constructor
    · rfl
    · exact ⟨rfl, rfl, rfl, rfl, rfl, rfl, rfl, rfl, rfl, rfl, rfl, rfl, rfl, rfl, rfl⟩
  have hr : Ready k.concept := by
    refine isa_ready _ 0 a1 (by norm_num) ?_ ?_ ?_ ?_ ?_ ?_
    · rw [b5]; norm_num [pyNum]
    · rw [b3]; norm_num [pyNum]
    · rw [b4]; norm_num [pyNum]
    · rw [a9]; norm_num [pyNum]
    · rw [b1]; norm_num [pyNum]
    · unfold PropOK; rw [a3, a2]; norm_num [pyNum]
  have hm : ¬ Missing k.concept := by
    unfold Missing; simp [*]
  obtain ⟨r, h⟩ := (C48_given X k.concept (.array [50, 100]) true true hr hm).2 (by simp [recastArray]) 15
  refine ⟨k, hk, (C146_etas X _ _ _ _ _ k hk ?_ _ _ _ _ r h 3).mpr ⟨?_, by norm_num⟩, ?_⟩
  · intro s0 hs; simp [dget] at hs; subst hs; simp
  · simp [givenEta, dget, List.filter]
  · obtain ⟨q, -, hq⟩ := C146_power X _ _ _ _ _ r h
    exact (hq _ (by simp)).mpr (Or.inl (.absent a3))

/-- A bounded span efficiency: at an aspect ratio of a million. -/
example : .outOfBounds ∈ (oswaldspaneff4W { exC with aspectratio := some 1000000 } (some 0.3)).1 ∧
    oswaldspaneff4 { exC with aspectratio := some 1000000 } (some 0.3) = 1e-3 := by
  have e : oswaldspaneff4 { exC with aspectratio := some 1000000 } (some 0.3) =
      if oswaldRaw { exC with aspectratio := some 1000000 } 0.3 < 1e-3 then 1e-3 else oswaldRaw { exC with aspectratio := some 1000000 } 0.3 := rfl
  have h : oswaldRaw { exC with aspectratio := some 1000000 } 0.3 < 1e-3 := by
    unfold oswaldRaw keMach
    rw [if_neg (lt_irrefl _)]
    norm_num [hoernerfactor, exC, pyNum]
  have hm := (C146_bounded { exC with aspectratio := some 1000000 } 0.3).1.mpr (by rw [e, if_pos h]; exact ne_of_gt h)
  exact ⟨hm, (C146_bounded _ _).2 hm⟩

end Verif.Props
