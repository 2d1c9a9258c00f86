import Verif.Model.PropArg
import Verif.Props.Constraint5

/-
Property C145: the propulsion argument as a Python value.
-/

namespace Verif.Props
open Verif Verif.Aircraft

/-- What a `for` statement accepts. -/
inductive Loops : PyVal → Prop
  | str (s : String) : Loops (.str s)
  | tuple (l : List PyVal) : Loops (.tuple l)
  | seq (l : List PyVal) : Loops (.seq l)
  | object : Loops (.object (.ok ()))

/-- The engine deck meant by an argument, as documented: the deck, or a tuple of at most two items that begins with the deck and may go
on with a propeller. -/
inductive Means : PyVal → Engine → Prop
  | deck (e : Engine) : Means (.deck e) e
  | single (e : Engine) : Means (.tuple [.deck e]) e
  | pair (e : Engine) (propeller : PyVal) : Means (.tuple [.deck e, propeller]) e

/-- `iterable` answers whether a loop over the value would begin. -/
theorem C145_iterable (v : PyVal) : iterable v = true ↔ Loops v := by
  constructor
  · intro h
    match v, h with
    | .str s, _ => exact .str s
    | .tuple l, _ => exact .tuple l
    | .seq l, _ => exact .seq l
    | .object (.ok ()), _ => exact .object
  · intro h
    cases h <;> rfl

/-- Every value leaves an attribute that `_propulsion_slcorr` can read, the one of the sorted argument. -/
theorem C145_reads (v : PyVal) : (setPropulsion v).attr = some (parsePropulsion v.toArg) := by
  match v with
  | .none => rfl
  | .bool _ => rfl
  | .str _ => rfl
  | .seq _ => rfl
  | .deck _ => rfl
  | .object (.ok _) => rfl
  | .object (.error _) => rfl
  | .tuple [] => rfl
  | .tuple [_] => rfl
  | .tuple [_, _] => rfl
  | .tuple (_ :: _ :: _ :: _) => simp [setPropulsion, iterable, PyVal.iter, PyVal.isPair, PyVal.isStr, PyVal.attr, PyVal.toArg, parsePropulsion]

/-- A deck by itself or in a pair is used: the corrections are those of the deck. -/
theorem C145_deck {v : PyVal} {e : Engine} (hv : Means v e) (hs : v ≠ .tuple [.deck e]) {b dd p : Dict} {a : Option Atmos.Atm} {r : Built}
    (hb : construct b dd p a v.toArg = .ok r) (X : Ext) (u : NumArg) (alt T P d : ℝ) (ms : List ℝ)
    (hm : Atmos.mach r.concept.designatm u (.scalar alt) = .ok ms)
    (hT : temp1c r.concept.designatm alt = .ok T) (hP : Atmos.press1 r.concept.designatm alt = .ok P)
    (hd : Atmos.dens1 r.concept.designatm alt = .ok d) :
    slcorr X r.concept u alt = .ok ((Corr.deck e).values X ⟨T, P, d, pyNum r.concept.throttle_r⟩ alt ms) := by
  refine C38_correction hb X u alt T P d ms hm hT hP hd _ ?_
  cases hv with
  | deck => exact .object e
  | single => exact absurd rfl hs
  | pair e x => exact .pair e

/-- A tuple with one item, which the documentation allows, is dropped: the concept is the one made without propulsion argument. The same
goes for lists and for longer tuples. -/
theorem C145_single_violated (b dd p : Dict) (a : Option Atmos.Atm) :
    (∀ e : Engine, construct b dd p a (PyVal.toArg (.tuple [.deck e])) = construct b dd p a PyVal.none.toArg) ∧
    (∀ l : List PyVal, construct b dd p a (PyVal.toArg (.seq l)) = construct b dd p a PyVal.none.toArg) ∧
    ∀ l : List PyVal, l.length ≠ 2 → construct b dd p a (PyVal.toArg (.tuple l)) = construct b dd p a PyVal.none.toArg := by
  refine ⟨fun e => rfl, fun l => rfl, fun l hl => ?_⟩
  match l, hl with
  | [], _ => rfl
  | [_], _ => rfl
  | _ :: _ :: _ :: _, _ => rfl

/-- A jet deck in a tuple of one item, in a concept that leaves the bypass ratio at its default: the thrust is corrected as for a piston
engine, whatever the deck says. -/
theorem C145_piston_violated (e : Engine) {b dd p : Dict} {a : Option Atmos.Atm} {r : Built}
    (hb : construct b dd p a (PyVal.toArg (.tuple [.deck e])) = .ok r) (hbpr : pyNum r.concept.bpr = -1) (X : Ext) (u : NumArg)
    (alt T P d : ℝ) (ms : List ℝ) (hm : Atmos.mach r.concept.designatm u (.scalar alt) = .ok ms)
    (hT : temp1c r.concept.designatm alt = .ok T) (hP : Atmos.press1 r.concept.designatm alt = .ok P)
    (hd : Atmos.dens1 r.concept.designatm alt = .ok d) :
    slcorr X r.concept u alt = .ok (.array (ms.map (fun _ => 1.132 * (d / 1.225) - 0.132)), .array (ms.map (fun _ => 1))) :=
  C38_correction hb X u alt T P d ms hm hT hP hd .piston (.other _ (.piston hbpr))

/-- A pair that does not begin with a deck (the propeller first, or a type name in the tuple) corrects nothing. -/
theorem C145_order_violated (x y : PyVal) (hx : ∀ e, x ≠ .deck e) {b dd p : Dict} {a : Option Atmos.Atm} {r : Built}
    (hb : construct b dd p a (PyVal.toArg (.tuple [x, y])) = .ok r) (X : Ext) (u : NumArg) (alt : ℝ) (ms : List ℝ)
    (hm : Atmos.mach r.concept.designatm u (.scalar alt) = .ok ms) :
    slcorr X r.concept u alt = .ok (.array (ms.map (fun _ => 1)), .array (ms.map (fun _ => 1))) := by
  have hp := construct_propulsion hb
  have he : x.engine = .other := by
    cases x with
    | deck e => exact absurd rfl (hx e)
    | _ => rfl
  have hp' : r.concept.propulsion = .pair .other := by rw [hp, ← he]; rfl
  simp only [slcorr, resolvePropulsion, hp', bind_ok, hm, corrOf, engineCorr]

/-- Read again by the concepts of a sensitivity study, the attribute stays what it is, unless it is `False`: that one becomes a tuple. -/
theorem C145_again (v : PyVal) :
    (setPropulsion (setPropulsion v) = setPropulsion v ∧ setPropulsion v ≠ .bool false) ∨
    (setPropulsion v = .bool false ∧ setPropulsion (setPropulsion v) = .tuple [.bool false, .none]) := by
  match v with
  | .none => exact Or.inr ⟨rfl, rfl⟩
  | .bool b => exact Or.inl ⟨rfl, by simp [setPropulsion, iterable, PyVal.iter, PyVal.isNone]⟩
  | .str s => exact Or.inl ⟨rfl, by simp [setPropulsion, iterable, PyVal.iter, PyVal.isStr]⟩
  | .seq l => exact Or.inr ⟨rfl, rfl⟩
  | .deck e => exact Or.inl ⟨rfl, by simp [setPropulsion, iterable, PyVal.iter, PyVal.isNone]⟩
  | .object (.ok _) => exact Or.inr ⟨rfl, rfl⟩
  | .object (.error _) => exact Or.inl ⟨rfl, by simp [setPropulsion, iterable, PyVal.iter, PyVal.isNone]⟩
  | .tuple [] => exact Or.inr ⟨rfl, rfl⟩
  | .tuple [_] => exact Or.inr ⟨rfl, rfl⟩
  | .tuple [x, y] =>
    have : setPropulsion (.tuple [x, y]) = .tuple [x, y] := rfl
    exact Or.inl ⟨by rw [this, this], by rw [this]; simp⟩
  | .tuple (x :: y :: z :: l) =>
    have : setPropulsion (.tuple (x :: y :: z :: l)) = .bool false := by
      simp [setPropulsion, iterable, PyVal.iter, PyVal.isPair, PyVal.isStr]
    exact Or.inr ⟨this, by rw [this]; rfl⟩

/-! ### Examples -/

example : iterable (.tuple []) = true ∧ iterable (.deck .electric) = false ∧ iterable (.object (.error .valueError)) = false :=
  ⟨rfl, rfl, rfl⟩

/-- A concept with nothing but a jet deck in a tuple of one item, at 3000 m: corrected as a piston engine. -/
example (f : ℝ → ℝ → ℝ) (X : Ext) : ∃ r d, construct [] [] [] none (PyVal.toArg (.tuple [.deck (.jet f)])) = .ok r ∧
    Atmos.dens1 (.isa 0) 3000 = .ok d ∧
    slcorr X r.concept (.scalar 100) 3000 = .ok (.array [1.132 * (d / 1.225) - 0.132], .array [1]) := by
  obtain ⟨r, h, hc⟩ := C32_all_defaults
  have ha : r.concept.designatm = .isa 0 := by rw [hc]
  have hb : pyNum r.concept.bpr = -1 := by rw [hc]; rfl
  have he : EnvOK r.concept.designatm 3000 := by rw [ha]; exact isa_env _ _ (by norm_num) (by norm_num)
  obtain ⟨T, hT⟩ := he.tempc
  obtain ⟨P, hP⟩ := he.press
  obtain ⟨d, _, hd⟩ := he.dens
  obtain ⟨cs, hcs⟩ := he.vsound
  have h' := ((C145_single_violated [] [] [] none).1 (.jet f)).trans h
  exact ⟨r, d, h', ha ▸ hd, C145_piston_violated _ h' hb X _ _ T P d _ ((C18_ratio _ _ cs hcs).1 100) hT hP hd⟩

/-- The propeller first: nothing is corrected. -/
example (e : Engine) (X : Ext) : ∃ r, construct exBrief exDesign exPerf none (PyVal.toArg (.tuple [.object (.error .typeError), .deck e])) = .ok r ∧
    ∀ u alt ms, Atmos.mach r.concept.designatm u (.scalar alt) = .ok ms →
      slcorr X r.concept u alt = .ok (.array (ms.map (fun _ => 1)), .array (ms.map (fun _ => 1))) := by
  obtain ⟨r, h⟩ := ex_construct none (PyVal.toArg (.tuple [.object (.error .typeError), .deck e]))
  exact ⟨r, h, fun u alt ms hm => C145_order_violated _ _ (by simp) h X u alt ms hm⟩

/-- A turboprop deck with a propeller. -/
example (f : ℝ → ℝ → ℝ) : Means (.tuple [.deck (.turboprop f), .object (.error .typeError)]) (.turboprop f) := .pair _ _

example : setPropulsion (setPropulsion (.str "piston")) = .str "piston" ∧
    setPropulsion (setPropulsion (.seq [.deck .electric])) = .tuple [.bool false, .none] := ⟨rfl, rfl⟩

end Verif.Props
