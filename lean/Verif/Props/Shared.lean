import Verif.Model.Shared
import Verif.Props.Concept3
import Verif.Props.Sensitivity2

/-
Property C137: concepts, their dictionaries and later changes of these.
-/

namespace Verif.Props

open Verif Verif.Aircraft Verif.Units

noncomputable section

/-! ### Specification -/

/-- The step does not set an entry of a dictionary of `o`. -/
def SparesDicts (o : Obj) : Op → Prop
  | .write i a _ _ => a ≠ o.addr i
  | _ => True

/-- The step does not set attributes of concept number `n`. -/
def SparesAttrs (n : ℕ) : Op → Prop
  | .setattr m _ => m ≠ n
  | _ => True

/-! ### Each dictionary is worked on by itself -/

/-- What the constructor makes of the dictionary of one role. -/
def roleDict (i : Fin 3) (x : Dict) : PyM Dict :=
  match i with
  | 0 => do let f ← fill default_brief x; average default_brief f
  | 1 => do
    let f ← fill default_design x
    let d1 ← leDefault f
    let d2 ← mtDefault d1
    let d3 ← sweep25Default d2
    let d4 ← taperDefault d3
    average default_design d4.1
  | 2 => do
    let f ← fill default_performance x
    let p ← etaDefault f
    average default_performance p.1

theorem construct_roleDict {b d p : Dict} {a : Option Atmos.Atm} {pa : PropArg} {r : Built} (h : construct b d p a pa = .ok r) :
    roleDict 0 b = .ok r.brief ∧ roleDict 1 d = .ok r.design ∧ roleDict 2 p = .ok r.performance := by
  obtain ⟨fb, fd, fp, d1, d2, d3, d4, p1, n, h1, h2, h3, h4, h5, h6, h7, h8, -, h9, h10, h11, -⟩ := construct_ok h
  refine ⟨?_, ?_, ?_⟩
  · simp only [roleDict, h1, bind_ok, h9]
  · simp only [roleDict, h2, h4, h5, h6, h7, bind_ok, h10]
  · simp only [roleDict, h3, h8, bind_ok, h11]

/-- A dictionary that went through a constructor is not changed by another one, whatever the other two are. -/
theorem roleDict_fixed {b d p : Dict} {a : Option Atmos.Atm} {pa : PropArg} {r : Built} (h : construct b d p a pa = .ok r) (i : Fin 3) :
    roleDict i (r.dict i) = .ok (r.dict i) := by
  obtain ⟨h0, h1, h2⟩ := construct_roleDict (C33_idempotent h)
  match i with
  | 0 => exact h0
  | 1 => exact h1
  | 2 => exact h2

theorem construct_dict {f : Fin 3 → Dict} {a : Option Atmos.Atm} {pa : PropArg} {r : Built} (h : construct (f 0) (f 1) (f 2) a pa = .ok r)
    (i : Fin 3) : roleDict i (f i) = .ok (r.dict i) := by
  obtain ⟨h0, h1, h2⟩ := construct_roleDict h
  match i with
  | 0 => exact h0
  | 1 => exact h1
  | 2 => exact h2

theorem dict_nonempty {b d p : Dict} {a : Option Atmos.Atm} {pa : PropArg} {r : Built} (h : construct b d p a pa = .ok r) (i : Fin 3) :
    r.dict i ≠ [] := by
  obtain ⟨q1, q2, q3⟩ := C32_present h
  intro e
  match i with
  | 0 =>
    obtain ⟨v, hv⟩ := q1 "groundrun_m" (by simp [default_brief])
    rw [show r.brief = [] from e] at hv; cases hv
  | 1 =>
    obtain ⟨v, hv⟩ := q2 "aspectratio" (by simp [default_design])
    rw [show r.design = [] from e] at hv; cases hv
  | 2 =>
    obtain ⟨v, hv⟩ := q3 "CDTO" (by simp [default_performance])
    rw [show r.performance = [] from e] at hv; cases hv

/-! ### What the steps leave alone -/

theorem orNew_empty {s : Store} {a : ℕ} (h : s.get a = []) :
    s.orNew a = ({ next := s.next + 1, get := Function.update s.get s.next [] }, s.next) := by
  unfold Store.orNew; rw [h]

theorem orNew_given {s : Store} {a : ℕ} (h : s.get a ≠ []) : s.orNew a = (s, a) := by
  unfold Store.orNew
  cases e : s.get a with
  | nil => exact absurd e h
  | cons x l => rfl

theorem orNew_lt {s : Store} {a : ℕ} (h : a < s.next) : (s.orNew a).2 < (s.orNew a).1.next := by
  by_cases e : s.get a = []
  · rw [orNew_empty e]; exact Nat.lt_succ_self _
  · rw [orNew_given e]; exact h

theorem put_keeps {i : Fin 3} {s : Store} {a x : ℕ} {D E : Dict} (hg : s.get x = D) (hD : roleDict i D = .ok D)
    (hE : roleDict i (s.get a) = .ok E) : (s.put a E).get x = D := by
  unfold Store.put
  by_cases e : x = a
  · subst e
    rw [hg, hD] at hE
    injection hE with hE
    simp [hE]
  · simp [Function.update_of_ne e, hg]

theorem orNew_keeps {i : Fin 3} {s : Store} {a x : ℕ} {D E : Dict} (hg : s.get x = D) (hl : x < s.next) (hD : roleDict i D = .ok D)
    (hE : roleDict i ((s.orNew a).1.get (s.orNew a).2) = .ok E) :
    ((s.orNew a).1.put (s.orNew a).2 E).get x = D ∧ x < ((s.orNew a).1.put (s.orNew a).2 E).next := by
  by_cases e : s.get a = []
  · rw [orNew_empty e] at hE ⊢
    refine ⟨?_, Nat.lt_succ_of_lt hl⟩
    have hne : x ≠ s.next := hl.ne
    simp [Store.put, Function.update_of_ne hne, hg]
  · rw [orNew_given e] at hE ⊢
    exact ⟨put_keeps hg hD hE, hl⟩

/-- The dictionaries of `o` are still those of `r`. -/
def Holds (M : Memory) (o : Obj) (r : Built) : Prop :=
  ∀ i, (M.store i).get (o.addr i) = r.dict i ∧ o.addr i < (M.store i).next

theorem exec_holds {X : Ext} {M M' : Memory} {op : Op} {o : Obj} {r : Built} (hr : ∀ i, roleDict i (r.dict i) = .ok (r.dict i))
    (h : Holds M o r) (hs : SparesDicts o op) (he : exec X M op = .ok M') : Holds M' o r := by
  intro i
  obtain ⟨hg, hl⟩ := h i
  cases op with
  | new a atm pa =>
    simp only [exec, newConcept, bind_ok_iff] at he
    obtain ⟨r', h1, h2⟩ := he
    cases h2
    exact orNew_keeps hg hl (hr i)
      (construct_dict (f := fun i => ((M.store i).orNew (a i)).1.get ((M.store i).orNew (a i)).2) h1 i)
  | study n w power =>
    simp only [exec] at he
    split at he
    · rename_i o' ho'
      simp only [studyStep, bind_ok_iff] at he
      obtain ⟨_, ⟨res, -, r', h1, h2⟩, h3⟩ := he
      cases h2; cases h3
      exact ⟨put_keeps hg (hr i) (construct_dict (f := fun i => (M.store i).get (o'.addr i)) h1 i), hl⟩
    · cases he
  | write j a k v =>
    simp only [exec] at he
    cases he
    by_cases e : i = j
    · subst e
      have hne : o.addr i ≠ a := fun e => hs e.symm
      simp [Store.put, Function.update_of_ne hne, hg, hl]
    · simp [Function.update_of_ne e, hg, hl]
  | setattr n c =>
    simp only [exec] at he
    cases he
    exact ⟨hg, hl⟩

theorem exec_obj {X : Ext} {M M' : Memory} {op : Op} {o : Obj} {n : ℕ} (h : M.objs[n]? = some o) (hs : SparesAttrs n op)
    (he : exec X M op = .ok M') : M'.objs[n]? = some o := by
  cases op with
  | new a atm pa =>
    simp only [exec, newConcept, bind_ok_iff] at he
    obtain ⟨r', -, h2⟩ := he
    cases h2
    have hn : n < M.objs.length := (List.getElem?_eq_some_iff.mp h).1
    simp only
    rw [List.getElem?_append_left hn, h]
  | study m w power =>
    simp only [exec] at he
    split at he
    · simp only [studyStep, bind_ok_iff] at he
      obtain ⟨_, ⟨res, -, r', -, h2⟩, h3⟩ := he
      cases h2; cases h3
      exact h
    · cases he
  | write j a k v => simp only [exec] at he; cases he; exact h
  | setattr m c =>
    simp only [exec] at he
    cases he
    have hne : m ≠ n := hs
    simp only [List.getElem?_modify, if_neg hne, h]
    rfl

theorem run_cons {X : Ext} {M M' : Memory} {op : Op} {ops : List Op} :
    run X M (op :: ops) = .ok M' ↔ ∃ N, exec X M op = .ok N ∧ run X N ops = .ok M' := by
  unfold run
  rw [List.foldlM_cons, bind_ok_iff]

theorem run_obj {X : Ext} {ops : List Op} {M M' : Memory} {o : Obj} {n : ℕ} (h : M.objs[n]? = some o)
    (hs : ∀ op ∈ ops, SparesAttrs n op) (he : run X M ops = .ok M') : M'.objs[n]? = some o := by
  induction ops generalizing M with
  | nil => cases he; exact h
  | cons op ops ih =>
    obtain ⟨N, h1, h2⟩ := run_cons.mp he
    exact ih (exec_obj h (hs op (by simp)) h1) (fun op' hm => hs op' (by simp [hm])) h2

theorem run_holds {X : Ext} {ops : List Op} {M M' : Memory} {o : Obj} {r : Built} (hr : ∀ i, roleDict i (r.dict i) = .ok (r.dict i))
    (h : Holds M o r) (hs : ∀ op ∈ ops, SparesDicts o op) (he : run X M ops = .ok M') : Holds M' o r := by
  induction ops generalizing M with
  | nil => cases he; exact h
  | cons op ops ih =>
    obtain ⟨N, h1, h2⟩ := run_cons.mp he
    exact ih (exec_holds hr h (hs op (by simp)) h1) (fun op' hm => hs op' (by simp [hm])) h2

theorem view_of_holds {M : Memory} {o : Obj} {r : Built} (h : Holds M o r) (h1 : o.space = r.space)
    (h2 : o.taperdefaultflag = r.taperdefaultflag) (h3 : o.concept = r.concept) : o.view M = r := by
  have e0 : (M.store 0).get (o.addr 0) = r.brief := (h 0).1
  have e1 : (M.store 1).get (o.addr 1) = r.design := (h 1).1
  have e2 : (M.store 2).get (o.addr 2) = r.performance := (h 2).1
  unfold Obj.view
  rw [e0, e1, e2, h1, h2, h3]

/-- What a successful constructor call gives: an object at the end of the list whose dictionaries are those of `r`, at the
addresses given by the caller for non-empty dictionaries and at new ones for empty dictionaries. -/
theorem new_made {M M1 : Memory} {a : Fin 3 → ℕ} {atm : Option Atmos.Atm} {pa : PropArg} (ha : ∀ i, a i < (M.store i).next)
    (h : newConcept M a atm pa = .ok M1) :
    ∃ r o, construct ((M.store 0).get (a 0)) ((M.store 1).get (a 1)) ((M.store 2).get (a 2)) atm pa = .ok r ∧
      M1.objs[M.objs.length]? = some o ∧ Holds M1 o r ∧ o.view M1 = r ∧
      (∀ i, (M.store i).get (a i) ≠ [] → o.addr i = a i) ∧
      (∀ i, (M.store i).get (a i) = [] → (M.store i).next ≤ o.addr i) := by
  simp only [newConcept, bind_ok_iff] at h
  obtain ⟨r, h1, h2⟩ := h
  cases h2
  have hval : ∀ i, ((M.store i).orNew (a i)).1.get ((M.store i).orNew (a i)).2 = (M.store i).get (a i) := by
    intro i
    by_cases e : (M.store i).get (a i) = []
    · rw [orNew_empty e]; simp [e]
    · rw [orNew_given e]
  rw [hval, hval, hval] at h1
  have hH : Holds ⟨fun i => ((M.store i).orNew (a i)).1.put ((M.store i).orNew (a i)).2 (r.dict i),
         M.objs ++ [⟨fun i => ((M.store i).orNew (a i)).2, r.space, r.taperdefaultflag, r.concept⟩]⟩
         ⟨fun i => ((M.store i).orNew (a i)).2, r.space, r.taperdefaultflag, r.concept⟩ r := by
    intro i
    exact ⟨by simp [Store.put], orNew_lt (ha i)⟩
  refine ⟨r, _, h1, by simp, hH, view_of_holds hH rfl rfl rfl, ?_, ?_⟩
  · intro i e
    show ((M.store i).orNew (a i)).2 = a i
    rw [orNew_given e]
  · intro i e
    show (M.store i).next ≤ ((M.store i).orNew (a i)).2
    rw [orNew_empty e]

/-! ### C137 -/

/-- Whatever a program does after a concept was made (further concepts from the same or other dictionaries, studies, entries of
dictionaries set), short of setting attributes of this concept, its attributes stay those of the contents
the dictionaries had when it was made, and so do its requirements. -/
theorem C137_requirements {X : Ext} {M M1 M2 : Memory} {a : Fin 3 → ℕ} {atm : Option Atmos.Atm} {pa : PropArg} {ops : List Op}
    (ha : ∀ i, a i < (M.store i).next) (h : newConcept M a atm pa = .ok M1)
    (hs : ∀ op ∈ ops, SparesAttrs M.objs.length op) (hr : run X M1 ops = .ok M2) :
    ∃ r o, construct ((M.store 0).get (a 0)) ((M.store 1).get (a 1)) ((M.store 2).get (a 2)) atm pa = .ok r ∧
      M2.objs[M.objs.length]? = some o ∧ o.concept = r.concept ∧
      ∀ w m s, twrequired X o.concept w m s = twrequired X r.concept w m s := by
  obtain ⟨r, o, h1, h2, -, h4, -, -⟩ := new_made ha h
  have e : o.concept = r.concept := by rw [← h4]; rfl
  exact ⟨r, o, h1, run_obj h2 hs hr, e, fun w m s => by rw [e]⟩

/-- As long as the program sets no entry of the dictionaries of the concept, making any number of further concepts from the same
dictionaries and any number of studies changes nothing: the concept with its dictionaries is what the constructor made, and its
study gives the same. -/
theorem C137_others {X : Ext} {M M1 M2 : Memory} {a : Fin 3 → ℕ} {atm : Option Atmos.Atm} {pa : PropArg} {ops : List Op}
    (ha : ∀ i, a i < (M.store i).next) (h : newConcept M a atm pa = .ok M1)
    (hs : ∀ op ∈ ops, SparesAttrs M.objs.length op)
    (hd : ∀ o, M1.objs[M.objs.length]? = some o → ∀ op ∈ ops, SparesDicts o op) (hr : run X M1 ops = .ok M2) :
    ∃ r o, construct ((M.store 0).get (a 0)) ((M.store 1).get (a 1)) ((M.store 2).get (a 2)) atm pa = .ok r ∧
      M2.objs[M.objs.length]? = some o ∧ o.view M2 = r ∧ ∀ w power, study X (o.view M2) w power = study X r w power := by
  obtain ⟨r, o, h1, h2, h3, h4, -, -⟩ := new_made ha h
  have hH := run_holds (roleDict_fixed h1) h3 (hd o h2) hr
  have e : o.view M2 = r := view_of_holds hH (by rw [← h4]; rfl) (by rw [← h4]; rfl) (by rw [← h4]; rfl)
  exact ⟨r, o, h1, run_obj h2 hs hr, e, fun w power => by rw [e]⟩

/-- A concept made from empty dictionaries has dictionaries of its own: no entry set in a dictionary that existed before reaches it. -/
theorem C137_private {X : Ext} {M M1 M2 : Memory} {a : Fin 3 → ℕ} {atm : Option Atmos.Atm} {pa : PropArg} {ops : List Op}
    (ha : ∀ i, a i < (M.store i).next) (hempty : ∀ i, (M.store i).get (a i) = []) (h : newConcept M a atm pa = .ok M1)
    (hs : ∀ op ∈ ops, SparesAttrs M.objs.length op)
    (hd : ∀ i x k v, Op.write i x k v ∈ ops → x < (M.store i).next) (hr : run X M1 ops = .ok M2) :
    ∃ r o, construct [] [] [] atm pa = .ok r ∧ M2.objs[M.objs.length]? = some o ∧ o.view M2 = r := by
  obtain ⟨r, o, h1, h2, -, -, -, h6⟩ := new_made ha h
  obtain ⟨r', o', h1', h2', h3', -⟩ := C137_others (X := X) ha h hs (fun o'' ho'' op hop => by
    rw [h2] at ho''
    cases ho''
    cases op with
    | write i x k v => exact ((hd i x k v hop).trans_le (h6 i (hempty i))).ne
    | _ => trivial) hr
  rw [hempty, hempty, hempty] at h1'
  exact ⟨r', o', h1', h2', h3'⟩

end
end Verif.Props
