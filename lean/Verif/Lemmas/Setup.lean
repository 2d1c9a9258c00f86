import Verif.Model.Propulsion
import Verif.Lemmas.PyM
import Mathlib.Data.List.Perm.Basic

/-
Closed form of `_setup`: for every role the last matching file of the listing is taken.
-/

namespace Verif.Propulsion

open Verif Verif.Atmos

noncomputable section

/-- The last file of a listing that satisfies a test. -/
def lastWhere (p : String → Bool) (files : List String) : Option String := (files.filter p).getLast?

/-- Contents of a polynomial file, where it can be read. -/
def polyOf (d : Dir) (f : String) : PolyFile :=
  match d.poly f with
  | .ok p => p
  | .error _ => ([], [])

/-- The file is read as a polynomial for one of the output roles. -/
def polyFile (outputs : List String) (f : String) : Bool :=
  outputs.any (fun o => isSlPoly o f) || outputs.any (fun o => isSltoPoly o f)

/-- What a deck holds after the files have been read. -/
def closedSetup (d : Dir) (outputs effs files : List String) : Setup where
  output_data := outputs.map (fun o => (lastWhere (isTable o) files).map d.csv)
  eta_data := effs.map (fun e => (lastWhere (isTable e) files).map d.csv)
  slPoly := (lastWhere (fun f => outputs.any (fun o => isSlPoly o f)) files).map (polyOf d)
  sltoPoly := (lastWhere (fun f => outputs.any (fun o => isSltoPoly o f)) files).map (polyOf d)
  avail := ⟨outputs.map (fun o => files.any (isTable o)), effs.map (fun e => files.any (isTable e)),
    files.any (fun f => outputs.any (fun o => isSlPoly o f)),
    files.any (fun f => outputs.any (fun o => isSltoPoly o f))⟩

theorem foldl_set {β : Type} (P : String → Bool) (v : β) :
    ∀ (outs : List String) (k : ℕ) (pre l : List β), pre.length = k → l.length = outs.length →
      (outs.zipIdx k).foldl (fun l o => if P o.1 then l.set o.2 v else l) (pre ++ l)
        = pre ++ List.zipWith (fun o x => if P o then v else x) outs l
  | [], k, pre, l, _, hl => by
    have : l = [] := List.length_eq_zero_iff.mp (by simpa using hl)
    subst this; simp
  | o :: outs, k, pre, [], _, hl => by simp at hl
  | o :: outs, k, pre, x :: l, hk, hl => by
    rw [List.zipIdx_cons, List.foldl_cons]
    have e : (if P o then (pre ++ x :: l).set k v else pre ++ x :: l)
        = (pre ++ [if P o then v else x]) ++ l := by
      by_cases h : P o
      · simp only [h, if_true]
        subst hk
        simp [List.set_append]
      · simp [h]
    show List.foldl _ (if P o then (pre ++ x :: l).set k v else pre ++ x :: l) _ = _
    rw [e, foldl_set P v outs (k + 1) (pre ++ [if P o then v else x]) l (by simp [hk]) (by simpa using hl)]
    simp

theorem zipWith_map_right {β : Type} (P : String → Bool) (v : β) (F : String → β) (outs : List String) :
    List.zipWith (fun o x => if P o then v else x) outs (outs.map F)
      = outs.map (fun o => if P o then v else F o) := by
  induction outs with
  | nil => rfl
  | cons o outs ih => simp [ih]

theorem foldl_set_map {β : Type} (P : String → Bool) (v : β) (F : String → β) (outs : List String) :
    outs.zipIdx.foldl (fun l o => if P o.1 then l.set o.2 v else l) (outs.map F)
      = outs.map (fun o => if P o then v else F o) := by
  have := foldl_set P v outs 0 [] (outs.map F) rfl (by simp)
  simpa [zipWith_map_right] using this

/-- The effect of one file on the roles, when its polynomial is `p`. -/
def rolesPure (d : Dir) (file : String) (p : PolyFile) (os : List (String × ℕ)) (S : Setup) : Setup where
  output_data := os.foldl (fun l o => if isTable o.1 file then l.set o.2 (some (d.csv file)) else l) S.output_data
  eta_data := S.eta_data
  slPoly := if os.any (fun o => isSlPoly o.1 file) then some p else S.slPoly
  sltoPoly := if os.any (fun o => isSltoPoly o.1 file) then some p else S.sltoPoly
  avail := ⟨os.foldl (fun l o => if isTable o.1 file then l.set o.2 true else l) S.avail.out, S.avail.eff,
    os.any (fun o => isSlPoly o.1 file) || S.avail.sl, os.any (fun o => isSltoPoly o.1 file) || S.avail.slto⟩

theorem takeRole_eq (d : Dir) (file : String) (S : Setup) (o : String × ℕ) (p : PolyFile)
    (h : (isSlPoly o.1 file || isSltoPoly o.1 file) = true → d.poly file = .ok p) :
    takeRole d file S o = .ok (rolesPure d file p [o] S) := by
  unfold takeRole takeSl takeSlto takeOutput rolesPure
  by_cases h1 : isSlPoly o.1 file <;> by_cases h2 : isSltoPoly o.1 file <;>
    by_cases h3 : isTable o.1 file <;>
    simp [h1, h2] at h <;> simp [h1, h2, h3, h, bind_ok, pure, Except.pure] <;>
    simp [bind, Except.bind]

theorem takeRole_err (d : Dir) (file : String) (S : Setup) (o : String × ℕ) (e : PyErr)
    (h : (isSlPoly o.1 file || isSltoPoly o.1 file) = true) (he : d.poly file = .error e) :
    takeRole d file S o = .error e := by
  unfold takeRole takeSl takeSlto
  by_cases h1 : isSlPoly o.1 file <;> by_cases h2 : isSltoPoly o.1 file <;>
    simp [h1, h2] at h <;> simp [h1, h2, he, bind, Except.bind, pure, Except.pure]

theorem roles_eq (d : Dir) (file : String) (p : PolyFile) :
    ∀ (os : List (String × ℕ)) (S : Setup),
      ((os.any fun o => isSlPoly o.1 file || isSltoPoly o.1 file) = true → d.poly file = .ok p) →
      os.foldlM (takeRole d file) S = .ok (rolesPure d file p os S)
  | [], S, _ => by simp [rolesPure, pure, Except.pure]
  | o :: os, S, h => by
    rw [List.foldlM_cons, takeRole_eq d file S o p (fun ho => h (by simp only [List.any_cons, ho, Bool.true_or]))]
    show List.foldlM _ _ os = _
    rw [roles_eq d file p os _ (fun ho => h (by simp only [List.any_cons, ho, Bool.or_true]))]
    unfold rolesPure
    congr 2
    · by_cases h1 : isSlPoly o.1 file <;> by_cases h2 : os.any (fun o => isSlPoly o.1 file) = true <;>
        simp [h1, h2]
    · by_cases h1 : isSltoPoly o.1 file <;> by_cases h2 : os.any (fun o => isSltoPoly o.1 file) = true <;>
        simp [h1, h2]
    · congr 1
      · by_cases h1 : isSlPoly o.1 file <;> simp [h1]
      · by_cases h1 : isSltoPoly o.1 file <;> simp [h1]

theorem roles_err (d : Dir) (file : String) (e : PyErr) (he : d.poly file = .error e) :
    ∀ (os : List (String × ℕ)) (S : Setup),
      (os.any fun o => isSlPoly o.1 file || isSltoPoly o.1 file) = true →
      os.foldlM (takeRole d file) S = .error e
  | [], S, h => by simp at h
  | o :: os, S, h => by
    rw [List.foldlM_cons]
    by_cases ho : (isSlPoly o.1 file || isSltoPoly o.1 file) = true
    · rw [takeRole_err d file S o e ho he]; rfl
    · rw [takeRole_eq d file S o ([], []) (fun h => absurd h ho)]
      show List.foldlM _ _ os = _
      refine roles_err d file e he os _ ?_
      simpa [ho] using h

theorem effs_eq (d : Dir) (file : String) :
    ∀ (es : List (String × ℕ)) (S : Setup),
      es.foldl (takeEff d file) S =
        { S with eta_data := es.foldl (fun l o => if isTable o.1 file then l.set o.2 (some (d.csv file)) else l) S.eta_data
                 avail := { S.avail with eff := es.foldl (fun l o => if isTable o.1 file then l.set o.2 true else l) S.avail.eff } }
  | [], S => rfl
  | e :: es, S => by
    rw [List.foldl_cons, effs_eq d file es]
    unfold takeEff
    by_cases h : isTable e.1 file <;> simp [h]

theorem zipIdx_any (P : String → Bool) (l : List String) (k : ℕ) :
    (l.zipIdx k).any (fun o => P o.1) = l.any P := by
  induction l generalizing k with
  | nil => rfl
  | cons a l ih => rw [List.zipIdx_cons, List.any_cons, List.any_cons, ih]

theorem lastWhere_append (p : String → Bool) (files : List String) (f : String) :
    lastWhere p (files ++ [f]) = if p f then some f else lastWhere p files := by
  unfold lastWhere
  by_cases h : p f <;> simp [h]

theorem lastWhere_append_map {β : Type} (p : String → Bool) (files : List String) (f : String) (g : String → β) :
    (lastWhere p (files ++ [f])).map g = if p f then some (g f) else (lastWhere p files).map g := by
  rw [lastWhere_append]; by_cases h : p f <;> simp [h]

theorem takeFile_closed (d : Dir) (outputs effs files : List String) (f : String)
    (h : polyFile outputs f = true → ∃ p, d.poly f = .ok p) :
    takeFile d outputs effs (closedSetup d outputs effs files) f
      = .ok (closedSetup d outputs effs (files ++ [f])) := by
  have hany : (outputs.zipIdx.any fun o => isSlPoly o.1 f || isSltoPoly o.1 f) = polyFile outputs f := by
    rw [zipIdx_any (fun o => isSlPoly o f || isSltoPoly o f)]
    unfold polyFile
    induction outputs with
    | nil => rfl
    | cons a l ih =>
      simp only [List.any_cons]
      by_cases h1 : isSlPoly a f <;> by_cases h2 : isSltoPoly a f <;> simp [h1, h2]
      rw [Bool.eq_iff_iff]; simp
      constructor
      · rintro ⟨x, hx, hh | hh⟩
        · exact Or.inl ⟨x, hx, hh⟩
        · exact Or.inr ⟨x, hx, hh⟩
      · rintro (⟨x, hx, hh⟩ | ⟨x, hx, hh⟩)
        · exact ⟨x, hx, Or.inl hh⟩
        · exact ⟨x, hx, Or.inr hh⟩
  unfold takeFile
  rw [roles_eq d f (polyOf d f) outputs.zipIdx _ (by
    rw [hany]; intro hp
    obtain ⟨p, hp⟩ := h hp
    unfold polyOf; rw [hp])]
  rw [bind_ok, effs_eq]
  unfold rolesPure closedSetup
  simp only [pure, Except.pure]
  congr 1
  congr 1
  · rw [foldl_set_map (fun o => isTable o f)]
    refine List.map_congr_left (fun o _ => ?_)
    rw [lastWhere_append_map]
  · rw [foldl_set_map (fun o => isTable o f)]
    refine List.map_congr_left (fun o _ => ?_)
    rw [lastWhere_append_map]
  · rw [lastWhere_append_map (fun f => outputs.any fun o => isSlPoly o f)]
    rw [zipIdx_any (fun o => isSlPoly o f)]
  · rw [lastWhere_append_map (fun f => outputs.any fun o => isSltoPoly o f)]
    rw [zipIdx_any (fun o => isSltoPoly o f)]
  · congr 1
    · rw [foldl_set_map (fun o => isTable o f)]
      refine List.map_congr_left (fun o _ => ?_)
      by_cases h1 : isTable o f <;> simp [h1]
    · rw [foldl_set_map (fun o => isTable o f)]
      refine List.map_congr_left (fun o _ => ?_)
      by_cases h1 : isTable o f <;> simp [h1]
    · rw [zipIdx_any (fun o => isSlPoly o f)]
      simp [Bool.or_comm]
    · rw [zipIdx_any (fun o => isSltoPoly o f)]
      simp [Bool.or_comm]

theorem takeFile_err (d : Dir) (outputs effs : List String) (S : Setup) (f : String) (e : PyErr)
    (h : polyFile outputs f = true) (he : d.poly f = .error e) : takeFile d outputs effs S f = .error e := by
  unfold takeFile
  rw [roles_err d f e he outputs.zipIdx S ?_]
  · rfl
  · rw [zipIdx_any (fun o => isSlPoly o f || isSltoPoly o f)]
    unfold polyFile at h
    simp only [Bool.or_eq_true, List.any_eq_true] at h ⊢
    rcases h with ⟨x, hx, hh⟩ | ⟨x, hx, hh⟩
    · exact ⟨x, hx, Or.inl hh⟩
    · exact ⟨x, hx, Or.inr hh⟩

theorem setupInit_closed (d : Dir) (outputs effs : List String) :
    setupInit outputs effs = closedSetup d outputs effs [] := by
  unfold setupInit closedSetup lastWhere
  simp

theorem fold_closed (d : Dir) (outputs effs : List String) :
    ∀ (rest files : List String) (S : Setup),
      rest.foldlM (takeFile d outputs effs) (closedSetup d outputs effs files) = .ok S ↔
        (∀ f ∈ rest, polyFile outputs f = true → ∃ p, d.poly f = .ok p) ∧
          S = closedSetup d outputs effs (files ++ rest)
  | [], files, S => by
    simp only [List.foldlM_nil, pure_ok_iff, List.append_nil]
    constructor
    · rintro rfl; exact ⟨by simp, rfl⟩
    · rintro ⟨_, rfl⟩; rfl
  | f :: rest, files, S => by
    rw [List.foldlM_cons]
    by_cases hf : polyFile outputs f = true → ∃ p, d.poly f = .ok p
    · rw [takeFile_closed d outputs effs files f hf, bind_ok, fold_closed d outputs effs rest]
      simp only [List.append_assoc, List.cons_append, List.nil_append, List.mem_cons, forall_eq_or_imp]
      tauto
    · push_neg at hf
      obtain ⟨hp, hn⟩ := hf
      have : ∃ e, d.poly f = .error e := by
        cases hd : d.poly f with
        | ok p => exact absurd hd (hn p)
        | error e => exact ⟨e, rfl⟩
      obtain ⟨e, he⟩ := this
      rw [takeFile_err d outputs effs _ f e hp he, bind_error]
      constructor
      · intro h; cases h
      · rintro ⟨h, _⟩
        obtain ⟨p, hp'⟩ := h f (by simp) hp
        exact absurd hp' (hn p)

/-- `_setup` returns the closed form, exactly when the polynomial files of the engine can be read. -/
theorem setup_ok (d : Dir) (name : String) (outputs effs : List String) (S : Setup) :
    setup d name outputs effs = .ok S ↔
      (∀ f ∈ engineFiles name d.listing, polyFile outputs f = true → ∃ p, d.poly f = .ok p) ∧
        S = closedSetup d outputs effs (engineFiles name d.listing) := by
  have key : ∀ S' : Setup, ¬ (S'.avail.items.all AvItem.isFalse = true) := by
    intro S'; simp [Avail.items, AvItem.isFalse]
  unfold setup
  rw [setupInit_closed d, bind_ok_iff]
  constructor
  · rintro ⟨S', h1, h2⟩
    rw [if_neg (key S'), pure_ok_iff] at h2
    rw [fold_closed, List.nil_append] at h1
    rw [← h2]; exact h1
  · rintro ⟨h1, rfl⟩
    exact ⟨closedSetup d outputs effs (engineFiles name d.listing),
      (fold_closed d outputs effs _ [] _).mpr ⟨h1, by simp⟩, by rw [if_neg (key _)]; rfl⟩

end

end Verif.Propulsion
