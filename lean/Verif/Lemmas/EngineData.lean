import Verif.Model.EngineData
import Verif.Lemmas.Setup
import Verif.Lemmas.PyM
import Mathlib.Tactic.NormNum

/-
Facts about the encoding of the engine data and about decks built from it.
-/

namespace Verif.Propulsion

open Verif

noncomputable section

/-- The decimal of an encoded field. -/
def dec (k : ℕ) (v : Option ℤ) : Option ℝ := v.map (fun v : ℤ => (v : ℝ) / 10 ^ k)

/-- Three columns side by side, encoded. -/
def RawTable.triples (t : RawTable) (a b c : ℕ) : List (Option ℤ × Option ℤ × Option ℤ) :=
  (t.column a).zip ((t.column b).zip (t.column c))

/-- Three columns side by side. -/
def RawTable.select (t : RawTable) (a b c : ℕ) : List Row :=
  (t.triples a b c).map (fun r => (dec t.scale r.1, dec t.scale r.2.1, dec t.scale r.2.2))

theorem find_zipIdx (l : List String) (x : String) (f : ℕ → List (Option ℝ)) (s a : ℕ) (h : l.idxOf? x = some a) :
    ((l.zipIdx s).map (fun n => (n.1, f n.2))).find? (fun c => c.1 = x) = some (x, f (s + a)) := by
  induction l generalizing s a with
  | nil => simp at h
  | cons y l ih =>
    rw [List.idxOf?_cons] at h
    by_cases e : y = x
    · subst e
      simp at h
      subst h
      simp
    · simp [e] at h
      obtain ⟨b, hb, rfl⟩ := h
      simp [e]
      have := ih (s + 1) b hb
      rw [show s + 1 + b = s + (b + 1) by ring] at this
      simpa using this

theorem col_frame (t : RawTable) (x : String) (a : ℕ) (h : t.names.idxOf? x = some a) :
    col t.frame x = .ok ((t.column a).map (dec t.scale)) := by
  unfold col RawTable.frame
  have := find_zipIdx t.names x (fun n => (t.column n).map (Option.map (fun v : ℤ => (v : ℝ) / 10 ^ t.scale))) 0 a h
  rw [this]
  simp only [zero_add]
  rfl

theorem table_frame (t : RawTable) (x y z : String) (a b c : ℕ) (hx : t.names.idxOf? x = some a) (hy : t.names.idxOf? y = some b)
    (hz : t.names.idxOf? z = some c) : table t.frame x y z = .ok (t.select a b c) := by
  unfold table
  rw [col_frame t x a hx, col_frame t y b hy, col_frame t z c hz]
  show Except.ok _ = Except.ok _
  congr 1
  unfold RawTable.select RawTable.triples
  rw [List.zip_map, List.zip_map]
  rfl

theorem col_frame_missing (t : RawTable) (x : String) (h : x ∉ t.names) : col t.frame x = .error .keyError := by
  unfold col RawTable.frame
  have : (t.names.zipIdx.map (fun n => (n.1, (t.column n.2).map (Option.map (fun v : ℤ => (v : ℝ) / 10 ^ t.scale))))).find?
      (fun c => c.1 = x) = none := by
    rw [List.find?_eq_none]
    intro c hc
    rw [List.mem_map] at hc
    obtain ⟨n, hn, rfl⟩ := hc
    have := List.mem_zipIdx hn
    simp only [decide_eq_true_eq]
    intro e
    apply h
    rw [← e]
    obtain ⟨_, _, h3⟩ := this
    rw [h3]
    exact List.getElem_mem _
  rw [this]

theorem lastWhere_ships {listing files : List String} (hl : ∀ f, f ∈ listing ↔ f ∈ files) (name : String) (p : String → Bool)
    (o : Option String) (ho : files.filter (fun f => pyIn name.toList f.toList && p f) = o.toList) :
    lastWhere p (engineFiles name listing) = o ∧ (engineFiles name listing).any p = o.isSome := by
  have hm : ∀ f, f ∈ (engineFiles name listing).filter p ↔ f ∈ o.toList := by
    intro f
    rw [← ho]
    unfold engineFiles
    simp only [List.mem_filter, Bool.and_eq_true, hl f, and_assoc]
  have e : lastWhere p (engineFiles name listing) = o := by
    unfold lastWhere
    cases h : ((engineFiles name listing).filter p).getLast? with
    | none =>
      rw [List.getLast?_eq_none_iff] at h
      cases o with
      | none => rfl
      | some f =>
        have := (hm f).mpr (by simp)
        rw [h] at this
        cases this
    | some g =>
      have := (hm g).mp (List.mem_of_getLast? h)
      cases o with
      | none => simp at this
      | some f => simp at this; rw [this]
  refine ⟨e, ?_⟩
  cases o with
  | none =>
    rw [Option.isSome_none, Bool.eq_false_iff]
    intro h
    rw [List.any_eq_true] at h
    obtain ⟨f, h1, h2⟩ := h
    have := (hm f).mp (List.mem_filter.mpr ⟨h1, h2⟩)
    simp at this
  | some f =>
    rw [Option.isSome_some, List.any_eq_true]
    have := (hm f).mpr (by simp)
    rw [List.mem_filter] at this
    exact ⟨f, this⟩

/-! ### File names -/

/-- The file names as lists of characters, and in small letters. -/
def turbopropChars : List (List Char × List Char) := [
  (['T', '5', '6', '-', 'A', '_', 'B', 'S', 'F', 'C', '_', 'd', 'a', 't', 'a', '.', 'c', 's', 'v'], ['t', '5', '6', '-', 'a', '_', 'b', 's', 'f', 'c', '_', 'd', 'a', 't', 'a', '.', 'c', 's', 'v']),
  (['T', '5', '6', '-', 'A', '_', 'P', 'o', 'w', 'e', 'r', '_', 'd', 'a', 't', 'a', '.', 'c', 's', 'v'], ['t', '5', '6', '-', 'a', '_', 'p', 'o', 'w', 'e', 'r', '_', 'd', 'a', 't', 'a', '.', 'c', 's', 'v']),
  (['T', '5', '6', '-', 'A', '_', 'T', 'h', 'r', 'u', 's', 't', '_', 'd', 'a', 't', 'a', '.', 'c', 's', 'v'], ['t', '5', '6', '-', 'a', '_', 't', 'h', 'r', 'u', 's', 't', '_', 'd', 'a', 't', 'a', '.', 'c', 's', 'v']),
  (['T', 'y', 'n', 'e', '_', 'R', 'T', 'y', '1', '1', '_', 'A', 'i', 'r', 'f', 'l', 'o', 'w', '_', 'd', 'a', 't', 'a', '.', 'c', 's', 'v'], ['t', 'y', 'n', 'e', '_', 'r', 't', 'y', '1', '1', '_', 'a', 'i', 'r', 'f', 'l', 'o', 'w', '_', 'd', 'a', 't', 'a', '.', 'c', 's', 'v']),
  (['T', 'y', 'n', 'e', '_', 'R', 'T', 'y', '1', '1', '_', 'B', 'S', 'F', 'C', '_', 'd', 'a', 't', 'a', '.', 'c', 's', 'v'], ['t', 'y', 'n', 'e', '_', 'r', 't', 'y', '1', '1', '_', 'b', 's', 'f', 'c', '_', 'd', 'a', 't', 'a', '.', 'c', 's', 'v']),
  (['T', 'y', 'n', 'e', '_', 'R', 'T', 'y', '1', '1', '_', 'P', 'o', 'w', 'e', 'r', '_', 'd', 'a', 't', 'a', '.', 'c', 's', 'v'], ['t', 'y', 'n', 'e', '_', 'r', 't', 'y', '1', '1', '_', 'p', 'o', 'w', 'e', 'r', '_', 'd', 'a', 't', 'a', '.', 'c', 's', 'v']),
  (['T', 'y', 'n', 'e', '_', 'R', 'T', 'y', '1', '1', '_', 'T', 'h', 'r', 'u', 's', 't', '_', 'd', 'a', 't', 'a', '.', 'c', 's', 'v'], ['t', 'y', 'n', 'e', '_', 'r', 't', 'y', '1', '1', '_', 't', 'h', 'r', 'u', 's', 't', '_', 'd', 'a', 't', 'a', '.', 'c', 's', 'v']),
  (['_', 't', 'u', 'r', 'b', 'o', 'p', 'r', 'o', 'p', '_', 'm', 'e', 't', 'a', 'd', 'a', 't', 'a', '.', 'c', 's', 'v'], ['_', 't', 'u', 'r', 'b', 'o', 'p', 'r', 'o', 'p', '_', 'm', 'e', 't', 'a', 'd', 'a', 't', 'a', '.', 'c', 's', 'v'])]

theorem turboprop_chars : turbopropFiles.map (fun f => (f.toList, f.toList.map Char.toLower)) = turbopropChars := by decide +kernel

/-- The file names as lists of characters, and in small letters. -/
def jetChars : List (List Char × List Char) := [
  (['A', 'T', 'F', '3', '-', '6', 'A', '_', 'S', 'e', 'a', '_', 'l', 'e', 'v', 'e', 'l', '_', 't', 'h', 'r', 'u', 's', 't', '_', 'p', 'o', 'l', 'y', 'n', 'o', 'm', 'i', 'a', 'l', '.', 'c', 's', 'v'], ['a', 't', 'f', '3', '-', '6', 'a', '_', 's', 'e', 'a', '_', 'l', 'e', 'v', 'e', 'l', '_', 't', 'h', 'r', 'u', 's', 't', '_', 'p', 'o', 'l', 'y', 'n', 'o', 'm', 'i', 'a', 'l', '.', 'c', 's', 'v']),
  (['A', 'T', 'F', '3', '-', '6', 'A', '_', 'T', 'S', 'F', 'C', '_', 'd', 'a', 't', 'a', '.', 'c', 's', 'v'], ['a', 't', 'f', '3', '-', '6', 'a', '_', 't', 's', 'f', 'c', '_', 'd', 'a', 't', 'a', '.', 'c', 's', 'v']),
  (['A', 'T', 'F', '3', '-', '6', 'A', '_', 'T', 'h', 'r', 'u', 's', 't', '_', 'd', 'a', 't', 'a', '.', 'c', 's', 'v'], ['a', 't', 'f', '3', '-', '6', 'a', '_', 't', 'h', 'r', 'u', 's', 't', '_', 'd', 'a', 't', 'a', '.', 'c', 's', 'v']),
  (['F', '4', '0', '4', '-', '4', '0', '0', '_', 'S', 'e', 'a', '_', 'l', 'e', 'v', 'e', 'l', '_', 't', 'h', 'r', 'u', 's', 't', '_', 'p', 'o', 'l', 'y', 'n', 'o', 'm', 'i', 'a', 'l', '.', 'c', 's', 'v'], ['f', '4', '0', '4', '-', '4', '0', '0', '_', 's', 'e', 'a', '_', 'l', 'e', 'v', 'e', 'l', '_', 't', 'h', 'r', 'u', 's', 't', '_', 'p', 'o', 'l', 'y', 'n', 'o', 'm', 'i', 'a', 'l', '.', 'c', 's', 'v']),
  (['F', '4', '0', '4', '-', '4', '0', '0', '_', 'T', 'h', 'r', 'u', 's', 't', '_', 'd', 'a', 't', 'a', '.', 'c', 's', 'v'], ['f', '4', '0', '4', '-', '4', '0', '0', '_', 't', 'h', 'r', 'u', 's', 't', '_', 'd', 'a', 't', 'a', '.', 'c', 's', 'v']),
  (['F', 'J', '-', '4', '4', '_', 'S', 'e', 'a', '_', 'l', 'e', 'v', 'e', 'l', '_', 't', 'h', 'r', 'u', 's', 't', '_', 'p', 'o', 'l', 'y', 'n', 'o', 'm', 'i', 'a', 'l', '.', 'c', 's', 'v'], ['f', 'j', '-', '4', '4', '_', 's', 'e', 'a', '_', 'l', 'e', 'v', 'e', 'l', '_', 't', 'h', 'r', 'u', 's', 't', '_', 'p', 'o', 'l', 'y', 'n', 'o', 'm', 'i', 'a', 'l', '.', 'c', 's', 'v']),
  (['F', 'J', '-', '4', '4', '_', 'T', 'S', 'F', 'C', '_', 'd', 'a', 't', 'a', '.', 'c', 's', 'v'], ['f', 'j', '-', '4', '4', '_', 't', 's', 'f', 'c', '_', 'd', 'a', 't', 'a', '.', 'c', 's', 'v']),
  (['F', 'J', '-', '4', '4', '_', 'T', 'h', 'r', 'u', 's', 't', '_', 'd', 'a', 't', 'a', '.', 'c', 's', 'v'], ['f', 'j', '-', '4', '4', '_', 't', 'h', 'r', 'u', 's', 't', '_', 'd', 'a', 't', 'a', '.', 'c', 's', 'v']),
  (['J', '5', '2', '_', 'S', 'e', 'a', '_', 'l', 'e', 'v', 'e', 'l', '_', 't', 'h', 'r', 'u', 's', 't', '_', 'p', 'o', 'l', 'y', 'n', 'o', 'm', 'i', 'a', 'l', '.', 'c', 's', 'v'], ['j', '5', '2', '_', 's', 'e', 'a', '_', 'l', 'e', 'v', 'e', 'l', '_', 't', 'h', 'r', 'u', 's', 't', '_', 'p', 'o', 'l', 'y', 'n', 'o', 'm', 'i', 'a', 'l', '.', 'c', 's', 'v']),
  (['J', '5', '2', '_', 'T', 'S', 'F', 'C', '_', 'd', 'a', 't', 'a', '.', 'c', 's', 'v'], ['j', '5', '2', '_', 't', 's', 'f', 'c', '_', 'd', 'a', 't', 'a', '.', 'c', 's', 'v']),
  (['J', '5', '2', '_', 'T', 'h', 'r', 'u', 's', 't', '_', 'd', 'a', 't', 'a', '.', 'c', 's', 'v'], ['j', '5', '2', '_', 't', 'h', 'r', 'u', 's', 't', '_', 'd', 'a', 't', 'a', '.', 'c', 's', 'v']),
  (['J', '6', '0', '_', 'S', 'e', 'a', '_', 'l', 'e', 'v', 'e', 'l', '_', 't', 'h', 'r', 'u', 's', 't', '_', 'p', 'o', 'l', 'y', 'n', 'o', 'm', 'i', 'a', 'l', '.', 'c', 's', 'v'], ['j', '6', '0', '_', 's', 'e', 'a', '_', 'l', 'e', 'v', 'e', 'l', '_', 't', 'h', 'r', 'u', 's', 't', '_', 'p', 'o', 'l', 'y', 'n', 'o', 'm', 'i', 'a', 'l', '.', 'c', 's', 'v']),
  (['J', '6', '0', '_', 'T', 'S', 'F', 'C', '_', 'd', 'a', 't', 'a', '.', 'c', 's', 'v'], ['j', '6', '0', '_', 't', 's', 'f', 'c', '_', 'd', 'a', 't', 'a', '.', 'c', 's', 'v']),
  (['J', '6', '0', '_', 'T', 'h', 'r', 'u', 's', 't', '_', 'd', 'a', 't', 'a', '.', 'c', 's', 'v'], ['j', '6', '0', '_', 't', 'h', 'r', 'u', 's', 't', '_', 'd', 'a', 't', 'a', '.', 'c', 's', 'v']),
  (['J', 'T', '8', 'D', '-', '9', '_', 'S', 'e', 'a', '_', 'l', 'e', 'v', 'e', 'l', '_', 't', 'a', 'k', 'e', '_', 'o', 'f', 'f', '_', 't', 'h', 'r', 'u', 's', 't', '_', 'p', 'o', 'l', 'y', 'n', 'o', 'm', 'i', 'a', 'l', '.', 'c', 's', 'v'], ['j', 't', '8', 'd', '-', '9', '_', 's', 'e', 'a', '_', 'l', 'e', 'v', 'e', 'l', '_', 't', 'a', 'k', 'e', '_', 'o', 'f', 'f', '_', 't', 'h', 'r', 'u', 's', 't', '_', 'p', 'o', 'l', 'y', 'n', 'o', 'm', 'i', 'a', 'l', '.', 'c', 's', 'v']),
  (['J', 'T', '8', 'D', '-', '9', '_', 'S', 'e', 'a', '_', 'l', 'e', 'v', 'e', 'l', '_', 't', 'h', 'r', 'u', 's', 't', '_', 'p', 'o', 'l', 'y', 'n', 'o', 'm', 'i', 'a', 'l', '.', 'c', 's', 'v'], ['j', 't', '8', 'd', '-', '9', '_', 's', 'e', 'a', '_', 'l', 'e', 'v', 'e', 'l', '_', 't', 'h', 'r', 'u', 's', 't', '_', 'p', 'o', 'l', 'y', 'n', 'o', 'm', 'i', 'a', 'l', '.', 'c', 's', 'v']),
  (['J', 'T', '8', 'D', '-', '9', '_', 'T', 'S', 'F', 'C', '_', 'd', 'a', 't', 'a', '.', 'c', 's', 'v'], ['j', 't', '8', 'd', '-', '9', '_', 't', 's', 'f', 'c', '_', 'd', 'a', 't', 'a', '.', 'c', 's', 'v']),
  (['J', 'T', '8', 'D', '-', '9', '_', 'T', 'h', 'r', 'u', 's', 't', '_', 'S', 'L', '_', 'T', 'O', '_', 'd', 'a', 't', 'a', '.', 'c', 's', 'v'], ['j', 't', '8', 'd', '-', '9', '_', 't', 'h', 'r', 'u', 's', 't', '_', 's', 'l', '_', 't', 'o', '_', 'd', 'a', 't', 'a', '.', 'c', 's', 'v']),
  (['J', 'T', '8', 'D', '-', '9', '_', 'T', 'h', 'r', 'u', 's', 't', '_', 'd', 'a', 't', 'a', '.', 'c', 's', 'v'], ['j', 't', '8', 'd', '-', '9', '_', 't', 'h', 'r', 'u', 's', 't', '_', 'd', 'a', 't', 'a', '.', 'c', 's', 'v']),
  (['J', 'T', '9', 'D', '-', '3', '_', 'S', 'e', 'a', '_', 'l', 'e', 'v', 'e', 'l', '_', 't', 'a', 'k', 'e', '_', 'o', 'f', 'f', '_', 't', 'h', 'r', 'u', 's', 't', '_', 'p', 'o', 'l', 'y', 'n', 'o', 'm', 'i', 'a', 'l', '.', 'c', 's', 'v'], ['j', 't', '9', 'd', '-', '3', '_', 's', 'e', 'a', '_', 'l', 'e', 'v', 'e', 'l', '_', 't', 'a', 'k', 'e', '_', 'o', 'f', 'f', '_', 't', 'h', 'r', 'u', 's', 't', '_', 'p', 'o', 'l', 'y', 'n', 'o', 'm', 'i', 'a', 'l', '.', 'c', 's', 'v']),
  (['J', 'T', '9', 'D', '-', '3', '_', 'S', 'e', 'a', '_', 'l', 'e', 'v', 'e', 'l', '_', 't', 'h', 'r', 'u', 's', 't', '_', 'p', 'o', 'l', 'y', 'n', 'o', 'm', 'i', 'a', 'l', '.', 'c', 's', 'v'], ['j', 't', '9', 'd', '-', '3', '_', 's', 'e', 'a', '_', 'l', 'e', 'v', 'e', 'l', '_', 't', 'h', 'r', 'u', 's', 't', '_', 'p', 'o', 'l', 'y', 'n', 'o', 'm', 'i', 'a', 'l', '.', 'c', 's', 'v']),
  (['J', 'T', '9', 'D', '-', '3', '_', 'T', 'S', 'F', 'C', '_', 'd', 'a', 't', 'a', '.', 'c', 's', 'v'], ['j', 't', '9', 'd', '-', '3', '_', 't', 's', 'f', 'c', '_', 'd', 'a', 't', 'a', '.', 'c', 's', 'v']),
  (['J', 'T', '9', 'D', '-', '3', '_', 'T', 'h', 'r', 'u', 's', 't', '_', 'S', 'L', '_', 'T', 'O', '_', 'd', 'a', 't', 'a', '.', 'c', 's', 'v'], ['j', 't', '9', 'd', '-', '3', '_', 't', 'h', 'r', 'u', 's', 't', '_', 's', 'l', '_', 't', 'o', '_', 'd', 'a', 't', 'a', '.', 'c', 's', 'v']),
  (['J', 'T', '9', 'D', '-', '3', '_', 'T', 'h', 'r', 'u', 's', 't', '_', 'd', 'a', 't', 'a', '.', 'c', 's', 'v'], ['j', 't', '9', 'd', '-', '3', '_', 't', 'h', 'r', 'u', 's', 't', '_', 'd', 'a', 't', 'a', '.', 'c', 's', 'v']),
  (['T', 'F', '3', '0', '_', 'S', 'e', 'a', '_', 'l', 'e', 'v', 'e', 'l', '_', 't', 'h', 'r', 'u', 's', 't', '_', 'p', 'o', 'l', 'y', 'n', 'o', 'm', 'i', 'a', 'l', '.', 'c', 's', 'v'], ['t', 'f', '3', '0', '_', 's', 'e', 'a', '_', 'l', 'e', 'v', 'e', 'l', '_', 't', 'h', 'r', 'u', 's', 't', '_', 'p', 'o', 'l', 'y', 'n', 'o', 'm', 'i', 'a', 'l', '.', 'c', 's', 'v']),
  (['T', 'F', '3', '0', '_', 'T', 'S', 'F', 'C', '_', 'd', 'a', 't', 'a', '.', 'c', 's', 'v'], ['t', 'f', '3', '0', '_', 't', 's', 'f', 'c', '_', 'd', 'a', 't', 'a', '.', 'c', 's', 'v']),
  (['T', 'F', '3', '0', '_', 'T', 'h', 'r', 'u', 's', 't', '_', 'd', 'a', 't', 'a', '.', 'c', 's', 'v'], ['t', 'f', '3', '0', '_', 't', 'h', 'r', 'u', 's', 't', '_', 'd', 'a', 't', 'a', '.', 'c', 's', 'v']),
  (['T', 'F', 'E', '7', '3', '1', '-', '2', '_', 'S', 'e', 'a', '_', 'l', 'e', 'v', 'e', 'l', '_', 't', 'h', 'r', 'u', 's', 't', '_', 'p', 'o', 'l', 'y', 'n', 'o', 'm', 'i', 'a', 'l', '.', 'c', 's', 'v'], ['t', 'f', 'e', '7', '3', '1', '-', '2', '_', 's', 'e', 'a', '_', 'l', 'e', 'v', 'e', 'l', '_', 't', 'h', 'r', 'u', 's', 't', '_', 'p', 'o', 'l', 'y', 'n', 'o', 'm', 'i', 'a', 'l', '.', 'c', 's', 'v']),
  (['T', 'F', 'E', '7', '3', '1', '-', '2', '_', 'T', 'h', 'r', 'u', 's', 't', '_', 'd', 'a', 't', 'a', '.', 'c', 's', 'v'], ['t', 'f', 'e', '7', '3', '1', '-', '2', '_', 't', 'h', 'r', 'u', 's', 't', '_', 'd', 'a', 't', 'a', '.', 'c', 's', 'v']),
  (['T', 'F', 'E', '7', '3', '1', '-', '5', '_', 'S', 'e', 'a', '_', 'l', 'e', 'v', 'e', 'l', '_', 't', 'a', 'k', 'e', '_', 'o', 'f', 'f', '_', 't', 'h', 'r', 'u', 's', 't', '_', 'p', 'o', 'l', 'y', 'n', 'o', 'm', 'i', 'a', 'l', '.', 'c', 's', 'v'], ['t', 'f', 'e', '7', '3', '1', '-', '5', '_', 's', 'e', 'a', '_', 'l', 'e', 'v', 'e', 'l', '_', 't', 'a', 'k', 'e', '_', 'o', 'f', 'f', '_', 't', 'h', 'r', 'u', 's', 't', '_', 'p', 'o', 'l', 'y', 'n', 'o', 'm', 'i', 'a', 'l', '.', 'c', 's', 'v']),
  (['T', 'F', 'E', '7', '3', '1', '-', '5', '_', 'T', 'S', 'F', 'C', '_', 'd', 'a', 't', 'a', '.', 'c', 's', 'v'], ['t', 'f', 'e', '7', '3', '1', '-', '5', '_', 't', 's', 'f', 'c', '_', 'd', 'a', 't', 'a', '.', 'c', 's', 'v']),
  (['T', 'F', 'E', '7', '3', '1', '-', '5', '_', 'T', 'h', 'r', 'u', 's', 't', '_', 'S', 'L', '_', 'T', 'O', '_', 'd', 'a', 't', 'a', '.', 'c', 's', 'v'], ['t', 'f', 'e', '7', '3', '1', '-', '5', '_', 't', 'h', 'r', 'u', 's', 't', '_', 's', 'l', '_', 't', 'o', '_', 'd', 'a', 't', 'a', '.', 'c', 's', 'v']),
  (['T', 'F', 'E', '7', '3', '1', '-', '5', '_', 'T', 'h', 'r', 'u', 's', 't', '_', 'd', 'a', 't', 'a', '.', 'c', 's', 'v'], ['t', 'f', 'e', '7', '3', '1', '-', '5', '_', 't', 'h', 'r', 'u', 's', 't', '_', 'd', 'a', 't', 'a', '.', 'c', 's', 'v']),
  (['_', 'j', 'e', 't', '_', 'm', 'e', 't', 'a', 'd', 'a', 't', 'a', '.', 'c', 's', 'v'], ['_', 'j', 'e', 't', '_', 'm', 'e', 't', 'a', 'd', 'a', 't', 'a', '.', 'c', 's', 'v'])]

theorem jet_chars : jetFiles.map (fun f => (f.toList, f.toList.map Char.toLower)) = jetChars := by decide +kernel

/-- The file names as lists of characters, and in small letters. -/
def electricChars : List (List Char × List Char) := [
  (['J', 'M', 'X', '5', '7', '_', 'E', 'f', 'f', 'i', 'c', 'i', 'e', 'n', 'c', 'y', '_', 'd', 'a', 't', 'a', '.', 'c', 's', 'v'], ['j', 'm', 'x', '5', '7', '_', 'e', 'f', 'f', 'i', 'c', 'i', 'e', 'n', 'c', 'y', '_', 'd', 'a', 't', 'a', '.', 'c', 's', 'v']),
  (['Y', 'A', 'S', 'A', '_', '7', '5', '0', 'R', '_', 'E', 'f', 'f', 'i', 'c', 'i', 'e', 'n', 'c', 'y', '_', 'd', 'a', 't', 'a', '.', 'c', 's', 'v'], ['y', 'a', 's', 'a', '_', '7', '5', '0', 'r', '_', 'e', 'f', 'f', 'i', 'c', 'i', 'e', 'n', 'c', 'y', '_', 'd', 'a', 't', 'a', '.', 'c', 's', 'v']),
  (['_', 'e', 'l', 'e', 'c', 't', 'r', 'i', 'c', '_', 'm', 'e', 't', 'a', 'd', 'a', 't', 'a', '.', 'c', 's', 'v'], ['_', 'e', 'l', 'e', 'c', 't', 'r', 'i', 'c', '_', 'm', 'e', 't', 'a', 'd', 'a', 't', 'a', '.', 'c', 's', 'v'])]

theorem electric_chars : electricFiles.map (fun f => (f.toList, f.toList.map Char.toLower)) = electricChars := by decide +kernel

/-- The file names as lists of characters, and in small letters. -/
def pistonChars : List (List Char × List Char) := [
  (['I', 'O', '-', '5', '4', '0', '_', 'B', 'S', 'F', 'C', '_', 'b', 'e', 's', 't', '_', 'p', 'o', 'w', 'e', 'r', '_', 'd', 'a', 't', 'a', '.', 'c', 's', 'v'], ['i', 'o', '-', '5', '4', '0', '_', 'b', 's', 'f', 'c', '_', 'b', 'e', 's', 't', '_', 'p', 'o', 'w', 'e', 'r', '_', 'd', 'a', 't', 'a', '.', 'c', 's', 'v']),
  (['I', 'O', '-', '5', '4', '0', '_', 'B', 'S', 'F', 'C', '_', 'd', 'a', 't', 'a', '.', 'c', 's', 'v'], ['i', 'o', '-', '5', '4', '0', '_', 'b', 's', 'f', 'c', '_', 'd', 'a', 't', 'a', '.', 'c', 's', 'v']),
  (['I', 'O', '-', '5', '4', '0', '_', 'P', 'o', 'w', 'e', 'r', '_', 'd', 'a', 't', 'a', '.', 'c', 's', 'v'], ['i', 'o', '-', '5', '4', '0', '_', 'p', 'o', 'w', 'e', 'r', '_', 'd', 'a', 't', 'a', '.', 'c', 's', 'v']),
  (['W', 'a', 's', 'p', '_', 'M', 'a', 'j', 'o', 'r', '_', 'B', '1', '3', '_', 'B', 'S', 'F', 'C', '_', 'd', 'a', 't', 'a', '.', 'c', 's', 'v'], ['w', 'a', 's', 'p', '_', 'm', 'a', 'j', 'o', 'r', '_', 'b', '1', '3', '_', 'b', 's', 'f', 'c', '_', 'd', 'a', 't', 'a', '.', 'c', 's', 'v']),
  (['W', 'a', 's', 'p', '_', 'M', 'a', 'j', 'o', 'r', '_', 'B', '1', '3', '_', 'P', 'o', 'w', 'e', 'r', '_', 'd', 'a', 't', 'a', '.', 'c', 's', 'v'], ['w', 'a', 's', 'p', '_', 'm', 'a', 'j', 'o', 'r', '_', 'b', '1', '3', '_', 'p', 'o', 'w', 'e', 'r', '_', 'd', 'a', 't', 'a', '.', 'c', 's', 'v']),
  (['_', 'p', 'i', 's', 't', 'o', 'n', '_', 'm', 'e', 't', 'a', 'd', 'a', 't', 'a', '.', 'c', 's', 'v'], ['_', 'p', 'i', 's', 't', 'o', 'n', '_', 'm', 'e', 't', 'a', 'd', 'a', 't', 'a', '.', 'c', 's', 'v'])]

theorem piston_chars : pistonFiles.map (fun f => (f.toList, f.toList.map Char.toLower)) = pistonChars := by decide +kernel

theorem filter_role {files : List String} {chars : List (List Char × List Char)}
    (hc : files.map (fun f => (f.toList, f.toList.map Char.toLower)) = chars) (q : List Char → List Char → Bool) (o : Option String)
    (h : chars.filter (fun f => q f.1 f.2) = (o.map (fun f => (f.toList, f.toList.map Char.toLower))).toList) :
    files.filter (fun f => q f.toList (f.toList.map Char.toLower)) = o.toList := by
  subst hc
  rw [List.filter_map] at h
  have inj : Function.Injective (fun f : String => (f.toList, f.toList.map Char.toLower)) := by
    intro a b e
    exact String.toList_injective (Prod.mk.inj e).1
  apply List.map_injective_iff.mpr inj
  rw [show (fun f : List Char × List Char => q f.1 f.2) ∘ (fun f : String => (f.toList, f.toList.map Char.toLower)) =
    fun f => q f.toList (f.toList.map Char.toLower) from rfl] at h
  rw [h]
  cases o <;> rfl

/-- Tests of `filter_role` for the table of a role and for the polynomials. -/
def qTable (name role : String) (a b : List Char) : Bool := pyIn name.toList a && pyIn (role.toList ++ "_data.csv".toList) b

/-- See `qTable`. -/
def qSl (name : String) (a b : List Char) : Bool :=
  pyIn name.toList a && ["thrust"].any (fun o => pyIn ("sea_level_".toList ++ o.toList ++ "_polynomial.csv".toList) b)

/-- See `qTable`. -/
def qSlto (name : String) (a b : List Char) : Bool :=
  pyIn name.toList a && ["thrust"].any (fun o => pyIn ("sea_level_take_off_".toList ++ o.toList ++ "_polynomial.csv".toList) b)

/-! ### Reading off the tables -/

/-- All rows of three columns are complete and pass a test. -/
def RawTable.passes (t : RawTable) (a b c : ℕ) (P : ℤ → ℤ → ℤ → Bool) : Bool :=
  (t.triples a b c).all (fun r => match r with
    | (some x, some y, some z) => P x y z
    | _ => false)

theorem select_passes (t : RawTable) (a b c : ℕ) (P : ℤ → ℤ → ℤ → Bool) (h : t.passes a b c P = true) :
    ∀ r ∈ t.select a b c, ∃ x y z : ℤ, P x y z = true ∧
      r = (some ((x : ℝ) / 10 ^ t.scale), some ((y : ℝ) / 10 ^ t.scale), some ((z : ℝ) / 10 ^ t.scale)) := by
  intro r hr
  unfold RawTable.select at hr
  rw [List.mem_map] at hr
  obtain ⟨⟨x, y, z⟩, hm, rfl⟩ := hr
  unfold RawTable.passes at h
  rw [List.all_eq_true] at h
  have := h _ hm
  match x, y, z with
  | some x, some y, some z => exact ⟨x, y, z, this, rfl⟩
  | none, _, _ => simp at this
  | some _, none, _ => simp at this
  | some _, some _, none => simp at this

theorem select_mem (t : RawTable) (a b c : ℕ) (x y z : ℤ) (h : (t.triples a b c).contains (some x, some y, some z) = true) :
    (some ((x : ℝ) / 10 ^ t.scale), some ((y : ℝ) / 10 ^ t.scale), some ((z : ℝ) / 10 ^ t.scale)) ∈ t.select a b c := by
  unfold RawTable.select
  rw [List.mem_map]
  exact ⟨_, List.contains_iff_mem.mp h, rfl⟩

/-! ### Decks -/

theorem mkJet_ships {dir : Dir} {files : List String} (hl : ∀ f, f ∈ dir.listing ↔ f ∈ files) (name : String) (f1 f2 f3 f4 : Option String)
    (h1 : files.filter (fun f => pyIn name.toList f.toList && isTable "thrust" f) = f1.toList)
    (h2 : files.filter (fun f => pyIn name.toList f.toList && isTable "tsfc" f) = f2.toList)
    (h3 : files.filter (fun f => pyIn name.toList f.toList && ["thrust"].any (fun o => isSlPoly o f)) = f3.toList)
    (h4 : files.filter (fun f => pyIn name.toList f.toList && ["thrust"].any (fun o => isSltoPoly o f)) = f4.toList)
    (hp : ∀ f ∈ files, polyFile ["thrust"] f = true → ∃ p, dir.poly f = .ok p) {thr sfc : Option (List Row)}
    (ht : assign f1.isSome (f1.map dir.csv) "Mach Number" "Altitude (m)" "Thrust (N)" = .ok thr)
    (hs : assign f2.isSome (f2.map dir.csv) "Mach Number" "Thrust (N)" "TSFC (g/(kNs))" = .ok sfc) :
    mkJet dir name = .ok ⟨⟨[f1.isSome], [f2.isSome], f3.isSome, f4.isSome⟩, thr, sfc, f3.map (polyOf dir), f4.map (polyOf dir)⟩ := by
  have e : setup dir name ["thrust"] ["tsfc"] = .ok (closedSetup dir ["thrust"] ["tsfc"] (engineFiles name dir.listing)) := by
    rw [setup_ok]
    refine ⟨fun f hf h => hp f ?_ h, rfl⟩
    unfold engineFiles at hf
    exact (hl f).mp (List.mem_filter.mp hf).1
  obtain ⟨a1, b1⟩ := lastWhere_ships hl name _ f1 h1
  obtain ⟨a2, b2⟩ := lastWhere_ships hl name _ f2 h2
  obtain ⟨a3, b3⟩ := lastWhere_ships hl name _ f3 h3
  obtain ⟨a4, b4⟩ := lastWhere_ships hl name _ f4 h4
  have c : closedSetup dir ["thrust"] ["tsfc"] (engineFiles name dir.listing) =
      ⟨[f1.map dir.csv], [f2.map dir.csv], f3.map (polyOf dir), f4.map (polyOf dir), ⟨[f1.isSome], [f2.isSome], f3.isSome, f4.isSome⟩⟩ := by
    unfold closedSetup
    rw [a3, b3, a4, b4]
    simp only [List.map_cons, List.map_nil, a1, b1, a2, b2]
  unfold mkJet
  rw [e, c]
  show (do
    let thr ← assign f1.isSome (f1.map dir.csv) "Mach Number" "Altitude (m)" "Thrust (N)"
    let sfc ← assign f2.isSome (f2.map dir.csv) "Mach Number" "Thrust (N)" "TSFC (g/(kNs))"
    pure (⟨⟨[f1.isSome], [f2.isSome], f3.isSome, f4.isSome⟩, thr, sfc, f3.map (polyOf dir), f4.map (polyOf dir)⟩ : JetDeck)) = _
  rw [ht, hs]
  rfl

theorem setup_plain {dir : Dir} {files : List String} (hl : ∀ f, f ∈ dir.listing ↔ f ∈ files) (name : String) (outs effs : List String)
    (hp : ∀ f ∈ files, pyIn name.toList f.toList = true → polyFile outs f = false) :
    ∃ S, setup dir name outs effs = .ok S ∧ S.avail.out = outs.map (fun o => (engineFiles name dir.listing).any (isTable o)) ∧
      S.avail.eff = effs.map (fun o => (engineFiles name dir.listing).any (isTable o)) ∧
      S.output_data = outs.map (fun o => (lastWhere (isTable o) (engineFiles name dir.listing)).map dir.csv) ∧
      S.eta_data = effs.map (fun o => (lastWhere (isTable o) (engineFiles name dir.listing)).map dir.csv) := by
  refine ⟨_, (setup_ok dir name outs effs _).mpr ⟨fun f hf h => ?_, rfl⟩, rfl, rfl, rfl, rfl⟩
  unfold engineFiles at hf
  obtain ⟨h1, h2⟩ := List.mem_filter.mp hf
  rw [hp f ((hl f).mp h1) h2] at h
  cases h

theorem mkTurboprop_ships {dir : Dir} {files : List String} (hl : ∀ f, f ∈ dir.listing ↔ f ∈ files) (name : String) (f1 f2 f3 : String)
    (h1 : files.filter (fun f => pyIn name.toList f.toList && isTable "thrust" f) = [f1])
    (h2 : files.filter (fun f => pyIn name.toList f.toList && isTable "power" f) = [f2])
    (h3 : files.filter (fun f => pyIn name.toList f.toList && isTable "bsfc" f) = [f3])
    (hp : ∀ f ∈ files, pyIn name.toList f.toList = true → polyFile ["thrust", "power"] f = false) {thr pwr sfc : List Row}
    (ht : table (dir.csv f1) "Mach Number" "Altitude (m)" "Thrust (N)" = .ok thr)
    (hw : table (dir.csv f2) "Mach Number" "Altitude (m)" "Power (W)" = .ok pwr)
    (hs : table (dir.csv f3) "Mach Number" "Altitude (m)" "BSFC (g/(kWh))" = .ok sfc) :
    ∃ d, mkTurboprop dir name = .ok d ∧ d.avail.out = [true, true] ∧ d.avail.eff = [true] ∧ d.thr_data = some thr ∧ d.pwr_data = some pwr ∧
      d.bsfc_data = some sfc := by
  obtain ⟨S, e, s1, s2, s3, s4⟩ := setup_plain hl name ["thrust", "power"] ["bsfc"] hp
  obtain ⟨a1, b1⟩ := lastWhere_ships hl name _ (some f1) h1
  obtain ⟨a2, b2⟩ := lastWhere_ships hl name _ (some f2) h2
  obtain ⟨a3, b3⟩ := lastWhere_ships hl name _ (some f3) h3
  simp only [List.map_cons, List.map_nil, a1, b1, a2, b2, a3, b3, Option.isSome_some, Option.map_some] at s1 s2 s3 s4
  unfold mkTurboprop
  rw [e]
  show ∃ d, (do
    let thr ← assign (flagAt S.avail.out 0) (dataAt S.output_data 0) "Mach Number" "Altitude (m)" "Thrust (N)"
    let pwr ← assign (flagAt S.avail.out 1) (dataAt S.output_data 1) "Mach Number" "Altitude (m)" "Power (W)"
    let bsfc ← assign (flagAt S.avail.eff 0) (dataAt S.eta_data 0) "Mach Number" "Altitude (m)" "BSFC (g/(kWh))"
    pure (⟨S.avail, thr, pwr, bsfc⟩ : TurbopropDeck)) = _ ∧ _
  rw [s1, s2, s3, s4]
  simp only [flagAt, dataAt, List.getD_cons_zero, List.getD_cons_succ, List.getElem?_cons_zero, List.getElem?_cons_succ, Option.getD_some,
    assign, if_true, ht, hw, hs]
  exact ⟨_, rfl, s1, s2, rfl, rfl, rfl⟩

theorem mkElectric_ships {dir : Dir} {files : List String} (hl : ∀ f, f ∈ dir.listing ↔ f ∈ files) (name : String) (f1 : String)
    (h1 : files.filter (fun f => pyIn name.toList f.toList && isTable "efficiency" f) = [f1])
    (hp : ∀ f ∈ files, pyIn name.toList f.toList = true → polyFile ["efficiency"] f = false) {eta : List Row}
    (ht : table (dir.csv f1) "Speed (RPM)" "Torque (Nm)" "Efficiency" = .ok eta) :
    ∃ d, mkElectric dir name = .ok d ∧ d.avail.out = [true] ∧ d.eta_data = some eta ∧ d.sft_pwr = eta.map mapPower := by
  obtain ⟨S, e, s1, s2, s3, s4⟩ := setup_plain hl name ["efficiency"] [""] hp
  obtain ⟨a1, b1⟩ := lastWhere_ships hl name _ (some f1) h1
  simp only [List.map_cons, List.map_nil, a1, b1, Option.isSome_some, Option.map_some] at s1 s3
  unfold mkElectric
  rw [e]
  show ∃ d, (do
    let e ← assign (flagAt S.avail.out 0) (dataAt S.output_data 0) "Speed (RPM)" "Torque (Nm)" "Efficiency"
    pure (⟨S.avail, e, (e.getD []).map mapPower, (e.getD []).map (fun r => ndiv (mapPower r) r.2.2)⟩ : ElectricDeck)) = _ ∧ _
  rw [s1, s3]
  simp only [flagAt, dataAt, List.getD_cons_zero, List.getElem?_cons_zero, Option.getD_some, assign, if_true, ht]
  exact ⟨_, rfl, s1, rfl, rfl⟩

theorem mkPiston_ships {dir : Dir} {files : List String} (hl : ∀ f, f ∈ dir.listing ↔ f ∈ files) (name : String) (f2 : String)
    (f3 : Option String)
    (h2 : files.filter (fun f => pyIn name.toList f.toList && isTable "bsfc" f) = [f2])
    (h3 : files.filter (fun f => pyIn name.toList f.toList && isTable "bsfc_best_power" f) = f3.toList)
    (hp : ∀ f ∈ files, pyIn name.toList f.toList = true → polyFile ["power"] f = false) {sfc : List Row} {best : Option (List Row)}
    (hs : table (dir.csv f2) "Speed (RPM)" "Power (W)" "BSFC (g/(kWh))" = .ok sfc)
    (hb : assign f3.isSome (f3.map dir.csv) "Speed (RPM)" "Power (W)" "BSFC (g/(kWh))" = .ok best) (f1 : String)
    (h1 : lastWhere (isTable "power") (engineFiles name dir.listing) = some f1) {pwr : List Row} :
    (table (dir.csv f1) "Speed (RPM)" "Altitude (m)" "Power (W)" = .ok pwr → ∃ d, mkPiston dir name = .ok d ∧ d.avail.out = [true] ∧
      d.avail.eff = [true, f3.isSome] ∧ d.pwr_data = some pwr ∧ d.bsfc_data = some sfc ∧ d.bsfc_pwr_data = best) ∧
    (table (dir.csv f1) "Speed (RPM)" "Altitude (m)" "Power (W)" = .error .keyError → mkPiston dir name = .error .keyError) := by
  obtain ⟨S, e, s1, s2, s3, s4⟩ := setup_plain hl name ["power"] ["bsfc", "bsfc_best_power"] hp
  obtain ⟨a2, b2⟩ := lastWhere_ships hl name _ (some f2) h2
  obtain ⟨a3, b3⟩ := lastWhere_ships hl name _ f3 h3
  have b1 : (engineFiles name dir.listing).any (isTable "power") = true := by
    unfold lastWhere at h1
    have := List.mem_of_getLast? h1
    rw [List.mem_filter] at this
    rw [List.any_eq_true]
    exact ⟨f1, this⟩
  simp only [List.map_cons, List.map_nil, h1, b1, a2, b2, a3, b3, Option.isSome_some, Option.map_some] at s1 s2 s3 s4
  have q : mkPiston dir name = (do
    let pwr ← assign (flagAt S.avail.out 0) (dataAt S.output_data 0) "Speed (RPM)" "Altitude (m)" "Power (W)"
    let b ← assign (flagAt S.avail.eff 0) (dataAt S.eta_data 0) "Speed (RPM)" "Power (W)" "BSFC (g/(kWh))"
    let bp ← assign (flagAt S.avail.eff 1) (dataAt S.eta_data 1) "Speed (RPM)" "Power (W)" "BSFC (g/(kWh))"
    pure (⟨S.avail, pwr, b, bp⟩ : PistonDeck)) := by
    unfold mkPiston
    rw [e]
    rfl
  rw [q]
  constructor
  · intro ht
    rw [s1, s2, s3, s4]
    simp only [flagAt, dataAt, List.getD_cons_zero, List.getD_cons_succ, List.getElem?_cons_zero, List.getElem?_cons_succ, Option.getD_some]
    rw [hb]
    simp only [assign, if_true, ht, hs]
    exact ⟨_, rfl, s1, s2, rfl, rfl, rfl⟩
  · intro ht
    rw [s1, s2, s3, s4]
    simp only [flagAt, dataAt, List.getD_cons_zero, List.getElem?_cons_zero, Option.getD_some, assign, if_true, ht]
    rfl

end

end Verif.Propulsion
