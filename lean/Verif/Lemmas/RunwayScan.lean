import Verif.Model.RunwayData
import Mathlib.Data.List.Chain
import Mathlib.Tactic.Ring

/-
The rows of the runway file are in alphabetical order apart from upper and lower case, and so the rows of an airport are adjacent. Counts of rows
and airports. All by one pass over the file, evaluated in the kernel.
-/

namespace Verif.RunwayScan
open Verif.Atmos

/-- Upper case: lower case letters have bits 6 and 5 set. -/
def upper (a : ℕ) : ℕ := a - Nat.land (Nat.shiftRight (Nat.land a 283691315109952) 1) a
/-- Upper case and aligned to the left. -/
def key (a : ℕ) : ℕ := Nat.shiftLeft (upper a) (42 - 7 * (Nat.log2 a / 7))

/-- Same airport, or a later one in alphabetical order. -/
def Before (x y : ℕ) : Prop := x / 64 = y / 64 ∨ key (x / 64) < key (y / 64)

theorem Before.trans {x y z : ℕ} (h : Before x y) (g : Before y z) : Before x z := by
  rcases h with h | h <;> rcases g with g | g
  · exact Or.inl (h.trans g)
  · right; rw [h]; exact g
  · right; rw [← g]; exact h
  · exact Or.inr (h.trans g)

instance : IsTrans ℕ Before := ⟨fun _ _ _ => Before.trans⟩

/-- 1 for a row with an empty field. -/
def miss (x : ℕ) : ℕ := if x % 64 = 0 then 0 else 1

/-- The first rows of the airports in a list of rows after row `p`. -/
def starts : ℕ → List ℕ → List ℕ
  | _, [] => []
  | p, y :: l => if p / 64 = y / 64 then starts y l else y :: starts y l

/-- One pass over a block: last row, rows with empty fields, airports, airports whose first row has an empty field. -/
def scan : ℕ → ℕ → ℕ → ℕ → ℕ → ℕ → Option (ℕ × ℕ × ℕ × ℕ)
  | 0, _, p, b, s, t => some (p, b, s, t)
  | k + 1, n, p, b, s, t =>
    let x := n % 36028797018963968
    let e := if Nat.beq (x % 64) 0 then 0 else 1
    if Nat.beq (p / 64) (x / 64) then scan k (n / 36028797018963968) x (b + e) s t
    else if Nat.blt (key (p / 64)) (key (x / 64)) then scan k (n / 36028797018963968) x (b + e) (s + 1) (t + e)
    else none

/-- One pass over the blocks. -/
def scanAll : List (ℕ × ℕ) → ℕ × ℕ × ℕ × ℕ → Option (ℕ × ℕ × ℕ × ℕ)
  | [], st => some st
  | (k, n) :: l, (p, b, s, t) =>
    match scan k n p b s t with
    | some st => scanAll l st
    | none => none

/-- What a pass finds. -/
def Found (p : ℕ) (l : List ℕ) (p' b s t : ℕ) : Prop :=
  (p :: l).IsChain Before ∧ (p :: l).getLast? = some p' ∧ (l.map miss).sum = b ∧ (starts p l).length = s ∧ ((starts p l).map miss).sum = t

theorem Found.cons {p x : ℕ} {l : List ℕ} {p' b s t : ℕ} (h : Found x l p' b s t) (hb : Before p x) :
    Found p (x :: l) p' (miss x + b) (if p / 64 = x / 64 then s else s + 1) (if p / 64 = x / 64 then t else miss x + t) := by
  obtain ⟨h1, h2, h3, h4, h5⟩ := h
  refine ⟨List.IsChain.cons_cons hb h1, ?_, ?_, ?_, ?_⟩
  · rw [← h2]; simp
  · simp [h3]
  · unfold starts; split_ifs <;> simp [h4]
  · unfold starts; split_ifs <;> simp [h5]

theorem Found.append {p q r : ℕ} {l m : List ℕ} {b s t b' s' t' : ℕ} (h : Found p l q b s t) (g : Found q m r b' s' t') :
    Found p (l ++ m) r (b + b') (s + s') (t + t') := by
  induction l generalizing p b s t with
  | nil =>
    obtain ⟨-, h2, h3, h4, h5⟩ := h
    simp only [List.getLast?_singleton, Option.some.injEq] at h2
    simp only [starts, List.map_nil, List.sum_nil, List.length_nil] at h3 h4 h5
    subst h2 h3 h4 h5
    simpa using g
  | cons x l ih =>
    obtain ⟨h1, h2, h3, h4, h5⟩ := h
    rw [List.isChain_cons_cons] at h1
    have := ih (b := (l.map miss).sum) (s := (starts x l).length) (t := ((starts x l).map miss).sum) ⟨h1.2, by rw [← h2]; simp, rfl, rfl, rfl⟩
    have c := this.cons h1.1
    rw [List.map_cons, List.sum_cons] at h3
    unfold starts at h4 h5
    convert c using 1
    · rfl
    · rw [← h3]; ring
    · rw [← h4]; split_ifs <;> simp <;> ring
    · rw [← h5]; split_ifs <;> simp <;> ring

theorem scan_found {k n p b s t p' b' s' t' : ℕ} (h : scan k n p b s t = some (p', b', s', t')) :
    b ≤ b' ∧ s ≤ s' ∧ t ≤ t' ∧ Found p (blockRows k n) p' (b' - b) (s' - s) (t' - t) := by
  induction k generalizing n p b s t with
  | zero =>
    simp only [scan, Option.some.injEq, Prod.mk.injEq] at h
    obtain ⟨rfl, rfl, rfl, rfl⟩ := h
    simp [Found, blockRows, starts]
  | succ k ih =>
    rw [scan] at h
    rw [blockRows]
    obtain ⟨x, hx⟩ : ∃ x, x = n % 36028797018963968 := ⟨_, rfl⟩
    obtain ⟨m, hm⟩ : ∃ m, m = n / 36028797018963968 := ⟨_, rfl⟩
    rw [← hx, ← hm] at h ⊢
    have e : (if Nat.beq (x % 64) 0 = true then 0 else 1) = miss x := by
      unfold miss; simp only [Nat.beq_eq]
    rw [e] at h
    split_ifs at h with c1 c2
    · obtain ⟨g1, g2, g3, g4⟩ := ih h
      rw [Nat.beq_eq] at c1
      have f := g4.cons (Or.inl c1)
      rw [if_pos c1, if_pos c1] at f
      refine ⟨by omega, g2, g3, ?_⟩
      convert f using 1
      omega
    · obtain ⟨g1, g2, g3, g4⟩ := ih h
      rw [Nat.beq_eq] at c1
      have f := g4.cons (Or.inr (Nat.lt_of_succ_le (by simpa [Nat.blt] using c2)))
      rw [if_neg c1, if_neg c1] at f
      refine ⟨by omega, by omega, by omega, ?_⟩
      convert f using 1 <;> omega

theorem scanAll_found {l : List (ℕ × ℕ)} {p b s t p' b' s' t' : ℕ} (h : scanAll l (p, b, s, t) = some (p', b', s', t')) :
    b ≤ b' ∧ s ≤ s' ∧ t ≤ t' ∧ Found p (l.flatMap (fun x => blockRows x.1 x.2)) p' (b' - b) (s' - s) (t' - t) := by
  induction l generalizing p b s t with
  | nil =>
    simp only [scanAll, Option.some.injEq, Prod.mk.injEq] at h
    obtain ⟨rfl, rfl, rfl, rfl⟩ := h
    simp [Found, starts]
  | cons x l ih =>
    obtain ⟨k, n⟩ := x
    rw [scanAll] at h
    cases hs : scan k n p b s t with
    | none => rw [hs] at h; cases h
    | some st =>
      obtain ⟨q, b1, s1, t1⟩ := st
      rw [hs] at h
      obtain ⟨g1, g2, g3, g4⟩ := ih h
      obtain ⟨f1, f2, f3, f4⟩ := scan_found hs
      refine ⟨by omega, by omega, by omega, ?_⟩
      rw [List.flatMap_cons]
      have := f4.append g4
      convert this using 1 <;> omega

theorem blockRows_length (k n : ℕ) : (blockRows k n).length = k := by
  induction k generalizing n with
  | zero => rfl
  | succ k ih => simp [blockRows, ih]

/-- The number of rows. -/
theorem rows_length : runwayRows.length = 40489 := by
  rw [runwayRows, List.length_flatMap]
  simp only [blockRows_length]
  rfl

set_option maxRecDepth 100000 in
theorem scan_file : scanAll runwayBlocks (0, 0, 0, 0) = some (12174710460, 30064, 34113, 26977) := by decide +kernel

/-- The pass over the file. -/
theorem found_file : Found 0 runwayRows 12174710460 30064 34113 26977 := (scanAll_found scan_file).2.2.2

/-- The number of rows of one airport in a block. -/
def tally (c : ℕ) : ℕ → ℕ → ℕ → ℕ
  | 0, _, s => s
  | k + 1, n, s => if Nat.beq (n % 36028797018963968 / 64) c then tally c k (n / 36028797018963968) (s + 1)
    else tally c k (n / 36028797018963968) s

/-- The number of rows of one airport in the blocks. -/
def tallyAll (c : ℕ) : List (ℕ × ℕ) → ℕ → ℕ
  | [], s => s
  | (k, n) :: l, s => tallyAll c l (tally c k n s)

theorem tally_eq (c k n s : ℕ) : tally c k n s = s + (blockRows k n).countP (fun x => decide (x / 64 = c)) := by
  induction k generalizing n s with
  | zero => rfl
  | succ k ih =>
    rw [tally, blockRows, List.countP_cons]
    by_cases h : n % 36028797018963968 / 64 = c
    · rw [if_pos (by rw [Nat.beq_eq]; exact h), ih]; simp [h]; ring
    · rw [if_neg (by rw [Nat.beq_eq]; exact h), ih]; simp [h]

theorem tallyAll_eq (c : ℕ) (l : List (ℕ × ℕ)) (s : ℕ) :
    tallyAll c l s = s + (l.flatMap (fun x => blockRows x.1 x.2)).countP (fun x => decide (x / 64 = c)) := by
  induction l generalizing s with
  | nil => rfl
  | cons x l ih =>
    obtain ⟨k, n⟩ := x
    rw [tallyAll, ih, tally_eq, List.flatMap_cons, List.countP_append]; ring

set_option maxRecDepth 100000 in
theorem tally_denver : tallyAll 158409422 runwayBlocks 0 = 6 := by decide +kernel

/-- The rows of KDEN. -/
theorem denver : runwayRows.countP (fun x => decide (x / 64 = 158409422)) = 6 := by
  unfold runwayRows
  exact (Nat.zero_add _).symm.trans ((tallyAll_eq 158409422 runwayBlocks 0).symm.trans tally_denver)

end Verif.RunwayScan
