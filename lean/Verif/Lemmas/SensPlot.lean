import Verif.Model.SensPlot
import Verif.Lemmas.PyM
import Verif.Lemmas.Tac
import Mathlib.Data.List.GetD

/-
List facts on the regions drawn in the sensitivity charts.
-/

namespace Verif.Aircraft
open Verif

theorem mem_feasIdx {comb : List (Option ℝ)} {i : ℕ} : i ∈ feasIdx comb ↔ (comb.getD i none).isSome := by
  unfold feasIdx
  rw [List.mem_filter, List.mem_range]
  constructor
  · exact fun h => h.2
  · intro h
    refine ⟨?_, h⟩
    by_contra hc
    rw [List.getD_eq_default _ _ (by omega)] at h
    cases h

theorem feasIdx_sorted (comb : List (Option ℝ)) : (feasIdx comb).Pairwise (· < ·) :=
  List.Pairwise.filter _ List.pairwise_lt_range

theorem mem_dropLast {l : List ℕ} (h : l.Pairwise (· < ·)) (i : ℕ) :
    i ∈ l.dropLast ↔ i ∈ l ∧ ∃ j ∈ l, i < j := by
  induction l with
  | nil => simp
  | cons a t ih =>
    cases t with
    | nil =>
      simp only [List.dropLast_singleton, List.not_mem_nil, List.mem_singleton, false_iff, not_and, not_exists]
      rintro rfl j rfl
      exact lt_irrefl _
    | cons b t =>
      rw [List.dropLast_cons_cons, List.mem_cons, ih h.of_cons]
      have hab : ∀ x ∈ b :: t, a < x := (List.pairwise_cons.mp h).1
      constructor
      · rintro (rfl | ⟨h1, j, h2, h3⟩)
        · exact ⟨List.mem_cons_self, b, by simp, hab b (by simp)⟩
        · exact ⟨List.mem_cons_of_mem _ h1, j, List.mem_cons_of_mem _ h2, h3⟩
      · rintro ⟨h1, j, h2, h3⟩
        rcases List.mem_cons.mp h1 with rfl | h1
        · left; rfl
        · right
          refine ⟨h1, j, ?_, h3⟩
          rcases List.mem_cons.mp h2 with rfl | h2
          · have := hab i (by assumption); omega
          · exact h2

/-- Index `i` is outside the feasible range or the last one in it. -/
def AtEnd (comb : List (Option ℝ)) (i : ℕ) : Prop :=
  comb.getD i none = none ∨ ∀ j, i < j → comb.getD j none = none

theorem not_atEnd {comb : List (Option ℝ)} {i : ℕ} : ¬ AtEnd comb i ↔ i ∈ (feasIdx comb).dropLast := by
  rw [mem_dropLast (feasIdx_sorted comb), mem_feasIdx]
  simp only [AtEnd, not_or, not_forall, mem_feasIdx, Option.isSome_iff_ne_none]
  constructor
  · rintro ⟨h1, j, h2, h3⟩; exact ⟨h1, j, h3, h2⟩
  · rintro ⟨h1, j, h2, h3⟩; exact ⟨h1, j, h3, h2⟩

theorem getD_inj {xs : List ℝ} (hn : xs.Nodup) {i j : ℕ} (hi : i < xs.length) (hj : j < xs.length)
    (h : xs.getD i 0 = xs.getD j 0) : i = j := by
  rw [List.getD_eq_getElem _ _ hi, List.getD_eq_getElem _ _ hj] at h
  exact (List.Nodup.getElem_inj_iff hn).mp h

theorem mem_infeasX {xs : List ℝ} {comb : List (Option ℝ)} (hn : xs.Nodup) (hl : comb.length = xs.length) {x : ℝ} :
    x ∈ infeasX xs comb ↔ ∃ i, i < xs.length ∧ xs.getD i 0 = x ∧ AtEnd comb i := by
  unfold infeasX
  simp only [List.mem_filter, decide_eq_true_eq, List.mem_map, not_exists, not_and]
  constructor
  · rintro ⟨h1, h2⟩
    obtain ⟨i, hi, rfl⟩ := List.mem_iff_getElem.mp h1
    refine ⟨i, hi, List.getD_eq_getElem _ _ hi, ?_⟩
    by_contra hc
    exact h2 i (not_atEnd.mp hc) (List.getD_eq_getElem _ _ hi)
  · rintro ⟨i, hi, rfl, h⟩
    refine ⟨by rw [List.getD_eq_getElem _ _ hi]; exact List.getElem_mem _, fun j hj e => ?_⟩
    have hjl : j < xs.length := by
      have h1 := ((mem_dropLast (feasIdx_sorted comb) j).mp hj).1
      unfold feasIdx at h1
      rw [List.mem_filter, List.mem_range] at h1
      omega
    have := getD_inj hn hjl hi e
    subst this
    exact not_atEnd.mpr hj h

/-- The feasible indices are the first ones. -/
def Prefix (comb : List (Option ℝ)) : Prop :=
  ∀ i j, i ≤ j → comb.getD i none = none → comb.getD j none = none

theorem AtEnd.mono {comb : List (Option ℝ)} (hp : Prefix comb) {i j : ℕ} (hij : i ≤ j) (h : AtEnd comb i) : AtEnd comb j := by
  rcases h with h | h
  · exact Or.inl (hp i j hij h)
  · exact Or.inr (fun k hk => h k (by omega))

theorem atEnd_last {comb : List (Option ℝ)} {n : ℕ} (hl : comb.length = n) : AtEnd comb (n - 1) :=
  Or.inr (fun j hj => List.getD_eq_default _ _ (by omega))

theorem listMax_mem {l : List ℝ} (hl : l ≠ []) : ∃ m, listMax l = .ok m ∧ m ∈ l ∧ ∀ x ∈ l, x ≤ m := by
  cases l with
  | nil => exact absurd rfl hl
  | cons a t =>
    refine ⟨_, rfl, ?_⟩
    clear hl
    induction t generalizing a with
    | nil => simp
    | cons b t ih =>
      obtain ⟨h1, h2⟩ := ih (max a b)
      simp only [List.foldl_cons]
      refine ⟨?_, ?_⟩
      · rcases List.mem_cons.mp h1 with h | h
        · rw [h]; rcases max_choice a b with e | e <;> rw [e] <;> simp
        · simp [h]
      · intro z hz
        have h3 := h2 (max a b) (by simp)
        rcases List.mem_cons.mp hz with rfl | hz
        · exact (le_max_left _ _).trans h3
        · rcases List.mem_cons.mp hz with rfl | hz
          · exact (le_max_right _ _).trans h3
          · exact h2 z (by simp [hz])

theorem listMin_mem {l : List ℝ} (hl : l ≠ []) : ∃ m, listMin l = .ok m ∧ m ∈ l ∧ ∀ x ∈ l, m ≤ x := by
  cases l with
  | nil => exact absurd rfl hl
  | cons a t =>
    refine ⟨_, rfl, ?_⟩
    clear hl
    induction t generalizing a with
    | nil => simp
    | cons b t ih =>
      obtain ⟨h1, h2⟩ := ih (min a b)
      simp only [List.foldl_cons]
      refine ⟨?_, ?_⟩
      · rcases List.mem_cons.mp h1 with h | h
        · rw [h]; rcases min_choice a b with e | e <;> rw [e] <;> simp
        · simp [h]
      · intro z hz
        have h3 := h2 (min a b) (by simp)
        rcases List.mem_cons.mp hz with rfl | hz
        · exact h3.trans (min_le_left _ _)
        · rcases List.mem_cons.mp hz with rfl | hz
          · exact h3.trans (min_le_right _ _)
          · exact h2 z (by simp [hz])

/-- The bounds exist, are x-values of end points, and enclose all end points. -/
theorem infeasBounds_spec {xs : List ℝ} {comb : List (Option ℝ)} (hn : xs.Nodup) (hl : comb.length = xs.length)
    (hne : xs ≠ []) : ∃ lo hi, infeasBounds xs comb = .ok (lo, hi) ∧
      (∃ k, k < xs.length ∧ xs.getD k 0 = lo ∧ AtEnd comb k) ∧ (∃ k, k < xs.length ∧ xs.getD k 0 = hi ∧ AtEnd comb k) ∧
      ∀ i, i < xs.length → AtEnd comb i → lo ≤ xs.getD i 0 ∧ xs.getD i 0 ≤ hi := by
  have h0 : 0 < xs.length := List.length_pos_of_ne_nil hne
  have hI : infeasX xs comb ≠ [] := by
    have : xs.getD (xs.length - 1) 0 ∈ infeasX xs comb := (mem_infeasX hn hl).mpr ⟨_, by omega, rfl, atEnd_last hl⟩
    intro e; rw [e] at this; cases this
  obtain ⟨hi, e1, m1, b1⟩ := listMax_mem hI
  obtain ⟨lo, e2, m2, b2⟩ := listMin_mem hI
  refine ⟨lo, hi, ?_, (mem_infeasX hn hl).mp m2, (mem_infeasX hn hl).mp m1, fun i hi' ha => ?_⟩
  · unfold infeasBounds; rw [e1, e2]; rfl
  · have : xs.getD i 0 ∈ infeasX xs comb := (mem_infeasX hn hl).mpr ⟨i, hi', rfl, ha⟩
    exact ⟨b2 _ this, b1 _ this⟩

/-- Increasing positions. -/
def Asc (xs : List ℝ) : Prop := ∀ i j, i < j → j < xs.length → xs.getD i 0 < xs.getD j 0

/-- Decreasing positions. -/
def Desc (xs : List ℝ) : Prop := ∀ i j, i < j → j < xs.length → xs.getD j 0 < xs.getD i 0

theorem Asc.nodup {xs : List ℝ} (h : Asc xs) : xs.Nodup := by
  rw [List.nodup_iff_injective_get]
  intro a b e
  by_contra hc
  simp only [List.get_eq_getElem] at e
  rcases lt_or_gt_of_ne (fun e => hc (Fin.ext e) : (a:ℕ) ≠ b) with q | q
  · have := h a b q b.2
    rw [List.getD_eq_getElem _ _ a.2, List.getD_eq_getElem _ _ b.2] at this
    linarith
  · have := h b a q a.2
    rw [List.getD_eq_getElem _ _ a.2, List.getD_eq_getElem _ _ b.2] at this
    linarith

theorem Desc.nodup {xs : List ℝ} (h : Desc xs) : xs.Nodup := by
  rw [List.nodup_iff_injective_get]
  intro a b e
  by_contra hc
  simp only [List.get_eq_getElem] at e
  rcases lt_or_gt_of_ne (fun e => hc (Fin.ext e) : (a:ℕ) ≠ b) with q | q
  · have := h a b q b.2
    rw [List.getD_eq_getElem _ _ a.2, List.getD_eq_getElem _ _ b.2] at this
    linarith
  · have := h b a q a.2
    rw [List.getD_eq_getElem _ _ a.2, List.getD_eq_getElem _ _ b.2] at this
    linarith

/-- Increasing positions: which ones are shaded. -/
theorem shaded_asc {xs : List ℝ} {comb : List (Option ℝ)} (hx : Asc xs) (hp : Prefix comb) (hl : comb.length = xs.length)
    {lo hi : ℝ} (hb : infeasBounds xs comb = .ok (lo, hi)) (hne : xs ≠ []) (xcrit : Option ℝ) (i : ℕ) (hi' : i < xs.length) :
    ((clMask xcrit (lo, hi)).1 ≤ xs.getD i 0 ∧ xs.getD i 0 ≤ (clMask xcrit (lo, hi)).2) ↔
      (AtEnd comb i ∨ ∃ s, xcrit = some s ∧ s ≠ 0 ∧ s ≤ xs.getD i 0) := by
  obtain ⟨lo', hi'', e, ⟨k, hk, ek, ak⟩, -, hall⟩ := infeasBounds_spec hx.nodup hl hne
  rw [e] at hb; cases hb
  have hlast := (hall (xs.length - 1) (by omega) (atEnd_last hl)).2
  have hle : xs.getD i 0 ≤ hi := by
    rcases eq_or_lt_of_le (show i ≤ xs.length - 1 by omega) with q | q
    · rw [q]; exact hlast
    · exact (hx i _ q (by omega)).le.trans hlast
  have key : lo ≤ xs.getD i 0 ↔ AtEnd comb i := by
    constructor
    · intro h
      rw [← ek] at h
      refine ak.mono hp ?_
      by_contra hc
      have := hx i k (by omega) hk
      linarith
    · exact fun h => (hall i hi' h).1
  cases xcrit with
  | none =>
    simp only [clMask, reduceCtorEq, false_and, exists_false, or_false]
    rw [← key]
    exact ⟨fun h => h.1, fun h => ⟨h, hle⟩⟩
  | some s =>
    simp only [clMask, Option.some.injEq, exists_eq_left']
    by_cases hs : s = 0
    · rw [if_pos hs]
      simp only [hs, ne_eq, not_true_eq_false, false_and, or_false]
      rw [← key]
      exact ⟨fun h => h.1, fun h => ⟨h, hle⟩⟩
    · rw [if_neg hs, ← key]
      simp only [min_le_iff, le_max_iff]
      constructor
      · rintro ⟨h | h, -⟩
        · exact Or.inr ⟨hs, h⟩
        · exact Or.inl h
      · rintro (h | ⟨-, h⟩)
        · exact ⟨Or.inr h, Or.inr hle⟩
        · exact ⟨Or.inl h, Or.inr hle⟩

/-- Decreasing positions: which ones are shaded. -/
theorem shaded_desc {xs : List ℝ} {comb : List (Option ℝ)} (hx : Desc xs) (hp : Prefix comb) (hl : comb.length = xs.length)
    {lo hi : ℝ} (hb : infeasBounds xs comb = .ok (lo, hi)) (hne : xs ≠ []) (xcrit : Option ℝ) (i : ℕ) (hi' : i < xs.length) :
    ((clMask xcrit (lo, hi)).1 ≤ xs.getD i 0 ∧ xs.getD i 0 ≤ (clMask xcrit (lo, hi)).2) ↔
      (AtEnd comb i ∨ ∃ s, xcrit = some s ∧ s ≠ 0 ∧ xs.getD i 0 ≤ s) := by
  obtain ⟨lo', hi'', e, -, ⟨k, hk, ek, ak⟩, hall⟩ := infeasBounds_spec hx.nodup hl hne
  rw [e] at hb; cases hb
  have hlast := (hall (xs.length - 1) (by omega) (atEnd_last hl)).1
  have hle : lo ≤ xs.getD i 0 := by
    rcases eq_or_lt_of_le (show i ≤ xs.length - 1 by omega) with q | q
    · rw [q]; exact hlast
    · exact hlast.trans (hx i _ q (by omega)).le
  have key : xs.getD i 0 ≤ hi ↔ AtEnd comb i := by
    constructor
    · intro h
      rw [← ek] at h
      refine ak.mono hp ?_
      by_contra hc
      have := hx i k (by omega) hk
      linarith
    · exact fun h => (hall i hi' h).2
  cases xcrit with
  | none =>
    simp only [clMask, reduceCtorEq, false_and, exists_false, or_false]
    rw [← key]
    exact ⟨fun h => h.2, fun h => ⟨hle, h⟩⟩
  | some s =>
    simp only [clMask, Option.some.injEq, exists_eq_left']
    by_cases hs : s = 0
    · rw [if_pos hs]
      simp only [hs, ne_eq, not_true_eq_false, false_and, or_false]
      rw [← key]
      exact ⟨fun h => h.2, fun h => ⟨hle, h⟩⟩
    · rw [if_neg hs, ← key]
      simp only [min_le_iff, le_max_iff]
      constructor
      · rintro ⟨-, h | h⟩
        · exact Or.inr ⟨hs, h⟩
        · exact Or.inl h
      · rintro (h | ⟨-, h⟩)
        · exact ⟨Or.inr hle, Or.inr h⟩
        · exact ⟨Or.inr hle, Or.inl h⟩

/-- The lower bound of the feasible region: the unshaded points, or the first point if all are shaded. -/
theorem mem_solnIdx {xs : List ℝ} {m : ℝ × ℝ} {i : ℕ} (h : ∃ j, j < xs.length ∧ ¬ (m.1 ≤ xs.getD j 0 ∧ xs.getD j 0 ≤ m.2)) :
    i ∈ solnIdx xs m ↔ i < xs.length ∧ ¬ (m.1 ≤ xs.getD i 0 ∧ xs.getD i 0 ≤ m.2) := by
  have key : ∀ i, i ∈ (List.range xs.length).filter (fun i => m.2 < xs.getD i 0) ++
      (List.range xs.length).filter (fun i => m.1 > xs.getD i 0) ↔
      i < xs.length ∧ ¬ (m.1 ≤ xs.getD i 0 ∧ xs.getD i 0 ≤ m.2) := by
    intro i
    simp only [List.mem_append, List.mem_filter, List.mem_range, decide_eq_true_eq, not_and_or, not_le, gt_iff_lt]
    tauto
  unfold solnIdx
  simp only []
  rw [if_neg, key]
  intro e
  obtain ⟨j, hj⟩ := h
  have := (key j).mpr hj
  rw [e] at this
  cases this

/-! ### Masks of the sensitivity charts -/

theorem mem_maskIdx {curve : List ℝ} {comb : List (Option ℝ)} {i : ℕ} :
    i ∈ maskIdx curve comb ↔ i < curve.length ∧ curve.getD i 0 < (comb.getD i none).getD 0 := by
  unfold maskIdx
  rw [List.mem_filter, List.mem_range, decide_eq_true_eq]

theorem maskIdx_sorted (curve : List ℝ) (comb : List (Option ℝ)) : (maskIdx curve comb).Pairwise (· < ·) :=
  List.Pairwise.filter _ List.pairwise_lt_range

/-- Runs: their concatenation is the list; for a non-empty list no run is empty; a run is an interval. -/
theorem splitRuns_spec {l : List ℕ} (hl : l ≠ []) :
    (splitRuns l).flatten = l ∧ ∀ r ∈ splitRuns l, ∃ a b, a ≤ b ∧ r = List.range' a (b + 1 - a) := by
  induction l with
  | nil => exact absurd rfl hl
  | cons i t ih =>
    cases t with
    | nil =>
      refine ⟨by simp [splitRuns], fun r hr => ?_⟩
      simp only [splitRuns, List.mem_singleton] at hr
      exact ⟨i, i, le_rfl, by rw [hr]; simp⟩
    | cons j l =>
      obtain ⟨f, g⟩ := ih (by simp)
      rw [splitRuns]
      match hs : splitRuns (j :: l) with
      | [] => rw [hs] at f; cases f
      | r :: rs =>
        rw [hs] at f g
        obtain ⟨a, b, hab, er⟩ := g r (by simp)
        have ea : a = j := by
          rw [List.flatten_cons, er, show b + 1 - a = (b - a) + 1 by omega, List.range'_succ] at f
          simp only [List.cons_append, List.cons.injEq] at f
          exact f.1
        simp only []
        split_ifs with h
        · refine ⟨by rw [List.flatten_cons] at f ⊢; rw [List.cons_append, f], fun r' hr' => ?_⟩
          rcases List.mem_cons.mp hr' with e | e
          · refine ⟨i, b, by omega, ?_⟩
            rw [e, er, show b + 1 - i = (b + 1 - a) + 1 by omega, List.range'_succ, show i + 1 = a by omega]
          · exact g r' (by simp [e])
        · refine ⟨by rw [List.flatten_cons, f]; rfl, fun r' hr' => ?_⟩
          rcases List.mem_cons.mp hr' with e | e
          · exact ⟨i, i, le_rfl, by rw [e]; simp⟩
          · exact g r' e

theorem idxMax_range (a n : ℕ) : idxMax (List.range' a (n + 1)) = .ok (a + n) := by
  rw [List.range'_succ, idxMax]
  congr 1
  have : ∀ n b, ∀ m ≤ b, (List.range' b n).foldl max m = if n = 0 then m else b + n - 1 := by
    intro n
    induction n with
    | zero => intro b m hm; rfl
    | succ n ih =>
      intro b m hm
      rw [List.range'_succ, List.foldl_cons, max_eq_right hm, ih (b + 1) b (by omega)]
      by_cases h : n = 0
      · subst h; simp
      · rw [if_neg h, if_neg (by omega)]; omega
  rw [this n (a + 1) a (by omega)]
  by_cases h : n = 0
  · subst h; simp
  · rw [if_neg h]; omega

theorem idxMin_range (a n : ℕ) : idxMin (List.range' a (n + 1)) = .ok a := by
  rw [List.range'_succ, idxMin]
  congr 1
  have : ∀ n b, ∀ m ≤ b, (List.range' b n).foldl min m = m := by
    intro n
    induction n with
    | zero => intro b m hm; rfl
    | succ n ih =>
      intro b m hm
      rw [List.range'_succ, List.foldl_cons, min_eq_left hm, ih (b + 1) m (by omega)]
  exact this n (a + 1) a (by omega)

theorem idxMax_spec {l : List ℕ} (hl : l ≠ []) : ∃ m, idxMax l = .ok m ∧ m ∈ l ∧ ∀ x ∈ l, x ≤ m := by
  cases l with
  | nil => exact absurd rfl hl
  | cons a t =>
    refine ⟨_, rfl, ?_⟩
    clear hl
    induction t generalizing a with
    | nil => simp
    | cons b t ih =>
      obtain ⟨h1, h2⟩ := ih (max a b)
      simp only [List.foldl_cons]
      refine ⟨?_, ?_⟩
      · rcases List.mem_cons.mp h1 with h | h
        · rw [h]; rcases max_choice a b with e | e <;> rw [e] <;> simp
        · simp [h]
      · intro z hz
        have h3 := h2 (max a b) (by simp)
        rcases List.mem_cons.mp hz with rfl | hz
        · exact (le_max_left _ _).trans h3
        · rcases List.mem_cons.mp hz with rfl | hz
          · exact (le_max_right _ _).trans h3
          · exact h2 z (by simp [hz])

/-- With a non-negative curve only feasible indices are below the combined requirement. -/
theorem maskIdx_feas {curve : List ℝ} {comb : List (Option ℝ)} (h0 : ∀ i, i < curve.length → comb.getD i none = none → 0 ≤ curve.getD i 0) {i : ℕ} (h : i ∈ maskIdx curve comb) :
    i ∈ feasIdx comb := by
  rw [mem_maskIdx] at h
  rw [mem_feasIdx]
  by_contra hc
  rw [Option.not_isSome_iff_eq_none] at hc
  obtain ⟨h1, h2⟩ := h
  have := h0 i h1 hc
  rw [hc] at h2
  simp only [Option.getD_none] at h2
  linarith

/-- No index below the combined requirement: the chart fails. -/
theorem focusMasks_nil {xs curve : List ℝ} {comb : List (Option ℝ)} (h : maskIdx curve comb = []) :
    focusMasks xs curve comb = .error .valueError := by
  unfold focusMasks
  rw [h]
  rfl

theorem mapM_okAll {α β : Type} {f : α → PyM β} {g : α → β} {l : List α} (h : ∀ x ∈ l, f x = .ok (g x)) : l.mapM f = .ok (l.map g) := by
  induction l with
  | nil => rfl
  | cons a t ih =>
    rw [List.mapM_cons, h a (by simp), ih (fun x hx => h x (by simp [hx]))]
    rfl

/-- Otherwise the masks exist, one for each run. -/
theorem focusMasks_ok {xs curve : List ℝ} {comb : List (Option ℝ)} (h0 : ∀ i, i < curve.length → comb.getD i none = none → 0 ≤ curve.getD i 0) (h : maskIdx curve comb ≠ []) :
    ∃ mf, mf ∈ feasIdx comb ∧ (∀ i ∈ feasIdx comb, i ≤ mf) ∧ ∃ ms, focusMasks xs curve comb = .ok ms ∧
      ∀ m, m ∈ ms ↔ ∃ a b, a ≤ b ∧ List.range' a (b + 1 - a) ∈ splitRuns (maskIdx curve comb) ∧
        m = (xs.getD a 0, if xs.getD b 0 = xs.getD mf 0 then xs.getD (xs.length - 1) 0 else xs.getD b 0) := by
  have hf : feasIdx comb ≠ [] := by
    obtain ⟨i, hi⟩ := List.exists_mem_of_ne_nil _ h
    intro e
    have := maskIdx_feas h0 hi
    rw [e] at this; cases this
  obtain ⟨mf, e1, m1, b1⟩ := idxMax_spec hf
  refine ⟨mf, m1, b1, ?_⟩
  obtain ⟨-, hr⟩ := splitRuns_spec h
  have key : ∀ a b, a ≤ b → focusMask xs comb (List.range' a (b + 1 - a)) =
      .ok (xs.getD a 0, if xs.getD b 0 = xs.getD mf 0 then xs.getD (xs.length - 1) 0 else xs.getD b 0) := by
    intro a b hab
    unfold focusMask
    rw [show b + 1 - a = (b - a) + 1 by omega, idxMax_range, idxMin_range, e1, show a + (b - a) = b by omega]
    rfl
  have hg : ∀ r ∈ splitRuns (maskIdx curve comb), focusMask xs comb r = .ok ((fun r =>
      match focusMask xs comb r with | .ok m => m | .error _ => (0, 0)) r) := by
    intro r hr'
    obtain ⟨a, b, hab, rfl⟩ := hr r hr'
    simp only [key a b hab]
  refine ⟨_, mapM_okAll hg, fun m => ?_⟩
  rw [List.mem_map]
  constructor
  · rintro ⟨r, hr', e⟩
    obtain ⟨a, b, hab, rfl⟩ := hr r hr'
    simp only [key a b hab] at e
    exact ⟨a, b, hab, hr', e.symm⟩
  · rintro ⟨a, b, hab, hr', e⟩
    refine ⟨_, hr', ?_⟩
    simp only [key a b hab]
    exact e.symm

/-- Which indices the masks cover: those below the combined requirement, and the infeasible ones if the
last feasible one is. -/
theorem covered_idx {xs curve : List ℝ} {comb : List (Option ℝ)} (hx : xs.Nodup) (hp : Prefix comb)
    (hl : comb.length = xs.length) (hc : curve.length = xs.length) (h0 : ∀ i, i < curve.length → comb.getD i none = none → 0 ≤ curve.getD i 0) {ms : List (ℝ × ℝ)}
    (h : focusMasks xs curve comb = .ok ms) :
    ∃ P : ℕ → ℕ → Prop, (∀ m, m ∈ ms ↔ ∃ a e, P a e ∧ m = (xs.getD a 0, xs.getD e 0)) ∧
      (∀ a e, P a e → a ≤ e ∧ e < xs.length) ∧
      ∀ i, i < xs.length → ((∃ a e, P a e ∧ a ≤ i ∧ i ≤ e) ↔
        (i ∈ maskIdx curve comb ∨ (comb.getD i none = none ∧ ∃ k ∈ maskIdx curve comb, ∀ j ∈ feasIdx comb, j ≤ k))) := by
  have hne : maskIdx curve comb ≠ [] := by
    intro e; rw [focusMasks_nil e] at h; cases h
  obtain ⟨mf, f1, f2, ms', e, hm⟩ := focusMasks_ok (xs := xs) h0 hne
  rw [e] at h; cases h
  obtain ⟨hflat, hr⟩ := splitRuns_spec hne
  have hin : ∀ a b, List.range' a (b + 1 - a) ∈ splitRuns (maskIdx curve comb) → ∀ k, a ≤ k → k ≤ b → k ∈ maskIdx curve comb := by
    intro a b hab k h1 h2
    rw [← hflat]
    exact List.mem_flatten_of_mem hab (by rw [List.mem_range'_1]; omega)
  have hlen : ∀ k ∈ maskIdx curve comb, k < xs.length := fun k hk => by
    have := (mem_maskIdx.mp hk).1; omega
  have hmfl : mf < xs.length := by
    unfold feasIdx at f1
    rw [List.mem_filter, List.mem_range] at f1
    omega
  refine ⟨fun a e => ∃ b, a ≤ b ∧ List.range' a (b + 1 - a) ∈ splitRuns (maskIdx curve comb) ∧
    e = if b = mf then xs.length - 1 else b, fun m => ?_, ?_, fun i hi => ?_⟩
  · rw [hm]
    have key : ∀ a b, a ≤ b → List.range' a (b + 1 - a) ∈ splitRuns (maskIdx curve comb) →
        (if xs.getD b 0 = xs.getD mf 0 then xs.getD (xs.length - 1) 0 else xs.getD b 0) =
          xs.getD (if b = mf then xs.length - 1 else b) 0 := by
      intro a b hab hrun
      by_cases q : b = mf
      · rw [if_pos q, if_pos (by rw [q])]
      · rw [if_neg q, if_neg]
        intro q'
        exact q (getD_inj hx (hlen b (hin a b hrun b hab le_rfl)) hmfl q')
    constructor
    · rintro ⟨a, b, hab, hrun, rfl⟩
      exact ⟨a, _, ⟨b, hab, hrun, rfl⟩, by rw [key a b hab hrun]⟩
    · rintro ⟨a, _, ⟨b, hab, hrun, rfl⟩, rfl⟩
      exact ⟨a, b, hab, hrun, by rw [key a b hab hrun]⟩
  · rintro a _ ⟨b, hab, hrun, rfl⟩
    have hb := hlen b (hin a b hrun b hab le_rfl)
    split_ifs <;> omega
  constructor
  · rintro ⟨a, _, ⟨b, hab, hrun, rfl⟩, h1, h2⟩
    have hb := hin a b hrun b hab le_rfl
    by_cases q : i ≤ b
    · exact Or.inl (hin a b hrun i h1 q)
    · split_ifs at h2 with hbm
      · subst hbm
        right
        refine ⟨?_, b, hb, f2⟩
        by_contra hcc
        have := f2 i (by rw [mem_feasIdx, Option.isSome_iff_ne_none]; exact hcc)
        omega
      · exact absurd h2 q
  · have hrun : ∀ k ∈ maskIdx curve comb, ∃ a b, a ≤ k ∧ k ≤ b ∧ List.range' a (b + 1 - a) ∈ splitRuns (maskIdx curve comb) := by
      intro k hk
      rw [← hflat, List.mem_flatten] at hk
      obtain ⟨r, hr1, hr2⟩ := hk
      obtain ⟨a, b, hab, rfl⟩ := hr r hr1
      rw [List.mem_range'_1] at hr2
      exact ⟨a, b, hr2.1, by omega, hr1⟩
    rintro (h1 | ⟨h1, k, hk, hk2⟩)
    · obtain ⟨a, b, q1, q2, q3⟩ := hrun i h1
      refine ⟨a, _, ⟨b, by omega, q3, rfl⟩, q1, ?_⟩
      split_ifs <;> omega
    · have hkm : k = mf := le_antisymm (f2 k (maskIdx_feas h0 hk)) (hk2 mf f1)
      subst hkm
      obtain ⟨a, b, q1, q2, q3⟩ := hrun k hk
      have hb' := hin a b q3 b (by omega) le_rfl
      have hbk : b = k := le_antisymm (f2 b (maskIdx_feas h0 hb')) q2
      subst hbk
      have hik : b < i := by
        by_contra hcc
        have := hp i b (by omega) h1
        rw [mem_feasIdx, this] at f1
        cases f1
      exact ⟨a, _, ⟨b, by omega, q3, rfl⟩, by omega, by rw [if_pos rfl]; omega⟩

theorem Asc.le_iff {xs : List ℝ} (hx : Asc xs) {a b : ℕ} (ha : a < xs.length) (hb : b < xs.length) :
    xs.getD a 0 ≤ xs.getD b 0 ↔ a ≤ b := by
  constructor
  · intro hle
    by_contra hcc
    have := hx b a (by omega) ha
    linarith
  · intro hle
    rcases eq_or_lt_of_le hle with q | q
    · rw [q]
    · exact (hx a b q hb).le

theorem Desc.le_iff {xs : List ℝ} (hx : Desc xs) {a b : ℕ} (ha : a < xs.length) (hb : b < xs.length) :
    xs.getD a 0 ≤ xs.getD b 0 ↔ b ≤ a := by
  constructor
  · intro hle
    by_contra hcc
    have := hx a b (by omega) hb
    linarith
  · intro hle
    rcases eq_or_lt_of_le hle with q | q
    · rw [q]
    · exact (hx b a q ha).le

/-- The same for the positions on the axis. -/
theorem covered {xs curve : List ℝ} {comb : List (Option ℝ)} (hx : Asc xs ∨ Desc xs) (hp : Prefix comb)
    (hl : comb.length = xs.length) (hc : curve.length = xs.length) (h0 : ∀ i, i < curve.length → comb.getD i none = none → 0 ≤ curve.getD i 0) {ms : List (ℝ × ℝ)}
    (h : focusMasks xs curve comb = .ok ms) (i : ℕ) (hi : i < xs.length) :
    (∃ m ∈ ms, xs.getD i 0 ∈ Set.uIcc m.1 m.2) ↔
      (i ∈ maskIdx curve comb ∨ (comb.getD i none = none ∧ ∃ k ∈ maskIdx curve comb, ∀ j ∈ feasIdx comb, j ≤ k)) := by
  have hn : xs.Nodup := hx.elim Asc.nodup Desc.nodup
  obtain ⟨P, h1, h2, h3⟩ := covered_idx hn hp hl hc h0 h
  rw [← h3 i hi]
  have key : ∀ a e, P a e → (xs.getD i 0 ∈ Set.uIcc (xs.getD a 0) (xs.getD e 0) ↔ a ≤ i ∧ i ≤ e) := by
    intro a e hP
    obtain ⟨hae, he⟩ := h2 a e hP
    have ha : a < xs.length := by omega
    rcases hx with hx | hx
    · rw [Set.uIcc_of_le ((hx.le_iff ha he).mpr hae), Set.mem_Icc, hx.le_iff ha hi, hx.le_iff hi he]
    · rw [Set.uIcc_of_ge ((hx.le_iff he ha).mpr hae), Set.mem_Icc, hx.le_iff he hi, hx.le_iff hi ha]
      tauto
  constructor
  · rintro ⟨m, hm, hmem⟩
    obtain ⟨a, e, hP, rfl⟩ := (h1 m).mp hm
    exact ⟨a, e, hP, (key a e hP).mp hmem⟩
  · rintro ⟨a, e, hP, hie⟩
    exact ⟨_, (h1 _).mpr ⟨a, e, hP, rfl⟩, (key a e hP).mpr hie⟩

/-- The masks exist exactly when some index is below the combined requirement. -/
theorem focusMasks_iff {xs curve : List ℝ} {comb : List (Option ℝ)} (h0 : ∀ i, i < curve.length → comb.getD i none = none → 0 ≤ curve.getD i 0) :
    (∃ ms, focusMasks xs curve comb = .ok ms) ↔ ∃ i, i ∈ maskIdx curve comb := by
  constructor
  · rintro ⟨ms, h⟩
    apply List.exists_mem_of_ne_nil
    intro e; rw [focusMasks_nil e] at h; cases h
  · rintro ⟨i, hi⟩
    obtain ⟨_, _, _, ms, h, _⟩ := focusMasks_ok (xs := xs) h0 (List.ne_nil_of_mem hi)
    exact ⟨ms, h⟩

theorem mapM_err {α β : Type} {f : α → PyM β} {l : List α} {e : PyErr} (h : l.mapM f = .error e) : ∃ x ∈ l, f x = .error e := by
  induction l with
  | nil => cases h
  | cons a t ih =>
    rw [List.mapM_cons] at h
    cases ha : f a with
    | error e' =>
      rw [ha, bind_error] at h
      cases h
      exact ⟨a, by simp, ha⟩
    | ok b =>
      rw [ha, bind_ok] at h
      cases ht : t.mapM f with
      | error e' =>
        rw [ht, bind_error] at h
        cases h
        obtain ⟨x, hx, e⟩ := ih ht
        exact ⟨x, by simp [hx], e⟩
      | ok c => rw [ht, bind_ok] at h; cases h

theorem idxMax_err {l : List ℕ} {e : PyErr} (h : idxMax l = .error e) : e = .valueError := by
  cases l <;> cases h; rfl

theorem idxMin_err {l : List ℕ} {e : PyErr} (h : idxMin l = .error e) : e = .valueError := by
  cases l <;> cases h; rfl

/-- The only error of the masks is a ValueError. -/
theorem focusMasks_err {xs curve : List ℝ} {comb : List (Option ℝ)} {e : PyErr} (h : focusMasks xs curve comb = .error e) :
    e = .valueError := by
  obtain ⟨run, -, h⟩ := mapM_err h
  unfold focusMask at h
  cases h1 : idxMax run with
  | error e' => rw [h1] at h; cases h; exact idxMax_err h1
  | ok a =>
    rw [h1, bind_ok] at h
    cases h2 : idxMin run with
    | error e' => rw [h2] at h; cases h; exact idxMin_err h2
    | ok b =>
      rw [h2, bind_ok] at h
      cases h3 : idxMax (feasIdx comb) with
      | error e' => rw [h3] at h; cases h; exact idxMax_err h3
      | ok c => rw [h3] at h; cases h

/-! ### Lines -/

theorem drawnLine_idx {xs : List ℝ} (hx : Asc xs ∨ Desc xs) {i : ℕ} (hi : i < xs.length) :
    drawnLine xs (xs.getD i 0) = .ok (if 0 < i ∧ i < xs.length - 1 then some (xs.getD i 0) else none) := by
  have hne : xs ≠ [] := by rintro rfl; simp at hi
  obtain ⟨hi', e1, m1, b1⟩ := listMax_mem hne
  obtain ⟨lo, e2, m2, b2⟩ := listMin_mem hne
  unfold drawnLine
  rw [e1, e2]
  have mem : ∀ k, k < xs.length → xs.getD k 0 ∈ xs := fun k hk => by
    rw [List.getD_eq_getElem _ _ hk]; exact List.getElem_mem _
  obtain ⟨p, hp, ep⟩ := List.mem_iff_getElem.mp m1
  obtain ⟨q, hq, eq⟩ := List.mem_iff_getElem.mp m2
  rw [← List.getD_eq_getElem xs 0 hp] at ep
  rw [← List.getD_eq_getElem xs 0 hq] at eq
  have key : (lo < xs.getD i 0 ∧ xs.getD i 0 < hi') ↔ (0 < i ∧ i < xs.length - 1) := by
    have l0 := b2 _ (mem 0 (by omega))
    have l1 := b2 _ (mem (xs.length - 1) (by omega))
    have u0 := b1 _ (mem 0 (by omega))
    have u1 := b1 _ (mem (xs.length - 1) (by omega))
    rw [← ep, ← eq]
    rw [← eq] at l0 l1
    rw [← ep] at u0 u1
    rcases hx with hx | hx
    · rw [hx.le_iff (by omega) (by omega)] at l0 l1 u0 u1
      rw [← not_le, ← not_le, hx.le_iff (by omega) (by omega), hx.le_iff (by omega) (by omega)]
      omega
    · rw [hx.le_iff (by omega) (by omega)] at l0 l1 u0 u1
      rw [← not_le, ← not_le, hx.le_iff (by omega) (by omega), hx.le_iff (by omega) (by omega)]
      omega
  simp only [bind_ok]
  congr 1
  by_cases h : 0 < i ∧ i < xs.length - 1
  · rw [if_pos h, if_pos (key.mpr h)]
  · rw [if_neg h, if_neg (fun h' => h (key.mp h'))]

end Verif.Aircraft
