import Verif.Model.Atmosphere
import Mathlib.Data.List.Sort

/-
The sorting of `interp1d`: a table with increasing abscissae stays as it is, and rows in another order give the same table.
-/

namespace Verif.Atmos

noncomputable section

theorem zip_pairwise {xs : List ℝ} (hs : xs.Pairwise (· < ·)) (ys : List ℝ) : (xs.zip ys).Pairwise (fun a b => a.1 < b.1) := by
  induction xs generalizing ys with
  | nil => simp
  | cons x xs ih =>
    cases ys with
    | nil => simp
    | cons y ys =>
      rw [List.pairwise_cons] at hs
      rw [List.zip_cons_cons, List.pairwise_cons]
      exact ⟨fun b hb => hs.1 _ (List.of_mem_zip hb).1, ih hs.2 ys⟩

theorem sortTable_sorted {xs : List ℝ} (hs : xs.Pairwise (· < ·)) (ys : List ℝ) : sortTable (xs.zip ys) = xs.zip ys := by
  unfold sortTable
  apply List.mergeSort_of_pairwise
  exact (zip_pairwise hs ys).imp (fun {a b} h => by simpa using h.le)

theorem sortTable_perm {t t' : List (ℝ × ℝ)} (h : t.Perm t') (hn : (t.map Prod.fst).Nodup) : sortTable t = sortTable t' := by
  unfold sortTable
  have tr : ∀ (a b c : ℝ × ℝ), decide (a.1 ≤ b.1) = true → decide (b.1 ≤ c.1) = true → decide (a.1 ≤ c.1) = true := by
    intro a b c h1 h2; simp only [decide_eq_true_eq] at *; exact h1.trans h2
  have tot : ∀ (a b : ℝ × ℝ), (decide (a.1 ≤ b.1) || decide (b.1 ≤ a.1)) = true := by
    intro a b; simp only [Bool.or_eq_true, decide_eq_true_eq]; exact le_total _ _
  have p1 := List.pairwise_mergeSort tr tot t
  have p2 := List.pairwise_mergeSort tr tot t'
  refine List.Perm.eq_of_pairwise ?_ p1 p2 ((List.mergeSort_perm t _).trans (h.trans (List.mergeSort_perm t' _).symm))
  intro a b ha hb h1 h2
  simp only [decide_eq_true_eq] at h1 h2
  have ha' : a ∈ t := (List.mergeSort_perm t _).mem_iff.mp ha
  have hb' : b ∈ t := h.mem_iff.mpr ((List.mergeSort_perm t' _).mem_iff.mp hb)
  exact List.inj_on_of_nodup_map hn ha' hb' (le_antisymm h1 h2)

end

end Verif.Atmos
