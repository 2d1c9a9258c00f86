import Verif.Model.SensWarnings
import Verif.Lemmas.Warnings

/-
The warnings of the sensitivity study: the results are those without warnings.
-/

namespace Verif.Aircraft
open Verif Verif.Units Verif.Airworthiness

theorem yFunction_erase (X : Ext) (S : StudyIn) (c : Concept) : (yFunctionW X S c).2 = yFunction X S c := by
  unfold yFunctionW yFunction
  split
  · exact power_erase X c _ _ _ _
  · exact tw_erase X c _ _ _

theorem evalState_erase (X : Ext) (S : StudyIn) (s : Design3) : (evalStateW X S s).2 = evalState X S s :=
  erase_step rfl fun b => yFunction_erase X S b.concept

theorem studyEntry_erase (X : Ext) (S : StudyIn) (i : Fin 3) (R : Recorded) (e : String × Val) :
    (studyEntryW X S i R e).2 = studyEntry X S i R e := by
  obtain ⟨k, v⟩ := e
  cases v with
  | list xs =>
    exact erase_step rfl fun hi => erase_step rfl fun lo => erase_step (evalState_erase X S _) fun a =>
      erase_step (evalState_erase X S _) fun b => rfl
  | _ => rfl

theorem foldl_erase {α β : Type} {f : β → α → W β} {g : β → α → PyM β} (h : ∀ b a, (f b a).2 = g b a) (l : List α) (b : β) :
    (l.foldlM f b).2 = l.foldlM g b := by
  induction l generalizing b with
  | nil => rfl
  | cons a l ih =>
    rw [List.foldlM_cons, List.foldlM_cons]
    exact erase_step (h b a) fun b' => ih b'

theorem study_erase (X : Ext) (b : Built) (w : NumArg) (power : Bool) : (studyW X b w power).2 = study X b w power := by
  refine erase_step rfl fun S => erase_step ?_ fun R => erase_step (evalState_erase X S _) fun nom => rfl
  exact erase_step (foldl_erase (studyEntry_erase X S 0) _ _) fun R => erase_step (foldl_erase (studyEntry_erase X S 1) _ _) fun R =>
    foldl_erase (studyEntry_erase X S 2) _ _

theorem sensData_erase (X : Ext) (b : Built) (w : NumArg) (y x : String) (l : Option ℝ) :
    (sensDataW X b w y x l).2 = sensData X b w y x l := by
  refine erase_step rfl fun W => erase_step (study_erase X b w _) fun ⟨R, nom⟩ => ?_
  exact erase_step rfl fun _ => erase_step rfl fun _ => erase_step rfl fun _ => rfl

open Classical in
theorem sens_erase (X : Ext) (b : Built) (w : NumArg) (A : SensArgs) (f : FigSize) :
    (propulsionsensitivity_monotheticW X b w A f).2 = propulsionsensitivity_monothetic X b w A := by
  refine warn_step (warn_step (warn_step (warn_step ?_)))
  exact erase_step (sensData_erase X b w _ _ _) fun D => rfl

end Verif.Aircraft
