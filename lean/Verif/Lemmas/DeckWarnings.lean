import Verif.Model.DeckWarnings
import Verif.Lemmas.Warnings

/-
The warnings of the engine decks: the results are those without warnings.
-/

namespace Verif.Propulsion
open Verif Verif.Units Verif.Aircraft

theorem guarded_erase (b : Bool) (what : String) (data : Option (List Row)) (G : Grid) (x y : NumArg) :
    (guardedW b what data G x y).2 = guarded b data G x y := by
  unfold guardedW guarded
  split <;> rfl

theorem choose_erase (o : PropellerObj) (m h : NumArg) (rpm : ℝ) (p : Option (List (Option ℝ))) :
    (choosePropW o m h rpm p).2 = chooseProp o m h rpm p := by
  cases o with
  | pyNone =>
    refine erase_step rfl fun q => ?_
    exact Eq.trans (erase_step (g := pure) rfl fun q => rfl) (bind_pure (ansatzprop q m h rpm p))
  | deck p => rfl
  | other => rfl

theorem propThrust_erase (o : PropellerObj) (m h : List ℝ) (rpm : ℝ) (p : Option (List (Option ℝ))) :
    (propThrustW o m h rpm p).2 = propThrust o m h rpm p := by
  refine erase_step (choose_erase o _ _ _ _) fun q => erase_step rfl fun eta => erase_step rfl fun v => ?_
  rfl

theorem propTsfc_erase (o : PropellerObj) (m h : List ℝ) (rpm : ℝ) (p : Option (List (Option ℝ))) {b : QueryW} {b' : Query} (hb : b.2 = b') :
    (propTsfcW o m h rpm p b).2 = propTsfc o m h rpm p b' := by
  refine erase_step (choose_erase o _ _ _ _) fun q => erase_step rfl fun eta => erase_step rfl fun v => erase_step hb fun r => ?_
  cases r <;> rfl

theorem demoPlot_erase (l : Option ℝ × Option ℝ × Option ℝ × Option ℝ) {f : List ℝ → List ℝ → QueryW} {f' : List ℝ → List ℝ → Query}
    (hf : ∀ x y, (f x y).2 = f' x y) (a b c t : String) : (demoPlotW l f a b c t).2 = demoPlot l f' a b c t := by
  refine erase_step rfl fun xs => erase_step rfl fun ys => erase_step (hf _ _) fun q => ?_
  cases q <;> rfl

theorem plot_erase (data : Option (List Row)) {f : List ℝ → List ℝ → QueryW} {f' : List ℝ → List ℝ → Query}
    (hf : ∀ x y, (f x y).2 = f' x y) (a b c t : String) :
    (plotW data f a b c t).2 = (do let l ← plotLimits data; let p ← demoPlot l f' a b c t; pure (some p)) :=
  erase_step rfl fun l => erase_step (demoPlot_erase l hf a b c t) fun _ => rfl

namespace TurbopropDeck

theorem cold_erase (d : TurbopropDeck) (G : Grid) (m h : NumArg) (rpm : ℝ) (o : PropellerObj) :
    (d.coldthrustW G m h rpm o).2 = d.coldthrust G m h rpm o :=
  erase_step (guarded_erase _ _ _ _ _ _) fun _ => propThrust_erase _ _ _ _ _

theorem thrust_erase (d : TurbopropDeck) (G : Grid) (m h : NumArg) (rpm : ℝ) (o : PropellerObj) :
    (d.thrustW G m h rpm o).2 = d.thrust G m h rpm o :=
  erase_step (guarded_erase _ _ _ _ _ _) fun p => erase_step (cold_erase d G _ _ _ _) fun c => by cases p <;> rfl

theorem corr_erase (d : TurbopropDeck) (G : Grid) (m h : NumArg) : (d.sl_powercorrW G m h).2 = d.sl_powercorr G m h :=
  erase_step (guarded_erase _ _ _ _ _ _) fun _ => rfl

theorem tsfc_erase (d : TurbopropDeck) (G : Grid) (m h : NumArg) (rpm : ℝ) (o : PropellerObj) :
    (d.tsfcW G m h rpm o).2 = d.tsfc G m h rpm o :=
  erase_step (guarded_erase _ _ _ _ _ _) fun p => propTsfc_erase _ _ _ _ _ (guarded_erase _ _ _ _ _ _)

theorem plots_erase (d : TurbopropDeck) (e : String) (G : Grid) : (d.demoplot_thrustW e G).2 = d.demoplot_thrust e G ∧
    (d.demoplot_shaftpowerW e G).2 = d.demoplot_shaftpower e G ∧ (d.demoplot_bsfcW e G).2 = d.demoplot_bsfc e G :=
  ⟨plot_erase _ (fun _ _ => guarded_erase _ _ _ _ _ _) _ _ _ _, plot_erase _ (fun _ _ => guarded_erase _ _ _ _ _ _) _ _ _ _,
    plot_erase _ (fun _ _ => guarded_erase _ _ _ _ _ _) _ _ _ _⟩

end TurbopropDeck

namespace PistonDeck

theorem bsfc_erase (d : PistonDeck) (G : Grid) (r : NumArg) (p : Option (List (Option ℝ))) (best : String) :
    (d.bsfcW G r p best).2 = d.bsfc G r p best := by
  unfold bsfcW bsfc
  dsimp only
  split_ifs <;> rfl

theorem thrust_erase (d : PistonDeck) (G : Grid) (m h : NumArg) (rpm : ℝ) (o : PropellerObj) :
    (d.thrustW G m h rpm o).2 = d.thrust G m h rpm o :=
  erase_step (guarded_erase _ _ _ _ _ _) fun _ => propThrust_erase _ _ _ _ _

theorem corr_erase (d : PistonDeck) (G : Grid) (m h : NumArg) : (d.sl_powercorrW G m h).2 = d.sl_powercorr G m h :=
  erase_step (guarded_erase _ _ _ _ _ _) fun _ => rfl

theorem tsfc_erase (d : PistonDeck) (G : Grid) (m h : NumArg) (rpm : ℝ) (o : PropellerObj) (best : String) :
    (d.tsfcW G m h rpm o best).2 = d.tsfc G m h rpm o best :=
  erase_step (guarded_erase _ _ _ _ _ _) fun p => propTsfc_erase _ _ _ _ _ (bsfc_erase d G _ _ _)

theorem power_erase (d : PistonDeck) (e : String) (G : Grid) : (d.demoplot_shaftpowerW e G).2 = d.demoplot_shaftpower e G :=
  plot_erase _ (fun _ _ => guarded_erase _ _ _ _ _ _) _ _ _ _

theorem bsfcplot_erase (d : PistonDeck) (e : String) (G : Grid) (best : String) :
    (d.demoplot_bsfcW e G best).2 = d.demoplot_bsfc e G best := by
  unfold demoplot_bsfcW demoplot_bsfc
  dsimp only
  split_ifs
  · rfl
  · exact plot_erase _ (fun _ _ => bsfc_erase d G _ _ _) _ _ _ _
  · rfl
  · exact plot_erase _ (fun _ _ => bsfc_erase d G _ _ _) _ _ _ _
  · rfl

end PistonDeck

namespace ElectricDeck

theorem bsec_erase (d : ElectricDeck) (G : Grid) (r t : NumArg) : (d.bsecW G r t).2 = d.bsec G r t :=
  erase_step (guarded_erase _ _ _ _ _ _) fun q => by cases q <;> rfl

theorem plot_erase (d : ElectricDeck) (e : String) (G : Grid) : (d.demoplot_efficiencyW e G).2 = d.demoplot_efficiency e G := by
  unfold demoplot_efficiencyW demoplot_efficiency
  split
  · rfl
  · exact Propulsion.plot_erase _ (fun _ _ => guarded_erase _ _ _ _ _ _) _ _ _ _

end ElectricDeck

theorem polyNum_erase (x : ℝ) (cs l : List ℝ) : (polyNumW x cs l).2 = polyQuery (.num x) cs l := by
  refine erase_step rfl fun hi => ?_
  split
  · rfl
  · refine erase_step rfl fun lo => ?_
    split <;> rfl

theorem poly_erase (x : PolyArg) (cs l : List ℝ) : (polyQueryW x cs l).2 = polyQuery x cs l := by
  match x with
  | .num x => exact polyNum_erase x cs l
  | .list xs => rfl
  | .arr [] => rfl
  | .arr [x] => exact polyNum_erase x cs l
  | .arr (_ :: _ :: _) => rfl

theorem sl_erase (b : Bool) (what : String) (f : Option PolyFile) (x : PolyArg) : (slQueryW b what f x).2 = slQuery b f x := by
  unfold slQueryW slQuery
  split
  · rfl
  · match f with
    | none => rfl
    | some (cs, l) => exact erase_step rfl fun _ => erase_step rfl fun _ => poly_erase x cs l

namespace JetDeck

theorem corr_erase (d : JetDeck) (G : Grid) (m h : NumArg) : (d.sl_thrustcorrW G m h).2 = d.sl_thrustcorr G m h :=
  erase_step (guarded_erase _ _ _ _ _ _) fun _ => rfl

theorem thrustplot_erase (d : JetDeck) (e : String) (G : Grid) : (d.demoplot_thrustW e G).2 = d.demoplot_thrust e G := by
  unfold demoplot_thrustW demoplot_thrust
  split
  · rfl
  · exact Propulsion.plot_erase _ (fun _ _ => guarded_erase _ _ _ _ _ _) _ _ _ _

theorem tsfcAt_erase (d : JetDeck) (G : Grid) (x y : List ℝ) : (d.tsfcAtW G x y).2 = d.tsfcAt G x y := by
  refine erase_step (guarded_erase _ _ _ _ _ _) fun q => ?_
  cases q with
  | none => rfl
  | some ts =>
    dsimp only
    split <;> rfl

theorem tsfcplot_erase (d : JetDeck) (e : String) (G : Grid) (y : String) : (d.demoplot_tsfcW e G y).2 = d.demoplot_tsfc e G y := by
  unfold demoplot_tsfcW demoplot_tsfc
  split_ifs
  · rfl
  · rfl
  · exact Propulsion.plot_erase _ (fun _ _ => guarded_erase _ _ _ _ _ _) _ _ _ _
  · exact Propulsion.plot_erase _ (fun _ _ => tsfcAt_erase d G _ _) _ _ _ _
  · rfl

end JetDeck

end Verif.Propulsion
