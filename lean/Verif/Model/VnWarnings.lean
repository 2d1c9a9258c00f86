import Verif.Model.Warnings
import Verif.Model.Airworthiness

/-
The warnings of the V-n diagram (ADRpy/airworthiness.py:503-888), which `Model/Airworthiness.lean` leaves out.
-/

namespace Verif.Airworthiness
open Verif Verif.Units Verif.Aircraft

noncomputable section

/-- The figure size argument: absent, a list, anything else (airworthiness.py:576-584). -/
inductive FigSize where
  | none
  | list (l : List ℝ)
  | other

/-- airworthiness.py:579-580: only lists are looked at -/
def FigSize.wrong : FigSize → Bool
  | .list l => decide (l.length ≠ 2)
  | _ => false

/-- `(vc_keas > vcmax_keas) and vcmax_keas is not False` (airworthiness.py:626): False as a number is 0 in the comparison, which then
does not matter. -/
def aboveSoft (vc : ℝ) : Option ℝ → Prop
  | some v => vc > v
  | none => False

open Classical in
/-- airworthiness.py:503-888 (`flightenvelope`) without the plot, with the warnings. -/
def flightenvelopeW (X : Ext) (o : Cert) (figsize : FigSize) : W Envelope := do
  let cat ← quiet (parseCat o.category)
  warnIf (figsize.wrong = true) .figureSize
  let rho0 ← quiet (Atmos.dens1 o.acobj.designatm 0)
  let vc0 ← quiet (need o.cruisespeed_keas)
  warnIf (o.divespeed_keas = none) .diveAssumed
  let clmax ← quiet (need o.acobj.clmaxclean)
  let clmin ← quiet (need o.acobj.clminclean)
  let weight_n ← quiet (need o.acobj.weight_n)
  let wingarea_m2 ← quiet (need o.acobj.wingarea_m2)
  let wingloading := weight_n / wingarea_m2
  let wfract := o.weightfraction
  let trueloading := wingloading * wfract
  let limits ← quiet (paragraph335 X o)
  let lim := limits cat
  let (mans, _) ← quiet (paragraph333 o)
  let man := mans cat
  let vc := max vc0 lim.vcmin
  warnIf (aboveSoft vc lim.vcsoftmax) .cruiseAboveLevel
  let vd := match o.divespeed_keas with
    | none => lim.vdmin
    | some v => max v lim.vdmin
  let va := lim.vamin
  warnIf (va > vc) .manoeuvreAboveCruise
  let vb := lim.vbmin1
  let vs ← quiet (vs_keas o (1 * wfract))
  let vis ← quiet (vs_keas o (-1 * wfract))
  warnIf (vis < vs) .invertedStall
  let via := vis * √|man.nneg_C|
  let (loads, _, _) ← quiet (paragraph341 X o (fun g => match g with | .Ub => some vb | .Uc => some vc | .Ud => some vd))
  let oa := (linspace100 0 va).map (fun x => (x, stallLoad rho0 x clmax trueloading wfract))
  let go := (linspace100 via 0).map (fun x => (x, 0.5 * rho0 * kts2mps x ^ 2 * clmin / trueloading / wfract))
  let b_ygustpen := stallLoad rho0 vb clmax trueloading wfract
  let gc ← quiet (gustLoad (loads cat) .Uc)
  let d_ymano := man.npos_D / wfract
  let scf := scAt rho0 clmax trueloading wfract va vb vc b_ygustpen gc.npos d_ymano
  let sc := (linspace100 vs vc).map (fun x => (x, scf x))
  let gd ← quiet (gustLoad (loads cat) .Ud)
  let sc_last := lastY sc
  let cd := (linspace100 vc vd).map (fun x => (x, cdAt vc vd sc_last gd.npos d_ymano x))
  let e_ymano := man.nneg_D / wfract
  let e_y := min gd.nneg e_ymano
  let f_ymano := man.nneg_C / wfract
  let f_ystall := stallLoad rho0 vc clmin trueloading wfract
  let ef := (linspace100 vd vc).map (fun x => (x, efAt vc vd gc.nneg f_ystall gd.nneg e_ymano x))
  let fs := (linspace100 vc vis).map (fun x => (x, fsAt rho0 clmin trueloading wfract via vc gc.nneg f_ymano x))
  let points := [("A", (va, d_ymano)), ("B", (vb, b_ygustpen)), ("C", (vc, lastY sc)),
    ("D", (vd, lastY cd)), ("E", (vd, e_y)),
    ("F", (vc, lastY ef)), ("G", (via, firstY go))]
  let poi := if vb > vc then points.filter (fun p => p.1 ≠ "B") else points
  pure { vc, vd, va, vb, vs, vis, via, oa, go, sc, cd, e := (vd, e_y), ef, fs, poi }

end

end Verif.Airworthiness
