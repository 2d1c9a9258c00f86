import Verif.Model.Constraint
import Verif.Model.NpInterp

/-
ADRpy/airworthiness.py: `CertificationSpecifications` (CS-23 load factors, gusts, design speeds and the
V-n diagram). Plotting (759-886 and the `coords` lists handed to it) and warnings are left out; of the
plotted curves those are kept whose values are part of the result or of a property.

Where the code handles one-element numpy arrays (`mach` returns one, and in the transonic range the lift
slope and everything computed from it is one), the model handles the number in it: `math.sqrt`, `float`,
comparisons and arithmetic treat them alike.
-/

namespace Verif.Airworthiness
open Verif Verif.Units Verif.Aircraft

noncomputable section

/-- A value of the `csbrief` dictionary: `False`, a number or a string. (airworthiness.py:96-107) -/
inductive CsVal where
  | flag
  | num (x : ℝ)
  | str (s : String)

/-- The `csbrief` dictionary. (airworthiness.py:85-89) -/
abbrev CsDict := List (String × CsVal)

/-- airworthiness.py:96-107 -/
def default_csbrief : CsDict :=
  [("certcat", .str "norm"), ("altitude_m", .num 0), ("cruisespeed_keas", .flag), ("divespeed_keas", .flag),
   ("maxlevelspeed_keas", .flag), ("weightfraction", .num 1)]

/-- airworthiness.py:111-115: keys not in the dictionary are appended with their default. -/
def csFill (defaults cs : CsDict) : CsDict :=
  defaults.foldl (fun d kv => if (dget d kv.1).isSome then d else dset d kv.1 kv.2) cs

/-- A number or `False` read from `csbrief` (airworthiness.py:118-133). A string in place of a number is
only noticed later, in arithmetic; the model raises TypeError when it is read. -/
def csNum (d : CsDict) (k : String) : PyM (Option ℝ) := do
  match ← dgetE d k with
  | .flag => pure none
  | .num x => pure (some x)
  | .str _ => .error .typeError

/-- The attributes of a `CertificationSpecifications` object (airworthiness.py:92, 118-133). `category` is
the raw value; `altitude_m` and `weightfraction` are used as numbers (`False` is 0). -/
structure Cert where
  acobj : Concept
  cruisespeed_keas : Option ℝ
  category : CsVal
  divespeed_keas : Option ℝ
  maxlevelspeed_keas : Option ℝ
  altitude_m : ℝ
  weightfraction : ℝ

/-- The cruise speed of the certification object (airworthiness.py:117-126). -/
def csCruise (c : Concept) (given : Option ℝ) (altitude_m : ℝ) : PyM (Option ℝ) :=
  match given with
  | some v => .ok (some v)
  | none => match c.cruisespeed_ktas with
    | none => .ok none
    | some v => do
      let rho ← Atmos.dens1 c.designatm altitude_m
      pure (some (Units.tas2eas v rho))

/-- airworthiness.py:85-135 (`CertificationSpecifications.__init__`). Returns the object and the caller's
`csbrief` dictionary afterwards; an absent one is a new empty dictionary (88-89). The `propulsion`
argument is not passed on (92). -/
def certification (brief design performance : Dict) (atm : Option Atmos.Atm) (_propulsion : PropArg)
    (csbrief : Option CsDict) : PyM (Cert × CsDict) := do
  let built ← construct brief design performance atm .pyNone
  let cs := csFill default_csbrief (csbrief.getD [])
  let given ← csNum cs "cruisespeed_keas"
  let alt ← csNum cs "altitude_m"
  let vc ← csCruise built.concept given (pyNum alt)
  let cat ← dgetE cs "certcat"
  let vd ← csNum cs "divespeed_keas"
  let vh ← csNum cs "maxlevelspeed_keas"
  let wf ← csNum cs "weightfraction"
  pure ({ acobj := built.concept, cruisespeed_keas := vc, category := cat, divespeed_keas := vd,
          maxlevelspeed_keas := vh, altitude_m := pyNum alt, weightfraction := pyNum wf }, cs)

/-- `math.sqrt`: ValueError for a negative argument. (airworthiness.py:166, 180-182, 335, 362) -/
def mathSqrt (x : ℝ) : PyM ℝ := if x < 0 then .error .valueError else .ok (√x)

/-- airworthiness.py:137-168. Division by zero (a lift coefficient or area of exactly 0) is not
modelled. -/
def vs_keas (o : Cert) (loadfactor : ℝ) : PyM ℝ := do
  let weight_n ← need o.acobj.weight_n
  let wingarea_m2 ← need o.acobj.wingarea_m2
  let cl ← need (if loadfactor ≥ 0 then o.acobj.clmaxclean else o.acobj.clminclean)
  let rho0 ← Atmos.dens1 o.acobj.designatm 0
  let v ← mathSqrt ((loadfactor * weight_n) / (0.5 * rho0 * wingarea_m2 * cl))
  pure (mps2kts v)

/-- airworthiness.py:170-185: (SMC, MAC). An aspect ratio of 0 or a taper ratio of -1 (division by zero)
is not modelled. -/
def meanchord_m (o : Cert) : PyM (ℝ × ℝ) := do
  let t := pyNum o.acobj.roottaperratio
  let s := pyNum o.acobj.wingarea_m2
  let ar := pyNum o.acobj.aspectratio
  let smc ← mathSqrt (s / ar)
  let r ← mathSqrt (s / ar)
  let c_root := 2 / (1 + t) * r
  let mac := (2 / 3) * c_root * (1 + t + t ^ 2) / (1 + t)
  pure (smc, mac)

/-- The four categories, the keys of the dictionaries (airworthiness.py:214 and others). -/
inductive Cat where
  | norm | util | comm | aero
  deriving DecidableEq

/-- The three gusts, the suffixes of the keys (airworthiness.py:242-248, 490). -/
inductive Gust where
  | Ub | Uc | Ud
  deriving DecidableEq

/-- airworthiness.py:373-422: (npos_min, nneg_max) for each category. -/
def paragraph337 (o : Cert) : PyM (Cat → ℝ × ℝ) := do
  let mtow_n ← need o.acobj.weight_n
  let _ ← need o.acobj.wingarea_m2
  let mtow_lbf := n2lbf mtow_n
  let nposminimum := 2.1 + 24000 / (mtow_lbf + 10000)
  let npos_norm := min 3.8 nposminimum
  pure (fun cat => match cat with
    | .norm => (npos_norm, -0.4 * npos_norm)
    | .util => (4.4, -0.4 * npos_norm)
    | .comm => (min 3.8 nposminimum, -0.4 * npos_norm)
    | .aero => (6.0, -0.5 * npos_norm))

/-- The manoeuvre loads of a category in `manoeuvre_dict` (airworthiness.py:223-233). -/
structure Manoeuvre where
  npos_D : ℝ
  nneg_C : ℝ
  nneg_D : ℝ

/-- airworthiness.py:238 -/
def gustb_mps (altitude_m : ℝ) : ℝ := npInterp2 altitude_m (feet2m 20000) (feet2m 50000) (feet2m 66) (feet2m 38)

/-- airworthiness.py:239 -/
def gustc_mps (altitude_m : ℝ) : ℝ := npInterp2 altitude_m (feet2m 20000) (feet2m 50000) (feet2m 50) (feet2m 25)

/-- airworthiness.py:240 -/
def gustd_mps (altitude_m : ℝ) : ℝ := npInterp2 altitude_m (feet2m 20000) (feet2m 50000) (feet2m 25) (feet2m 12.5)

/-- The gusts of a category in dictionary order (airworthiness.py:242-248). -/
def gustList (altitude_m : ℝ) : Cat → List (Gust × ℝ)
  | .comm => [(.Ub, gustb_mps altitude_m), (.Uc, gustc_mps altitude_m), (.Ud, gustd_mps altitude_m)]
  | _ => [(.Uc, gustc_mps altitude_m), (.Ud, gustd_mps altitude_m)]

/-- airworthiness.py:187-252 -/
def paragraph333 (o : Cert) : PyM ((Cat → Manoeuvre) × (Cat → List (Gust × ℝ))) := do
  let loads ← paragraph337 o
  let man := fun cat => Manoeuvre.mk (loads cat).1 (loads cat).2
    (match cat with | .norm => 0 | .util => -1 | .comm => 0 | .aero => -1)
  pure (man, gustList o.altitude_m)

/-- One entry pair `npos_`, `nneg_` of `gustload_dict` (airworthiness.py:496-499). -/
structure GustLoad where
  gust : Gust
  npos : ℝ
  nneg : ℝ

/-- airworthiness.py:477 -/
def mu_g (trueloading_pa rho smc liftslope : ℝ) : ℝ := (2 * trueloading_pa) / (rho * smc * liftslope * gAcc)

/-- airworthiness.py:480 -/
def k_gust (mu : ℝ) : ℝ := 0.88 * mu / (5.3 + mu)

/-- airworthiness.py:495 -/
def gustIncrement (k_g rho0 gustspeed airspeed liftslope trueloading wfract : ℝ) : ℝ :=
  k_g * rho0 * gustspeed * airspeed * liftslope / (2 * trueloading) / wfract

/-- airworthiness.py:424-501: the gust loads of each category (in dictionary order), the alleviation factor
and the lift slope. `speeds` is the dictionary `speedatgust_keas`; its keys are the suffixes themselves, so
that the substring test (493) is equality. -/
def paragraph341 (X : Ext) (o : Cert) (speeds : Gust → Option ℝ) : PyM ((Cat → List GustLoad) × ℝ × ℝ) := do
  let rho ← Atmos.dens1 o.acobj.designatm o.altitude_m
  let vc ← need o.cruisespeed_keas
  let v := kts2mps (Units.eas2tas vc rho)
  let mach ← Atmos.mach1 o.acobj.designatm v o.altitude_m
  let weight_n ← need o.acobj.weight_n
  let wingarea_m2 ← need o.acobj.wingarea_m2
  let wingloading := weight_n / wingarea_m2
  let liftslope ← liftslope_prad X o.acobj (some mach)
  let rho0 ← Atmos.dens1 o.acobj.designatm 0
  let wfract := o.weightfraction
  let trueloading := wingloading * wfract
  let (_, gusts) ← paragraph333 o
  let (smc, _) ← meanchord_m o
  let k_g := k_gust (mu_g trueloading rho smc liftslope)
  let loads := fun cat => (gusts cat).filterMap (fun gu =>
    (speeds gu.1).map (fun keas =>
      let q := gustIncrement k_g rho0 gu.2 (kts2mps keas) liftslope trueloading wfract
      GustLoad.mk gu.1 (1 + q) (1 - q)))
  pure (loads, k_g, liftslope)

/-- Lookup of the load of a gust in `gustload_dict[category]`: KeyError when it is absent.
(airworthiness.py:362, 695, 708) -/
def gustLoad (l : List GustLoad) (g : Gust) : PyM GustLoad :=
  match l.find? (fun e => e.gust = g) with
  | some e => .ok e
  | none => .error .keyError

/-- Lookup of a gust speed in `gustmps_dict[category]`: KeyError when it is absent.
(airworthiness.py:349-351) -/
def gustSpeed (l : List (Gust × ℝ)) (g : Gust) : PyM ℝ :=
  match l.find? (fun e => e.1 = g) with
  | some e => .ok e.2
  | none => .error .keyError

/-- The design speeds of a category in `eas_dict` (airworthiness.py:298-369). -/
structure Speeds where
  vcmin : ℝ
  vcsoftmax : Option ℝ
  vdmin : ℝ
  vamin : ℝ
  vasoftmax : ℝ
  vbmin1 : ℝ
  vbmin2 : ℝ
  vbmin : ℝ
  vbmax : ℝ

/-- airworthiness.py:295-301 -/
def vcmin_keas (wl : ℝ) : Cat → ℝ
  | .aero => npInterp2 wl 20 100 36 28.6 * √wl
  | _ => npInterp2 wl 20 100 33 28.6 * √wl

/-- airworthiness.py:316-323 -/
def vdmin_keas (vc wl : ℝ) (cat : Cat) : ℝ :=
  match cat with
  | .util => max (1.25 * vc) (npInterp2 wl 20 100 1.5 1.35 * vcmin_keas wl .util)
  | .aero => max (1.25 * vc) (npInterp2 wl 20 100 1.55 1.35 * vcmin_keas wl .aero)
  | .norm => max (1.25 * vc) (npInterp2 wl 20 100 1.4 1.35 * vcmin_keas wl .norm)
  | .comm => max (1.25 * vc) (npInterp2 wl 20 100 1.4 1.35 * vcmin_keas wl .comm)

/-- airworthiness.py:356-359: the root of the quadratic, in knots. (`** 0.5` of a negative discriminant
would be a complex number or NaN; not modelled.) -/
def vbmin1_keas (liftslope clmaxclean k_g gust trueloading rho0 wfract : ℝ) : ℝ :=
  let a := 1
  let b := -(liftslope / clmaxclean) * k_g * gust
  let c := -2 * trueloading / (rho0 * clmaxclean) * wfract
  mps2kts ((-b + √(b ^ 2 - 4 * a * c)) / (2 * a))

/-- airworthiness.py:346-369: the second loop for one category, together with the entries made before
(295-323, 334-336). `np.sqrt` of a negative wing loading (NaN) is not modelled. -/
def speedsAt (o : Cert) (vc clmaxclean wingloading vs rho0 k_g liftslope vamin : ℝ)
    (gusts : List (Gust × ℝ)) (loads : List GustLoad) (cat : Cat) : PyM Speeds := do
  let wl := pa2lbfft2 wingloading
  let gust_de ← gustSpeed gusts (if cat = .comm then .Ub else .Uc)
  let trueloading := wingloading * o.weightfraction
  let vb1 := vbmin1_keas liftslope clmaxclean k_g gust_de trueloading rho0 o.weightfraction
  let gl ← gustLoad loads .Uc
  let rtg ← mathSqrt gl.npos
  let vb2 := vs * rtg
  let vb := min vb1 vb2
  pure { vcmin := vcmin_keas wl cat, vcsoftmax := o.maxlevelspeed_keas.map (fun v => 0.9 * v),
         vdmin := vdmin_keas vc wl cat, vamin := vamin, vasoftmax := vc, vbmin1 := vb1, vbmin2 := vb2,
         vbmin := vb, vbmax := max vb vc }

/-- A loop over the four categories in the order of the list (airworthiness.py:334, 346). -/
def overCats {α : Type} (f : Cat → PyM α) : PyM (Cat → α) := do
  let n ← f .norm
  let u ← f .util
  let c ← f .comm
  let a ← f .aero
  pure (fun cat => match cat with | .norm => n | .util => u | .comm => c | .aero => a)

/-- airworthiness.py:254-371 (`_paragraph335`) -/
def paragraph335 (X : Ext) (o : Cert) : PyM (Cat → Speeds) := do
  let vc ← need o.cruisespeed_keas
  let clmaxclean ← need o.acobj.clmaxclean
  let weight_n ← need o.acobj.weight_n
  let wingarea_m2 ← need o.acobj.wingarea_m2
  let wingloading := weight_n / wingarea_m2
  let vs ← vs_keas o o.weightfraction
  let lim ← paragraph337 o
  let rt ← overCats (fun cat => mathSqrt (lim cat).1)
  let (_, gusts) ← paragraph333 o
  let (loads, k_g, liftslope) ← paragraph341 X o (fun g => if g = .Uc then some vc else none)
  let vs1 ← vs_keas o o.weightfraction
  let rho0 ← Atmos.dens1 o.acobj.designatm 0
  overCats (fun cat => speedsAt o vc clmaxclean wingloading vs1 rho0 k_g liftslope (vs * rt cat) (gusts cat) (loads cat) cat)

/-- `np.linspace(a, b, 100, endpoint=True)` (airworthiness.py:671, 682, 691, 706, 719, 728) -/
def linspace100 (a b : ℝ) : List ℝ := (List.range 100).map (fun i : ℕ => a + (i : ℝ) * ((b - a) / 99))

/-- `y[0]` of the loads of a sampled curve (which has 100 points). (airworthiness.py:739, 749) -/
def firstY (l : List (ℝ × ℝ)) : ℝ := (l.head?.map Prod.snd).getD 0

/-- `y[-1]` of the loads of a sampled curve. (airworthiness.py:710, 745-748) -/
def lastY (l : List (ℝ × ℝ)) : ℝ := (l.getLast?.map Prod.snd).getD 0

/-- `category not in cs23categories_list` (airworthiness.py:565-570) -/
def parseCat : CsVal → PyM Cat
  | .str "norm" => .ok .norm
  | .str "util" => .ok .util
  | .str "comm" => .ok .comm
  | .str "aero" => .ok .aero
  | _ => .error .valueError

/-- The stall parabola of the diagram (airworthiness.py:672, 694, 700, 723, 731). -/
def stallLoad (rho0 v_keas cl trueloading wfract : ℝ) : ℝ := rho0 * (kts2mps v_keas) ^ 2 * cl / trueloading / 2 / wfract

/-- What `flightenvelope` computes: the speeds used, the sampled curves (speed, load) and the points of
interest (airworthiness.py:615-754). -/
structure Envelope where
  vc : ℝ
  vd : ℝ
  va : ℝ
  vb : ℝ
  vs : ℝ
  vis : ℝ
  via : ℝ
  oa : List (ℝ × ℝ)
  go : List (ℝ × ℝ)
  sc : List (ℝ × ℝ)
  cd : List (ℝ × ℝ)
  e : ℝ × ℝ
  ef : List (ℝ × ℝ)
  fs : List (ℝ × ℝ)
  poi : List (String × (ℝ × ℝ))

/-- airworthiness.py:697-703: a point of the curve from stall to cruise speed. -/
def scAt (rho0 clmax trueloading wfract va vb vc b_ygustpen c_ygust d_ymano speed : ℝ) : ℝ :=
  if speed ≤ va ∨ speed ≤ vb then stallLoad rho0 speed clmax trueloading wfract
  else max (npInterp2 speed vb vc b_ygustpen c_ygust) d_ymano

/-- airworthiness.py:709-710 -/
def cdAt (vc vd sc_last d_ygust d_ymano speed : ℝ) : ℝ := max (npInterp2 speed vc vd sc_last d_ygust) d_ymano

/-- airworthiness.py:724-725 -/
def efAt (vc vd f_ygust f_ystall e_ygust e_ymano speed : ℝ) : ℝ :=
  min (npInterp2 speed vc vd (max f_ygust f_ystall) e_ygust) e_ymano

/-- airworthiness.py:730-736 -/
def fsAt (rho0 clmin trueloading wfract via vc f_ygust f_ymano speed : ℝ) : ℝ :=
  let fs_ystall := stallLoad rho0 speed clmin trueloading wfract
  if speed < via then fs_ystall
  else max (min (npInterp2 speed 0 vc 1 f_ygust) f_ymano) fs_ystall

/-- airworthiness.py:503-888 (`flightenvelope`) without the plot and the warnings. -/
def flightenvelope (X : Ext) (o : Cert) : PyM Envelope := do
  let cat ← parseCat o.category
  let rho0 ← Atmos.dens1 o.acobj.designatm 0
  let vc0 ← need o.cruisespeed_keas
  let clmax ← need o.acobj.clmaxclean
  let clmin ← need o.acobj.clminclean
  let weight_n ← need o.acobj.weight_n
  let wingarea_m2 ← need o.acobj.wingarea_m2
  let wingloading := weight_n / wingarea_m2
  let wfract := o.weightfraction
  let trueloading := wingloading * wfract
  let limits ← paragraph335 X o
  let lim := limits cat
  let (mans, _) ← paragraph333 o
  let man := mans cat
  let vc := max vc0 lim.vcmin
  let vd := match o.divespeed_keas with
    | none => lim.vdmin
    | some v => max v lim.vdmin
  let va := lim.vamin
  let vb := lim.vbmin1
  let vs ← vs_keas o (1 * wfract)
  let vis ← vs_keas o (-1 * wfract)
  let via := vis * √|man.nneg_C|
  let (loads, _, _) ← paragraph341 X o (fun g => match g with | .Ub => some vb | .Uc => some vc | .Ud => some vd)
  let oa := (linspace100 0 va).map (fun x => (x, stallLoad rho0 x clmax trueloading wfract))
  let go := (linspace100 via 0).map (fun x => (x, 0.5 * rho0 * kts2mps x ^ 2 * clmin / trueloading / wfract))
  let b_ygustpen := stallLoad rho0 vb clmax trueloading wfract
  let gc ← gustLoad (loads cat) .Uc
  let d_ymano := man.npos_D / wfract
  let scf := scAt rho0 clmax trueloading wfract va vb vc b_ygustpen gc.npos d_ymano
  let sc := (linspace100 vs vc).map (fun x => (x, scf x))
  let gd ← gustLoad (loads cat) .Ud
  let sc_last := lastY sc
  let cd := (linspace100 vc vd).map (fun x => (x, cdAt vc vd sc_last gd.npos d_ymano x))
  let e_ymano := man.nneg_D / wfract
  let e_y := min gd.nneg e_ymano
  let f_ymano := man.nneg_C / wfract
  let f_ystall := stallLoad rho0 vc clmin trueloading wfract
  let ef := (linspace100 vd vc).map (fun x => (x, efAt vc vd gc.nneg f_ystall gd.nneg e_ymano x))
  let fs := (linspace100 vc vis).map (fun x => (x, fsAt rho0 clmin trueloading wfract via vc gc.nneg f_ymano x))
  let points := [("A", (va, d_ymano)), ("B", (vb, b_ygustpen)), ("C", (vc, lastY sc)),
    ("D", (vd, lastY cd)), ("E", (vd, e_y)),
    ("F", (vc, lastY ef)), ("G", (via, firstY go))]
  let poi := if vb > vc then points.filter (fun p => p.1 ≠ "B") else points
  pure { vc, vd, va, vb, vs, vis, via, oa, go, sc, cd, e := (vd, e_y), ef, fs, poi }

end

end Verif.Airworthiness
