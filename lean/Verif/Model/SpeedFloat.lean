import Verif.Model.AirspeedFloat

/-
Stall speed, stall-limited wing loading and area, best climb speed and turn radius (ADRpy/constraintanalysis.py:1020-1033, 1514-1522,
2303-2379) in floating point, the design atmosphere being an ISA with offset: every operation is rounded.
-/

namespace Verif.Fl

noncomputable section

variable (F : Rounding) (M : Libm2 F)

/-- constraintanalysis.py:2343-2353 for one wing loading -/
def vstall_kias (w clmax : ℝ) : ℝ :=
  mps2kts F (F.rd √(F.rd (F.rd (2 * w) / F.rd (isadens F M.toLibm 0 0 * clmax))))

/-- constraintanalysis.py:2368-2373 with the dynamic pressure of atmospheres.py:728 -/
def wsmaxcleanstall_pa (o vs clmax : ℝ) : ℝ :=
  F.rd (dynamicpressure_pa F M.toLibm (isadens F M.toLibm o 0) (kts2mps F vs) * clmax)

/-- constraintanalysis.py:2375-2379 -/
def smincleanstall_m2 (o vs clmax weight_kg : ℝ) : ℝ := F.rd (kg2n F weight_kg / wsmaxcleanstall_pa F M o vs clmax)

/-- constraintanalysis.py:1020-1033 for one wing loading -/
def bestclimbspeedprop (o ar sweep_mt_deg taperratio sweep_25_deg cdmin w alt : ℝ) : ℝ :=
  let dragfactor := F.rd √(F.rd (induceddragfact F M ar sweep_mt_deg taperratio sweep_25_deg / F.rd (3 * cdmin)))
  let densfactor := F.rd (2 / isadens F M.toLibm o alt)
  F.rd √(F.rd (F.rd (densfactor * w) * dragfactor))

/-- constraintanalysis.py:1514-1522 -/
def bank2turnradius (ktas bankangle_deg : ℝ) : ℝ :=
  F.rd (M.pow (kts2mps F ktas) 2 / F.rd (gAcc F * M.tan (radians F bankangle_deg)))

end

end Verif.Fl
