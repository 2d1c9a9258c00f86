import Verif.Model.AtmosHelpers
import Mathlib.Analysis.SpecialFunctions.Exp
import Mathlib.Analysis.SpecialFunctions.Log.Basic

/-
Model of the ISA part of class Atmosphere, ADRpy/atmospheres.py:372-589. Each function is the body of
the `np.nditer` loop for one element; the loops apply it to every element (see `Model/Atmosphere`).
The powers `**` are real powers; all bases are positive on the altitude range of the theorems.
-/

namespace Verif.Atmos

noncomputable section

/-! Constants, atmospheres.py:372-430. -/

/-- atmospheres.py:372 -/
def Level1 : ℝ := 11000
/-- atmospheres.py:373 -/
def Level2 : ℝ := 20000
/-- atmospheres.py:374 -/
def Level3 : ℝ := 32000
/-- atmospheres.py:375 -/
def Level4 : ℝ := 47000
/-- atmospheres.py:376 -/
def Level5 : ℝ := 50000

/-- atmospheres.py:378 -/
def dLevel1 : ℝ := 0.36391700650017816
/-- atmospheres.py:379 -/
def dLevel2 : ℝ := 0.088034556579455497
/-- atmospheres.py:380 -/
def dLevel3 : ℝ := 0.013224937668421609
/-- atmospheres.py:381 -/
def dLevel4 : ℝ := 0.0014275295197313882

/-- atmospheres.py:384 -/
def pLevel1 : ℝ := 22632.000999016603
/-- atmospheres.py:385 -/
def pLevel2 : ℝ := 5474.8699475808515
/-- atmospheres.py:386 -/
def pLevel3 : ℝ := 868.01381950678511
/-- atmospheres.py:387 -/
def pLevel4 : ℝ := 110.90599734942646

/-- atmospheres.py:391 -/
def A1 : ℝ := 288.15
/-- atmospheres.py:392 -/
def B1 : ℝ := -6.5e-3
/-- atmospheres.py:393 -/
def C1 : ℝ := 8.9619638
/-- atmospheres.py:394 -/
def D1 : ℝ := -0.20216125e-3
/-- atmospheres.py:395 -/
def E1 : ℝ := 5.2558797
/-- atmospheres.py:396 -/
def I1 : ℝ := 1.048840
/-- atmospheres.py:397 -/
def J1 : ℝ := -23.659414e-6
/-- atmospheres.py:398 -/
def L1 : ℝ := 4.2558797

/-- atmospheres.py:400 -/
def A2 : ℝ := 216.65
/-- atmospheres.py:401 -/
def B2 : ℝ := 0
/-- atmospheres.py:402 -/
def F2 : ℝ := 128244.5
/-- atmospheres.py:403 -/
def G2 : ℝ := -0.15768852e-3
/-- atmospheres.py:404 -/
def M2 : ℝ := 2.0621400
/-- atmospheres.py:405 -/
def N2 : ℝ := -0.15768852e-3

/-- atmospheres.py:407 -/
def A3 : ℝ := 196.65
/-- atmospheres.py:408 -/
def B3 : ℝ := 1e-3
/-- atmospheres.py:409 -/
def C3 : ℝ := 0.70551848
/-- atmospheres.py:410 -/
def D3 : ℝ := 3.5876861e-6
/-- atmospheres.py:411 -/
def E3 : ℝ := -34.163218
/-- atmospheres.py:412 -/
def I3 : ℝ := 0.9726309
/-- atmospheres.py:413 -/
def J3 : ℝ := 4.94600e-6
/-- atmospheres.py:414 -/
def L3 : ℝ := -35.163218

/-- atmospheres.py:416 -/
def A4 : ℝ := 139.05
/-- atmospheres.py:417 -/
def B4 : ℝ := 2.8e-3
/-- atmospheres.py:418 -/
def C4 : ℝ := 0.34926867
/-- atmospheres.py:419 -/
def D4 : ℝ := 7.0330980e-6
/-- atmospheres.py:420 -/
def E4 : ℝ := -12.201149
/-- atmospheres.py:421 -/
def I4 : ℝ := 0.84392929
/-- atmospheres.py:422 -/
def J4 : ℝ := 16.993902e-6
/-- atmospheres.py:423 -/
def L4 : ℝ := -13.201149

/-- atmospheres.py:425 -/
def A5 : ℝ := 270.65
/-- atmospheres.py:426 -/
def B5 : ℝ := 0
/-- atmospheres.py:427 -/
def F5 : ℝ := 41828.42
/-- atmospheres.py:428 -/
def G5 : ℝ := -0.12622656e-3
/-- atmospheres.py:429 -/
def M5 : ℝ := 0.53839563
/-- atmospheres.py:430 -/
def N5 : ℝ := -0.12622656e-3

/-- atmospheres.py:475-496, loop body of `_isatemp_k`. -/
def isatemp (offset_deg alt : ℝ) : ℝ :=
  (if alt < Level1 then A1 + B1 * alt
   else if alt < Level2 then A2 + B2 * alt
   else if alt < Level3 then A3 + B3 * alt
   else if alt < Level4 then A4 + B4 * alt
   else A5 + B5 * alt) + offset_deg

/-- atmospheres.py:499-518, loop body of `_isapress_pa` (the offset is not used). -/
def isapress (alt : ℝ) : ℝ :=
  if alt < Level1 then (C1 + D1 * alt) ^ E1
  else if alt < Level2 then F2 * Real.exp (G2 * alt)
  else if alt < Level3 then (C3 + D3 * alt) ^ E3
  else if alt < Level4 then (C4 + D4 * alt) ^ E4
  else F5 * Real.exp (G5 * alt)

/-- atmospheres.py:521-540, loop body of `_isapressalt_m`. `math.log1p(x)` is `log (1 + x)`; for
a nonpositive pressure it raises ValueError (theorems apply it to ISA pressures, all positive). -/
def isapressalt (press_pa : ℝ) : ℝ :=
  if press_pa > pLevel1 then (press_pa ^ (1 / E1) - C1) / D1
  else if press_pa > pLevel2 then (1 / G2) * Real.log (1 + (press_pa / F2 - 1))
  else if press_pa > pLevel3 then (press_pa ^ (1 / E3) - C3) / D3
  else if press_pa > pLevel4 then (press_pa ^ (1 / E4) - C4) / D4
  else (1 / G5) * Real.log (1 + (press_pa / F5 - 1))

/-- atmospheres.py:547-561: density before the offset correction. -/
def isadens0 (alt : ℝ) : ℝ :=
  if alt < Level1 then (I1 + J1 * alt) ^ L1
  else if alt < Level2 then M2 * Real.exp (N2 * alt)
  else if alt < Level3 then (I3 + J3 * alt) ^ L3
  else if alt < Level4 then (I4 + J4 * alt) ^ L4
  else M5 * Real.exp (N5 * alt)

/-- atmospheres.py:543-566, loop body of `_isadens_kgpm3`, including the offset correction of lines
563-564. -/
def isadens (offset_deg alt : ℝ) : ℝ :=
  isadens0 alt / (1 + offset_deg / (isatemp offset_deg alt - offset_deg))

/-- atmospheres.py:569-589 (`_isadensalt_m`), loop body. `whole` is the whole argument, which lines
578 and 582 use instead of the loop element `d`: `math.log1p` of an array with other than one element
raises TypeError, the truth value of an array comparison with other than one element raises
ValueError. -/
def isadensalt1 (whole : List ℝ) (d : ℝ) : PyM ℝ :=
  if d > dLevel1 then .ok ((d ^ (1 / L1) - I1) / J1)
  else if d > dLevel2 then
    match whole with
    | [w] => .ok ((1 / N2) * Real.log (1 + (w / M2 - 1)))
    | _ => .error .typeError
  else if d > dLevel3 then .ok ((d ^ (1 / L3) - I3) / J3)
  else
    match whole with
    | [w] =>
      if w > dLevel4 then .ok ((d ^ (1 / L4) - I4) / J4)
      else .ok ((1 / N5) * Real.log (1 + (d / M5 - 1)))
    | _ => .error .valueError

/-- atmospheres.py:569-589 (`_isadensalt_m`) on an array (a number is a one-element array here). -/
def isadensalt (dens : List ℝ) : PyM (List ℝ) := dens.mapM (isadensalt1 dens)

end

end Verif.Atmos
