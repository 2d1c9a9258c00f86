import Verif.Model.Atmosphere

/-
The speed and pressure conversions of class Atmosphere (ADRpy/atmospheres.py:690-838) on arrays. An array stands for a numpy array of
floats; Python lists of speeds are not modelled (`list ** 2` and `list / float` raise TypeError).
-/

namespace Verif.Atmos
open Verif.Units

noncomputable section

/-- A numpy binary operation whose operands are floats or one-dimensional arrays.
(for instance atmospheres.py:728, 757) -/
def npOp (f : ℝ → ℝ → ℝ) : NumArg → NumArg → PyM NumArg
  | .scalar x, .scalar y => .ok (.scalar (f x y))
  | .scalar x, .array ys => .ok (.array (ys.map (f x)))
  | .array xs, .scalar y => .ok (.array (xs.map (fun x => f x y)))
  | .array xs, .array ys => do
    let zs ← broadcast2 f xs ys
    pure (.array zs)

/-- A numpy function of one operand, element by element. (for instance atmospheres.py:728, 757) -/
def npMap (f : ℝ → ℝ) : NumArg → NumArg
  | .scalar x => .scalar (f x)
  | .array xs => .array (xs.map f)

/-- atmospheres.py:690-728 -/
def dynamicpressures_pa (a : Atm) (airspeed alt : NumArg) : PyM NumArg := do
  let d ← airdens_kgpm3 a alt
  npOp (fun x y => x * y) (npMap (fun d => 0.5 * d) d) (npMap (fun v => v ^ 2) airspeed)

/-- atmospheres.py:756, 761: the root of the density ratio. `math.sqrt` of an array with other than one element raises TypeError (one
element results are numbers, `_reverttoscalar`), of a negative number ValueError. -/
def rootRatio (a : Atm) (alt : NumArg) : PyM ℝ := do
  let d ← airdens_kgpm3 a alt
  let d0 ← airdens_kgpm3 a (.scalar 0)
  match d, d0 with
  | .scalar d, .scalar d0 => if d / d0 < 0 then .error .valueError else .ok (√(d / d0))
  | _, _ => .error .typeError

/-- atmospheres.py:731-757 -/
def eas2tasN (a : Atm) (eas alt : NumArg) : PyM NumArg := do
  let s ← rootRatio a alt
  pure (npMap (fun v => v / s) eas)

/-- atmospheres.py:759-762 -/
def tas2easN (a : Atm) (tas alt : NumArg) : PyM NumArg := do
  let s ← rootRatio a alt
  pure (npMap (fun v => v * s) tas)

/-- atmospheres.py:764-772: (CAS, Mach numbers). `mach` returns an array for any argument, and so both results are arrays. -/
def mpseas2mpscasN (a : Atm) (mpseas alt : NumArg) : PyM (NumArg × NumArg) := do
  let mpstas ← eas2tasN a mpseas alt
  let machno ← mach a mpstas alt
  let p ← airpress_pa a alt
  let p0 ← airpress_pa a (.scalar 0)
  let delta ← npOp (fun x y => x / y) p p0
  let m2_term ← npOp (fun x y => x * y) (npMap (fun t => (1 / 8) * (1 - t)) delta) (.array (machno.map (fun m => m ^ 2)))
  let m4_term ← npOp (fun x y => x * y) (npMap (fun t => (3 / 640) * (1 - 10 * t + 9 * t ^ 2)) delta) (.array (machno.map (fun m => m ^ 4)))
  let s ← npOp (fun x y => x + y) (npMap (fun x => 1 + x) m2_term) m4_term
  let cas ← npOp (fun x y => x * y) mpseas s
  pure (cas, .array machno)

/-- atmospheres.py:774-838 (the `np.asarray` of line 834 has no effect) -/
def keas2kcasN (a : Atm) (keas alt : NumArg) : PyM (NumArg × NumArg) := do
  let (mpscas, machno) ← mpseas2mpscasN a (npMap kts2mps keas) alt
  pure (npMap mps2kts mpscas, machno)

end

end Verif.Atmos
