import Verif.Model.Array

/-
`np.interp` on two points, as used in ADRpy/constraintanalysis.py and ADRpy/airworthiness.py.
-/

namespace Verif

noncomputable section

/-- `np.interp(x, [a, b], [ya, yb])` for `a < b`: constant outside the interval, linear inside.
(airworthiness.py:238-240, 295-296, 700-736) -/
def npInterp2 (x a b ya yb : ℝ) : ℝ :=
  if x ≤ a then ya else if b ≤ x then yb else ya + (yb - ya) / (b - a) * (x - a)

end

end Verif
