import Verif.Model.Concept

/-
The documented items of the three dictionaries that the constructor of an aircraft concept stores as attributes and that are not part of
`Concept` (ADRpy/constraintanalysis.py:446-451, 470-494).
-/

namespace Verif.Aircraft
open Verif

noncomputable section

/-- constraintanalysis.py:448-451, 472-473, 484-485, 488, 494 -/
structure Stored where
  to_headwind_kts : Option ℝ
  to_slope_perc : Option ℝ
  to_slope_rad : ℝ
  to_slope_deg : ℝ
  spooluptime_s : Option ℝ
  totalstaticthrust_n : Option ℝ
  runwayalpha_deg : Option ℝ
  runwayalpha_max_deg : Option ℝ
  cd0to : Option ℝ
  cl0to : Option ℝ

/-- constraintanalysis.py:448-451, 472-473, 484-485, 488, 494 (`math.degrees` as multiplication by 180/π) -/
def readStored (brief design performance : Dict) : PyM Stored := do
  let to_headwind_kts ← attr brief "to_headwind_kts"
  let to_slope_perc ← attr brief "to_slope_perc"
  let to_slope_rad := Real.arctan (pyNum to_slope_perc / 100)
  let to_slope_deg := to_slope_rad * (180 / Real.pi)
  let spooluptime_s ← attr design "spooluptime_s"
  let totalstaticthrust_n ← attr design "totalstaticthrust_n"
  let runwayalpha_deg ← attr design "runwayalpha_deg"
  let runwayalpha_max_deg ← attr design "runwayalpha_max_deg"
  let cd0to ← attr performance "CD0TO"
  let cl0to ← attr performance "CL0TO"
  pure { to_headwind_kts, to_slope_perc, to_slope_rad, to_slope_deg, spooluptime_s, totalstaticthrust_n, runwayalpha_deg,
         runwayalpha_max_deg, cd0to, cl0to }

/-- The stored items of a built concept: they are read from the same dictionaries as the other attributes (426-508).
(constraintanalysis.py:426-508) -/
def stored (r : Built) : PyM Stored := readStored r.brief r.design r.performance

end

end Verif.Aircraft
