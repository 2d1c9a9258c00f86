import Verif.Model.Float
import Verif.Model.Units

/-
The conversions of ADRpy/unitconversions.py (lines 19-182) in floating point: constants are rounded and every operation is followed by a
rounding. Whole numbers in the expressions (9, 5, 32, 60, 1000) are exact in floating point.
-/

namespace Verif.Fl

noncomputable section

/-- `scipy.constants.g` as a float, used in unitconversions.py:107-115, 140. -/
def gAcc (F : Rounding) : ℝ := F.rd 9.80665
/-- unitconversions.py:19-21 -/
def c2f (F : Rounding) (temp_c : ℝ) : ℝ := F.rd (F.rd (F.rd (temp_c * 9) / 5) + 32)
/-- unitconversions.py:23-25 -/
def feet2m (F : Rounding) (length_feet : ℝ) : ℝ := F.rd (length_feet * F.rd 0.3048)
/-- unitconversions.py:27-29 -/
def feet22m2 (F : Rounding) (area_ft2 : ℝ) : ℝ := F.rd (area_ft2 / F.rd 10.7639)
/-- unitconversions.py:31-33 -/
def m22feet2 (F : Rounding) (area_m2 : ℝ) : ℝ := F.rd (area_m2 * F.rd 10.7639)
/-- unitconversions.py:35-37 -/
def m2km (F : Rounding) (length_m : ℝ) : ℝ := F.rd (length_m / 1000)
/-- unitconversions.py:39-41 -/
def km2m (F : Rounding) (length_km : ℝ) : ℝ := F.rd (length_km * 1000)
/-- unitconversions.py:43-45 -/
def c2k (F : Rounding) (temp_c : ℝ) : ℝ := F.rd (temp_c + F.rd 273.15)
/-- unitconversions.py:47-49 -/
def k2c (F : Rounding) (temp_k : ℝ) : ℝ := F.rd (temp_k - F.rd 273.15)
/-- unitconversions.py:51-53 -/
def c2r (F : Rounding) (temp_c : ℝ) : ℝ := F.rd (F.rd (F.rd (temp_c + F.rd 273.15) * 9) / 5)
/-- unitconversions.py:55-57 -/
def r2c (F : Rounding) (temp_r : ℝ) : ℝ := F.rd (F.rd (F.rd (temp_r - F.rd 491.67) * 5) / 9)
/-- unitconversions.py:59-61 -/
def k2r (F : Rounding) (temp_k : ℝ) : ℝ := F.rd (F.rd (temp_k * 9) / 5)
/-- unitconversions.py:63-65 -/
def r2k (F : Rounding) (temp_r : ℝ) : ℝ := F.rd (F.rd (temp_r * 5) / 9)
/-- unitconversions.py:67-69 -/
def pa2mbar (F : Rounding) (press_pa : ℝ) : ℝ := F.rd (press_pa * F.rd 0.01)
/-- unitconversions.py:71-73 -/
def mbar2pa (F : Rounding) (press_mbar : ℝ) : ℝ := F.rd (press_mbar / F.rd 0.01)
/-- unitconversions.py:75-77 -/
def inhg2mbar (F : Rounding) (press_inhg : ℝ) : ℝ := F.rd (press_inhg * F.rd 33.8639)
/-- unitconversions.py:79-81 -/
def mbar2inhg (F : Rounding) (press_mbar : ℝ) : ℝ := F.rd (press_mbar / F.rd 33.8639)
/-- unitconversions.py:83-85 -/
def mbar2lbfft2 (F : Rounding) (press_mbar : ℝ) : ℝ := F.rd (press_mbar * F.rd 2.08854)
/-- unitconversions.py:87-89 -/
def lbfft22mbar (F : Rounding) (press_lbfft2 : ℝ) : ℝ := F.rd (press_lbfft2 / F.rd 2.08854)
/-- unitconversions.py:91-93 -/
def mps2kts (F : Rounding) (speed_mps : ℝ) : ℝ := F.rd (speed_mps * F.rd 1.9438445)
/-- unitconversions.py:95-97 -/
def kts2mps (F : Rounding) (speed_kts : ℝ) : ℝ := F.rd (speed_kts * F.rd 0.5144444)
/-- unitconversions.py:99-101 -/
def m2feet (F : Rounding) (length_m : ℝ) : ℝ := F.rd (length_m / F.rd 0.3048)
/-- unitconversions.py:103-105 -/
def pa2kgm2 (F : Rounding) (pressure_pa : ℝ) : ℝ := F.rd (pressure_pa * F.rd 0.1019716212978)
/-- unitconversions.py:107-109 -/
def kg2n (F : Rounding) (mass_kg : ℝ) : ℝ := F.rd (mass_kg * gAcc F)
/-- unitconversions.py:111-113 -/
def n2kg (F : Rounding) (force_n : ℝ) : ℝ := F.rd (force_n / gAcc F)
/-- unitconversions.py:115-117 -/
def kgm22pa (F : Rounding) (pressure_kgm2 : ℝ) : ℝ := F.rd (pressure_kgm2 * gAcc F)
/-- unitconversions.py:119-122 -/
def fpm2mps (F : Rounding) (speed_fpm : ℝ) : ℝ := F.rd (feet2m F speed_fpm / 60)
/-- unitconversions.py:124-126 -/
def lbs2kg (F : Rounding) (mass_lbs : ℝ) : ℝ := F.rd (mass_lbs * F.rd 0.453592)
/-- unitconversions.py:128-130 -/
def kg2lbs (F : Rounding) (mass_kg : ℝ) : ℝ := F.rd (mass_kg / F.rd 0.453592)
/-- unitconversions.py:132-134 -/
def lbf2n (F : Rounding) (force_lbf : ℝ) : ℝ := F.rd (force_lbf / F.rd 0.224809)
/-- unitconversions.py:136-138 -/
def n2lbf (F : Rounding) (force_n : ℝ) : ℝ := F.rd (force_n * F.rd 0.224809)
/-- unitconversions.py:140-142 -/
def wn2wkg (F : Rounding) (powertoweight_wn : ℝ) : ℝ := F.rd (powertoweight_wn * gAcc F)
/-- unitconversions.py:144-146 -/
def wn2kwkg (F : Rounding) (powertoweight_wn : ℝ) : ℝ := F.rd (wn2wkg F powertoweight_wn / 1000)
/-- unitconversions.py:148-150 -/
def wn2hpkg (F : Rounding) (powertoweight_wn : ℝ) : ℝ := F.rd (wn2kwkg F powertoweight_wn * F.rd 1.34102)
/-- unitconversions.py:152-154 -/
def kw2hp (F : Rounding) (power_kw : ℝ) : ℝ := F.rd (power_kw * F.rd 1.34102)
/-- unitconversions.py:156-158 -/
def hp2kw (F : Rounding) (power_hp : ℝ) : ℝ := F.rd (power_hp / F.rd 1.34102)
/-- unitconversions.py:160-162 -/
def kgm32sft3 (F : Rounding) (density_kgm3 : ℝ) : ℝ := F.rd (density_kgm3 * F.rd 0.00194032)
/-- unitconversions.py:164-166 -/
def sft32kgm3 (F : Rounding) (density_slft3 : ℝ) : ℝ := F.rd (density_slft3 / F.rd 0.00194032)
/-- unitconversions.py:176-178 -/
def pa2lbfft2 (F : Rounding) (pressure_pa : ℝ) : ℝ := F.rd (pressure_pa * F.rd 0.020885434273039)
/-- unitconversions.py:180-182 -/
def lbfft22pa (F : Rounding) (pressure_lbft2 : ℝ) : ℝ := F.rd (pressure_lbft2 / F.rd 0.020885434273039)

end

end Verif.Fl
