import Mathlib.Analysis.SpecialFunctions.Pow.Real

/-
Model of ADRpy/unitconversions.py (lines 19-182). Floats are exact reals; each function is the
expression of the Python function of the same name.
-/

namespace Verif.Units

noncomputable section

/-- `scipy.constants.g`, used in unitconversions.py:107-115, 140. -/
def gAcc : ℝ := 9.80665

/-- unitconversions.py:19-21 -/
def c2f (temp_c : ℝ) : ℝ := temp_c * 9 / 5 + 32
/-- unitconversions.py:23-25 -/
def feet2m (length_feet : ℝ) : ℝ := length_feet * 0.3048
/-- unitconversions.py:27-29 -/
def feet22m2 (area_ft2 : ℝ) : ℝ := area_ft2 / 10.7639
/-- unitconversions.py:31-33 -/
def m22feet2 (area_m2 : ℝ) : ℝ := area_m2 * 10.7639
/-- unitconversions.py:35-37 -/
def m2km (length_m : ℝ) : ℝ := length_m / 1000
/-- unitconversions.py:39-41 -/
def km2m (length_km : ℝ) : ℝ := length_km * 1000
/-- unitconversions.py:43-45 -/
def c2k (temp_c : ℝ) : ℝ := temp_c + 273.15
/-- unitconversions.py:47-49 -/
def k2c (temp_k : ℝ) : ℝ := temp_k - 273.15
/-- unitconversions.py:51-53 -/
def c2r (temp_c : ℝ) : ℝ := (temp_c + 273.15) * 9 / 5
/-- unitconversions.py:55-57 -/
def r2c (temp_r : ℝ) : ℝ := (temp_r - 491.67) * 5 / 9
/-- unitconversions.py:59-61 -/
def k2r (temp_k : ℝ) : ℝ := temp_k * 9 / 5
/-- unitconversions.py:63-65 -/
def r2k (temp_r : ℝ) : ℝ := temp_r * 5 / 9
/-- unitconversions.py:67-69 -/
def pa2mbar (press_pa : ℝ) : ℝ := press_pa * 0.01
/-- unitconversions.py:71-73 -/
def mbar2pa (press_mbar : ℝ) : ℝ := press_mbar / 0.01
/-- unitconversions.py:75-77 -/
def inhg2mbar (press_inhg : ℝ) : ℝ := press_inhg * 33.8639
/-- unitconversions.py:79-81 -/
def mbar2inhg (press_mbar : ℝ) : ℝ := press_mbar / 33.8639
/-- unitconversions.py:83-85 -/
def mbar2lbfft2 (press_mbar : ℝ) : ℝ := press_mbar * 2.08854
/-- unitconversions.py:87-89 -/
def lbfft22mbar (press_lbfft2 : ℝ) : ℝ := press_lbfft2 / 2.08854
/-- unitconversions.py:91-93 -/
def mps2kts (speed_mps : ℝ) : ℝ := speed_mps * 1.9438445
/-- unitconversions.py:95-97 -/
def kts2mps (speed_kts : ℝ) : ℝ := speed_kts * 0.5144444
/-- unitconversions.py:99-101 -/
def m2feet (length_m : ℝ) : ℝ := length_m / 0.3048
/-- unitconversions.py:103-105 -/
def pa2kgm2 (pressure_pa : ℝ) : ℝ := pressure_pa * 0.1019716212978
/-- unitconversions.py:107-109 -/
def kg2n (mass_kg : ℝ) : ℝ := mass_kg * gAcc
/-- unitconversions.py:111-113 -/
def n2kg (force_n : ℝ) : ℝ := force_n / gAcc
/-- unitconversions.py:115-117 -/
def kgm22pa (pressure_kgm2 : ℝ) : ℝ := pressure_kgm2 * gAcc
/-- unitconversions.py:119-122 -/
def fpm2mps (speed_fpm : ℝ) : ℝ := feet2m speed_fpm / 60
/-- unitconversions.py:124-126 -/
def lbs2kg (mass_lbs : ℝ) : ℝ := mass_lbs * 0.453592
/-- unitconversions.py:128-130 -/
def kg2lbs (mass_kg : ℝ) : ℝ := mass_kg / 0.453592
/-- unitconversions.py:132-134 -/
def lbf2n (force_lbf : ℝ) : ℝ := force_lbf / 0.224809
/-- unitconversions.py:136-138 -/
def n2lbf (force_n : ℝ) : ℝ := force_n * 0.224809
/-- unitconversions.py:140-142 -/
def wn2wkg (powertoweight_wn : ℝ) : ℝ := powertoweight_wn * gAcc
/-- unitconversions.py:144-146 -/
def wn2kwkg (powertoweight_wn : ℝ) : ℝ := wn2wkg powertoweight_wn / 1000
/-- unitconversions.py:148-150 -/
def wn2hpkg (powertoweight_wn : ℝ) : ℝ := wn2kwkg powertoweight_wn * 1.34102
/-- unitconversions.py:152-154 -/
def kw2hp (power_kw : ℝ) : ℝ := power_kw * 1.34102
/-- unitconversions.py:156-158 -/
def hp2kw (power_hp : ℝ) : ℝ := power_hp / 1.34102
/-- unitconversions.py:160-162 -/
def kgm32sft3 (density_kgm3 : ℝ) : ℝ := density_kgm3 * 0.00194032
/-- unitconversions.py:164-166 -/
def sft32kgm3 (density_slft3 : ℝ) : ℝ := density_slft3 / 0.00194032
/-- unitconversions.py:168-170 -/
def tas2eas (tas localairdensity_kgm3 : ℝ) : ℝ := tas * ((localairdensity_kgm3 / 1.225) ^ (0.5 : ℝ))
/-- unitconversions.py:172-174 -/
def eas2tas (eas localairdensity_kgm3 : ℝ) : ℝ := eas / ((localairdensity_kgm3 / 1.225) ^ (0.5 : ℝ))
/-- unitconversions.py:176-178 -/
def pa2lbfft2 (pressure_pa : ℝ) : ℝ := pressure_pa * 0.020885434273039
/-- unitconversions.py:180-182 -/
def lbfft22pa (pressure_lbft2 : ℝ) : ℝ := pressure_lbft2 / 0.020885434273039

end

end Verif.Units
