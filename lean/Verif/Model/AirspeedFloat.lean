import Verif.Model.AeroFloat
import Verif.Model.IsaFloat

/-
Airspeeds in the ISA (ADRpy/atmospheres.py:656-672, 731-772, 829-838) in floating point: every operation is rounded.
-/

namespace Verif.Fl

noncomputable section

variable (F : Rounding) (M : Libm2 F)

/-- atmospheres.py:731-757, in the ISA: true airspeed -/
def isa_eas2tas (o eas alt : ℝ) : ℝ := atm_eas2tas F (isadens F M.toLibm o alt) (isadens F M.toLibm o 0) eas

/-- atmospheres.py:656-672, in the ISA -/
def isa_mach (o tas alt : ℝ) : ℝ := F.rd (tas / vsound F (isatemp F o alt))

/-- `1 + m2_term + m4_term` (atmospheres.py:770-772). numpy computes the square of the Mach number (an array) by multiplication, which
is within the error assumed of `ipow`. -/
def casBracket (delta machno : ℝ) : ℝ :=
  let m2_term := F.rd (F.rd (F.rd (1 / 8) * F.rd (1 - delta)) * M.ipow machno 2)
  let m4_term := F.rd (F.rd (F.rd (3 / 640) * F.rd (F.rd (1 - F.rd (10 * delta)) + F.rd (9 * M.ipow delta 2))) * M.ipow machno 4)
  F.rd (F.rd (1 + m2_term) + m4_term)

/-- atmospheres.py:764-772 for one airspeed, in the ISA: (CAS, Mach) -/
def mpseas2mpscas (o mpseas alt : ℝ) : ℝ × ℝ :=
  let mpstas := isa_eas2tas F M o mpseas alt
  let machno := isa_mach F o mpstas alt
  let delta := F.rd (isapress F M.toLibm alt / isapress F M.toLibm 0)
  (F.rd (mpseas * casBracket F M delta machno), machno)

/-- atmospheres.py:774-838 for one airspeed, in the ISA: (KCAS, Mach) -/
def keas2kcas (o keas alt : ℝ) : ℝ × ℝ :=
  let r := mpseas2mpscas F M o (kts2mps F keas) alt
  (mps2kts F r.1, r.2)

end

end Verif.Fl
