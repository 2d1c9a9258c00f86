import Verif.Model.AirspeedFloat
import Verif.Lemmas.AeroFloat
import Verif.Props.AeroFloat
import Verif.Props.IsaFloat
import Verif.Props.Atmosphere
import Verif.Props.Hydrostatic

/-
Property C153: airspeeds in the ISA in floating point.
-/

namespace Verif.Props
open Verif Verif.Fl

/-- The bracket of the calibrated airspeed, from a pressure ratio and a Mach number that carry roundings. -/
theorem acc_casBracket {F : Rounding} (M : Libm2 F) {dh d mh m : ℝ} (hd : Acc F 156 dh d) (d0 : 0 ≤ d) (d1 : d ≤ 1)
    (hm : Acc F 105 mh m) (m0 : 0 ≤ m) (m1 : m ≤ 1) :
    Acc F 76 (casBracket F M dh mh) (1 + 1 / 8 * (1 - d) * m ^ 2 + 3 / 640 * (1 - 10 * d + 9 * d ^ 2) * m ^ 4) := by
  unfold casBracket
  simp only
  have y0 : 0 ≤ m ^ 2 := by positivity
  have y1 : m ^ 2 ≤ 1 := by nlinarith
  have z0 : 0 ≤ m ^ 4 := by positivity
  have z1 : m ^ 4 ≤ 1 := by nlinarith
  have b0 : |1 - d| ≤ 1 := by rw [abs_le]; constructor <;> linarith
  have q0 : |1 - 10 * d + 9 * d ^ 2| ≤ 16 / 9 := by
    rw [abs_le]; constructor <;> nlinarith [sq_nonneg (d - 5 / 9)]
  have i2 := Ab.of_acc (hm.ipow M 2) (by norm_num) (B := 1) (by rw [abs_of_nonneg y0]; exact y1)
  have i4 := Ab.of_acc (hm.ipow M 4) (by norm_num) (B := 1) (by rw [abs_of_nonneg z0]; exact z1)
  have l8 : Ab F 0.125 (F.rd (1 / 8)) (1 / 8) := Ab.lit _ _ (by norm_num [abs_le])
  have l64 : Ab F 0.0046875 (F.rd (3 / 640)) (3 / 640) := Ab.lit _ _ (by norm_num [abs_le])
  have a1 := ((Ab.refl 1).sub (Ab.of_acc hd (by norm_num) (B := 1) (by rw [abs_of_nonneg d0]; exact d1))).rd b0
  have s2 : |1 / 8 * (1 - d)| ≤ 0.125 := by rw [abs_le]; constructor <;> norm_num <;> linarith
  have a2 := (l8.mul a1 (B := 0.125) (by norm_num [abs_le]) b0).rd s2
  have s3 : 0 ≤ 1 / 8 * (1 - d) * m ^ 2 ∧ 1 / 8 * (1 - d) * m ^ 2 ≤ 0.125 := by
    have h0 : 0 ≤ 1 - d := by linarith
    constructor
    · positivity
    · have : (1 - d) * m ^ 2 ≤ 1 * 1 := mul_le_mul (by linarith) y1 y0 zero_le_one
      norm_num; linarith
  have a3 := ((a2.mul i2 s2 (C := 1) (by rw [abs_of_nonneg y0]; exact y1)).rd (B := 0.125) (by
    rw [abs_of_nonneg s3.1]; exact s3.2)).weaken (b := 46.9) (by norm_num)
  have a4 := (((Ab.refl 1).add a3).rd (B := 1.125) (by
    rw [abs_of_nonneg (by linarith [s3.1])]; linarith [s3.2])).weaken (b := 48.04) (by norm_num)
  have c1 := ((Ab.refl 1).sub (Ab.of_acc (((Acc.refl (F := F) 10).mul hd).round) (by norm_num) (B := 10) (by
    rw [abs_of_nonneg (by linarith)]; linarith))).rd (B := 9) (by rw [abs_le]; constructor <;> linarith)
  have dd : d ^ 2 ≤ 1 := by nlinarith
  have c2 := Ab.of_acc (((Acc.refl (F := F) 9).mul (hd.ipow M 2)).round) (by norm_num) (B := 9) (by
    rw [abs_of_nonneg (by positivity)]; linarith)
  have c3 := ((c1.add c2).rd q0).weaken (b := 4444.1) (by norm_num)
  have s4 : |3 / 640 * (1 - 10 * d + 9 * d ^ 2)| ≤ 0.009375 := by
    rw [abs_le] at q0 ⊢; constructor <;> norm_num <;> linarith [q0.1, q0.2]
  have c4 := ((l64.mul c3 (B := 0.0046875) (by norm_num [abs_le]) q0).rd s4).weaken (b := 20.87) (by norm_num)
  have s5 : |3 / 640 * (1 - 10 * d + 9 * d ^ 2) * m ^ 4| ≤ 0.009375 := by
    rw [abs_mul, abs_of_nonneg z0]
    calc _ ≤ 0.009375 * (1 : ℝ) := mul_le_mul s4 z1 z0 (by norm_num)
      _ = _ := by norm_num
  have c5 := ((c4.mul i4 s4 (C := 1) (by rw [abs_of_nonneg z0]; exact z1)).rd s5).weaken (b := 24.88) (by norm_num)
  generalize 1 / 8 * (1 - d) * m ^ 2 = p at *
  generalize 3 / 640 * (1 - 10 * d + 9 * d ^ 2) * m ^ 4 = q at *
  rw [abs_le] at s5
  have fin := (a4.add c5).rd (B := 1.14) (by rw [abs_le]; constructor <;> norm_num at * <;> linarith [s3.1, s3.2, s5.1, s5.2])
  have hp : 0.99 ≤ 1 + p + q := by norm_num at *; linarith [s3.1, s5.1]
  refine Acc.of_err 75 (by norm_num) (lt_of_lt_of_le (by norm_num) hp) (fin.trans ?_)
  have hu := F.u_nonneg
  have : 1.000001 * (48.04 + 24.88) + 1.14 ≤ 75 * (1 + p + q) := by norm_num at *; linarith
  push_cast
  calc _ ≤ 75 * (1 + p + q) * F.u := mul_le_mul_of_nonneg_right this hu
    _ = _ := by ring

variable (F : Rounding) (M : Libm2 F)

/-- Offsets up to 100 K and altitudes from sea level to 50 km. -/
structure InIsa (o h : ℝ) : Prop where
  off : |o| ≤ 100
  low : 0 ≤ h
  high : h ≤ 50000

theorem InIsa.hot {o h : ℝ} (H : InIsa o h) : 0 < Atmos.isatemp o h ∧ 0 < Atmos.isatemp o 0 := by
  have a := C11_bounds o h
  have b := C11_bounds o 0
  have := (abs_le.1 H.off).1
  exact ⟨by linarith [a.1], by linarith [b.1]⟩

/-- True airspeed and Mach number from an equivalent airspeed that carries up to two roundings. -/
theorem acc_tas_mach {o h : ℝ} (H : InIsa o h) {eh e : ℝ} (he : Acc F 2 eh e) :
    Acc F 93 (isa_eas2tas F M o eh h) (e / √(Atmos.isadens o h / Atmos.isadens o 0)) ∧
    Acc F 105 (isa_mach F o (isa_eas2tas F M o eh h) h)
      (e / √(Atmos.isadens o h / Atmos.isadens o 0) / √(1.4 * 287.05287 * Atmos.isatemp o h)) := by
  obtain ⟨t, t0⟩ := H.hot
  have pd := C13_positive o h t
  have pd0 := C13_positive o 0 t0
  have a1 := (acc_dens F M.toLibm o h H.off (by linarith [H.low]) H.high).1
  have a2 := (acc_dens F M.toLibm o 0 H.off (by norm_num) (by norm_num)).2 (by norm_num)
  have a3 : Acc F (2 * 89) _ _ := ((a1.div a2).round).weaken (by norm_num)
  have a4 : Acc F 93 _ _ := (he.div ((a3.sqrt (by positivity)).round)).round
  refine ⟨a4, ?_⟩
  have v := (C129_temperature F o h H.off (by linarith [H.low]) H.high).2
  have e1 : Atmos.vsound (Atmos.isatemp o h) = √(1.4 * 287.05287 * Atmos.isatemp o h) := by
    unfold Atmos.vsound Atmos.R_JPKGPK; rfl
  rw [e1] at v
  have a5 : Acc F 11 (Fl.vsound F (Fl.isatemp F o h)) (√(1.4 * 287.05287 * Atmos.isatemp o h)) :=
    Acc.of_err 10 (by norm_num) (Real.sqrt_pos.2 (by positivity)) (by exact_mod_cast v)
  exact (a4.div a5).round

theorem acc_cas {o h : ℝ} (H : InIsa o h) {eh e : ℝ} (he : Acc F 2 eh e) (he0 : 0 ≤ e) :
    ∃ cas m, Atmos.mpseas2mpscas (.isa o) e h = .ok (cas, m) ∧ 0 ≤ m ∧ Acc F 105 (Fl.mpseas2mpscas F M o eh h).2 m ∧
      (m ≤ 1 → Acc F 79 (Fl.mpseas2mpscas F M o eh h).1 cas) := by
  obtain ⟨t, t0⟩ := H.hot
  have p := C12_positive h
  have p0 := C12_positive 0
  have hle := isapress_le_sl h H.low
  have eq := mpseas2mpscas_eq (e := e) (isa_dens1 o h H.high) (isa_dens1 o 0 (by norm_num)) (C13_positive o h t) (C13_positive o 0 t0)
    (isa_press1 o h H.high) (isa_press1 o 0 (by norm_num)) (isa_vsound o h H.high t.le)
  obtain ⟨_, am⟩ := acc_tas_mach F M H he
  have ad : Acc F 156 (F.rd (isapress F M.toLibm h / isapress F M.toLibm 0)) (Atmos.isapress h / Atmos.isapress 0) :=
    (((acc_press F M.toLibm h (by linarith [H.low]) H.high).1).div
      ((acc_press F M.toLibm 0 (by norm_num) (by norm_num)).2 (by norm_num))).round
  have hm0 : 0 ≤ e / √(Atmos.isadens o h / Atmos.isadens o 0) / √(1.4 * 287.05287 * Atmos.isatemp o h) := by positivity
  have d0 : 0 ≤ Atmos.isapress h / Atmos.isapress 0 := by positivity
  have d1 : Atmos.isapress h / Atmos.isapress 0 ≤ 1 := (div_le_one p0).2 hle
  refine ⟨_, _, eq, hm0, am, fun hm1 => ?_⟩
  generalize e / √(Atmos.isadens o h / Atmos.isadens o 0) / √(1.4 * 287.05287 * Atmos.isatemp o h) = m at *
  generalize Atmos.isapress h / Atmos.isapress 0 = d at *
  have b := (he.mul (acc_casBracket M ad d0 d1 am hm0 hm1)).round
  have e2 : 1 + (1 - d) * m ^ 2 * (1 / 8 + 3 / 640 * (1 - 9 * d) * m ^ 2) =
      1 + 1 / 8 * (1 - d) * m ^ 2 + 3 / 640 * (1 - 10 * d + 9 * d ^ 2) * m ^ 4 := by ring
  rw [e2]
  exact b

/-- C153: the true airspeed of an equivalent airspeed in the ISA is accurate to 94 units of rounding. -/
theorem C153_tas (o h e : ℝ) (H : InIsa o h) :
    ∃ tas, Atmos.eas2tas (.isa o) e h = .ok tas ∧ |isa_eas2tas F M o e h - tas| ≤ 94 * F.u * |tas| := by
  obtain ⟨t, t0⟩ := H.hot
  have k := dratio_ok (isa_dens1 o h H.high) (isa_dens1 o 0 (by norm_num)) (C13_positive o h t) (C13_positive o 0 t0)
  refine ⟨_, by unfold Atmos.eas2tas; rw [k]; rfl, ?_⟩
  exact (acc_tas_mach F M H ((Acc.refl (F := F) e).weaken (by norm_num))).1.err 94 (by norm_num) (by norm_num)

/-- C153: from an equivalent airspeed in m/s, the Mach number is accurate to 106 and, up to Mach 1, the calibrated airspeed to 80 units
of rounding. -/
theorem C153_cas (o h e : ℝ) (H : InIsa o h) (he : 0 ≤ e) :
    ∃ cas m, Atmos.mpseas2mpscas (.isa o) e h = .ok (cas, m) ∧ |(Fl.mpseas2mpscas F M o e h).2 - m| ≤ 106 * F.u * m ∧
      (m ≤ 1 → |(Fl.mpseas2mpscas F M o e h).1 - cas| ≤ 80 * F.u * |cas|) := by
  obtain ⟨cas, m, r, m0, am, ac⟩ := acc_cas F M H ((Acc.refl (F := F) e).weaken (by norm_num)) he
  refine ⟨cas, m, r, ?_, fun hm => (ac hm).err 80 (by norm_num) (by norm_num)⟩
  have := am.err 106 (by norm_num) (by norm_num)
  rwa [abs_of_nonneg m0] at this

/-- C153: likewise in knots, both conversions included: 106 and 82 units. -/
theorem C153_kcas (o h k : ℝ) (H : InIsa o h) (hk : 0 ≤ k) :
    ∃ kcas m, Atmos.keas2kcas (.isa o) k h = .ok (kcas, m) ∧ |(Fl.keas2kcas F M o k h).2 - m| ≤ 106 * F.u * m ∧
      (m ≤ 1 → |(Fl.keas2kcas F M o k h).1 - kcas| ≤ 82 * F.u * |kcas|) := by
  have he : Acc F 2 (Fl.kts2mps F k) (Units.kts2mps k) := (Acc.refl (F := F) k).kts2mps
  obtain ⟨cas, m, r, m0, am, ac⟩ := acc_cas F M H he (by unfold Units.kts2mps; positivity)
  refine ⟨Units.mps2kts cas, m, by unfold Atmos.keas2kcas; rw [r]; rfl, ?_, fun hm => ?_⟩
  · have := am.err 106 (by norm_num) (by norm_num)
    rwa [abs_of_nonneg m0] at this
  · have b : Acc F 81 _ _ := ((ac hm).mul (Acc.rd F 1.9438445)).round
    exact b.err 82 (by norm_num) (by norm_num)

theorem exIsa : InIsa 15 9000 := ⟨by norm_num [abs_le], by norm_num, by norm_num⟩

example : ∃ tas, Atmos.eas2tas (.isa 15) 150 9000 = .ok tas ∧
    |isa_eas2tas binary64 (exactLibm binary64) 15 150 9000 - tas| ≤ 94 * (2 : ℝ) ^ (-53 : ℤ) * |tas| :=
  C153_tas binary64 (exactLibm binary64) 15 9000 150 exIsa

example : ∃ cas m, Atmos.mpseas2mpscas (.isa 15) 150 9000 = .ok (cas, m) ∧
    |(Fl.mpseas2mpscas binary64 (exactLibm binary64) 15 150 9000).2 - m| ≤ 106 * (2 : ℝ) ^ (-53 : ℤ) * m ∧
    (m ≤ 1 → |(Fl.mpseas2mpscas binary64 (exactLibm binary64) 15 150 9000).1 - cas| ≤ 80 * (2 : ℝ) ^ (-53 : ℤ) * |cas|) :=
  C153_cas binary64 (exactLibm binary64) 15 9000 150 exIsa (by norm_num)

example : ∃ kcas m, Atmos.keas2kcas (.isa 15) 300 9000 = .ok (kcas, m) ∧
    |(Fl.keas2kcas binary64 (exactLibm binary64) 15 300 9000).2 - m| ≤ 106 * (2 : ℝ) ^ (-53 : ℤ) * m ∧
    (m ≤ 1 → |(Fl.keas2kcas binary64 (exactLibm binary64) 15 300 9000).1 - kcas| ≤ 82 * (2 : ℝ) ^ (-53 : ℤ) * |kcas|) :=
  C153_kcas binary64 (exactLibm binary64) 15 9000 300 exIsa (by norm_num)

/-- At 100 m/s and 1000 m the Mach number is indeed below one. -/
example : ∃ cas m, Atmos.mpseas2mpscas (.isa 0) 100 1000 = .ok (cas, m) ∧ m ≤ 1 ∧
    |(Fl.mpseas2mpscas binary64 (exactLibm binary64) 0 100 1000).1 - cas| ≤ 80 * (2 : ℝ) ^ (-53 : ℤ) * |cas| := by
  have H : InIsa 0 1000 := ⟨by norm_num, by norm_num, by norm_num⟩
  obtain ⟨t, t0⟩ := H.hot
  obtain ⟨cas, m, r, _, hc⟩ := C153_cas binary64 (exactLibm binary64) 0 1000 100 H (by norm_num)
  have eq := mpseas2mpscas_eq (e := 100) (isa_dens1 0 1000 H.high) (isa_dens1 0 0 (by norm_num)) (C13_positive 0 1000 t) (C13_positive 0 0 t0)
    (isa_press1 0 1000 H.high) (isa_press1 0 0 (by norm_num)) (isa_vsound 0 1000 H.high t.le)
  rw [r] at eq
  have em := (Prod.mk.injEq _ _ _ _ ▸ Except.ok.inj eq : _ ∧ _).2
  have hm : m ≤ 1 := by
    rw [em]
    have d1 : 1 ≤ Atmos.isadens 0 1000 := by
      have : Atmos.isadens 0 1000 = (1.048840 + -23.659414e-6 * 1000 : ℝ) ^ Atmos.L1 := by
        unfold Atmos.isadens Atmos.isadens0 Atmos.Level1 Atmos.I1 Atmos.J1
        rw [if_pos (by norm_num)]; simp
      rw [this]
      exact Real.one_le_rpow (by norm_num) (by unfold Atmos.L1; norm_num)
    have d0 := (abs_le.1 C102_sea_level.2.2).2
    have p0 := C13_positive 0 0 t0
    have s1 : 0.9 ≤ √(Atmos.isadens 0 1000 / Atmos.isadens 0 0) := by
      apply Real.le_sqrt_of_sq_le
      rw [le_div_iff₀ p0]
      norm_num at d0 ⊢
      linarith
    have s2 : 290 ≤ √(1.4 * 287.05287 * Atmos.isatemp 0 1000) := by
      apply Real.le_sqrt_of_sq_le
      have := (C11_bounds 0 1000).1
      norm_num at this ⊢
      linarith
    rw [div_div, div_le_one (by positivity)]
    calc (100 : ℝ) ≤ 0.9 * 290 := by norm_num
      _ ≤ _ := mul_le_mul s1 s2 (by norm_num) (Real.sqrt_nonneg _)
  exact ⟨cas, m, r, hm, hc hm⟩

end Verif.Props
