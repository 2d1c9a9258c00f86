import Verif.Lemmas.IsaFloat
import Verif.Props.ConstraintFloat
import Verif.Props.ISA
import Mathlib.Analysis.Complex.ExponentialBounds

/-
C129: the standard atmosphere in floating point. Temperature, pressure, density, speed of sound and pressure altitude against the exact
functions of `Model/ISA.lean`, for altitudes from -5000 m to 50 km and temperature offsets of up to 100 degrees.
-/

namespace Verif.Props
open Verif.Fl

variable (F : Rounding) (M : Libm F)

theorem log_two_pow (n : ℕ) {x : ℝ} (h1 : 1 ≤ x) (h2 : x ≤ 2 ^ n) : |Real.log x| ≤ n * 0.69315 := by
  have h := Real.log_le_log (by linarith) h2
  rw [Real.log_pow] at h
  have := Real.log_two_lt_d9
  rw [abs_of_nonneg (Real.log_nonneg h1)]
  have hn : (0 : ℝ) ≤ n := Nat.cast_nonneg n
  nlinarith

theorem acc_press (h : ℝ) (h1 : -5000 ≤ h) (h2 : h ≤ 50000) :
    Acc F 116 (isapress F M h) (Atmos.isapress h) ∧ (h < 20000 → Acc F 39 (isapress F M h) (Atmos.isapress h)) := by
  unfold isapress Atmos.isapress
  unfold Atmos.Level1 Atmos.Level2 Atmos.Level3 Atmos.Level4
  by_cases c1 : h < 11000
  · simp only [c1, if_true]
    have hb : Atmos.D1 * h = -(0.20216125e-3 * h) := by unfold Atmos.D1; ring
    have a : Acc F 4 (affine F Atmos.C1 Atmos.D1 h) (Atmos.C1 + Atmos.D1 * h) := by
      refine Acc.affine 3 (by norm_num) _ _ _ (by rw [hb]; unfold Atmos.C1; linarith) ?_
      rw [abs_of_pos (show 0 < Atmos.C1 + Atmos.D1 * h by rw [hb]; unfold Atmos.C1; linarith), hb, abs_neg,
        abs_of_pos (show 0 < Atmos.C1 by norm_num [Atmos.C1])]
      unfold Atmos.C1
      push_cast
      rcases abs_cases (0.20216125e-3 * h) with ⟨e, _⟩ | ⟨e, _⟩ <;> rw [e] <;> linarith
    have b := Acc.powlayer (y := Atmos.E1) (Y := 5.2558797) M 36 a (by rw [hb]; unfold Atmos.C1; linarith)
      (by norm_num [Atmos.E1, abs_of_pos])
      (log_two_pow 4 (by rw [hb]; unfold Atmos.C1; linarith) (by rw [hb]; unfold Atmos.C1; norm_num; linarith))
      (by norm_num)
    exact ⟨b.weaken (by norm_num), fun _ => b.weaken (by norm_num)⟩
  · simp only [c1, if_false]
    by_cases c2 : h < 20000
    · simp only [c2, if_true]
      have b := Acc.explayer M 7 Atmos.F2 Atmos.G2 h (by
        rw [show Atmos.G2 * h = -(0.15768852e-3 * h) by unfold Atmos.G2; ring, abs_neg, abs_of_nonneg (by linarith)]
        push_cast; linarith)
      exact ⟨b.weaken (by norm_num), fun _ => b.weaken (by norm_num)⟩
    · simp only [c2, if_false]
      refine ⟨?_, fun h => h.elim⟩
      by_cases c3 : h < 32000
      · simp only [c3, if_true]
        have a : Acc F 3 (affine F Atmos.C3 Atmos.D3 h) (Atmos.C3 + Atmos.D3 * h) :=
          Acc.affine_pos _ _ _ (by norm_num [Atmos.C3]) (by norm_num [Atmos.D3]) (by linarith)
        have hx : 0.777 ≤ Atmos.C3 + Atmos.D3 * h := by unfold Atmos.C3 Atmos.D3; linarith
        have hx2 : Atmos.C3 + Atmos.D3 * h ≤ 0.83 := by unfold Atmos.C3 Atmos.D3; linarith
        exact (Acc.powlayer (y := Atmos.E3) (Y := 34.163218) (l := 0.29) M 113 a (by linarith)
          (by norm_num [Atmos.E3, abs_of_neg]) (abs_log_le (by linarith) (by linarith) (by linarith)) (by norm_num)).weaken
          (by norm_num)
      · simp only [c3, if_false]
        by_cases c4 : h < 47000
        · simp only [c4, if_true]
          have a : Acc F 3 (affine F Atmos.C4 Atmos.D4 h) (Atmos.C4 + Atmos.D4 * h) :=
            Acc.affine_pos _ _ _ (by norm_num [Atmos.C4]) (by norm_num [Atmos.D4]) (by linarith)
          have hx : 0.574 ≤ Atmos.C4 + Atmos.D4 * h := by unfold Atmos.C4 Atmos.D4; linarith
          have hx2 : Atmos.C4 + Atmos.D4 * h ≤ 0.69 := by unfold Atmos.C4 Atmos.D4; linarith
          exact (Acc.powlayer (y := Atmos.E4) (Y := 12.201149) (l := 0.75) M 46 a (by linarith)
            (by norm_num [Atmos.E4, abs_of_neg]) (abs_log_le (by linarith) (by linarith) (by linarith)) (by norm_num)).weaken
            (by norm_num)
        · simp only [c4, if_false]
          exact (Acc.explayer M 13 Atmos.F5 Atmos.G5 h (by
            rw [show Atmos.G5 * h = -(0.12622656e-3 * h) by unfold Atmos.G5; ring, abs_neg, abs_of_nonneg (by linarith)]
            push_cast; linarith)).weaken (by norm_num)

theorem acc_dens0 (h : ℝ) (h1 : -5000 ≤ h) (h2 : h ≤ 50000) :
    Acc F 114 (isadens0 F M h) (Atmos.isadens0 h) ∧ (h < 20000 → Acc F 22 (isadens0 F M h) (Atmos.isadens0 h)) := by
  unfold isadens0 Atmos.isadens0
  unfold Atmos.Level1 Atmos.Level2 Atmos.Level3 Atmos.Level4
  by_cases c1 : h < 11000
  · simp only [c1, if_true]
    have hb : Atmos.J1 * h = -(23.659414e-6 * h) := by unfold Atmos.J1; ring
    have hx : 0.788 ≤ Atmos.I1 + Atmos.J1 * h := by rw [hb]; unfold Atmos.I1; linarith
    have hx2 : Atmos.I1 + Atmos.J1 * h ≤ 1.2 := by rw [hb]; unfold Atmos.I1; linarith
    have a : Acc F 4 (affine F Atmos.I1 Atmos.J1 h) (Atmos.I1 + Atmos.J1 * h) := by
      refine Acc.affine 3 (by norm_num) _ _ _ (by linarith) ?_
      rw [abs_of_pos (show 0 < Atmos.I1 + Atmos.J1 * h by linarith), hb, abs_neg,
        abs_of_pos (show 0 < Atmos.I1 by norm_num [Atmos.I1])]
      unfold Atmos.I1
      push_cast
      rcases abs_cases (23.659414e-6 * h) with ⟨e, _⟩ | ⟨e, _⟩ <;> rw [e] <;> linarith
    have b := Acc.powlayer (y := Atmos.L1) (Y := 4.2558797) (l := 0.27) M 19 a (by linarith)
      (by norm_num [Atmos.L1, abs_of_pos]) (abs_log_le (by linarith) (by linarith) (by linarith)) (by norm_num)
    exact ⟨b.weaken (by norm_num), fun _ => b.weaken (by norm_num)⟩
  · simp only [c1, if_false]
    by_cases c2 : h < 20000
    · simp only [c2, if_true]
      have b := Acc.explayer M 7 Atmos.M2 Atmos.N2 h (by
        rw [show Atmos.N2 * h = -(0.15768852e-3 * h) by unfold Atmos.N2; ring, abs_neg, abs_of_nonneg (by linarith)]
        push_cast; linarith)
      exact ⟨b.weaken (by norm_num), fun _ => b.weaken (by norm_num)⟩
    · simp only [c2, if_false]
      refine ⟨?_, fun h => h.elim⟩
      by_cases c3 : h < 32000
      · simp only [c3, if_true]
        have a : Acc F 3 (affine F Atmos.I3 Atmos.J3 h) (Atmos.I3 + Atmos.J3 * h) :=
          Acc.affine_pos _ _ _ (by norm_num [Atmos.I3]) (by norm_num [Atmos.J3]) (by linarith)
        have hx : 1.07 ≤ Atmos.I3 + Atmos.J3 * h := by unfold Atmos.I3 Atmos.J3; linarith
        have hx2 : Atmos.I3 + Atmos.J3 * h ≤ 1.14 := by unfold Atmos.I3 Atmos.J3; linarith
        exact (Acc.powlayer (y := Atmos.L3) (Y := 35.163218) (l := 0.14) M 111 a (by linarith)
          (by norm_num [Atmos.L3, abs_of_neg]) (abs_log_le (by linarith) (by linarith) (by linarith)) (by norm_num)).weaken
          (by norm_num)
      · simp only [c3, if_false]
        by_cases c4 : h < 47000
        · simp only [c4, if_true]
          have a : Acc F 3 (affine F Atmos.I4 Atmos.J4 h) (Atmos.I4 + Atmos.J4 * h) :=
            Acc.affine_pos _ _ _ (by norm_num [Atmos.I4]) (by norm_num [Atmos.J4]) (by linarith)
          have hx : 1.38 ≤ Atmos.I4 + Atmos.J4 * h := by unfold Atmos.I4 Atmos.J4; linarith
          have hx2 : Atmos.I4 + Atmos.J4 * h ≤ 1.65 := by unfold Atmos.I4 Atmos.J4; linarith
          exact (Acc.powlayer (y := Atmos.L4) (Y := 13.201149) (l := 0.65) M 49 a (by linarith)
            (by norm_num [Atmos.L4, abs_of_neg]) (abs_log_le (by linarith) (by linarith) (by linarith)) (by norm_num)).weaken
            (by norm_num)
        · simp only [c4, if_false]
          exact (Acc.explayer M 13 Atmos.M5 Atmos.N5 h (by
            rw [show Atmos.N5 * h = -(0.12622656e-3 * h) by unfold Atmos.N5; ring, abs_neg, abs_of_nonneg (by linarith)]
            push_cast; linarith)).weaken (by norm_num)

theorem affine0_err (a h : ℝ) (ha : 0 ≤ a) : |affine0 F a h - a| ≤ 2.1 * F.u * a := by
  unfold affine0
  have e0 := F.err 0
  rw [abs_zero, mul_zero, sub_zero] at e0
  rw [zero_mul, abs_nonpos_iff.1 e0, add_zero]
  have := ((Acc.rd F a).round).err 3 (by norm_num) (by norm_num)
  have e1 := F.err a
  have e2 := F.err (F.rd a)
  have hu := F.u_nonneg
  have hul := F.u_lt
  rw [abs_of_nonneg ha, abs_le] at e1
  have hra : |F.rd a| ≤ 1.1 * a := by
    have := mul_nonneg hu ha
    rw [abs_le]; constructor <;> nlinarith [e1.1, e1.2]
  have h3 : |F.rd (F.rd a) - F.rd a| ≤ F.u * (1.1 * a) := e2.trans (mul_le_mul_of_nonneg_left hra hu)
  rw [abs_le] at h3 ⊢
  constructor <;> linarith [e1.1, e1.2, h3.1, h3.2]

theorem temp0_err (h : ℝ) (h1 : -5000 ≤ h) (h2 : h ≤ 50000) :
    |isatemp0 F h - Atmos.isatemp 0 h| ≤ 675 * F.u ∧ 216.65 ≤ Atmos.isatemp 0 h ∧ Atmos.isatemp 0 h ≤ 320.65 := by
  have hu := F.u_nonneg
  unfold isatemp0 Atmos.isatemp
  unfold Atmos.Level1 Atmos.Level2 Atmos.Level3 Atmos.Level4
  rw [add_zero]
  have key : ∀ a b : ℝ, 0 ≤ a → |b * h| = b * h ∨ |b * h| = -(b * h) → 216.65 ≤ a + b * h → a + b * h ≤ 320.65 →
      a + 2 * |b * h| + (a + b * h) ≤ 674 →
      |affine F a b h - (a + b * h)| ≤ 675 * F.u ∧ 216.65 ≤ a + b * h ∧ a + b * h ≤ 320.65 := by
    intro a b ha _ hl hr hs
    refine ⟨(affine_err a b h 674 (by rw [abs_of_nonneg ha, abs_of_nonneg (show 0 ≤ a + b * h by linarith)]; exact hs)).trans ?_, hl, hr⟩
    linarith
  by_cases c1 : h < 11000
  · simp only [c1, if_true]
    refine key _ _ (by norm_num [Atmos.A1]) (abs_choice _) ?_ ?_ ?_
    · unfold Atmos.A1 Atmos.B1; linarith
    · unfold Atmos.A1 Atmos.B1; linarith
    · unfold Atmos.A1 Atmos.B1
      rcases abs_cases (-6.5e-3 * h) with ⟨e, _⟩ | ⟨e, _⟩ <;> rw [e] <;> linarith
  · simp only [c1, if_false]
    by_cases c2 : h < 20000
    · simp only [c2, if_true]
      have := affine0_err F Atmos.A2 h (by norm_num [Atmos.A2])
      rw [show Atmos.A2 + Atmos.B2 * h = Atmos.A2 by unfold Atmos.B2; ring]
      refine ⟨this.trans ?_, ?_, ?_⟩ <;> unfold Atmos.A2 <;> linarith
    · simp only [c2, if_false]
      by_cases c3 : h < 32000
      · simp only [c3, if_true]
        refine key _ _ (by norm_num [Atmos.A3]) (abs_choice _) ?_ ?_ ?_
        · unfold Atmos.A3 Atmos.B3; linarith
        · unfold Atmos.A3 Atmos.B3; linarith
        · unfold Atmos.A3 Atmos.B3
          rw [abs_of_nonneg (by linarith)]; linarith
      · simp only [c3, if_false]
        by_cases c4 : h < 47000
        · simp only [c4, if_true]
          refine key _ _ (by norm_num [Atmos.A4]) (abs_choice _) ?_ ?_ ?_
          · unfold Atmos.A4 Atmos.B4; linarith
          · unfold Atmos.A4 Atmos.B4; linarith
          · unfold Atmos.A4 Atmos.B4
            rw [abs_of_nonneg (by linarith)]; linarith
        · simp only [c4, if_false]
          have := affine0_err F Atmos.A5 h (by norm_num [Atmos.A5])
          rw [show Atmos.A5 + Atmos.B5 * h = Atmos.A5 by unfold Atmos.B5; ring]
          refine ⟨this.trans ?_, ?_, ?_⟩ <;> unfold Atmos.A5 <;> linarith

theorem isatemp_offset (o h : ℝ) : Atmos.isatemp o h = Atmos.isatemp 0 h + o := by unfold Atmos.isatemp; ring

/-- C129: temperature to `1110 u` kelvin (10⁻¹³ K in binary64), offset included, and the speed of sound. -/
theorem C129_temperature (o h : ℝ) (ho : |o| ≤ 100) (h1 : -5000 ≤ h) (h2 : h ≤ 50000) :
    |isatemp F o h - Atmos.isatemp o h| ≤ 1110 * F.u ∧
    |Fl.vsound F (isatemp F o h) - Atmos.vsound (Atmos.isatemp o h)| ≤ 10 * F.u * Atmos.vsound (Atmos.isatemp o h) := by
  have hu := F.u_nonneg
  have hul := F.u_lt
  obtain ⟨e0, l0, r0⟩ := temp0_err F h h1 h2
  rw [abs_le] at ho
  have a : |isatemp F o h - Atmos.isatemp o h| ≤ 1110 * F.u := by
    rw [isatemp_offset]
    unfold isatemp
    have e := F.err (isatemp0 F h + o)
    rw [abs_le] at e0
    have hb : |isatemp0 F h + o| ≤ 421 := by rw [abs_le]; constructor <;> nlinarith [e0.1, e0.2]
    have e' := e.trans (mul_le_mul_of_nonneg_left hb hu)
    rw [abs_le] at e' ⊢
    constructor <;> linarith [e0.1, e0.2, e'.1, e'.2]
  refine ⟨a, ?_⟩
  have hT : 116.65 ≤ Atmos.isatemp o h := by rw [isatemp_offset]; linarith
  have b : Acc F 11 (isatemp F o h) (Atmos.isatemp o h) :=
    Acc.of_err 10 (by norm_num) (by linarith) (by push_cast; nlinarith)
  have hR : 0 < Atmos.R_JPKGPK := by norm_num [Atmos.R_JPKGPK]
  have c : Acc F (2 * 8) _ _ := ((((Acc.rd F 1.4).mul (Acc.rd F Atmos.R_JPKGPK)).round.mul b).round).weaken (by norm_num)
  have d := ((c.sqrt (by positivity)).round).err 10 (by norm_num) (by norm_num)
  rw [abs_of_nonneg (Real.sqrt_nonneg _)] at d
  exact d

example : |isatemp binary64 15 2000 - Atmos.isatemp 15 2000| ≤ 1110 * (2 : ℝ) ^ (-53 : ℤ) :=
  (C129_temperature binary64 15 2000 (by norm_num [abs_le]) (by norm_num) (by norm_num)).1

/-- C129: pressure. -/
theorem C129_pressure (h : ℝ) (h1 : -5000 ≤ h) (h2 : h ≤ 50000) :
    |isapress F M h - Atmos.isapress h| ≤ 117 * F.u * |Atmos.isapress h| ∧
    (h < 20000 → |isapress F M h - Atmos.isapress h| ≤ 40 * F.u * |Atmos.isapress h|) :=
  ⟨(acc_press F M h h1 h2).1.err 117 (by norm_num) (by norm_num),
    fun c => ((acc_press F M h h1 h2).2 c).err 40 (by norm_num) (by norm_num)⟩

example : |isapress binary64 (exactPow binary64) 11000 - Atmos.isapress 11000| ≤ 40 * (2 : ℝ) ^ (-53 : ℤ) * |Atmos.isapress 11000| :=
  (C129_pressure binary64 (exactPow binary64) 11000 (by norm_num) (by norm_num)).2 (by norm_num)

theorem acc_dens (o h : ℝ) (ho : |o| ≤ 100) (h1 : -5000 ≤ h) (h2 : h ≤ 50000) :
    Acc F 134 (isadens F M o h) (Atmos.isadens o h) ∧ (h < 20000 → Acc F 42 (isadens F M o h) (Atmos.isadens o h)) := by
  have hu := F.u_nonneg
  have hul := F.u_lt
  obtain ⟨_, l0, r0⟩ := temp0_err F h h1 h2
  have a := (C129_temperature F o h ho h1 h2).1
  rw [abs_le] at ho
  rw [isatemp_offset] at a
  have hT0 : Atmos.isatemp o h - o = Atmos.isatemp 0 h := by rw [isatemp_offset]; ring
  obtain ⟨T, hT⟩ : ∃ T, T = Atmos.isatemp 0 h := ⟨_, rfl⟩
  rw [← hT] at a l0 r0 hT0
  have b : Acc F 8 (F.rd (isatemp F o h - o)) T := by
    refine Acc.of_err 7 (by norm_num) (by linarith) ?_
    have e := F.err (isatemp F o h - o)
    rw [abs_le] at a
    have hb : |isatemp F o h - o| ≤ 322 := by rw [abs_le]; constructor <;> nlinarith [a.1, a.2]
    have e' := e.trans (mul_le_mul_of_nonneg_left hb hu)
    push_cast
    rw [abs_le] at e' ⊢
    constructor <;> nlinarith [a.1, a.2, e'.1, e'.2, mul_le_mul_of_nonneg_left l0 hu]
  have c := ((Acc.refl (F := F) o).div b).round
  have d : Acc F 19 (F.rd (1 + F.rd (o / F.rd (isatemp F o h - o)))) (1 + o / T) := by
    rcases le_total 0 o with h0 | h0
    · exact (((Acc.refl (F := F) 1).add c zero_le_one (div_nonneg h0 (by linarith))).round).weaken (by norm_num)
    · have e := (Acc.one_sub c.neg (by rw [← neg_div]; exact div_nonneg (by linarith) (by linarith))
        (by rw [← neg_div, div_le_div_iff₀ (by linarith) (by norm_num)]; linarith) (by norm_num)).round
      rw [sub_neg_eq_add, sub_neg_eq_add] at e
      exact e.weaken (by norm_num)
  unfold Fl.isadens Atmos.isadens
  rw [hT0]
  obtain ⟨f1, f2⟩ := acc_dens0 F M h h1 h2
  exact ⟨((f1.div d).round).weaken (by norm_num), fun k => (((f2 k).div d).round).weaken (by norm_num)⟩

/-- C129: density, offset included. -/
theorem C129_density (o h : ℝ) (ho : |o| ≤ 100) (h1 : -5000 ≤ h) (h2 : h ≤ 50000) :
    |isadens F M o h - Atmos.isadens o h| ≤ 135 * F.u * |Atmos.isadens o h| ∧
    (h < 20000 → |isadens F M o h - Atmos.isadens o h| ≤ 43 * F.u * |Atmos.isadens o h|) :=
  ⟨(acc_dens F M o h ho h1 h2).1.err 135 (by norm_num) (by norm_num),
    fun c => ((acc_dens F M o h ho h1 h2).2 c).err 43 (by norm_num) (by norm_num)⟩

example : |isadens binary64 (exactPow binary64) (-20) 3000 - Atmos.isadens (-20) 3000| ≤
    43 * (2 : ℝ) ^ (-53 : ℤ) * |Atmos.isadens (-20) 3000| :=
  (C129_density binary64 (exactPow binary64) (-20) 3000 (by norm_num [abs_le]) (by norm_num) (by norm_num)).2 (by norm_num)

theorem inv_lit (y : ℝ) : |F.rd (1 / F.rd y) - 1 / y| ≤ 3 * F.u * |1 / y| :=
  (((Acc.refl (F := F) 1).div (Acc.rd F y)).round).err 3 (by norm_num) (by norm_num)

/-- A comparison with a rounded literal decides as with the literal, except for the rounded literal itself. -/
theorem gt_lit (p L : ℝ) (hp : F.rd p = p) (hne : p ≠ F.rd L) : p > F.rd L ↔ p > L := by
  constructor
  · intro h
    by_contra hc
    have := F.mono (not_lt.1 hc)
    rw [hp] at this
    exact absurd h (not_lt.2 this)
  · intro h
    have := F.mono h.le
    rw [hp] at this
    exact lt_of_le_of_ne this (Ne.symm hne)

theorem powalt (p E C D l Y G : ℝ) (N : ℕ) (hN' : N ≤ 100) (hp : 1 ≤ p) (hE : |1 / E| ≤ Y) (hl : |Real.log p| ≤ l)
    (hN : Y * (3 * l) ≤ N) (hG : p ^ (1 / E) ≤ G) (hC : |C| ≤ G) :
    |F.rd (F.rd (M.pow p (F.rd (1 / F.rd E)) - F.rd C) / F.rd D) - (p ^ (1 / E) - C) / D| ≤ ((N + 16) * G) * F.u / |D| := by
  have hpos : 0 < p ^ (1 / E) := Real.rpow_pos_of_pos (by linarith) _
  have hG0 : 0 < G := hpos.trans_le hG
  have a := (Acc.libm_pow M (n := 0) (c := 3) N (Acc.refl (F := F) p) (by linarith) (by norm_num) (inv_lit F E) (by norm_num) hE hl
    (by push_cast; linarith)).err (N + 4) (by push_cast; linarith) (by omega)
  rw [abs_of_pos hpos] at a
  have hu := F.u_nonneg
  have hNn : (0 : ℝ) ≤ N := Nat.cast_nonneg N
  have hN1 : (N : ℝ) ≤ 100 := by exact_mod_cast hN'
  have b : |M.pow p (F.rd (1 / F.rd E)) - p ^ (1 / E)| ≤ (N + 4) * G * F.u := by
    refine a.trans ?_
    have := mul_le_mul_of_nonneg_left hG (show 0 ≤ (N + 4) * F.u by positivity)
    linarith
  refine (powalt_err C D _ _ ((N + 4) * G) (2 * G) b (by rw [abs_of_pos hpos]; linarith) (by nlinarith)).trans ?_
  refine div_le_div_of_nonneg_right ?_ (abs_nonneg D)
  refine mul_le_mul_of_nonneg_right ?_ hu
  nlinarith

theorem rpow_le_of_log (p y B : ℝ) (hp : 0 < p) (h : Real.log p * y ≤ B) : p ^ y ≤ Real.exp B := by
  rw [Real.rpow_def_of_pos hp]; exact Real.exp_le_exp.2 h

/-- C129: pressure altitude to `10⁷ u` metres (about a nanometre in binary64), for every floating point pressure from 70 Pa to 1200 mbar
other than the four rounded boundary values themselves. -/
theorem C129_pressalt (p : ℝ) (h1 : 70 ≤ p) (h2 : p ≤ 120000) (hp : F.rd p = p) (n1 : p ≠ F.rd Atmos.pLevel1)
    (n2 : p ≠ F.rd Atmos.pLevel2) (n3 : p ≠ F.rd Atmos.pLevel3) (n4 : p ≠ F.rd Atmos.pLevel4) :
    |isapressalt F M p - Atmos.isapressalt p| ≤ 1e7 * F.u := by
  have hu := F.u_nonneg
  unfold isapressalt Atmos.isapressalt
  simp only [gt_lit F p _ hp n1, gt_lit F p _ hp n2, gt_lit F p _ hp n3, gt_lit F p _ hp n4]
  have fin : ∀ (x D K : ℝ), 0 < |D| → x ≤ K * F.u / |D| → K ≤ 1e7 * |D| → x ≤ 1e7 * F.u := by
    intro x D K hD hx hK
    refine hx.trans ?_
    rw [div_le_iff₀ hD]
    have := mul_le_mul_of_nonneg_right hK hu
    linarith
  have e1 := Real.exp_one_lt_d9
  by_cases c1 : p > Atmos.pLevel1
  · simp only [c1, if_true]
    have hl := log_two_pow 17 (x := p) (by linarith) (by norm_num; linarith)
    have hl' := (abs_le.1 hl).2
    have hl0 := Real.log_nonneg (show 1 ≤ p by linarith)
    have hG : p ^ (1 / Atmos.E1) ≤ 21 := by
      refine (rpow_le_of_log p _ 3 (by linarith) ?_).trans ?_
      · unfold Atmos.E1
        push_cast at hl'
        rw [mul_one_div, div_le_iff₀ (by norm_num)]; linarith
      · rw [show (3 : ℝ) = (3 : ℕ) * 1 by norm_num, Real.exp_nat_mul]
        have h0 := Real.exp_pos 1
        have : Real.exp 1 ^ 3 ≤ 2.7182818286 ^ 3 := pow_le_pow_left₀ h0.le e1.le 3
        refine this.trans (by norm_num)
    refine fin _ Atmos.D1 _ (by norm_num [Atmos.D1]) (powalt F M p Atmos.E1 Atmos.C1 Atmos.D1 _ 0.1903 21 7 (by norm_num) (by linarith)
      (by unfold Atmos.E1; rw [abs_of_pos (by norm_num)]; norm_num) hl (by norm_num) hG
      (by unfold Atmos.C1; rw [abs_of_pos (by norm_num)]; norm_num)) ?_
    unfold Atmos.D1
    rw [abs_of_neg (by norm_num)]; norm_num
  · simp only [c1, if_false]
    rw [gt_iff_lt, not_lt] at c1
    unfold Atmos.pLevel1 at c1
    by_cases c2 : p > Atmos.pLevel2
    · simp only [c2, if_true]
      unfold Atmos.pLevel2 at c2
      have hx1 : 0.04 ≤ p / Atmos.F2 := by unfold Atmos.F2; rw [le_div_iff₀ (by norm_num)]; linarith
      have hx2 : p / Atmos.F2 ≤ 1 / 5 := by unfold Atmos.F2; rw [div_le_iff₀ (by norm_num)]; linarith
      refine fin _ Atmos.G2 _ (by norm_num [Atmos.G2]) (logalt_err M p Atmos.F2 Atmos.G2 0.04 24 (by norm_num [Atmos.F2]) (by norm_num)
        hx1 hx2 (abs_log_le (by linarith) (by linarith) (by linarith))) ?_
      unfold Atmos.G2
      rw [abs_of_neg (by norm_num)]; norm_num
    · simp only [c2, if_false]
      rw [gt_iff_lt, not_lt] at c2
      unfold Atmos.pLevel2 at c2
      have small : ∀ E : ℝ, E < 0 → p ^ (1 / E) ≤ 1 := fun E hE =>
        Real.rpow_le_one_of_one_le_of_nonpos (by linarith) (by rw [one_div]; exact (inv_lt_zero.2 hE).le)
      by_cases c3 : p > Atmos.pLevel3
      · simp only [c3, if_true]
        have hl := log_two_pow 13 (x := p) (by linarith) (by norm_num; linarith)
        refine fin _ Atmos.D3 _ (by norm_num [Atmos.D3]) (powalt F M p Atmos.E3 Atmos.C3 Atmos.D3 _ 0.0293 1 1 (by norm_num)
          (by linarith) (by unfold Atmos.E3; rw [abs_of_neg (by norm_num)]; norm_num) hl (by norm_num)
          (small _ (by norm_num [Atmos.E3])) (by unfold Atmos.C3; rw [abs_of_pos (by norm_num)]; norm_num)) ?_
        unfold Atmos.D3
        rw [abs_of_pos (by norm_num)]; norm_num
      · simp only [c3, if_false]
        rw [gt_iff_lt, not_lt] at c3
        unfold Atmos.pLevel3 at c3
        by_cases c4 : p > Atmos.pLevel4
        · simp only [c4, if_true]
          have hl := log_two_pow 10 (x := p) (by linarith) (by norm_num; linarith)
          refine fin _ Atmos.D4 _ (by norm_num [Atmos.D4]) (powalt F M p Atmos.E4 Atmos.C4 Atmos.D4 _ 0.082 1 2 (by norm_num)
            (by linarith) (by unfold Atmos.E4; rw [abs_of_neg (by norm_num)]; norm_num) hl (by norm_num)
            (small _ (by norm_num [Atmos.E4])) (by unfold Atmos.C4; rw [abs_of_pos (by norm_num)]; norm_num)) ?_
          unfold Atmos.D4
          rw [abs_of_pos (by norm_num)]; norm_num
        · simp only [c4, if_false]
          rw [gt_iff_lt, not_lt] at c4
          unfold Atmos.pLevel4 at c4
          have hx1 : 0.0016 ≤ p / Atmos.F5 := by unfold Atmos.F5; rw [le_div_iff₀ (by norm_num)]; linarith
          have hx2 : p / Atmos.F5 ≤ 0.0027 := by unfold Atmos.F5; rw [div_le_iff₀ (by norm_num)]; linarith
          have hlog : |Real.log (p / Atmos.F5)| ≤ 7 := by
            have hpos : 0 < p / Atmos.F5 := by linarith
            have h3 : Real.log (p / Atmos.F5) ≤ 0 := Real.log_nonpos hpos.le (by linarith)
            have h4 := log_two_pow 10 (x := (p / Atmos.F5)⁻¹) ((one_le_inv₀ hpos).2 (by linarith))
              (by rw [← one_div, div_le_iff₀ hpos]; norm_num; linarith)
            rw [Real.log_inv, abs_neg] at h4
            exact h4.trans (by norm_num)
          refine fin _ Atmos.G5 _ (by norm_num [Atmos.G5]) (logalt_err M p Atmos.F5 Atmos.G5 0.0016 7 (by norm_num [Atmos.F5])
            (by norm_num) hx1 (by linarith) hlog) ?_
          unfold Atmos.G5
          rw [abs_of_neg (by norm_num)]; norm_num

example : |isapressalt binary64 (exactPow binary64) 100000 - Atmos.isapressalt 100000| ≤ 1e7 * (2 : ℝ) ^ (-53 : ℤ) := by
  have far : ∀ L : ℝ, 0 ≤ L → L ≤ 90000 → (100000 : ℝ) ≠ binary64.rd L := by
    intro L h0 h1 he
    have h := binary64.err L
    rw [← he, abs_of_nonneg h0, abs_le] at h
    have := binary64.u_lt
    nlinarith [h.2, mul_le_mul_of_nonneg_right this.le h0]
  exact C129_pressalt binary64 (exactPow binary64) 100000 (by norm_num) (by norm_num)
    (rd64_exact 100000 100000 0 (by norm_num) (by norm_num))
    (far _ (by norm_num [Atmos.pLevel1]) (by norm_num [Atmos.pLevel1])) (far _ (by norm_num [Atmos.pLevel2]) (by norm_num [Atmos.pLevel2]))
    (far _ (by norm_num [Atmos.pLevel3]) (by norm_num [Atmos.pLevel3])) (far _ (by norm_num [Atmos.pLevel4]) (by norm_num [Atmos.pLevel4]))

/-- C129 with C128: the cruise requirement at an altitude in the standard atmosphere with a temperature offset; the induced drag factor
and the thrust correction are given up to `j` roundings. -/
theorem C129_cruise (j : ℕ) (hj : j ≤ 130) (o h ktas cd w frac fact kh k th t : ℝ) (ho : |o| ≤ 100) (h1 : -5000 ≤ h) (h2 : h ≤ 50000)
    (hv : 0 < ktas) (hcd : 0 < cd) (hw : 0 < w) (hfr : 0 < frac) (hk0 : 0 < k) (hk : Acc F j kh k)
    (ht : Acc F j th t) :
    let tw := Aircraft.cruisePoint (0.5 * Atmos.isadens o h * Units.kts2mps ktas ^ 2) cd k (w * frac) / t * frac * (1 / fact)
    |cruiseTw F M ktas (isadens F M o h) cd kh w frac th fact - tw| ≤ 421 * F.u * |tw| := by
  intro tw
  have hd0 : 0 < Atmos.isadens o h := by
    refine C13_positive o h ?_
    have := (temp0_err F h h1 h2).2.1
    rw [isatemp_offset]
    have := (abs_le.1 ho).1
    linarith
  exact (acc_cruise F M 134 ktas cd w frac fact _ _ _ _ _ _ hv hd0 hcd hw hfr hk0 (acc_dens F M o h ho h1 h2).1 (hk.weaken (by omega))
    (ht.weaken (by omega))).err 421 (by norm_num) (by norm_num)

example := C129_cruise binary64 (exactPow binary64) 0 (by norm_num) 10 3000 150 0.0254 900 1.0 1.0 0.04 0.04 0.8 0.8 (by norm_num [abs_le])
  (by norm_num) (by norm_num) (by norm_num) (by norm_num) (by norm_num) (by norm_num) (by norm_num) (Acc.refl _) (Acc.refl _)

end Verif.Props
