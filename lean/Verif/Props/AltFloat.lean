import Verif.Model.AltFloat
import Verif.Props.IsaFloat
import Verif.Props.ISA
import Verif.Lemmas.ISALayers

/-
Property C156: density altitude, and pressure and density altitude of computed pressures and densities, in floating point.
-/

namespace Verif.Props
open Verif Verif.Fl

variable (F : Rounding) (M : Libm F)

/-- The inverse of a power layer for an argument that carries `n` roundings. -/
theorem powalt_acc {n : ℕ} {ph p E C D l Y G : ℝ} (N : ℕ) (hN' : N ≤ 100) (a : Acc F n ph p) (hp : 0 < p) (hE : |1 / E| ≤ Y)
    (hl : |Real.log p| ≤ l) (hN : Y * (1.0001 * n + 3 * l) ≤ N) (hG : p ^ (1 / E) ≤ G) (hC : |C| ≤ G) :
    |F.rd (F.rd (M.pow ph (F.rd (1 / F.rd E)) - F.rd C) / F.rd D) - (p ^ (1 / E) - C) / D| ≤ ((N + 16) * G) * F.u / |D| := by
  have hpos : 0 < p ^ (1 / E) := Real.rpow_pos_of_pos hp _
  have hG0 : 0 < G := hpos.trans_le hG
  have a := (Acc.libm_pow M (c := 3) N a hp (by norm_num) (inv_lit F E) (by norm_num) hE hl hN).err (N + 4)
    (by push_cast; linarith) (by omega)
  rw [abs_of_pos hpos] at a
  have hu := F.u_nonneg
  have hNn : (0 : ℝ) ≤ N := Nat.cast_nonneg N
  have hN1 : (N : ℝ) ≤ 100 := by exact_mod_cast hN'
  have b : |M.pow ph (F.rd (1 / F.rd E)) - p ^ (1 / E)| ≤ (N + 4) * G * F.u := by
    refine a.trans ?_
    have := mul_le_mul_of_nonneg_left hG (show 0 ≤ (N + 4) * F.u by positivity)
    linarith
  refine (powalt_err C D _ _ ((N + 4) * G) (2 * G) b (by rw [abs_of_pos hpos]; linarith) (by nlinarith)).trans ?_
  refine div_le_div_of_nonneg_right ?_ (abs_nonneg D)
  refine mul_le_mul_of_nonneg_right ?_ hu
  nlinarith

theorem log_two_pow_inv (n : ℕ) {x : ℝ} (h0 : 0 < x) (h1 : x ≤ 1) (h2 : 1 ≤ x * 2 ^ n) : |Real.log x| ≤ n * 0.69315 := by
  have h := log_two_pow n (x := x⁻¹) ((one_le_inv₀ h0).2 h1) (by rw [inv_le_iff_one_le_mul₀ h0, mul_comm]; exact h2)
  rwa [Real.log_inv, abs_neg] at h

theorem exp_three_fifths : Real.exp 0.6 ≤ 2 := by
  have e1 := Real.exp_one_lt_d9
  have h : Real.exp 0.6 ^ 5 = Real.exp 1 ^ 3 := by
    rw [← Real.exp_nat_mul, ← Real.exp_nat_mul]; norm_num
  by_contra hc
  have h2 := pow_lt_pow_left₀ (not_le.1 hc) (by norm_num) (n := 5) (by norm_num)
  have h3 : Real.exp 1 ^ 3 ≤ 2.7182818286 ^ 3 := pow_le_pow_left₀ (Real.exp_pos 1).le e1.le 3
  rw [h] at h2
  have := h2.trans_le h3
  norm_num at this

/-- C156: density altitude to `10⁷ u` metres (about a nanometre in binary64), for every floating point density from 0.0009 to 1.6 kg/m³
other than the four rounded boundary values themselves. -/
theorem C156_densalt (d : ℝ) (h1 : 0.0009 ≤ d) (h2 : d ≤ 1.6) (hd : F.rd d = d) (n1 : d ≠ F.rd Atmos.dLevel1)
    (n2 : d ≠ F.rd Atmos.dLevel2) (n3 : d ≠ F.rd Atmos.dLevel3) (n4 : d ≠ F.rd Atmos.dLevel4) :
    ∃ h, Atmos.isadensalt [d] = .ok [h] ∧ |Fl.isadensalt F M d - h| ≤ 1e7 * F.u := by
  have hu := F.u_nonneg
  have d0 : 0 < d := lt_of_lt_of_le (by norm_num) h1
  have fin : ∀ (x D K : ℝ), 0 < |D| → x ≤ K * F.u / |D| → K ≤ 1e7 * |D| → x ≤ 1e7 * F.u := by
    intro x D K hD hx hK
    refine hx.trans ?_
    rw [div_le_iff₀ hD]
    have := mul_le_mul_of_nonneg_right hK hu
    linarith
  refine ⟨_, isadensalt_single d, ?_⟩
  unfold Fl.isadensalt Layers.pwinv
  simp only [gt_lit F d _ hd n1, gt_lit F d _ hd n2, gt_lit F d _ hd n3, gt_lit F d _ hd n4]
  by_cases c1 : d > Atmos.dLevel1
  · simp only [c1, if_true]
    unfold Atmos.dLevel1 at c1
    have hl : |Real.log d| ≤ 2 := abs_log_le d0 (by linarith) (by linarith)
    have hG : d ^ (1 / Atmos.L1) ≤ 2 := by
      refine (rpow_le_of_log d _ 0.6 d0 ?_).trans exp_three_fifths
      have := (abs_le.1 hl).2
      unfold Atmos.L1
      rw [mul_one_div, div_le_iff₀ (by norm_num)]; norm_num; linarith
    refine fin _ Atmos.J1 _ (by norm_num [Atmos.J1]) (powalt_acc F M (Y := 0.235) (C := Atmos.I1) 2 (by norm_num) (Acc.refl (F := F) d) d0
      (by unfold Atmos.L1; rw [abs_of_pos (by norm_num)]; norm_num) hl (by norm_num) hG
      (by unfold Atmos.I1; rw [abs_of_pos (by norm_num)]; norm_num)) ?_
    unfold Atmos.J1
    rw [abs_of_neg (by norm_num)]; norm_num
  · simp only [c1, if_false]
    rw [gt_iff_lt, not_lt] at c1
    unfold Atmos.dLevel1 at c1
    by_cases c2 : d > Atmos.dLevel2
    · simp only [c2, if_true]
      unfold Atmos.dLevel2 at c2
      have hx1 : 0.04 ≤ d / Atmos.M2 := by unfold Atmos.M2; rw [le_div_iff₀ (by norm_num)]; norm_num at *; linarith
      have hx2 : d / Atmos.M2 ≤ 1 / 5 := by unfold Atmos.M2; rw [div_le_iff₀ (by norm_num)]; norm_num at *; linarith
      refine fin _ Atmos.N2 _ (by norm_num [Atmos.N2]) (logalt_err M d Atmos.M2 Atmos.N2 0.04 24 (by norm_num [Atmos.M2]) (by norm_num)
        hx1 hx2 (abs_log_le (by linarith) (by linarith) (by linarith))) ?_
      unfold Atmos.N2
      rw [abs_of_neg (by norm_num)]; norm_num
    · simp only [c2, if_false]
      rw [gt_iff_lt, not_lt] at c2
      unfold Atmos.dLevel2 at c2
      have d1 : d ≤ 1 := c2.trans (by norm_num)
      by_cases c3 : d > Atmos.dLevel3
      · simp only [c3, if_true]
        unfold Atmos.dLevel3 at c3
        have hl := log_two_pow_inv 7 d0 d1 (by norm_num at *; linarith)
        have hG : d ^ (1 / Atmos.L3) ≤ 2 := by
          refine (rpow_le_of_log d _ 0.6 d0 ?_).trans exp_three_fifths
          have := (abs_le.1 hl).1
          unfold Atmos.L3
          rw [mul_one_div, div_le_iff_of_neg (by norm_num)]; norm_num at *; linarith
        refine fin _ Atmos.J3 _ (by norm_num [Atmos.J3]) (powalt_acc F M (Y := 0.0285) (C := Atmos.I3) 1 (by norm_num)
          (Acc.refl (F := F) d) d0 (by unfold Atmos.L3; rw [abs_of_neg (by norm_num)]; norm_num) hl (by norm_num) hG
          (by unfold Atmos.I3; rw [abs_of_pos (by norm_num)]; norm_num)) ?_
        unfold Atmos.J3
        rw [abs_of_pos (by norm_num)]; norm_num
      · simp only [c3, if_false]
        rw [gt_iff_lt, not_lt] at c3
        unfold Atmos.dLevel3 at c3
        by_cases c4 : d > Atmos.dLevel4
        · simp only [c4, if_true]
          unfold Atmos.dLevel4 at c4
          have hl := log_two_pow_inv 10 d0 d1 (by norm_num at *; linarith)
          have hG : d ^ (1 / Atmos.L4) ≤ 2 := by
            refine (rpow_le_of_log d _ 0.6 d0 ?_).trans exp_three_fifths
            have := (abs_le.1 hl).1
            unfold Atmos.L4
            rw [mul_one_div, div_le_iff_of_neg (by norm_num)]; norm_num at *; linarith
          refine fin _ Atmos.J4 _ (by norm_num [Atmos.J4]) (powalt_acc F M (Y := 0.0758) (C := Atmos.I4) 2 (by norm_num)
            (Acc.refl (F := F) d) d0 (by unfold Atmos.L4; rw [abs_of_neg (by norm_num)]; norm_num) hl (by norm_num) hG
            (by unfold Atmos.I4; rw [abs_of_pos (by norm_num)]; norm_num)) ?_
          unfold Atmos.J4
          rw [abs_of_pos (by norm_num)]; norm_num
        · simp only [c4, if_false]
          rw [gt_iff_lt, not_lt] at c4
          unfold Atmos.dLevel4 at c4
          have hx1 : 0.0016 ≤ d / Atmos.M5 := by unfold Atmos.M5; rw [le_div_iff₀ (by norm_num)]; norm_num at *; linarith
          have hx2 : d / Atmos.M5 ≤ 0.0027 := by unfold Atmos.M5; rw [div_le_iff₀ (by norm_num)]; norm_num at *; linarith
          have hlog : |Real.log (d / Atmos.M5)| ≤ 7 :=
            (log_two_pow_inv 10 (by linarith) (hx2.trans (by norm_num)) (by norm_num at *; linarith)).trans (by norm_num)
          refine fin _ Atmos.N5 _ (by norm_num [Atmos.N5]) (logalt_err M d Atmos.M5 Atmos.N5 0.0016 7 (by norm_num [Atmos.M5])
            (by norm_num) hx1 (by linarith) hlog) ?_
          unfold Atmos.N5
          rw [abs_of_neg (by norm_num)]; norm_num

/-- A power that is larger by a ten-thousandth at the foot stays clear of the rounded boundary value. -/
theorem clear_of_lit {n : ℕ} (hn : n ≤ 50) {xh L a b E : ℝ} (hL : 0 < L) (ha : 0 < a) (hab : 1.0001 * a ≤ b) (hE : 1 ≤ E)
    (hLa : L < a ^ E) (x : Acc F n xh (b ^ E)) : xh > F.rd L := by
  have hb : 0 < b := lt_of_lt_of_le (by positivity) hab
  have hu := F.u_nonneg
  have hul := F.u_lt
  have h1 : 1.0001 * a ^ E ≤ b ^ E := by
    have h2 : (1.0001 * a) ^ E ≤ b ^ E := Real.rpow_le_rpow (by positivity) hab (by linarith)
    rw [Real.mul_rpow (by norm_num) ha.le] at h2
    have h3 : (1.0001 : ℝ) ≤ 1.0001 ^ E := Real.self_le_rpow_of_one_le (by norm_num) hE
    have h4 := Real.rpow_pos_of_pos ha E
    nlinarith
  have p : 0 < b ^ E := Real.rpow_pos_of_pos hb E
  have e := x.le (by omega)
  rw [abs_of_pos p] at e
  have hn1 : (n : ℝ) ≤ 50 := by exact_mod_cast hn
  have hn0 : (0 : ℝ) ≤ n := Nat.cast_nonneg n
  have hnu : ((n : ℝ) + 1) * F.u ≤ 51 * F.u := mul_le_mul_of_nonneg_right (by linarith) hu
  have e2 : ((n : ℝ) + 1) * F.u * b ^ E ≤ 0.000051 * b ^ E := mul_le_mul_of_nonneg_right (by norm_num at *; linarith) p.le
  have r := F.err L
  rw [abs_of_pos hL] at r
  have hr : F.u * L ≤ 0.000001 * L := mul_le_mul_of_nonneg_right (by norm_num at *; linarith) hL.le
  rw [abs_le] at e r
  norm_num at *
  linarith [e.1, r.2]

/-- C156: the pressure altitude of the pressure computed for an altitude in the troposphere (up to 10 m below its top) is that altitude
to `1.4·10⁶ u` metres (about 0.2 nanometres in binary64). -/
theorem C156_pressure_inverse (h : ℝ) (h0 : 0 ≤ h) (h1 : h ≤ 10990) : |Fl.isapressalt F M (Fl.isapress F M h) - h| ≤ 1.4e6 * F.u := by
  have hu := F.u_nonneg
  have a := (acc_press F M h (by linarith) (by linarith)).2 (by linarith)
  have b0 : 0 < Atmos.C1 + Atmos.D1 * h := by norm_num [Atmos.C1, Atmos.D1]; linarith
  have e : Atmos.isapress h = (Atmos.C1 + Atmos.D1 * h) ^ Atmos.E1 := by
    unfold Atmos.isapress; rw [if_pos (show h < Atmos.Level1 by unfold Atmos.Level1; linarith)]
  rw [e] at a
  have cl : Fl.isapress F M h > F.rd Atmos.pLevel1 :=
    clear_of_lit F (by norm_num) (by norm_num [Atmos.pLevel1]) (a := Atmos.C1 + Atmos.D1 * 11000) (by norm_num [Atmos.C1, Atmos.D1])
      (by norm_num [Atmos.C1, Atmos.D1]; linarith) (by norm_num [Atmos.E1]) ISAL.fp_t1lt a
  unfold Fl.isapressalt
  rw [if_pos cl]
  have back : ((Atmos.C1 + Atmos.D1 * h) ^ Atmos.E1) ^ (1 / Atmos.E1) = Atmos.C1 + Atmos.D1 * h := by
    rw [← Real.rpow_mul b0.le, mul_one_div_cancel (by norm_num [Atmos.E1]), Real.rpow_one]
  have up : Atmos.C1 + Atmos.D1 * h ≤ 9 := by norm_num [Atmos.C1, Atmos.D1]; linarith
  have hl : |Real.log ((Atmos.C1 + Atmos.D1 * h) ^ Atmos.E1)| ≤ 12.4 := by
    rw [Real.log_rpow b0, abs_mul]
    have lo : 1 ≤ Atmos.C1 + Atmos.D1 * h := by norm_num [Atmos.C1, Atmos.D1]; linarith
    have k3 : |Real.log (Atmos.C1 + Atmos.D1 * h)| ≤ 2.35 := by
      rw [abs_of_nonneg (Real.log_nonneg lo)]
      have k4 : Real.log (Atmos.C1 + Atmos.D1 * h) ≤ Real.log 9 := Real.log_le_log b0 up
      have k5 : Real.log 9 = 3 * Real.log 2 + Real.log (9 / 8) := by
        rw [show (9 : ℝ) = 2 ^ 3 * (9 / 8) by norm_num, Real.log_mul (by norm_num) (by norm_num), Real.log_pow]; norm_num
      have k6 := Real.log_two_lt_d9
      have k7 := Real.log_le_sub_one_of_pos (show (0 : ℝ) < 9 / 8 by norm_num)
      norm_num at *
      linarith
    have k8 : |Atmos.E1| ≤ 5.2559 := by unfold Atmos.E1; norm_num [abs_le]
    calc _ ≤ (5.2559 : ℝ) * 2.35 := mul_le_mul k8 k3 (abs_nonneg _) (by norm_num)
      _ ≤ _ := by norm_num
  have r := powalt_acc F M (E := Atmos.E1) (Y := 0.1903) (C := Atmos.C1) (D := Atmos.D1) (G := 9) 15 (by norm_num) a (Real.rpow_pos_of_pos b0 _)
    (by unfold Atmos.E1; rw [abs_of_pos (by norm_num)]; norm_num) hl (by norm_num) (by rw [back]; exact up)
    (by unfold Atmos.C1; rw [abs_of_pos (by norm_num)]; norm_num)
  rw [back, show (Atmos.C1 + Atmos.D1 * h - Atmos.C1) / Atmos.D1 = h by
    have : Atmos.D1 ≠ 0 := by norm_num [Atmos.D1]
    field_simp; ring] at r
  refine r.trans ?_
  have : |Atmos.D1| = 0.20216125e-3 := by unfold Atmos.D1; rw [abs_of_neg (by norm_num)]; norm_num
  rw [this, div_le_iff₀ (by norm_num)]
  norm_num at *
  linarith

/-- C156: likewise for the density altitude of the density computed on a standard day, to `1.3·10⁶ u` metres. -/
theorem C156_density_inverse (h : ℝ) (h0 : 0 ≤ h) (h1 : h ≤ 10990) :
    |Fl.isadensalt F M (Fl.isadens F M 0 h) - h| ≤ 1.3e6 * F.u := by
  have hu := F.u_nonneg
  have a := (acc_dens F M 0 h (by norm_num) (by linarith) (by linarith)).2 (by linarith)
  have b0 : 0 < Atmos.I1 + Atmos.J1 * h := by norm_num [Atmos.I1, Atmos.J1]; linarith
  have e : Atmos.isadens 0 h = (Atmos.I1 + Atmos.J1 * h) ^ Atmos.L1 := by
    unfold Atmos.isadens Atmos.isadens0; rw [if_pos (show h < Atmos.Level1 by unfold Atmos.Level1; linarith)]; simp
  rw [e] at a
  have cl : Fl.isadens F M 0 h > F.rd Atmos.dLevel1 :=
    clear_of_lit F (by norm_num) (by norm_num [Atmos.dLevel1]) (a := Atmos.I1 + Atmos.J1 * 11000) (by norm_num [Atmos.I1, Atmos.J1])
      (by norm_num [Atmos.I1, Atmos.J1]; linarith) (by norm_num [Atmos.L1]) ISAL.fd_t1lt a
  unfold Fl.isadensalt
  rw [if_pos cl]
  have back : ((Atmos.I1 + Atmos.J1 * h) ^ Atmos.L1) ^ (1 / Atmos.L1) = Atmos.I1 + Atmos.J1 * h := by
    rw [← Real.rpow_mul b0.le, mul_one_div_cancel (by norm_num [Atmos.L1]), Real.rpow_one]
  have up : Atmos.I1 + Atmos.J1 * h ≤ 1.05 := by norm_num [Atmos.I1, Atmos.J1]; linarith
  have lo : 0.788 ≤ Atmos.I1 + Atmos.J1 * h := by norm_num [Atmos.I1, Atmos.J1]; linarith
  have hl : |Real.log ((Atmos.I1 + Atmos.J1 * h) ^ Atmos.L1)| ≤ 1.2 := by
    rw [Real.log_rpow b0, abs_mul]
    have k3 : |Real.log (Atmos.I1 + Atmos.J1 * h)| ≤ 0.27 := abs_log_le b0 (by norm_num at *; linarith) (by norm_num at *; linarith)
    have k8 : |Atmos.L1| ≤ 4.256 := by unfold Atmos.L1; norm_num [abs_le]
    calc _ ≤ (4.256 : ℝ) * 0.27 := mul_le_mul k8 k3 (abs_nonneg _) (by norm_num)
      _ ≤ _ := by norm_num
  have r := powalt_acc F M (E := Atmos.L1) (Y := 0.235) (C := Atmos.I1) (D := Atmos.J1) (G := 1.05) 11 (by norm_num) a (Real.rpow_pos_of_pos b0 _)
    (by unfold Atmos.L1; rw [abs_of_pos (by norm_num)]; norm_num) hl (by norm_num) (by rw [back]; exact up)
    (by unfold Atmos.I1; rw [abs_of_pos (by norm_num)]; norm_num)
  rw [back, show (Atmos.I1 + Atmos.J1 * h - Atmos.I1) / Atmos.J1 = h by
    have : Atmos.J1 ≠ 0 := by norm_num [Atmos.J1]
    field_simp; ring] at r
  refine r.trans ?_
  have : |Atmos.J1| = 23.659414e-6 := by unfold Atmos.J1; rw [abs_of_neg (by norm_num)]; norm_num
  rw [this, div_le_iff₀ (by norm_num)]
  norm_num at *
  linarith

example : ∃ h, Atmos.isadensalt [1] = .ok [h] ∧ |Fl.isadensalt binary64 (exactPow binary64) 1 - h| ≤ 1e7 * (2 : ℝ) ^ (-53 : ℤ) := by
  have far : ∀ L : ℝ, 0 ≤ L → L ≤ 0.5 → (1 : ℝ) ≠ binary64.rd L := by
    intro L h0 h1 he
    have h := binary64.err L
    rw [← he, abs_of_nonneg h0, abs_le] at h
    have := binary64.u_lt
    nlinarith [h.2, mul_le_mul_of_nonneg_right this.le h0]
  exact C156_densalt binary64 (exactPow binary64) 1 (by norm_num) (by norm_num)
    (rd64_exact 1 1 0 (by norm_num) (by norm_num))
    (far _ (by norm_num [Atmos.dLevel1]) (by norm_num [Atmos.dLevel1])) (far _ (by norm_num [Atmos.dLevel2]) (by norm_num [Atmos.dLevel2]))
    (far _ (by norm_num [Atmos.dLevel3]) (by norm_num [Atmos.dLevel3])) (far _ (by norm_num [Atmos.dLevel4]) (by norm_num [Atmos.dLevel4]))

example : |Fl.isapressalt binary64 (exactPow binary64) (Fl.isapress binary64 (exactPow binary64) 5000) - 5000| ≤ 1.4e6 * (2 : ℝ) ^ (-53 : ℤ) :=
  C156_pressure_inverse binary64 (exactPow binary64) 5000 (by norm_num) (by norm_num)

example : |Fl.isadensalt binary64 (exactPow binary64) (Fl.isadens binary64 (exactPow binary64) 0 5000) - 5000| ≤ 1.3e6 * (2 : ℝ) ^ (-53 : ℤ) :=
  C156_density_inverse binary64 (exactPow binary64) 5000 (by norm_num) (by norm_num)

end Verif.Props
