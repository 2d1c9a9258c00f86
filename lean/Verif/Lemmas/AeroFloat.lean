import Verif.Model.AeroFloat
import Verif.Lemmas.ThrustFloat
import Mathlib.Analysis.SpecialFunctions.Trigonometric.Bounds
import Mathlib.Analysis.SpecialFunctions.Complex.LogBounds
import Mathlib.Analysis.Complex.ExponentialBounds
import Mathlib.Analysis.Real.Pi.Bounds

/-
Accuracy of whole powers, of angles, their tangents and cosines, and of the span efficiency estimates.
-/

namespace Verif.Fl
open Verif.Units

variable {F : Rounding}

theorem Acc.ipow (M : Libm2 F) {n : ℕ} {xh x : ℝ} (h : Acc F n xh x) (k : ℕ) : Acc F (3 + k * n) (M.ipow xh k) (x ^ k) :=
  (Acc.of_rel_err 2 (by norm_num) (by exact_mod_cast M.ipow_err xh k)).trans (h.pow k)

theorem acc_radians (x : ℝ) : Acc F 3 (radians F x) (Atmos.deg2rad x) := by
  unfold radians Atmos.deg2rad
  exact ((Acc.refl (F := F) x).mul (((Acc.rd F Real.pi).div (Acc.refl (F := F) 180)).round)).round

/-- Angles up to 60 degrees. -/
theorem deg_bound {x : ℝ} (h : |x| ≤ 60) : |Atmos.deg2rad x| ≤ Real.pi / 3 := by
  unfold Atmos.deg2rad
  have hp := Real.pi_pos
  rw [abs_mul, abs_of_pos (by positivity : 0 < Real.pi / 180)]
  nlinarith

theorem cos_low {a : ℝ} (h : |a| ≤ 1.1) : 0.39 ≤ Real.cos a := by
  have := Real.one_sub_sq_div_two_le_cos (x := a)
  have h2 : a ^ 2 ≤ 1.1 ^ 2 := sq_le_sq' (by linarith [(abs_le.1 h).1]) (abs_le.1 h).2
  norm_num at *
  linarith

theorem cos_half {a : ℝ} (h : |a| ≤ Real.pi / 3) : 1 / 2 ≤ Real.cos a := by
  rw [← Real.cos_abs a, ← Real.cos_pi_div_three]
  exact Real.cos_le_cos_of_nonneg_of_le_pi (abs_nonneg a) (by have := Real.pi_pos; linarith) h

theorem third_pi : Real.pi / 3 ≤ 1.05 := by
  have := Real.pi_lt_d2
  norm_num at *
  linarith

/-- An angle of up to 60 degrees and its computed value. -/
theorem angle_err {x : ℝ} (h : |x| ≤ 60) :
    |radians F x - Atmos.deg2rad x| ≤ 4 * F.u * |Atmos.deg2rad x| ∧ |radians F x| ≤ 1.1 ∧ |Atmos.deg2rad x| ≤ 1.05 := by
  have h1 := (acc_radians (F := F) x).err 4 (by norm_num) (by norm_num)
  have h2 := (deg_bound h).trans third_pi
  have hu := F.u_nonneg
  have hul := F.u_lt
  refine ⟨h1, ?_, h2⟩
  have h3 := abs_sub_abs_le_abs_sub (radians F x) (Atmos.deg2rad x)
  have : 4 * F.u * |Atmos.deg2rad x| ≤ 4 * F.u * 1.05 := by gcongr
  norm_num at *
  linarith

theorem abs_le_tan {a : ℝ} (h : |a| ≤ 1.05) : |a| ≤ |Real.tan a| := by
  have hp : 1.05 < Real.pi / 2 := by have := Real.pi_gt_three; norm_num; linarith
  rcases abs_cases a with ⟨e, h0⟩ | ⟨e, h0⟩
  · rw [e] at h ⊢
    exact (Real.le_tan h0 (by linarith)).trans (le_abs_self _)
  · rw [e] at h ⊢
    have := Real.le_tan (x := -a) (by linarith) (by linarith)
    rw [Real.tan_neg] at this
    exact this.trans (neg_le_abs _)

theorem acc_tan (M : Libm2 F) {x : ℝ} (h : |x| ≤ 60) : Acc F 31 (M.tan (radians F x)) (Real.tan (Atmos.deg2rad x)) := by
  obtain ⟨h1, h2, h3⟩ := angle_err (F := F) h
  generalize radians F x = a at *
  generalize Atmos.deg2rad x = b at *
  refine (Acc.of_rel_err 2 (by norm_num) (by exact_mod_cast M.tan_err a)).trans (Acc.of_rel_err 27 (by norm_num) ?_)
  have c1 := cos_low h2
  have c2 := cos_low (h3.trans (by norm_num))
  have e : Real.tan a - Real.tan b = Real.sin (a - b) / (Real.cos a * Real.cos b) := by
    rw [Real.tan_eq_sin_div_cos, Real.tan_eq_sin_div_cos, Real.sin_sub]
    have : Real.cos a ≠ 0 := by norm_num at c1; linarith
    have : Real.cos b ≠ 0 := by norm_num at c2; linarith
    field_simp
  have hc : 0.1521 ≤ Real.cos a * Real.cos b := by
    calc (0.1521 : ℝ) = 0.39 * 0.39 := by norm_num
      _ ≤ _ := mul_le_mul c1 c2 (by norm_num) (le_trans (by norm_num) c1)
  have hc0 : 0 < Real.cos a * Real.cos b := lt_of_lt_of_le (by norm_num) hc
  rw [e, abs_div, abs_of_pos hc0, div_le_iff₀ hc0]
  have h4 : |Real.sin (a - b)| ≤ |a - b| := Real.abs_sin_le_abs
  have h5 := abs_le_tan h3
  have hu := F.u_nonneg
  have h6 : 4 * F.u * |b| ≤ 4 * F.u * |Real.tan b| := by gcongr
  have h7 : 27 * F.u * |Real.tan b| * 0.1521 ≤ 27 * F.u * |Real.tan b| * (Real.cos a * Real.cos b) := by gcongr
  have h8 : 0 ≤ F.u * |Real.tan b| := by positivity
  push_cast
  norm_num at h7
  nlinarith

theorem acc_cos (M : Libm2 F) {x : ℝ} (h : |x| ≤ 60) : Acc F 13 (M.cos (radians F x)) (Real.cos (Atmos.deg2rad x)) := by
  obtain ⟨h1, h2, h3⟩ := angle_err (F := F) h
  have hh := cos_half (deg_bound h)
  generalize radians F x = a at *
  generalize Atmos.deg2rad x = b at *
  refine (Acc.of_rel_err 2 (by norm_num) (by exact_mod_cast M.cos_err a)).trans (Acc.of_rel_err 9 (by norm_num) ?_)
  have h4 : |Real.cos a - Real.cos b| ≤ |a - b| := Real.abs_cos_sub_cos_le a b
  rw [abs_of_pos (by linarith : 0 < Real.cos b)]
  have hu := F.u_nonneg
  have h5 : 4 * F.u * |b| ≤ 4 * F.u * 1.05 := by gcongr
  push_cast
  norm_num at *
  nlinarith

/-! ### The first and third estimates -/

theorem span_bounds {ar : ℝ} (h1 : 1 ≤ ar) (h2 : ar ≤ 30) :
    0 < ar ^ (0.68 : ℝ) ∧ ar ^ (0.68 : ℝ) ≤ 11.32 ∧ |Real.log ar| ≤ 3.47 := by
  have h0 : 0 < ar := by linarith
  have hl : Real.log ar ≤ 3.47 := by
    have := Real.log_le_log h0 (h2.trans (by norm_num : (30 : ℝ) ≤ 2 ^ 5))
    rw [Real.log_pow] at this
    have h3 := Real.log_two_lt_d9
    norm_num at *
    linarith
  refine ⟨Real.rpow_pos_of_pos h0 _, ?_, ?_⟩
  · have e : ar ^ (0.68 : ℝ) ≤ (2 ^ (5 : ℕ) : ℝ) ^ (0.7 : ℝ) :=
      (Real.rpow_le_rpow h0.le (h2.trans (by norm_num : (30 : ℝ) ≤ 2 ^ 5)) (by norm_num)).trans
        (Real.rpow_le_rpow_of_exponent_le (by norm_num) (by norm_num))
    rw [← Real.rpow_natCast_mul (by norm_num), show ((5 : ℕ) : ℝ) * 0.7 = 3 + 1 / 2 by norm_num,
      Real.rpow_add (by norm_num), ← Real.sqrt_eq_rpow] at e
    have h3 : √(2 : ℝ) ≤ 1.415 := by
      rw [Real.sqrt_le_left (by norm_num)]; norm_num
    have h4 : (2 : ℝ) ^ (3 : ℝ) = 8 := by
      rw [show (3 : ℝ) = ((3 : ℕ) : ℝ) by norm_num, Real.rpow_natCast]; norm_num
    rw [h4] at e
    refine e.trans ?_
    norm_num at *
    linarith
  · rw [abs_of_nonneg (Real.log_nonneg h1)]; exact hl

theorem Ab.lit (x B : ℝ) (h : |x| ≤ B) : Ab F B (F.rd x) x := by
  have := F.err x
  unfold Ab
  have hu := F.u_nonneg
  nlinarith

theorem ab_lessSpan (M : Libm2 F) {ar : ℝ} (h1 : 1 ≤ ar) (h2 : ar ≤ 30) :
    Ab F 5.7 (lessSpan F M ar) (1 - 0.045 * ar ^ (0.68 : ℝ)) ∧ |1 - 0.045 * ar ^ (0.68 : ℝ)| ≤ 1 := by
  obtain ⟨s0, s1, s2⟩ := span_bounds h1 h2
  have a1 := Acc.libm_pow M.toLibm (l := 3.47) (Y := 0.68) (c := 1) 3 (Acc.refl (F := F) ar) (by linarith) (by norm_num)
    (y := 0.68) (yh := F.rd 0.68) (by have := F.err 0.68; linarith) (by norm_num) (by rw [abs_of_pos (by norm_num)]) s2
    (by norm_num)
  have a2 : Acc F 8 _ _ := ((Acc.rd F 0.045).mul a1).round
  generalize ar ^ (0.68 : ℝ) = p at *
  have b0 : 0 ≤ 0.045 * p := by norm_num at *; linarith
  have b1 : 0.045 * p ≤ 0.51 := by norm_num at *; linarith
  have hb : |1 - 0.045 * p| ≤ 1 := by rw [abs_le]; constructor <;> norm_num at * <;> linarith
  have a3 := ((Ab.refl 1).sub (Ab.of_acc a2 (by norm_num) (B := 0.51) (by rw [abs_of_nonneg b0]; exact b1))).rd hb
  exact ⟨a3.weaken (by norm_num), hb⟩

theorem ab_scaled_lessSpan (M : Libm2 F) {ar : ℝ} (h1 : 1 ≤ ar) (h2 : ar ≤ 30) (a : ℝ) (ha : 0 ≤ a) (ha1 : a ≤ 5) :
    Ab F (7.8 * a) (F.rd (F.rd a * lessSpan F M ar)) (a * (1 - 0.045 * ar ^ (0.68 : ℝ))) ∧ |a * (1 - 0.045 * ar ^ (0.68 : ℝ))| ≤ a := by
  obtain ⟨s0, s1⟩ := ab_lessSpan M h1 h2
  have hb : |a * (1 - 0.045 * ar ^ (0.68 : ℝ))| ≤ a := by
    rw [abs_mul, abs_of_nonneg ha]
    nlinarith
  have hl : |a| ≤ a := by rw [abs_of_nonneg ha]
  have := ((Ab.lit a a hl).mul s0 hl s1).rd hb
  exact ⟨this.weaken (by norm_num; nlinarith), hb⟩

/-! ### The second estimate -/

theorem second_bounds {ar t : ℝ} (h0 : 0 < ar) (h2 : ar ≤ 30) :
    2 ≤ 2 - ar + √(4 + ar ^ 2 * (1 + t ^ 2)) := by
  have : ar ≤ √(4 + ar ^ 2 * (1 + t ^ 2)) := by
    apply Real.le_sqrt_of_sq_le
    have : 0 ≤ ar ^ 2 * t ^ 2 := by positivity
    nlinarith
  linarith

theorem acc_second (M : Libm2 F) {ar x : ℝ} (h0 : 0 < ar) (h2 : ar ≤ 30) (hx : |x| ≤ 60) :
    Acc F 594 (oswaldspaneff2 F M ar x) (2 / (2 - ar + √(4 + ar ^ 2 * (1 + (Real.tan (Atmos.deg2rad x)) ^ 2)))) := by
  unfold oswaldspaneff2
  have a1 : Acc F 65 _ _ := (acc_tan M hx).ipow M 2
  have a2 : Acc F 66 _ _ := ((Acc.refl (F := F) 1).add a1 zero_le_one (sq_nonneg _)).round
  have a3 : Acc F 70 _ _ := (((Acc.refl (F := F) ar).ipow M 2).mul a2).round
  have hp : 0 ≤ ar ^ 2 * (1 + Real.tan (Atmos.deg2rad x) ^ 2) := by positivity
  have a4 : Acc F (2 * 36) _ _ := (((Acc.refl (F := F) 4).add a3 (by norm_num) hp).round).weaken (by norm_num)
  have a5 : Acc F 37 _ _ := (a4.sqrt (by positivity)).round
  have hD := second_bounds (t := Real.tan (Atmos.deg2rad x)) h0 h2
  simp only
  obtain ⟨S, hS⟩ : ∃ S, S = √(4 + ar ^ 2 * (1 + Real.tan (Atmos.deg2rad x) ^ 2)) := ⟨_, rfl⟩
  rw [← hS] at a5 hD ⊢
  have hS0 : 0 ≤ S := by rw [hS]; positivity
  generalize F.rd √(F.rd (4 + F.rd (M.ipow ar 2 * F.rd (1 + M.ipow (M.tan (radians F x)) 2)))) = Sh at a5 ⊢
  have e1 := a5.le (by norm_num)
  rw [abs_of_nonneg hS0] at e1
  have e2 := F.err (2 - ar)
  have hu := F.u_nonneg
  have e3 : |2 - ar| ≤ 14 * (2 - ar + S) := by rw [abs_le]; constructor <;> linarith
  have e4 : S ≤ 15 * (2 - ar + S) := by linarith
  generalize F.rd (2 - ar) = Lh at *
  obtain ⟨D, hDe⟩ : ∃ D, D = 2 - ar + S := ⟨_, rfl⟩
  rw [← hDe] at hD e3 e4 ⊢
  have hs : Ab F (584 * D) (Lh + Sh) D := by
    unfold Ab
    have b1 : F.u * |2 - ar| ≤ F.u * (14 * D) := by gcongr
    have b2 : F.u * S ≤ F.u * (15 * D) := by gcongr
    have : Lh + Sh - D = (Lh - (2 - ar)) + (Sh - S) := by rw [hDe]; ring
    rw [this]
    refine (abs_add_le _ _).trans ?_
    push_cast at e1
    nlinarith
  have hr := hs.rd (B := D) (by rw [abs_of_pos (by linarith)])
  have a6 : Acc F 587 (F.rd (Lh + Sh)) D := by
    refine Acc.of_err 586 (by norm_num) (by linarith) (hr.trans ?_)
    push_cast
    nlinarith [mul_nonneg hu (by linarith : 0 ≤ D)]
  exact (((Acc.refl (F := F) 2).div a6).round).weaken (by norm_num)

/-! ### The fourth estimate -/

theorem ab_taper (M : Libm2 F) {t s : ℝ} (ht0 : 0 ≤ t) (ht1 : t ≤ 1) (hs0 : 0 ≤ s) (hs1 : s ≤ 60) :
    Ab F 8 (F.rd (t - F.rd (-F.rd 0.357 + F.rd (F.rd 0.45 * M.exp (F.rd (-F.rd 0.0375 * s))))))
      (t - (-0.357 + 0.45 * Real.exp (-0.0375 * s))) ∧ |t - (-0.357 + 0.45 * Real.exp (-0.0375 * s))| ≤ 1.357 := by
  have a1 : Acc F 2 _ _ := (((Acc.rd F 0.0375).neg).mul (Acc.refl (F := F) s)).round
  have b1 : |-0.0375 * s| ≤ 2.25 := by rw [abs_le]; constructor <;> norm_num <;> linarith
  have a2 := Acc.libm_exp M.toLibm 7 (x := -0.0375 * s) ((Ab.of_acc a1 (by norm_num) b1).weaken (by norm_num))
  have he0 := Real.exp_pos (-0.0375 * s)
  have he1 : Real.exp (-0.0375 * s) ≤ 1 := Real.exp_le_one_iff.2 (by norm_num; linarith)
  generalize Real.exp (-0.0375 * s) = e at *
  have a3 : Acc F 12 _ _ := ((Acc.rd F 0.45).mul a2).round
  have b3 : |0.45 * e| ≤ 0.45 := by rw [abs_le]; constructor <;> norm_num <;> linarith
  have c3 := Ab.of_acc a3 (by norm_num) b3
  have c4 := (c3.sub (Ab.lit (F := F) 0.357 0.357 (by norm_num [abs_le]))).rd (B := 0.357) (by
    rw [abs_le]; constructor <;> norm_num <;> linarith)
  have b5 : |t - (0.45 * e - 0.357)| ≤ 1.357 := by rw [abs_le]; constructor <;> norm_num <;> linarith
  have c5 := ((Ab.refl t).sub c4).rd b5
  rw [show -0.357 + 0.45 * e = 0.45 * e - 0.357 by ring, neg_add_eq_sub]
  exact ⟨c5.weaken (by norm_num), b5⟩

theorem Ab.add {a b xh x yh y : ℝ} (h : Ab F a xh x) (k : Ab F b yh y) : Ab F (a + b) (xh + yh) (x + y) := by
  unfold Ab at *
  rw [abs_le] at *
  constructor <;> linarith [h.1, h.2, k.1, k.2]

/-- `**` with a whole exponent, of a number with an absolute error. -/
theorem Ab.ipow (M : Libm2 F) {a B xh x : ℝ} {k : ℕ} (h : Ab F a (xh ^ k) (x ^ k)) (hx : |x ^ k| ≤ B) :
    Ab F (1.000002 * a + 2 * B) (M.ipow xh k) (x ^ k) := by
  unfold Ab at *
  have hu := F.u_nonneg
  have hul := F.u_lt
  have e := M.ipow_err xh k
  generalize xh ^ k = p at *
  generalize x ^ k = q at *
  have h1 : |p| ≤ B + a * F.u := by
    have := abs_sub_abs_le_abs_sub p q
    linarith
  have h2 : |M.ipow xh k - q| ≤ |M.ipow xh k - p| + |p - q| := by
    have := abs_add_le (M.ipow xh k - p) (p - q)
    rwa [sub_add_sub_cancel] at this
  have ha : 0 ≤ a * F.u := (abs_nonneg _).trans h
  have h3 : F.u * |p| ≤ F.u * (B + a * F.u) := mul_le_mul_of_nonneg_left h1 hu
  have h4 : F.u * (a * F.u) ≤ 0.000001 * (a * F.u) := mul_le_mul_of_nonneg_right (by norm_num at *; linarith) ha
  nlinarith

theorem ab_hoerner (M : Libm2 F) {t s : ℝ} (ht0 : 0 ≤ t) (ht1 : t ≤ 1) (hs0 : 0 ≤ s) (hs1 : s ≤ 60) :
    Ab F 22.3 (hoernerfactor F M t s) (Verif.Aircraft.hoernerfactor t s) := by
  unfold hoernerfactor Verif.Aircraft.hoernerfactor
  obtain ⟨h1, hB⟩ := ab_taper M ht0 ht1 hs0 hs1
  simp only
  generalize F.rd (t - F.rd (-F.rd 0.357 + F.rd (F.rd 0.45 * M.exp (F.rd (-F.rd 0.0375 * s))))) = xh at *
  generalize t - (-0.357 + 0.45 * Real.exp (-0.0375 * s)) = x at *
  have B2 : |x ^ 2| ≤ 1.8415 := by
    rw [abs_pow]; calc |x| ^ 2 ≤ 1.357 ^ 2 := by gcongr
      _ ≤ _ := by norm_num
  have B3 : |x ^ 3| ≤ 2.4989 := by
    rw [abs_pow]; calc |x| ^ 3 ≤ 1.357 ^ 3 := by gcongr
      _ ≤ _ := by norm_num
  have B4 : |x ^ 4| ≤ 3.391 := by
    rw [abs_pow]; calc |x| ^ 4 ≤ 1.357 ^ 4 := by gcongr
      _ ≤ _ := by norm_num
  have q2 : Ab F 21.713 (xh ^ 2) (x ^ 2) := by
    have := (h1.mul h1 hB hB).weaken (b := 21.713) (by norm_num)
    rwa [← sq, ← sq] at this
  have q3 : Ab F 44.2 (xh ^ 3) (x ^ 3) := by
    have := (q2.mul h1 B2 hB).weaken (b := 44.2) (by norm_num)
    rwa [← pow_succ, ← pow_succ] at this
  have q4 : Ab F 80 (xh ^ 4) (x ^ 4) := by
    have := (q3.mul h1 B3 hB).weaken (b := 80) (by norm_num)
    rwa [← pow_succ, ← pow_succ] at this
  have i2 := (q2.ipow M B2).weaken (b := 25.4) (by norm_num)
  have i3 := (q3.ipow M B3).weaken (b := 49.2) (by norm_num)
  have i4 := (q4.ipow M B4).weaken (b := 86.8) (by norm_num)
  generalize M.ipow xh 2 = p2 at *
  generalize M.ipow xh 3 = p3 at *
  generalize M.ipow xh 4 = p4 at *
  generalize x ^ 2 = x2 at *
  generalize x ^ 3 = x3 at *
  generalize x ^ 4 = x4 at *
  have lit : ∀ a : ℝ, 0 ≤ a → Ab F a (F.rd a) a ∧ |a| ≤ a := fun a ha =>
    ⟨Ab.lit a a (by rw [abs_of_nonneg ha]), by rw [abs_of_nonneg ha]⟩
  rw [abs_le] at hB B2 B3 B4
  have t4 := (((lit 0.0524 (by norm_num)).1.mul i4 (lit 0.0524 (by norm_num)).2 (abs_le.2 B4)).rd (B := 0.1777) (by
    rw [abs_le]; constructor <;> norm_num at * <;> linarith)).weaken (b := 4.91) (by norm_num)
  have t3 := (((lit 0.15 (by norm_num)).1.mul i3 (lit 0.15 (by norm_num)).2 (abs_le.2 B3)).rd (B := 0.3749) (by
    rw [abs_le]; constructor <;> norm_num at * <;> linarith)).weaken (b := 8.14) (by norm_num)
  have t2 := (((lit 0.1659 (by norm_num)).1.mul i2 (lit 0.1659 (by norm_num)).2 (abs_le.2 B2)).rd (B := 0.3056) (by
    rw [abs_le]; constructor <;> norm_num at * <;> linarith)).weaken (b := 4.83) (by norm_num)
  have t1 := (((lit 0.0706 (by norm_num)).1.mul h1 (lit 0.0706 (by norm_num)).2 (abs_le.2 hB)).rd (B := 0.0959) (by
    rw [abs_le]; constructor <;> norm_num at * <;> linarith)).weaken (b := 0.76) (by norm_num)
  have s1 := ((t4.sub t3).rd (B := 0.5526) (by
    rw [abs_le]; constructor <;> norm_num at * <;> linarith)).weaken (b := 13.61) (by norm_num)
  have s2 := ((s1.add t2).rd (B := 0.8582) (by
    rw [abs_le]; constructor <;> norm_num at * <;> linarith)).weaken (b := 19.3) (by norm_num)
  have s3 := ((s2.sub t1).rd (B := 0.9541) (by
    rw [abs_le]; constructor <;> norm_num at * <;> linarith)).weaken (b := 21.02) (by norm_num)
  exact ((s3.add (lit 0.0119 (by norm_num)).1).rd (B := 0.966) (by
    rw [abs_le]; constructor <;> norm_num at * <;> linarith)).weaken (by norm_num)

theorem acc_theo (M : Libm2 F) {ar t s : ℝ} (h0 : 0 < ar) (h2 : ar ≤ 30) (ht0 : 0 ≤ t) (ht1 : t ≤ 1) (hs0 : 0 ≤ s) (hs1 : s ≤ 60)
    (hk : 0 < Verif.Aircraft.hoernerfactor t s) :
    Acc F 674 (F.rd (1 / F.rd (1 + F.rd (hoernerfactor F M t s * ar)))) (1 / (1 + Verif.Aircraft.hoernerfactor t s * ar)) := by
  have h1 := ab_hoerner M ht0 ht1 hs0 hs1
  generalize hoernerfactor F M t s = kh at *
  generalize Verif.Aircraft.hoernerfactor t s = k at *
  have hp : 0 < k * ar := mul_pos hk h0
  have m1 : Ab F 669 (kh * ar) (k * ar) := by
    unfold Ab at *
    rw [← sub_mul, abs_mul, abs_of_pos h0]
    have hu := F.u_nonneg
    calc |kh - k| * ar ≤ 22.3 * F.u * 30 := mul_le_mul h1 h2 h0.le (by positivity)
      _ = 669 * F.u := by ring
  have m2 := m1.rd (B := k * ar) (by rw [abs_of_pos hp])
  have m3 := ((Ab.refl 1).add m2).rd (B := 1 + k * ar) (by rw [abs_of_pos (by linarith)])
  have m4 : Acc F 673 _ _ := Acc.of_err 672 (by norm_num) (by linarith) (m3.trans (by
    push_cast
    have hu := F.u_nonneg
    have : 1.000001 * (0 + (1.000001 * 669 + k * ar)) + (1 + k * ar) ≤ 672 * (1 + k * ar) := by norm_num; linarith
    have := mul_le_mul_of_nonneg_right this hu
    linarith))
  exact ((Acc.refl (F := F) 1).div m4).round

theorem acc_fuse (M : Libm2 F) : Acc F 8 (F.rd (1 - F.rd (2 * M.ipow (F.rd 0.114) 2))) (1 - 2 * (0.114 : ℝ) ^ 2) := by
  have a1 : Acc F 6 _ _ := ((Acc.refl (F := F) 2).mul ((Acc.rd F 0.114).ipow M 2)).round
  have h1 := ((Ab.refl 1).sub (Ab.of_acc a1 (by norm_num) (B := 0.026) (by norm_num [abs_le]))).rd (B := 1) (by norm_num [abs_le])
  refine (Acc.of_err 2 (by norm_num) (by norm_num) (h1.trans ?_)).weaken (by norm_num)
  have hu := F.u_nonneg
  norm_num
  linarith

end Verif.Fl
