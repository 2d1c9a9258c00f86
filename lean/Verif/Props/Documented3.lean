import Verif.Props.Documented2
import Verif.Props.HotHigh

/-
C125, continued: the climb example, whose documented output is not that of the code.
-/

namespace Verif.Props
open Verif Verif.Atmos Verif.Units Verif.Aircraft

noncomputable section

/-- The wing of the climb and turn examples (constraintanalysis.py:1195-1196, 1602-1603), with the defaults of the constructor. -/
structure DocWing (c : Concept) : Prop where
  ar : pyNum c.aspectratio = 10.12
  a0 : pyNum c.a_0i = 2 * Real.pi
  le : pyNum c.sweep_le_deg = 2
  qc : pyNum c.sweep_25_deg = 4
  mt : pyNum c.sweep_mt_deg = 0
  taper : pyNum c.roottaperratio = 0.45 * Real.exp (-0.0375 * 4)

theorem DocWing.lerad {c : Concept} (h : DocWing c) : c.sweep_le_rad = Real.pi / 90 := by
  rw [Concept.sweep_le_rad, h.le, deg2rad]; ring
theorem DocWing.qcrad {c : Concept} (h : DocWing c) : c.sweep_25_rad = Real.pi / 45 := by
  rw [Concept.sweep_25_rad, h.qc, deg2rad]; ring

theorem DocWing.wing {c : Concept} (h : DocWing c) : Wing c := by
  have hp := Real.pi_pos
  refine ⟨by rw [h.ar]; norm_num, by rw [h.a0]; positivity, ?_, ?_, ?_⟩
  · rw [h.lerad, abs_of_pos (by positivity)]; linarith
  · rw [h.qcrad, abs_of_pos (by positivity)]; linarith
  · rw [h.lerad, h.qcrad, show 2 * (Real.pi / 45) - Real.pi / 90 = Real.pi / 30 by ring, abs_of_pos (by positivity)]; linarith

theorem doc_cos {x y : ℝ} (h : 1 - x ^ 2 / 2 ≥ y) : y ≤ Real.cos x := h.le.trans (Real.one_sub_sq_div_two_le_cos)

theorem DocWing.coss {c : Concept} (h : DocWing c) : 0.9993 ≤ Real.cos c.sweep_le_rad ∧ 0.9975 ≤ Real.cos c.sweep_25_rad := by
  have h1 := Real.pi_pos
  have h2 := Real.pi_lt_d2
  constructor
  · rw [h.lerad]; apply doc_cos; norm_num at h2 ⊢; nlinarith
  · rw [h.qcrad]; apply doc_cos; norm_num at h2 ⊢; nlinarith

theorem doc_sqrt_le {x y : ℝ} (hy : 0 ≤ y) (h : x ≤ y ^ 2) : √x ≤ y := Real.sqrt_le_iff.mpr ⟨hy, h⟩

theorem doc_beta {m : ℝ} (h0 : 0 ≤ m) (h1 : m < 1) : 0 < √(1 - m ^ 2) ∧ √(1 - m ^ 2) ≤ 1 :=
  ⟨Real.sqrt_pos.mpr (by nlinarith), doc_sqrt_le (by norm_num) (by nlinarith)⟩

theorem DocWing.e2 {c : Concept} (h : DocWing c) : oswaldspaneff2 c = 2 / (√106.4144 - 8.12) ∧ 0.91 ≤ oswaldspaneff2 c := by
  have e : oswaldspaneff2 c = 2 / (√106.4144 - 8.12) := by
    rw [oswaldspaneff2, Concept.sweep_mt_rad, h.mt, h.ar, deg2rad, zero_mul, Real.tan_zero]
    congr 1
    have : (4 + 10.12 ^ 2 * (1 + 0 ^ 2) : ℝ) = 106.4144 := by norm_num
    rw [this]; ring
  have h1 : √106.4144 ≤ 10.3158 := doc_sqrt_le (by norm_num) (by norm_num)
  have h2 : 10.3 ≤ √106.4144 := Real.le_sqrt_of_sq_le (by norm_num)
  refine ⟨e, ?_⟩
  rw [e, le_div_iff₀ (by norm_num at h2 ⊢; linarith)]
  generalize √106.4144 = x at *
  norm_num at *; linarith

theorem DocWing.e4 {c : Concept} (h : DocWing c) {m : ℝ} (hm : m ≤ 0.3) : 0.8125 ≤ oswaldspaneff4 c (some (min m 0.6)) := by
  have hh : hoernerfactor (pyNum c.roottaperratio) (pyNum c.sweep_25_deg) =
      0.0524 * 0.357 ^ 4 - 0.15 * 0.357 ^ 3 + 0.1659 * 0.357 ^ 2 - 0.0706 * 0.357 + 0.0119 := by
    rw [h.taper, h.qc, hoernerfactor]
    rw [show 0.45 * Real.exp (-0.0375 * 4) - (-0.357 + 0.45 * Real.exp (-0.0375 * 4)) = 0.357 by ring]
  rw [oswaldspaneff4, hh, h.ar, keMach]
  have : ¬ (min m 0.6 > 0.3) := not_lt.mpr (min_le_of_left_le hm)
  have e : (if min m 0.6 > 0.3 then -0.001521 * ((min m 0.6 / 0.3) - 1) ^ (10.82 : ℝ) + 1 else 1) = 1 := if_neg this
  simp only [Option.getD_some, e]
  split <;> norm_num at *

theorem DocWing.oswald {c : Concept} (h : DocWing c) {m k : ℝ} (hm : m ≤ 0.3)
    (hk : induceddragfact c (some 24) (some (min m 0.6)) = .ok k) : k ≤ 0.03653 := by
  have hl : oswaldlist c (some 24) (some (min m 0.6)) = .ok [oswaldspaneff2 c, oswaldspaneff4 c (some (min m 0.6))] := by
    unfold oswaldlist
    simp
  have e : induceddragfact c (some 24) (some (min m 0.6)) = .ok (1 / (Real.pi * pyNum c.aspectratio *
      ((oswaldspaneff2 c + oswaldspaneff4 c (some (min m 0.6))) / 2))) := by
    unfold induceddragfact
    rw [hl, bind_ok]
    simp
    rfl
  rw [e] at hk
  have hk := Except.ok.inj hk
  have g2 := h.e2.2
  have g4 := h.e4 hm
  rw [← hk, h.ar]
  have hp := Real.pi_gt_d4
  generalize oswaldspaneff2 c = x at *
  generalize oswaldspaneff4 c (some (min m 0.6)) = y at *
  norm_num at g2 g4 hp
  have : (1.7225 / 2 : ℝ) ≤ (x + y) / 2 := by norm_num; linarith
  have : 3.1415 * 10.12 * (1.7225 / 2) ≤ Real.pi * 10.12 * ((x + y) / 2) := by gcongr; norm_num; exact hp.le
  calc 1 / (Real.pi * 10.12 * ((x + y) / 2)) ≤ 1 / (3.1415 * 10.12 * (1.7225 / 2)) := one_div_le_one_div_of_le (by norm_num) this
    _ ≤ 0.03653 := by norm_num

/-! ### The estimates of the lift curve slope -/

theorem DocWing.sub0 {c : Concept} (h : DocWing c) {m : ℝ} (h0 : 0 ≤ m) (h1 : m < 1) : 5.1 ≤ aSub0 c m := by
  obtain ⟨b0, b1⟩ := doc_beta h0 h1
  have hc := h.coss.2
  have hp := Real.pi_pos
  have hp2 := Real.pi_gt_d2
  rw [aSub0, h.ar, h.a0]
  have e : Real.pi * 10.12 / (2 * Real.pi) = 5.06 := by field_simp; norm_num
  rw [e]
  generalize √(1 - m ^ 2) = b at *
  generalize Real.cos c.sweep_25_rad = q at *
  have q0 : 0 < q := by norm_num at hc; linarith
  have s : √(1 + (5.06 / q) ^ 2 * b ^ 2) ≤ 5.18 := by
    apply doc_sqrt_le (by norm_num)
    have : (5.06 / q) ^ 2 ≤ (5.06 / 0.9975) ^ 2 := by gcongr
    have : (5.06 / q) ^ 2 * b ^ 2 ≤ (5.06 / 0.9975) ^ 2 * 1 ^ 2 := by gcongr
    norm_num at *; linarith
  rw [le_div_iff₀ (by positivity)]
  generalize √(1 + (5.06 / q) ^ 2 * b ^ 2) = y at *
  norm_num at *; linarith

theorem DocWing.sub3 {c : Concept} (h : DocWing c) {m : ℝ} (h0 : 0 ≤ m) (h1 : m < 1) : 5.1 ≤ aSub3 c m := by
  obtain ⟨b0, b1⟩ := doc_beta h0 h1
  have hp := Real.pi_pos
  have hp2 := Real.pi_gt_d2
  have g := h.e2.2
  rw [aSub3, h.ar, h.a0]
  have e : 2 * Real.pi / (Real.pi * 10.12) = 1 / 5.06 := by field_simp; norm_num
  rw [e]
  generalize √(1 - m ^ 2) = b at *
  generalize oswaldspaneff2 c = q at *
  have q0 : 0 < q := by norm_num at g; linarith
  have s : 1 / 5.06 / q ≤ 1 / 5.06 / 0.91 := by gcongr
  rw [le_div_iff₀ (by positivity)]
  generalize 1 / 5.06 / q = y at *
  norm_num at *; linarith

theorem DocWing.sub4 {c : Concept} (h : DocWing c) {m : ℝ} (h0 : 0 ≤ m) (h1 : m < 1) : 5.1 ≤ aSub4 c m := by
  obtain ⟨b0, b1⟩ := doc_beta h0 h1
  have hp := Real.pi_pos
  have hp2 := Real.pi_gt_d2
  rw [aSub4, h.ar, h.a0]
  have e : 2 * Real.pi / (Real.pi * 10.12) = 1 / 5.06 := by field_simp; norm_num
  rw [e]
  generalize √(1 - m ^ 2) = b at *
  have s : √(b ^ 2 + (1 / 5.06) ^ 2) ≤ 1.02 := by
    apply doc_sqrt_le (by norm_num)
    have : b ^ 2 ≤ 1 := by nlinarith
    norm_num; linarith
  rw [le_div_iff₀ (by positivity)]
  generalize √(b ^ 2 + (1 / 5.06) ^ 2) = y at *
  norm_num at *; linarith

theorem DocWing.sub5 {c : Concept} (h : DocWing c) {m : ℝ} (h0 : 0 ≤ m) (h1 : m < 1) : 5.1 ≤ aSub5 c m := by
  have hp := Real.pi_pos
  have hp2 := Real.pi_gt_d2
  have hc := h.coss.1
  have hc1 := Real.cos_le_one c.sweep_le_rad
  rw [aSub5, h.ar, h.a0]
  generalize Real.cos c.sweep_le_rad = q at *
  have q0 : 0 < q := by norm_num at hc; linarith
  have e : 2 * Real.pi * q / (Real.pi * 10.12) = q / 5.06 := by field_simp; norm_num
  rw [e]
  have b1 : √(1 - (m * q) ^ 2) ^ 2 ≤ 1 := by
    have : √(1 - (m * q) ^ 2) ≤ 1 := doc_sqrt_le (by norm_num) (by nlinarith [sq_nonneg (m * q)])
    have := Real.sqrt_nonneg (1 - (m * q) ^ 2)
    nlinarith
  generalize √(1 - (m * q) ^ 2) = b at *
  have y1 : q / 5.06 ≤ 1 / 5.06 := by gcongr
  have y0 : 0 < q / 5.06 := by positivity
  have s : √(b ^ 2 + (q / 5.06) ^ 2) ≤ 1.02 := by
    apply doc_sqrt_le (by norm_num)
    have : (q / 5.06) ^ 2 ≤ (1 / 5.06) ^ 2 := by gcongr
    generalize (q / 5.06) ^ 2 = z at *
    norm_num at this ⊢; linarith
  rw [le_div_iff₀ (by positivity)]
  generalize √(b ^ 2 + (q / 5.06) ^ 2) = y at *
  generalize q / 5.06 = z at *
  have : 3.14 * 0.9993 ≤ Real.pi * q := by gcongr
  norm_num at *; linarith

theorem DocWing.sub6 {c : Concept} (h : DocWing c) {m : ℝ} (h0 : 0 ≤ m) (h1 : m < 1) : 5.1 ≤ aSub6 c m (Real.pi / 30) := by
  obtain ⟨b0, b1⟩ := doc_beta h0 h1
  have hp := Real.pi_pos
  have hp2 := Real.pi_gt_d2
  have hp3 := Real.pi_lt_d2
  have t1 : Real.tan (Real.pi / 30) ^ 2 ≤ 0.012 := by
    have hc : 0.99 ≤ Real.cos (Real.pi / 30) := by apply doc_cos; norm_num at hp3 ⊢; nlinarith
    have hs : Real.sin (Real.pi / 30) ≤ Real.pi / 30 := Real.sin_le (by positivity)
    have hs0 : 0 ≤ Real.sin (Real.pi / 30) := Real.sin_nonneg_of_nonneg_of_le_pi (by positivity) (by linarith)
    rw [Real.tan_eq_sin_div_cos, div_pow]
    have hc0 : 0 < Real.cos (Real.pi / 30) := lt_of_lt_of_le (by norm_num) hc
    rw [div_le_iff₀ (by positivity)]
    have a1 : Real.sin (Real.pi / 30) ^ 2 ≤ (3.15 / 30) ^ 2 := by
      gcongr; exact hs.trans (by gcongr)
    have a2 : 0.99 ^ 2 ≤ Real.cos (Real.pi / 30) ^ 2 := by gcongr
    norm_num at *; linarith
  rw [aSub6, h.ar, h.a0]
  rw [div_self (by positivity), div_one]
  generalize √(1 - m ^ 2) = b at *
  generalize Real.tan (Real.pi / 30) = t at *
  have e : (10.12 * b) ^ 2 * (1 + (t / b) ^ 2) = 10.12 ^ 2 * (b ^ 2 + t ^ 2) := by field_simp
  rw [e]
  have s : √(10.12 ^ 2 * (b ^ 2 + t ^ 2) + 4) ≤ 10.38 := by
    apply doc_sqrt_le (by norm_num)
    have : b ^ 2 ≤ 1 := by nlinarith
    norm_num; linarith
  rw [le_div_iff₀ (by positivity)]
  generalize √(10.12 ^ 2 * (b ^ 2 + t ^ 2) + 4) = y at *
  norm_num at *; linarith

theorem DocWing.sub8 {c : Concept} (h : DocWing c) {m : ℝ} (h0 : 0 ≤ m) (h1 : m < 1) : 5 ≤ aSub8 c m := by
  obtain ⟨b0, b1⟩ := doc_beta h0 h1
  have hp := Real.pi_pos
  have hp2 := Real.pi_gt_d2
  rw [aSub8, h.ar, h.a0]
  generalize √(1 - m ^ 2) = b at *
  have e : 2 * Real.pi / b / Real.pi = 2 / b := by field_simp
  rw [e]
  obtain ⟨z, hz⟩ : ∃ z, z = 1 / b := ⟨_, rfl⟩
  have z1 : 1 ≤ z := by rw [hz, le_div_iff₀ b0]; linarith
  rw [show 2 / b = 2 * z by rw [hz]; ring, show 2 * Real.pi / b = 2 * Real.pi * z by rw [hz]; ring]
  have s : √(4 + 10.12 ^ 2 + (2 * z) ^ 2) ≤ 10.52 * z := by
    apply doc_sqrt_le (by positivity)
    norm_num; nlinarith
  rw [le_div_iff₀ (by positivity)]
  generalize √(4 + 10.12 ^ 2 + (2 * z) ^ 2) = y at *
  have : 3.14 * z ≤ Real.pi * z := by gcongr
  norm_num at *; linarith

theorem DocWing.slope (X : Ext) {c : Concept} (h : DocWing c) {m ls : ℝ} (h0 : 0 ≤ m) (h1 : m < 0.6)
    (hl : liftslope_prad X c (some m) = .ok ls) : 4.35 ≤ ls := by
  have w := h.wing
  have hm : m < 1 := by norm_num at h1; linarith
  obtain ⟨s, hs, he⟩ := C41_line c 0.5 (by norm_num) (by norm_num)
  have hs2 : s = 2 * c.sweep_25_rad - c.sweep_le_rad := by norm_num at he; linarith
  have hsa : |s| < Real.pi / 2 := by rw [hs2]; exact w.hc
  have hs3 : s = Real.pi / 30 := by rw [hs2, h.lerad, h.qcrad]; ring
  have ha : a_subsonic c m = .ok ((aSub0 c m + (aSub3 c m + (aSub4 c m + (aSub5 c m + (aSub6 c m s + (aSub7 c m s + aSub8 c m)))))) / 7) := by
    simp only [a_subsonic, hs, bind_ok, List.sum_cons, List.sum_nil, List.length_cons, List.length_nil]
    norm_num
    rfl
  obtain ⟨sub, tr, h2, -, h3⟩ := C71_estimates X c (some m)
  rw [h3] at hl
  have h2' : a_subsonic c m = .ok sub := h2
  rw [ha] at h2'
  have h2' := Except.ok.inj h2'
  have : liftslopeblend m sub (a_supersonic c m) tr = ls := by cases hl; rfl
  unfold liftslopeblend at this
  rw [if_pos h1] at this
  rw [← this, ← h2']
  have e7 := (C72_sub7 w h0 hm hsa).1
  rw [hs3] at e7 ⊢
  have := h.sub0 h0 hm; have := h.sub3 h0 hm; have := h.sub4 h0 hm; have := h.sub5 h0 hm; have := h.sub6 h0 hm; have := h.sub8 h0 hm
  linarith

/-- The induced drag factor of this wing at low speed. -/
theorem DocWing.drag (X : Ext) {c : Concept} (h : DocWing c) {m w cl k : ℝ} (h0 : 0 ≤ m) (h1 : m ≤ 0.1528)
    (hn : c.cruisespeed_ktas = none) (c0 : 0.3 ≤ cl) (c1 : cl ≤ 1.6)
    (hk : induceddragfact_lesm X c (some [w]) (some [cl]) (some m) = .ok [k]) : k ≤ 0.04292 := by
  have hcos := h.coss.1
  have hcos0 : 0 < Real.cos c.sweep_le_rad := lt_of_lt_of_le (by norm_num) hcos
  obtain ⟨ko, ls, lss, k1, t, a1, a2, a3, a4, ⟨t0, -, t2, t3⟩, -, a7⟩ := C100_mean (g := fun _ => cl) hcos0 hk
  obtain ⟨cc, s, b1, ⟨-, b2, -⟩, b3⟩ := a7 0 w rfl
  have hcc : cc = 0.6 := by
    unfold CruiseCl at b1; rw [hn] at b1; exact b1
  obtain ⟨s0, s1⟩ := b2 (by rw [hcc]; norm_num at *; linarith) (by rw [hcc]; norm_num at *; linarith)
  have e : k = t * ko + (1 - t) * (s * k1 + (1 - s) * (1 / ls)) := by simpa using b3
  have hko := h.oswald (h1.trans (by norm_num)) a1
  have hls := h.slope X h0 (h1.trans_lt (by norm_num)) a2
  have hm1 : m < 1 := h1.trans_lt (by norm_num)
  have hk1 := a4.1 hm1
  rw [h.ar] at hk1
  have hk1' : k1 ≤ 0.23 := by
    rw [hk1, div_le_iff₀ (by positivity)]
    have := Real.pi_gt_d2
    norm_num at *; linarith
  have hl' : 1 / ls ≤ 0.23 := by
    rw [div_le_iff₀ (by norm_num at hls; linarith)]
    norm_num at *; linarith
  have c1' := Real.cos_le_one c.sweep_le_rad
  have u : s * k1 + (1 - s) * (1 / ls) ≤ 0.23 := by
    have hs1 : 0 ≤ 1 - s := by norm_num at s1; linarith
    have g1 := mul_le_mul_of_nonneg_left hk1' s0
    have g2 := mul_le_mul_of_nonneg_left hl' hs1
    linarith
  have ht5 := t2 h0 (by rw [le_div_iff₀ hcos0]; nlinarith)
  have ht : 0.967 ≤ t := by
    by_contra hc
    have hc := not_le.mp hc
    have : t ^ 5 < 0.967 ^ 5 := by gcongr
    have hx : m / (1 / Real.cos c.sweep_le_rad) = m * Real.cos c.sweep_le_rad := by field_simp
    rw [ht5, hx] at this
    have : m * Real.cos c.sweep_le_rad ≤ 0.1528 * 1 := by gcongr
    norm_num at *; linarith
  have ht1 : t ≤ 1 := by
    by_contra hc
    have := one_lt_pow₀ (not_le.mp hc) (n := 5) (by norm_num)
    have : 0 ≤ m / (1 / Real.cos c.sweep_le_rad) := by positivity
    linarith
  rw [e]
  have g1 := mul_le_mul_of_nonneg_left hko t0
  have g2 := mul_le_mul_of_nonneg_left u (sub_nonneg.mpr ht1)
  have : t * ko + (1 - t) * (s * k1 + (1 - s) * (1 / ls)) ≤ t * 0.03653 + (1 - t) * 0.23 := by linarith
  norm_num at *; linarith

/-! ### Climb -/

/-- constraintanalysis.py:1186-1187: the brief of the climb example. -/
def docClimbBrief : Dict := [("climbalt_m", .num 0), ("climbspeed_kias", .num 101), ("climbrate_fpm", .num 1398)]
/-- constraintanalysis.py:1193-1194: the design of the climb example. -/
def docClimbDesign : Dict := [("aspectratio", .num 10.12), ("sweep_le_deg", .num 2), ("sweep_mt_deg", .num 0), ("bpr", .num (-1))]
/-- constraintanalysis.py:1189-1191: the performance of the climb example. -/
def docClimbPerf : Dict := [("CDminclean", .num 0.0254), ("etaprop", .sub [("climb", some 0.8)])]

theorem doc_climb_concept : ∃ r, construct docClimbBrief docClimbDesign docClimbPerf (some (.isa 0)) .pyNone = .ok r ∧
    r.concept.designatm = .isa 0 ∧ r.concept.bpr = some (-1) ∧ r.concept.propulsion = .pyFalse ∧ r.concept.climbalt_m = some 0 ∧
    r.concept.climbspeed_kias = some 101 ∧ r.concept.climbrate_fpm = some 1398 ∧ r.concept.cdminclean = some 0.0254 ∧
    r.concept.climb_weight_fraction = some 1.0 ∧ r.concept.cruisespeed_ktas = none ∧ r.concept.cruisealt_m = none ∧
    r.concept.servceil_m = none ∧ r.concept.rwyelevation_m = some 0 ∧ r.concept.turnalt_m = some 0 ∧
    r.concept.aspectratio = some 10.12 ∧ r.concept.a_0i = some (2 * Real.pi) ∧ r.concept.sweep_le_deg = some 2 ∧
    r.concept.sweep_25_deg = some (2 * 2 + 5 * 0 / 7) ∧ r.concept.sweep_mt_deg = some 0 ∧
    r.concept.roottaperratio = some (0.45 * Real.exp (-0.0375 * (2 * 2 + 5 * 0 / 7))) := by
  apply Exists.intro; constructor
  · rfl
  · exact ⟨rfl, rfl, rfl, rfl, rfl, rfl, rfl, rfl, rfl, rfl, rfl, rfl, rfl, rfl, rfl, rfl, rfl, rfl, rfl⟩

/-- constraintanalysis.py:1182-1211: the documented thrust to weight ratios of the climb example are not those of the code, which
are lower: the documented numbers go with an induced drag factor of 0.0434. -/
theorem C125_climb_violated (X : Ext) : ∃ r t₁ t₂ t₃, construct docClimbBrief docClimbDesign docClimbPerf (some (.isa 0)) .pyNone = .ok r ∧
    twrequired_clm X r.concept (.array [1250, 1500, 1750]) true = .ok (.array [t₁, t₂, t₃]) ∧
    (t₁ < 0.2022 ∧ t₂ < 0.203 ∧ t₃ < 0.2054) ∧
    ¬ Prints t₁ 0.20249491 1e-8 ∧ ¬ Prints t₂ 0.2033384 1e-8 ∧ ¬ Prints t₃ 0.20578177 1e-8 := by
  obtain ⟨r, hr, ha, hb, hp, halt, hs, hroc, hcd, hwf, hcs, hca, hsc, hrw, hta, har, ha0, hle, hqc, hmt, htap⟩ := doc_climb_concept
  obtain ⟨c, hc⟩ : ∃ c, c = r.concept := ⟨_, rfl⟩
  rw [← hc] at ha hb hp halt hs hroc hcd hwf hcs hca hsc hrw hta har ha0 hle hqc hmt htap
  have dw : DocWing c := by
    refine ⟨by rw [har]; rfl, by rw [ha0]; rfl, by rw [hle]; rfl, ?_, by rw [hmt]; rfl, ?_⟩
    · rw [hqc]; norm_num [pyNum]
    · rw [htap, pyNum, Option.getD_some, show (2 * 2 + 5 * 0 / 7 : ℝ) = 4 by norm_num]
  have e0 : pyNum c.climbalt_m = 0 := by rw [halt]; rfl
  have ef : pyNum c.climb_weight_fraction = 1 := by rw [hwf]; norm_num [pyNum]
  have ecd : pyNum c.cdminclean = 0.0254 := by rw [hcd]; rfl
  have env : EnvOK c.designatm 0 := by rw [ha]; exact isa_env _ _ (by norm_num) (by norm_num)
  have hd : dens1 c.designatm 0 = .ok (isadens 0 0) := by rw [ha]; exact isa_dens1 0 0 (by norm_num)
  have d1 : 1.2249998682209657 ≤ isadens 0 0 ∧ isadens 0 0 ≤ 1.2249998682209658 := by
    have e : isadens 0 0 = 1.04884 ^ (4.2558797 : ℝ) := doc_dens (by norm_num) (by norm_num)
    rw [e]; exact DocNum.dens_0
  obtain ⟨d1, d2⟩ := d1
  generalize isadens 0 0 = d at hd d1 d2
  have d0 : 0 < d := lt_of_lt_of_le (by norm_num) d1
  have tas : ∀ x, Atmos.eas2tas c.designatm x 0 = .ok x := by
    intro x
    unfold Atmos.eas2tas dratio
    simp only [hd, bind_ok, div_self d0.ne', Real.sqrt_one]
    rw [if_neg (by norm_num)]
    simp only [pure_bind, div_one]
    rfl
  have eT : isatemp 0 0 = 288.15 := by norm_num [isatemp, Level1, A1, B1]
  have hv : vsound_mps c.designatm (.scalar 0) = .ok (.scalar (√(1.4 * 287.05287 * 288.15))) := by
    rw [ha, ← eT]; exact isa_vsound 0 0 (by norm_num) (by rw [eT]; norm_num)
  have v1 : 340.2 ≤ √(1.4 * 287.05287 * 288.15) := Real.le_sqrt_of_sq_le (by norm_num)
  generalize √(1.4 * 287.05287 * 288.15) = vs at hv v1
  have vs0 : 0 < vs := lt_of_lt_of_le (by norm_num) v1
  have ek : kts2mps 101 = 51.9588844 := by norm_num [kts2mps]
  have er : fpm2mps 1398 = 7.10184 := by norm_num [fpm2mps, feet2m]
  have hm := mach1_of (v := kts2mps 101) hv
  have m0 : 0 ≤ kts2mps 101 / vs := by rw [ek]; positivity
  have m1 : kts2mps 101 / vs ≤ 0.1528 := by
    rw [ek, div_le_iff₀ vs0]; norm_num at *; linarith
  obtain ⟨K, hK⟩ := KFun.exists X c (kts2mps 101 / vs) (by intro alt h; rw [hca] at h; cases h)
  obtain ⟨q, hq⟩ : ∃ q, q = 0.5 * d * kts2mps 101 ^ 2 := ⟨_, rfl⟩
  have hin : ClimbIn X c 101 1398 (kts2mps 101) (fpm2mps 1398) (pistonpowerfactor d) q (kts2mps 101 / vs) K := by
    refine ⟨hs, hroc, by rw [e0]; exact tas _, by rw [e0]; exact tas _, ⟨1, ?_⟩, ?_, by rw [e0]; exact hm, hK⟩
    · rw [e0]; exact piston_corr X (Or.inr ⟨hp, hb⟩) env hd _
    · rw [e0, hq]; unfold dynamicpressure_pa; rw [hd]; rfl
  have q1 : 1653.5 ≤ q := by rw [hq, ek]; norm_num at *; linarith
  have q2 : q ≤ 1653.6 := by rw [hq, ek]; norm_num at *; linarith
  have q0 : 0 < q := lt_of_lt_of_le (by norm_num) q1
  have p1 : 0.999999 ≤ pistonpowerfactor d := by
    unfold pistonpowerfactor
    norm_num at *; linarith
  have kb : ∀ w, 500 ≤ w → w ≤ 2600 → K w (w / q) ≤ 0.04292 := by
    intro w w1 w2
    have := hK.lesm [w] (fun w => w / q)
    refine dw.drag X m0 m1 hcs ?_ ?_ this
    · rw [le_div_iff₀ q0]; norm_num at *; linarith
    · rw [div_le_iff₀ q0]; norm_num at *; linarith
  have key : ∀ w hi, 500 ≤ w → w ≤ 2600 →
      7.10184 / 51.9588844 + (1 / w) * 1653.6 * 0.0254 + (0.04292 / 1653.5) * w * (1 - (7.10184 / 51.9588844) ^ 2) < 0.999999 * hi →
      climbReq c true (kts2mps 101) (fpm2mps 1398) (pistonpowerfactor d) q K w < hi := by
    intro w hi w1 w2 h
    have w0 : 0 < w := by linarith
    have hk := kb w w1 w2
    unfold climbReq sl climbPoint
    rw [ef, ecd, mul_one, mul_one, if_pos rfl, ek, er, one_mul]
    have pp : 0 < pistonpowerfactor d := lt_of_lt_of_le (by norm_num) p1
    rw [div_lt_iff₀ pp]
    generalize K w (w / q) = k at hk
    have a1 : (1 / w) * q * 0.0254 ≤ (1 / w) * 1653.6 * 0.0254 := by gcongr
    have a2 : k / q ≤ 0.04292 / 1653.5 := (div_le_div_of_nonneg_right hk q0.le).trans (by gcongr)
    have g0 : (0:ℝ) ≤ 1 - (7.10184 / 51.9588844) ^ 2 := by norm_num
    have a3 : k / q * w * (1 - (7.10184 / 51.9588844) ^ 2) ≤ 0.04292 / 1653.5 * w * (1 - (7.10184 / 51.9588844) ^ 2) := by gcongr
    have hi0 : 0 < hi := by
      have : (0:ℝ) < 7.10184 / 51.9588844 + (1 / w) * 1653.6 * 0.0254 + (0.04292 / 1653.5) * w * (1 - (7.10184 / 51.9588844) ^ 2) := by positivity
      nlinarith
    have a4 : 0.999999 * hi ≤ hi * pistonpowerfactor d := by nlinarith
    linarith
  have k₁ := key 1250 0.2022 (by norm_num) (by norm_num) (by norm_num)
  have k₂ := key 1500 0.203 (by norm_num) (by norm_num) (by norm_num)
  have k₃ := key 1750 0.2054 (by norm_num) (by norm_num) (by norm_num)
  have np : ∀ {x y p : ℝ}, x < y → y ≤ p - 1e-8 → ¬ Prints x p 1e-8 := by
    intro x y p h1 h2
    rw [Prints, not_le, lt_abs]; right; norm_num at *; linarith
  refine ⟨r, _, _, _, hr, ?_, ⟨k₁, k₂, k₃⟩, np k₁ (by norm_num), np k₂ (by norm_num), np k₃ (by norm_num)⟩
  rw [← hc, hin.eval]
  rfl

end

end Verif.Props
