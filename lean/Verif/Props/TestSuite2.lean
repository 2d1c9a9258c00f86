import Verif.Props.TestSuite
import Verif.Props.Documented4
import Verif.Props.OswaldMach

/-
C130, continued: the arrays of thrust to weight ratios recorded in tests/t_constraintanalysis.py for the climb and the turn of the
business jet.
-/

namespace Verif.Props
open Verif Verif.Atmos Verif.Units Verif.Aircraft

noncomputable section

/-- The wing of the business jet of the tests (tests/t_constraintanalysis.py:21), with the defaults of the constructor. -/
structure JetWing (c : Concept) : Prop where
  ar : pyNum c.aspectratio = 7.3
  a0 : pyNum c.a_0i = 2 * Real.pi
  le : pyNum c.sweep_le_deg = 10
  qc : pyNum c.sweep_25_deg = 180 / 7
  mt : pyNum c.sweep_mt_deg = 8
  taper : pyNum c.roottaperratio = 0.45 * Real.exp (-0.0375 * (180 / 7))

theorem JetWing.lerad {c : Concept} (h : JetWing c) : c.sweep_le_rad = Real.pi / 18 := by
  rw [Concept.sweep_le_rad, h.le, deg2rad]; ring
theorem JetWing.qcrad {c : Concept} (h : JetWing c) : c.sweep_25_rad = Real.pi / 7 := by
  rw [Concept.sweep_25_rad, h.qc, deg2rad]; ring
theorem JetWing.mtrad {c : Concept} (h : JetWing c) : c.sweep_mt_rad = 2 * Real.pi / 45 := by
  rw [Concept.sweep_mt_rad, h.mt, deg2rad]; ring

theorem JetWing.wing {c : Concept} (h : JetWing c) : Wing c := by
  have hp := Real.pi_pos
  refine ⟨by rw [h.ar]; norm_num, by rw [h.a0]; positivity, ?_, ?_, ?_⟩
  · rw [h.lerad, abs_of_pos (by positivity)]; linarith
  · rw [h.qcrad, abs_of_pos (by positivity)]; linarith
  · rw [h.lerad, h.qcrad, show 2 * (Real.pi / 7) - Real.pi / 18 = 29 * Real.pi / 126 by ring, abs_of_pos (by positivity)]; linarith

theorem JetWing.cos {c : Concept} (h : JetWing c) : 0.9847 ≤ Real.cos c.sweep_le_rad := by
  have h1 := Real.pi_pos
  have h2 := Real.pi_lt_d4
  rw [h.lerad]; apply doc_cos; norm_num at h2 ⊢; nlinarith

theorem JetWing.e2 {c : Concept} (h : JetWing c) : 0 < oswaldspaneff2 c ∧ oswaldspaneff2 c ≤ 0.856 := by
  have hp := Real.pi_gt_d4
  have hp2 := Real.pi_lt_d4
  have ht : 0.1396 ≤ Real.tan (2 * Real.pi / 45) := by
    have := tan_ge (u := 2 * Real.pi / 45) (by positivity) (by norm_num at hp2; linarith)
    norm_num at hp ⊢; linarith
  have hs : 7.637 ≤ √(4 + 7.3 ^ 2 * (1 + Real.tan (2 * Real.pi / 45) ^ 2)) := by
    apply Real.le_sqrt_of_sq_le
    have : (0.1396:ℝ) ^ 2 ≤ Real.tan (2 * Real.pi / 45) ^ 2 := by gcongr
    norm_num at this ⊢; linarith
  rw [oswaldspaneff2, h.mtrad, h.ar]
  generalize √(4 + 7.3 ^ 2 * (1 + Real.tan (2 * Real.pi / 45) ^ 2)) = x at *
  norm_num at hs
  have : 0 < 2 - 7.3 + x := by norm_num; linarith
  refine ⟨by positivity, ?_⟩
  rw [div_le_iff₀ this]
  norm_num; linarith

theorem JetWing.e4 {c : Concept} (h : JetWing c) (m : ℝ) : 0 < oswaldspaneff4 c (some m) ∧ oswaldspaneff4 c (some m) ≤ 0.817 := by
  have hh : hoernerfactor (pyNum c.roottaperratio) (pyNum c.sweep_25_deg) =
      0.0524 * 0.357 ^ 4 - 0.15 * 0.357 ^ 3 + 0.1659 * 0.357 ^ 2 - 0.0706 * 0.357 + 0.0119 := by
    rw [h.taper, h.qc, hoernerfactor]
    rw [show 0.45 * Real.exp (-0.0375 * (180 / 7)) - (-0.357 + 0.45 * Real.exp (-0.0375 * (180 / 7))) = 0.357 by ring]
  have hk : keMach m ≤ 1 := by
    rcases le_total m 0.3 with hm | hm
    · rw [ke_slow m hm]
    · have := ke_antitone hm; rwa [ke_slow 0.3 le_rfl] at this
  have e : oswaldspaneff4 c (some m) = max 0.001 (rawE c * keMach m) := e4_eq c m
  have hr : 0 ≤ rawE c ∧ rawE c ≤ 0.817 := by
    unfold rawE
    rw [hh, h.ar]
    constructor <;> norm_num
  rw [e]
  constructor
  · exact lt_of_lt_of_le (by norm_num) (le_max_left _ _)
  · apply max_le (by norm_num)
    calc rawE c * keMach m ≤ rawE c * 1 := mul_le_mul_of_nonneg_left hk hr.1
      _ ≤ 0.817 := by rw [mul_one]; exact hr.2

theorem JetWing.oswald {c : Concept} (h : JetWing c) {m k : ℝ}
    (hk : induceddragfact c (some 24) (some (min m 0.6)) = .ok k) : 0.0521 ≤ k := by
  have hl : oswaldlist c (some 24) (some (min m 0.6)) = .ok [oswaldspaneff2 c, oswaldspaneff4 c (some (min m 0.6))] := by
    unfold oswaldlist
    simp
  have e : induceddragfact c (some 24) (some (min m 0.6)) = .ok (1 / (Real.pi * pyNum c.aspectratio *
      ((oswaldspaneff2 c + oswaldspaneff4 c (some (min m 0.6))) / 2))) := by
    unfold induceddragfact
    rw [hl, bind_ok]
    simp
    rfl
  rw [e] at hk
  have hk := Except.ok.inj hk
  obtain ⟨f2, g2⟩ := h.e2
  obtain ⟨f4, g4⟩ := h.e4 (min m 0.6)
  rw [← hk, h.ar]
  have hp := Real.pi_lt_d4
  have hp0 := Real.pi_pos
  generalize oswaldspaneff2 c = x at *
  generalize oswaldspaneff4 c (some (min m 0.6)) = y at *
  norm_num at g2 g4 hp
  have u : (x + y) / 2 ≤ 0.8365 := by norm_num; linarith
  have : Real.pi * 7.3 * ((x + y) / 2) ≤ 3.1416 * 7.3 * 0.8365 := by gcongr; norm_num; exact hp.le
  calc (0.0521:ℝ) ≤ 1 / (3.1416 * 7.3 * 0.8365) := by norm_num
    _ ≤ 1 / (Real.pi * 7.3 * ((x + y) / 2)) := one_div_le_one_div_of_le (by positivity) this

theorem JetWing.slope (X : Ext) {c : Concept} (h : JetWing c) {m ls : ℝ} (h0 : 0 ≤ m) (h1 : m < 0.6)
    (hl : liftslope_prad X c (some m) = .ok ls) : √(1 - m ^ 2) / (2 * Real.pi) ≤ 1 / ls := by
  have hm : m < 1 := by norm_num at h1; linarith
  obtain ⟨a, ha, a0, a1⟩ := C72_subsonic h.wing h0 hm
  obtain ⟨sub, tr, h2, -, h3⟩ := C71_estimates X c (some m)
  rw [h3] at hl
  have h2' : a_subsonic c m = .ok sub := h2
  rw [ha] at h2'
  have h2' := Except.ok.inj h2'
  have : liftslopeblend m sub (a_supersonic c m) tr = ls := by cases hl; rfl
  unfold liftslopeblend at this
  rw [if_pos h1] at this
  rw [← this, ← h2']
  rw [h.a0] at a1
  have := one_div_le_one_div_of_le a0 a1
  rwa [one_div_div] at this

/-- The cruise of the business jet. -/
structure JetCruise (c : Concept) : Prop where
  atm : c.designatm = .isa 0
  speed : c.cruisespeed_ktas = some 445
  alt : c.cruisealt_m = some 15000
  frac : pyNum c.cruise_weight_fraction = 0.85

theorem jet_cruise_dens : 0.1936731 ≤ isadens 0 15000 ∧ isadens 0 15000 ≤ 0.1936732 := by
  have e : isadens 0 15000 = 2.06214 * Real.exp (-2.3653278) := by
    unfold isadens isadens0
    rw [if_neg (by norm_num [Level1]), if_pos (by norm_num [Level2]), zero_div, add_zero, div_one, N2, M2]
    norm_num
  rw [e]
  have := TestNum.exp_15000
  generalize Real.exp (-2.3653278) = x at *
  norm_num at *; constructor <;> linarith [this.1, this.2]

theorem JetCruise.press {c : Concept} (h : JetCruise c) {vc hc qc : ℝ} (h1 : c.cruisespeed_ktas = some vc) (h2 : c.cruisealt_m = some hc)
    (h3 : Atmos.dynamicpressure_pa c.designatm (kts2mps vc) hc = .ok qc) : 5074.9 ≤ qc ∧ qc ≤ 5075.1 := by
  rw [h.speed] at h1; rw [h.alt] at h2
  cases h1; cases h2
  have hd : dens1 c.designatm 15000 = .ok (isadens 0 15000) := by rw [h.atm]; exact isa_dens1 0 15000 (by norm_num)
  have e : qc = 0.5 * isadens 0 15000 * kts2mps 445 ^ 2 := by
    unfold dynamicpressure_pa at h3
    rw [hd] at h3
    cases h3; rfl
  have ek : kts2mps 445 = 228.927758 := by norm_num [kts2mps]
  obtain ⟨d1, d2⟩ := jet_cruise_dens
  rw [e, ek]
  constructor <;> norm_num at * <;> linarith

/-- What is needed of the induced drag factor. -/
theorem JetWing.drag (X : Ext) {c : Concept} (h : JetWing c) (hc : JetCruise c) {m : ℝ} {K : ℝ → ℝ → ℝ} (h0 : 0 ≤ m) (h1 : m < 0.6)
    (hK : KFun X c m K) : ∃ qc, (5074.9 ≤ qc ∧ qc ≤ 5075.1) ∧ ∀ w cl, ∃ s t ko k0, 0.0521 ≤ ko ∧ √(1 - m ^ 2) / (2 * Real.pi) ≤ k0 ∧
      0 ≤ t ∧ t ^ 5 = 1 - m * Real.cos c.sweep_le_rad ∧ SuctionPart (w * 0.85 / qc) (cl - w * 0.85 / qc) s ∧
      (0.8 ≤ w * 0.85 / qc → s = y_suction (cl - w * 0.85 / qc) 0.8 5.77 1 (-1.29)) ∧
      K w cl = t * ko + (1 - t) * (s * (1 / (Real.pi * 7.3)) + (1 - s) * k0) := by
  have hcos := h.cos
  have hcos0 : 0 < Real.cos c.sweep_le_rad := lt_of_lt_of_le (by norm_num) hcos
  obtain ⟨ko, k0, k1, clc, g1, g2, g3⟩ := hK
  obtain ⟨ls, lss, a1, a2, a3, rfl, a4⟩ := kFactors_spec g1 hcos0
  obtain ⟨qc, hq, hcl⟩ : ∃ qc, (5074.9 ≤ qc ∧ qc ≤ 5075.1) ∧ ∀ w, clc w = w * 0.85 / qc := by
    rcases g3 with ⟨g | g, -⟩ | ⟨vc, _, qc, e1, e2, e3, g⟩
    · rw [hc.speed] at g; cases g
    · rw [hc.alt] at g; cases g
    · exact ⟨qc, hc.press e1 e2 e3, fun w => by rw [g, hc.frac]⟩
  refine ⟨qc, hq, fun w cl => ?_⟩
  have hpos : 0 < machstar_le c := by unfold machstar_le; positivity
  obtain ⟨s, t, ⟨t0, -, t2, -⟩, sp, -, es, e⟩ := kBlend_spec ko (1 / ls) k1 (machstar_le c) m (cl - w * 0.85 / qc) (w * 0.85 / qc) hpos
  have hko := h.oswald a1
  have hls := h.slope X h0 h1 a2
  have hk1 := a4.1 (h1.trans (by norm_num))
  rw [h.ar] at hk1
  have ems : m / machstar_le c = m * Real.cos c.sweep_le_rad := by unfold machstar_le; field_simp
  have c1' := Real.cos_le_one c.sweep_le_rad
  have mle : m * Real.cos c.sweep_le_rad ≤ 0.6 * 1 := by gcongr
  have ht5 := t2 h0 (by
    have : m / machstar_le c ≤ 1 := by rw [ems]; norm_num at *; linarith
    rwa [div_le_one hpos] at this)
  rw [ems] at ht5
  refine ⟨s, t, ko, 1 / ls, hko, hls, t0, ht5, sp, fun hw => ?_, ?_⟩
  · rw [es, (cruiseWeight _).2.2.2.1 hw]; ring
  · rw [g2, hcl, e, hk1]

theorem jet_t {m q t : ℝ} (h0 : 0 ≤ m) (hq : 0 ≤ q) (t0 : 0 ≤ t) (h : t ^ 5 = 1 - m * q) : t ≤ 1 := by
  by_contra hc
  have := one_lt_pow₀ (not_le.mp hc) (n := 5) (by norm_num)
  have : 0 ≤ m * q := by positivity
  linarith

/-- The induced drag factor is positive in the range of the tests. -/
theorem jet_pos {s t ko k0 k1 : ℝ} (hko : 0 < ko) (hk0 : 0 ≤ k0) (hk1 : 0 ≤ k1) (t0 : 0 ≤ t) (t1 : t ≤ 1) (tp : t ≠ 0) (s0 : 0 ≤ s) (s1 : s ≤ 1) :
    0 < t * ko + (1 - t) * (s * k1 + (1 - s) * k0) := by
  have a : 0 < t := lt_of_le_of_ne t0 (Ne.symm tp)
  have b : 0 ≤ 1 - t := by linarith
  have d : 0 ≤ 1 - s := by linarith
  positivity

/-- A lower bound of the induced drag factor. -/
theorem jet_low {s t ko k0 S T κ β : ℝ} (hko : 0.0521 ≤ ko) (hk0 : κ ≤ k0) (t0 : 0 ≤ t) (t1 : t ≤ 1) (tT : t ≤ T) (s0 : 0 ≤ s) (sS : s ≤ S) (s1 : S ≤ 1)
    (hκ : 0.0436 ≤ κ) (h1 : 0.0521 ≤ β) (h2 : β ≤ S * 0.0436 + (1 - S) * κ) :
    T * 0.0521 + (1 - T) * β ≤ t * ko + (1 - t) * (s * (1 / (Real.pi * 7.3)) + (1 - s) * k0) := by
  have hp : 0.0436 ≤ 1 / (Real.pi * 7.3) := by
    have := Real.pi_lt_d4
    rw [le_div_iff₀ (by positivity)]
    norm_num at *; linarith
  have a1 := mul_le_mul_of_nonneg_left hp s0
  have a2 := mul_le_mul_of_nonneg_left hk0 (by linarith : 0 ≤ 1 - s)
  have a3 : S * 0.0436 + (1 - S) * κ ≤ s * 0.0436 + (1 - s) * κ := by nlinarith
  have a4 : β ≤ s * (1 / (Real.pi * 7.3)) + (1 - s) * k0 := by linarith
  have a5 := mul_le_mul_of_nonneg_left a4 (by linarith : 0 ≤ 1 - t)
  have a6 := mul_le_mul_of_nonneg_left hko t0
  nlinarith

/-- The thrust correction of the business jet. -/
theorem testjet_corr (X : Ext) {b dd p : Dict} {a : Option Atmos.Atm} {r : Built} (hb : construct b dd p a (.str "jet") = .ok r)
    (ha : r.concept.designatm = .isa 0) (hbp : r.concept.bpr = some 3.9) (ht : r.concept.throttle_r = some 1.05) {alt T v : ℝ}
    (h5 : alt ≤ 50000) (hT : isatemp 0 alt = T) (T0 : 0 < T) (T1 : T ≤ 288.15) (hm : v ^ 2 / (1.4 * 287.05287 * T) * 0.2005 ≤ 0.05) :
    CorrAt X r.concept v alt (isapress alt / 101325 * (1 + v ^ 2 / (1.4 * 287.05287 * T) * 0.2005) ^ (1.401 / 0.401 : ℝ)) 1 := by
  have hc := isa_vsound 0 alt h5 (by rw [hT]; exact T0.le)
  have hmm := (C18_ratio (.isa 0) alt _ hc).1 v
  have hs : Selects (pyNum r.concept.bpr) (.str "jet") .lowbpr := by
    rw [hbp]
    exact .name _ _ (.lowbpr (by norm_num [pyNum]) (by norm_num [pyNum]))
  have k := C38_correction hb X (.scalar v) alt _ _ _ _ (by rw [ha]; exact hmm)
    (by rw [ha]; exact isa_temp1c 0 alt h5) (by rw [ha]; exact isa_press1 0 alt h5)
    (by rw [ha]; exact isa_dens1 0 alt h5) _ hs
  obtain ⟨M, hM⟩ : ∃ M, M = v / √(1.4 * 287.05287 * isatemp 0 alt) := ⟨_, rfl⟩
  have m2 : M ^ 2 = v ^ 2 / (1.4 * 287.05287 * T) := by
    rw [hM, div_pow, hT, Real.sq_sqrt (by positivity)]
  have th : tempratio (isatemp 0 alt - 273.15) M ≤ 1.05 := by
    rw [hT, tempratio, c2k, c2k, GAMMA_DRY_AIR]
    rw [← m2] at hm
    have e1 : 1 + M ^ 2 * (1.401 - 1) / 2 = 1 + M ^ 2 * 0.2005 := by norm_num; ring
    have e2 : (T - 273.15 + 273.15) / (15 + 273.15) ≤ 1 := by rw [div_le_one (by norm_num)]; norm_num at *; linarith
    have e3 : 0 ≤ (T - 273.15 + 273.15) / (15 + 273.15) := by
      apply div_nonneg <;> norm_num; exact T0.le
    have e4 : 0 ≤ M ^ 2 * 0.2005 := by positivity
    rw [e1]
    calc _ ≤ 1 * (1 + M ^ 2 * 0.2005) := by gcongr
      _ ≤ 1.05 := by norm_num at *; linarith
  have e : turbofanthrustfactor (isatemp 0 alt - 273.15) (isapress alt) M (pyNum (some 1.05)) "lowbpr" = pressratio (isapress alt) M := by
    unfold turbofanthrustfactor
    rw [if_neg (by decide), if_pos rfl, if_pos (by simpa [pyNum] using th)]
  have x1 : 1 + M ^ 2 * (1.401 - 1) / 2 = 1 + M ^ 2 * 0.2005 := by norm_num; ring
  have x2 : (1.401 / (1.401 - 1) : ℝ) = 1.401 / 0.401 := by norm_num
  refine ⟨_, _, k, ?_, rfl⟩
  show [turbofanthrustfactor (isatemp 0 alt - 273.15) (isapress alt) (v / √(1.4 * 287.05287 * isatemp 0 alt)) (pyNum r.concept.throttle_r) "lowbpr"] = _
  rw [← hM, ht, e, pressratio, GAMMA_DRY_AIR, ← m2, x1, x2]

theorem jet_ram {z z' x y p P F : ℝ} (z0 : 0 ≤ z) (hx : 1 + z' ≤ x) (hz : z ≤ z') (hy : x ^ (1.401 / 0.401 : ℝ) ≤ y) (p0 : 0 < p) (hp : p ≤ P)
    (h : P / 101325 * y ≤ F) : 0 < p / 101325 * (1 + z) ^ (1.401 / 0.401 : ℝ) ∧ p / 101325 * (1 + z) ^ (1.401 / 0.401 : ℝ) ≤ F := by
  have r2 : (1 + z) ^ (1.401 / 0.401 : ℝ) ≤ x ^ (1.401 / 0.401 : ℝ) := Real.rpow_le_rpow (by linarith) (by linarith) (by norm_num)
  have r4 : 0 < (1 + z) ^ (1.401 / 0.401 : ℝ) := Real.rpow_pos_of_pos (by linarith) _
  have r3 := r2.trans hy
  refine ⟨by positivity, le_trans ?_ h⟩
  have y0 : 0 ≤ y := r4.le.trans r3
  have P0 : 0 < P := p0.trans_le hp
  gcongr

/-! ### The concept -/

/-- tests/t_constraintanalysis.py:15-20 -/
def jetBrief : Dict := [("rwyelevation_m", .num 1000), ("groundrun_m", .num 1200),
  ("climbalt_m", .num 1000), ("climbspeed_kias", .num 250), ("climbrate_fpm", .num 1000),
  ("cruisealt_m", .num 15000), ("cruisespeed_ktas", .num 445), ("servceil_m", .num 16000), ("secclimbspd_kias", .num 250),
  ("stloadfactor", .num 2), ("turnalt_m", .num 5000), ("turnspeed_ktas", .num 300)]
/-- tests/t_constraintanalysis.py:21-23 -/
def jetDesign : Dict := [("aspectratio", .num 7.3), ("sweep_le_deg", .num 10), ("sweep_mt_deg", .num 8), ("bpr", .num 3.9), ("tr", .num 1.05),
  ("weight_n", .num 95000), ("weightfractions", .sub [("turn", some 1), ("climb", some 1), ("cruise", some 0.85), ("servceil", some 0.85)])]
/-- tests/t_constraintanalysis.py:24-25 -/
def jetPerf : Dict := [("CDTO", .num 0.04), ("CLTO", .num 0.9), ("CLmaxTO", .num 1.6), ("CLmaxclean", .num 1.42), ("mu_R", .num 0.02),
  ("CDminclean", .num 0.02)]

/-- What the theorems use of the business jet. -/
structure JetConcept (c : Concept) : Prop where
  wing : JetWing c
  cruise : JetCruise c
  bpr : c.bpr = some 3.9
  tr : c.throttle_r = some 1.05
  climbalt : c.climbalt_m = some 1000
  climbspeed : c.climbspeed_kias = some 250
  climbrate : c.climbrate_fpm = some 1000
  turnalt : c.turnalt_m = some 5000
  turnspeed : c.turnspeed_ktas = some 300
  load : c.stloadfactor = some 2
  cd : pyNum c.cdminclean = 0.02
  cl : pyNum c.clmaxclean = 1.42
  climbfrac : pyNum c.climb_weight_fraction = 1
  turnfrac : pyNum c.turn_weight_fraction = 1

theorem jet_concept : ∃ r, construct jetBrief jetDesign jetPerf none (.str "jet") = .ok r ∧ JetConcept r.concept := by
  obtain ⟨r, hr, h⟩ : ∃ r, construct jetBrief jetDesign jetPerf none (.str "jet") = .ok r ∧
      r.concept.designatm = .isa 0 ∧ r.concept.bpr = some 3.9 ∧ r.concept.throttle_r = some 1.05 ∧ r.concept.climbalt_m = some 1000 ∧
      r.concept.climbspeed_kias = some 250 ∧ r.concept.climbrate_fpm = some 1000 ∧ r.concept.turnalt_m = some 5000 ∧
      r.concept.turnspeed_ktas = some 300 ∧ r.concept.stloadfactor = some 2 ∧ r.concept.cdminclean = some 0.02 ∧
      r.concept.clmaxclean = some 1.42 ∧ r.concept.climb_weight_fraction = some 1 ∧ r.concept.turn_weight_fraction = some 1 ∧
      r.concept.cruise_weight_fraction = some 0.85 ∧ r.concept.cruisespeed_ktas = some 445 ∧ r.concept.cruisealt_m = some 15000 ∧
      r.concept.aspectratio = some 7.3 ∧ r.concept.a_0i = some (2 * Real.pi) ∧ r.concept.sweep_le_deg = some 10 ∧
      r.concept.sweep_25_deg = some (2 * 10 + 5 * 8 / 7) ∧ r.concept.sweep_mt_deg = some 8 ∧
      r.concept.roottaperratio = some (0.45 * Real.exp (-0.0375 * (2 * 10 + 5 * 8 / 7))) := by
    apply Exists.intro; constructor
    · rfl
    · exact ⟨rfl, rfl, rfl, rfl, rfl, rfl, rfl, rfl, rfl, rfl, rfl, rfl, rfl, rfl, rfl, rfl, rfl, rfl, rfl, rfl, rfl, rfl⟩
  obtain ⟨ha, hb, ht, h1, h2, h3, h4, h5, h6, h7, h8, h9, h10, h11, h12, h13, w1, w2, w3, w4, w5, w6⟩ := h
  have e : (2 * 10 + 5 * 8 / 7 : ℝ) = 180 / 7 := by norm_num
  rw [e] at w4 w6
  exact ⟨r, hr, ⟨by rw [w1]; rfl, by rw [w2]; rfl, by rw [w3]; rfl, by rw [w4]; rfl, by rw [w5]; rfl, by rw [w6]; rfl⟩,
    ⟨ha, h12, h13, by rw [h11]; rfl⟩, hb, ht, h1, h2, h3, h4, h5, h6, by rw [h7]; rfl, by rw [h8]; rfl, by rw [h9]; rfl, by rw [h10]; rfl⟩

/-- `ndarray.all()` of an array of numbers: none of them is zero. (nan is not zero: nan counts as true.) -/
def npAll (l : List (Option ℝ)) : Prop := some 0 ∉ l

/-! ### Turn -/

theorem exp_neg_le {x y : ℝ} (h0 : 0 ≤ x) (h : y ≤ x) (hy : -1 < y) : Real.exp (-x) ≤ 1 / (1 + y) := by
  rw [Real.exp_neg, ← one_div]
  apply one_div_le_one_div_of_le (by linarith)
  linarith [Real.add_one_le_exp x]

theorem jet_turn_suction {x : ℝ} (h0 : 0.424 ≤ x) (h1 : x ≤ 0.425) : y_suction x 0.8 5.77 1 (-1.29) ≤ 0.79 := by
  rw [y08_eq]
  norm_num at h0 h1
  have a1 : 1.9546 - x ≤ 1.5306 := by norm_num; linarith
  have a2 : Real.exp (-1 * (x - 0.1)) ≤ 1 / (1 + 0.324) := by
    rw [show -1 * (x - 0.1) = -(x - 0.1) by ring]
    exact exp_neg_le (by norm_num; linarith) (by norm_num; linarith) (by norm_num)
  have a3 : Real.tan (0.1 * (x + 0.74)) ≤ 0.1165 / (1 - 0.1165 ^ 2 / 2) := by
    have := tan_le_quot (u := 0.1 * (x + 0.74)) (by norm_num; linarith) (by norm_num; linarith)
    refine this.trans ?_
    have u : 0.1 * (x + 0.74) ≤ 0.1165 := by norm_num; linarith
    have u0 : 0 ≤ 0.1 * (x + 0.74) := by norm_num; linarith
    generalize 0.1 * (x + 0.74) = y at *
    gcongr
  have a4 : 0 ≤ Real.tan (0.1 * (x + 0.74)) := by
    have := tan_ge (u := 0.1 * (x + 0.74)) (by norm_num; linarith) (by norm_num; linarith)
    refine le_trans ?_ this
    norm_num; linarith
  have b1 : (0:ℝ) ≤ Real.exp (-1 * (x - 0.1)) := by positivity
  generalize Real.exp (-1 * (x - 0.1)) = e at *
  generalize Real.tan (0.1 * (x + 0.74)) = t at *
  calc 5.77 * (1.9546 - x) * e * t ≤ 5.77 * 1.5306 * (1 / (1 + 0.324)) * (0.1165 / (1 - 0.1165 ^ 2 / 2)) := by gcongr
    _ ≤ 0.79 := by norm_num

theorem jet_climb_suction {x : ℝ} (h0 : -0.482 ≤ x) (h1 : x ≤ -0.481) : y_suction x 0.8 5.77 1 (-1.29) ≤ 0.7 := by
  rw [y08_eq]
  norm_num at h0 h1
  have a1 : 1.9546 - x ≤ 2.4366 := by norm_num; linarith
  have a2 : Real.exp (-1 * (x - 0.1)) ≤ 2.7182818286 * (1 / (1 + 0.418)) := by
    rw [show -1 * (x - 0.1) = 1 + -(1 + (x - 0.1)) by ring, Real.exp_add]
    have := exp_neg_le (x := 1 + (x - 0.1)) (y := 0.418) (by norm_num; linarith) (by norm_num; linarith) (by norm_num)
    have h2 := Real.exp_one_lt_d9.le
    gcongr
  have a3 : Real.tan (0.1 * (x + 0.74)) ≤ 0.0259 / (1 - 0.0259 ^ 2 / 2) := by
    have := tan_le_quot (u := 0.1 * (x + 0.74)) (by norm_num; linarith) (by norm_num; linarith)
    refine this.trans ?_
    have u : 0.1 * (x + 0.74) ≤ 0.0259 := by norm_num; linarith
    have u0 : 0 ≤ 0.1 * (x + 0.74) := by norm_num; linarith
    generalize 0.1 * (x + 0.74) = y at *
    gcongr
  have a4 : 0 ≤ Real.tan (0.1 * (x + 0.74)) := by
    have := tan_ge (u := 0.1 * (x + 0.74)) (by norm_num; linarith) (by norm_num; linarith)
    refine le_trans ?_ this
    norm_num; linarith
  have b1 : (0:ℝ) ≤ Real.exp (-1 * (x - 0.1)) := by positivity
  generalize Real.exp (-1 * (x - 0.1)) = e at *
  generalize Real.tan (0.1 * (x + 0.74)) = t at *
  calc 5.77 * (1.9546 - x) * e * t ≤ 5.77 * 2.4366 * (2.7182818286 * (1 / (1 + 0.418))) * (0.0259 / (1 - 0.0259 ^ 2 / 2)) := by gcongr
    _ ≤ 0.7 := by norm_num

theorem jet_turn_q : ∃ q, 0.5 * isadens 0 5000 * kts2mps 300 ^ 2 = q ∧ 8766.6837515 ≤ q ∧ q ≤ 8766.6837517 := by
  refine ⟨_, rfl, ?_⟩
  have e : isadens 0 5000 = 0.93054293 ^ (4.2558797 : ℝ) := doc_dens (by norm_num) (by norm_num)
  have ek : kts2mps 300 = 154.33332 := by norm_num [kts2mps]
  rw [e, ek]
  have := TestNum.dens_5000
  generalize (0.93054293:ℝ) ^ (4.2558797 : ℝ) = x at *
  obtain ⟨h1, h2⟩ := this
  refine ⟨by norm_num at *; linarith, by norm_num at *; linarith⟩

/-- The induced drag factor in the turn at the last wing loading, and its sign at all of them. -/
theorem jet_turn_k (X : Ext) {c : Concept} (h : JetConcept c) {m q : ℝ} {K : ℝ → ℝ → ℝ} (m0 : 0.4814 ≤ m) (m1 : m ≤ 0.4815)
    (q1 : 8766.6837515 ≤ q) (q2 : q ≤ 8766.6837517) (hK : KFun X c m K) :
    (∀ w, 2000 ≤ w → w ≤ 7000 → 0 < K w (2 * w / q)) ∧ 0.0534 ≤ K 7000 (2 * 7000 / q) := by
  have hm0 : 0 ≤ m := le_trans (by norm_num) m0
  obtain ⟨qc, ⟨c1, c2⟩, hk⟩ := h.wing.drag X h.cruise hm0 (m1.trans_lt (by norm_num)) hK
  have hcos := h.wing.cos
  have hcos1 := Real.cos_le_one c.sweep_le_rad
  generalize Real.cos c.sweep_le_rad = co at *
  have co0 : 0 ≤ co := le_trans (by norm_num) hcos
  have q0 : 0 < q := lt_of_lt_of_le (by norm_num) q1
  have qc0 : 0 < qc := lt_of_lt_of_le (by norm_num) c1
  have b1 : 2.2813e-4 ≤ 2 / q := by rw [le_div_iff₀ q0]; norm_num at *; linarith
  have b2 : 2 / q ≤ 2.2814e-4 := by rw [div_le_iff₀ q0]; norm_num at *; linarith
  have b3 : 1.6748e-4 ≤ 0.85 / qc := by rw [le_div_iff₀ qc0]; norm_num at *; linarith
  have b4 : 0.85 / qc ≤ 1.67495e-4 := by rw [div_le_iff₀ qc0]; norm_num at *; linarith
  have hx : ∀ w, 2 * w / q - w * 0.85 / qc = w * (2 / q) - w * (0.85 / qc) := fun w => by ring
  have hy : ∀ w, w * 0.85 / qc = w * (0.85 / qc) := fun w => by ring
  have hsq : 0.8764 ≤ √(1 - m ^ 2) := by
    apply Real.le_sqrt_of_sq_le
    have : m ^ 2 ≤ 0.4815 ^ 2 := by gcongr
    norm_num at this ⊢; linarith
  have hp := Real.pi_lt_d4
  have hp0 := Real.pi_pos
  have hκ : 0.1394 ≤ √(1 - m ^ 2) / (2 * Real.pi) := by
    rw [le_div_iff₀ (by positivity)]
    generalize √(1 - m ^ 2) = y at *
    norm_num at *; linarith
  generalize √(1 - m ^ 2) / (2 * Real.pi) = κ at *
  generalize 2 / q = u at *
  generalize 0.85 / qc = v at *
  norm_num at b1 b2 b3 b4
  have tne : ∀ t : ℝ, t ^ 5 = 1 - m * co → t ≠ 0 := by
    rintro t ht rfl
    have : m * co ≤ 0.4815 * 1 := by gcongr
    norm_num at *; linarith
  constructor
  · intro w w1 w2
    obtain ⟨s, t, ko, k0, f1, f2, f3, f4, ⟨-, f5, -⟩, -, e⟩ := hk w (2 * w / q)
    rw [hx] at f5
    have x1 : 0 ≤ w * u - w * v := by nlinarith
    have x2 : w * u - w * v ≤ 1 := by nlinarith
    obtain ⟨s0, s1⟩ := f5 (le_trans (by norm_num) x1) x2
    rw [e]
    refine jet_pos (lt_of_lt_of_le (by norm_num) f1) (le_trans (le_trans (by norm_num) hκ) f2) (by positivity) f3 (jet_t hm0 co0 f3 f4)
      (tne t f4) s0 (s1.trans (by norm_num))
  · obtain ⟨s, t, ko, k0, f1, f2, f3, f4, ⟨-, f5, -⟩, f6, e⟩ := hk 7000 (2 * 7000 / q)
    rw [hx] at f5 f6
    rw [hy] at f6
    have x1 : 0.424 ≤ 7000 * u - 7000 * v := by norm_num; linarith
    have x2 : 7000 * u - 7000 * v ≤ 0.425 := by norm_num; linarith
    obtain ⟨s0, s1⟩ := f5 (le_trans (by norm_num) x1) (x2.trans (by norm_num))
    have f6 := f6 (by norm_num; linarith)
    have s2 : s ≤ 0.79 := by rw [f6]; exact jet_turn_suction x1 x2
    have t1 := jet_t hm0 co0 f3 f4
    have t2 : t ≤ 0.8798 := by
      by_contra hc
      have hc := not_le.mp hc
      have : (0.8798:ℝ) ^ 5 < t ^ 5 := by gcongr
      have : 0.4814 * 0.9847 ≤ m * co := by gcongr
      norm_num at *; linarith
    rw [e]
    refine le_trans ?_ (jet_low (S := 0.79) (T := 0.8798) (κ := 0.1394) (β := 0.0637) f1 (hκ.trans f2) f3 t1 t2 s0 s2 (by norm_num) (by norm_num) (by norm_num) (by norm_num))
    norm_num

/-- tests/t_constraintanalysis.py:237-246: the lift coefficients recorded for the turn of the business jet are those of the code, and only the
last wing loading is infeasible, as recorded; the recorded thrust to weight ratio at that wing loading is not that of the code. The
assertions do not notice, because they compare what `ndarray.all` makes of the arrays: whether an entry is zero. -/
theorem C130_turn_violated (X : Ext) : ∃ r t₁ t₂ t₃ t₄ t₅ t₆ l₁ l₂ l₃ l₄ l₅ l₆, construct jetBrief jetDesign jetPerf none (.str "jet") = .ok r ∧
    twrequired_trn X r.concept (.array [2000, 3000, 4000, 5000, 6000, 7000]) true =
      .ok (.array [t₁, t₂, t₃, t₄, t₅, t₆], .array [l₁, l₂, l₃, l₄, l₅, l₆], .array [some t₁, some t₂, some t₃, some t₄, some t₅, none]) ∧
    (Prints l₁ 0.45627288 1e-8 ∧ Prints l₂ 0.68440931 1e-8 ∧ Prints l₃ 0.91254575 1e-8 ∧ Prints l₄ 1.14068219 1e-8 ∧
      Prints l₅ 1.36881863 1e-8 ∧ Prints l₆ 1.59695506 1e-8) ∧
    (npAll [some t₁, some t₂, some t₃, some t₄, some t₅, some t₆] ↔
      npAll [some 0.21826547, some 0.21048143, some 0.22608074, some 0.25103339, some 0.28066271, some 0.31296442]) ∧
    (npAll [some t₁, some t₂, some t₃, some t₄, some t₅, none] ↔
      npAll [some 0.21826547, some 0.21048143, some 0.22608074, some 0.25103339, some 0.28066271, none]) ∧
    0.313 < t₆ ∧ ¬ Prints t₆ 0.31296442 1e-8 := by
  obtain ⟨r, hr, h⟩ := jet_concept
  have hcorr := fun v hm => testjet_corr X hr h.cruise.atm h.bpr h.tr (alt := 5000) (T := 255.65) (v := v) (by norm_num)
    (by norm_num [isatemp, Level1, A1, B1]) (by norm_num) (by norm_num) hm
  obtain ⟨c, hc⟩ : ∃ c, c = r.concept := ⟨_, rfl⟩
  rw [← hc] at h hcorr
  have e0 : pyNum c.turnalt_m = 5000 := by rw [h.turnalt]; rfl
  have ef := h.climbfrac
  have eg := h.turnfrac
  have hd : dens1 c.designatm 5000 = .ok (isadens 0 5000) := by rw [h.cruise.atm]; exact isa_dens1 0 5000 (by norm_num)
  have eT : isatemp 0 5000 = 255.65 := by norm_num [isatemp, Level1, A1, B1]
  have hv : vsound_mps c.designatm (.scalar 5000) = .ok (.scalar (√(1.4 * 287.05287 * 255.65))) := by
    rw [h.cruise.atm, ← eT]; exact isa_vsound 0 5000 (by norm_num) (by rw [eT]; norm_num)
  have v1 : 320.529 ≤ √(1.4 * 287.05287 * 255.65) := Real.le_sqrt_of_sq_le (by norm_num)
  have v2 : √(1.4 * 287.05287 * 255.65) ≤ 320.53 := doc_sqrt_le (by norm_num) (by norm_num)
  generalize √(1.4 * 287.05287 * 255.65) = vs at hv v1 v2
  have vs0 : 0 < vs := lt_of_lt_of_le (by norm_num) v1
  have ek : kts2mps 300 = 154.33332 := by norm_num [kts2mps]
  have hm := mach1_of (v := kts2mps 300) hv
  have m0 : 0.4814 ≤ kts2mps 300 / vs := by
    rw [ek, le_div_iff₀ vs0]; norm_num at v2 ⊢; linarith
  have m1 : kts2mps 300 / vs ≤ 0.4815 := by
    rw [ek, div_le_iff₀ vs0]; norm_num at v1 ⊢; linarith
  obtain ⟨K, hK⟩ := KFun.exists X c (kts2mps 300 / vs) (by
    intro alt ha; rw [h.cruise.alt] at ha; cases ha; rw [h.cruise.atm]; exact isa_env _ _ (by norm_num) (by norm_num))
  obtain ⟨q, hq, q1, q2⟩ := jet_turn_q
  obtain ⟨f, hf⟩ : ∃ f, f = isapress 5000 / 101325 * (1 + kts2mps 300 ^ 2 / (1.4 * 287.05287 * 255.65) * 0.2005) ^ (1.401 / 0.401 : ℝ) := ⟨_, rfl⟩
  have hram : kts2mps 300 ^ 2 / (1.4 * 287.05287 * 255.65) * 0.2005 ≤ 0.0465 := by rw [ek]; norm_num
  have hf2 : 0 < f ∧ f ≤ 0.6249 := by
    have e : isapress 5000 = 7.95115755 ^ (5.2558797 : ℝ) := doc_press (by norm_num) (by norm_num)
    obtain ⟨p1, p2⟩ := TestNum.press_5000
    rw [← e] at p1 p2
    have r0 : 0 ≤ kts2mps 300 ^ 2 / (1.4 * 287.05287 * 255.65) * 0.2005 := by positivity
    rw [hf]
    exact jet_ram r0 (by norm_num) hram TestNum.ram_turn.2 (lt_of_lt_of_le (by norm_num) p1) p2 (by norm_num)
  obtain ⟨f0, f1⟩ := hf2
  have hin : TurnIn X c 300 2 f q (kts2mps 300 / vs) K := by
    refine ⟨h.turnspeed, h.load, ⟨1, ?_⟩, ?_, by rw [e0]; exact hm, hK⟩
    · rw [e0, hf]; exact hcorr _ (hram.trans (by norm_num))
    · rw [e0, ← hq]; unfold dynamicpressure_pa; rw [hd]; rfl
  have q0 : 0 < q := lt_of_lt_of_le (by norm_num) q1
  have cl : ∀ w, turnCl c 2 q w = 2 * w / q := by
    intro w; rw [turnCl, ef, eg]; ring
  have pr : ∀ {w p : ℝ}, 0 ≤ w → p - 1e-8 / 2 ≤ 2 * w / 8766.6837517 → 2 * w / 8766.6837515 ≤ p + 1e-8 / 2 → Prints (2 * w / q) p 1e-8 := by
    intro w p hw h1 h2
    have b1 : 2 * w / 8766.6837517 ≤ 2 * w / q := by gcongr
    have b2 : 2 * w / q ≤ 2 * w / 8766.6837515 := by gcongr
    rw [Prints, abs_le]; constructor <;> linarith
  have c₁ : ∀ w, w ≤ 6000 → ¬ 2 * w / q > 1.42 := by
    intro w hw
    rw [not_lt, div_le_iff₀ q0]; norm_num at q1 ⊢; linarith
  have c₂ : 2 * 7000 / q > 1.42 := by
    rw [gt_iff_lt, lt_div_iff₀ q0]; norm_num at q2 ⊢; linarith
  obtain ⟨hpos, hlow⟩ := jet_turn_k X h m0 m1 q1 q2 hK
  have form : ∀ w, 0 < w → turnReq c true 2 f q K w = (q * (0.02 / w) + K w (2 * w / q) * 4 * w / q) / f := by
    intro w w0
    unfold turnReq sl turnPoint
    rw [cl, ef, eg, h.cd, mul_one, mul_one, mul_one, if_pos rfl]
    congr 1
    field_simp; ring
  have pos : ∀ w, 2000 ≤ w → w ≤ 7000 → turnReq c true 2 f q K w ≠ 0 := by
    intro w w1 w2
    have w0 : 0 < w := by linarith
    rw [form w w0]
    have := hpos w w1 w2
    positivity
  have key : 0.313 < turnReq c true 2 f q K 7000 := by
    rw [form 7000 (by norm_num), lt_div_iff₀ f0]
    generalize K 7000 (2 * 7000 / q) = k at hlow ⊢
    have a1 : 8766.6837515 * (0.02 / 7000) ≤ q * (0.02 / 7000) := by gcongr
    have a2 : 0.0534 * 4 * 7000 / 8766.6837517 ≤ k * 4 * 7000 / q := by gcongr
    generalize q * (0.02 / 7000) = z at *
    generalize k * 4 * 7000 / q = y at *
    norm_num at a1 a2 f1 ⊢; linarith
  refine ⟨r, turnReq c true 2 f q K 2000, turnReq c true 2 f q K 3000, turnReq c true 2 f q K 4000, turnReq c true 2 f q K 5000,
    turnReq c true 2 f q K 6000, turnReq c true 2 f q K 7000, _, _, _, _, _, _, hr, ?_, ⟨pr (w := 2000) (by norm_num) (by norm_num) (by norm_num), pr (w := 3000) (by norm_num) (by norm_num) (by norm_num),
    pr (w := 4000) (by norm_num) (by norm_num) (by norm_num), pr (w := 5000) (by norm_num) (by norm_num) (by norm_num),
    pr (w := 6000) (by norm_num) (by norm_num) (by norm_num), pr (w := 7000) (by norm_num) (by norm_num) (by norm_num)⟩, ?_, ?_, key, ?_⟩
  · rw [← hc, hin.eval]
    have f₁ : ∀ w, w ≤ 6000 → turnFeas c true 2 f q K w = some (turnReq c true 2 f q K w) := by
      intro w hw
      rw [turnFeas, cl, h.cl, if_neg (c₁ w hw)]
    have f₃ : turnFeas c true 2 f q K 7000 = none := by
      rw [turnFeas, cl, h.cl, if_pos c₂]
    simp only [recastArray, List.map_cons, List.map_nil, f₃, cl, f₁ 2000 (by norm_num), f₁ 3000 (by norm_num), f₁ 4000 (by norm_num),
      f₁ 5000 (by norm_num), f₁ 6000 (by norm_num)]
    rfl
  · have p₁ := pos 2000 (by norm_num) (by norm_num)
    have p₂ := pos 3000 (by norm_num) (by norm_num)
    have p₃ := pos 4000 (by norm_num) (by norm_num)
    have p₄ := pos 5000 (by norm_num) (by norm_num)
    have p₅ := pos 6000 (by norm_num) (by norm_num)
    have p₆ := pos 7000 (by norm_num) (by norm_num)
    simp only [npAll, List.mem_cons, List.not_mem_nil, or_false, Option.some.injEq, p₁.symm, p₂.symm, p₃.symm, p₄.symm, p₅.symm, p₆.symm, or_self, not_false_eq_true, true_iff]
    norm_num
  · have p₁ := pos 2000 (by norm_num) (by norm_num)
    have p₂ := pos 3000 (by norm_num) (by norm_num)
    have p₃ := pos 4000 (by norm_num) (by norm_num)
    have p₄ := pos 5000 (by norm_num) (by norm_num)
    have p₅ := pos 6000 (by norm_num) (by norm_num)
    simp only [npAll, List.mem_cons, List.not_mem_nil, or_false, Option.some.injEq, p₁.symm, p₂.symm, p₃.symm, p₄.symm, p₅.symm, reduceCtorEq, or_self, not_false_eq_true, true_iff]
    norm_num
  · rw [Prints, not_le, lt_abs]; left
    generalize turnReq c true 2 f q K 7000 = z at key ⊢
    norm_num at key ⊢; linarith

/-! ### Climb -/

/-- The induced drag factor in the climb at the last wing loading, and its sign at all of them. -/
theorem jet_climb_k (X : Ext) {c : Concept} (h : JetConcept c) {m q : ℝ} {K : ℝ → ℝ → ℝ} (m0 : 0.4012 ≤ m) (m1 : m ≤ 0.4014)
    (q1 : 10131.2 ≤ q) (q2 : q ≤ 10131.3) (hK : KFun X c m K) :
    (∀ w, 2000 ≤ w → w ≤ 7000 → 0 < K w (w / q)) ∧ 0.0541 ≤ K 7000 (7000 / q) := by
  have hm0 : 0 ≤ m := le_trans (by norm_num) m0
  obtain ⟨qc, ⟨c1, c2⟩, hk⟩ := h.wing.drag X h.cruise hm0 (m1.trans_lt (by norm_num)) hK
  have hcos := h.wing.cos
  have hcos1 := Real.cos_le_one c.sweep_le_rad
  generalize Real.cos c.sweep_le_rad = co at *
  have co0 : 0 ≤ co := le_trans (by norm_num) hcos
  have q0 : 0 < q := lt_of_lt_of_le (by norm_num) q1
  have qc0 : 0 < qc := lt_of_lt_of_le (by norm_num) c1
  have b1 : 9.87e-5 ≤ 1 / q := by rw [le_div_iff₀ q0]; norm_num at *; linarith
  have b2 : 1 / q ≤ 9.871e-5 := by rw [div_le_iff₀ q0]; norm_num at *; linarith
  have b3 : 1.6748e-4 ≤ 0.85 / qc := by rw [le_div_iff₀ qc0]; norm_num at *; linarith
  have b4 : 0.85 / qc ≤ 1.67495e-4 := by rw [div_le_iff₀ qc0]; norm_num at *; linarith
  have hx : ∀ w, w / q - w * 0.85 / qc = w * (1 / q) - w * (0.85 / qc) := fun w => by ring
  have hy : ∀ w, w * 0.85 / qc = w * (0.85 / qc) := fun w => by ring
  have hsq : 0.9159 ≤ √(1 - m ^ 2) := by
    apply Real.le_sqrt_of_sq_le
    have : m ^ 2 ≤ 0.4014 ^ 2 := by gcongr
    norm_num at this ⊢; linarith
  have hp := Real.pi_lt_d4
  have hp0 := Real.pi_pos
  have hκ : 0.1457 ≤ √(1 - m ^ 2) / (2 * Real.pi) := by
    rw [le_div_iff₀ (by positivity)]
    generalize √(1 - m ^ 2) = y at *
    norm_num at *; linarith
  generalize √(1 - m ^ 2) / (2 * Real.pi) = κ at *
  generalize 1 / q = u at *
  generalize 0.85 / qc = v at *
  norm_num at b1 b2 b3 b4
  have tne : ∀ t : ℝ, t ^ 5 = 1 - m * co → t ≠ 0 := by
    rintro t ht rfl
    have : m * co ≤ 0.4014 * 1 := by gcongr
    norm_num at *; linarith
  constructor
  · intro w w1 w2
    obtain ⟨s, t, ko, k0, f1, f2, f3, f4, ⟨-, f5, f6⟩, -, e⟩ := hk w (w / q)
    rw [hx] at f5 f6
    rw [hy] at f6
    have sb : 0 ≤ s ∧ s ≤ 0.94 := by
      rcases le_total w 4900 with hw | hw
      · refine f5 ?_ ?_
        · norm_num; nlinarith
        · nlinarith
      · refine f6 ?_ ?_ ?_
        · norm_num; nlinarith
        · norm_num; nlinarith
        · norm_num; nlinarith
    obtain ⟨s0, s1⟩ := sb
    rw [e]
    refine jet_pos (lt_of_lt_of_le (by norm_num) f1) (le_trans (le_trans (by norm_num) hκ) f2) (by positivity) f3 (jet_t hm0 co0 f3 f4)
      (tne t f4) s0 (s1.trans (by norm_num))
  · obtain ⟨s, t, ko, k0, f1, f2, f3, f4, ⟨-, -, f5⟩, f6, e⟩ := hk 7000 (7000 / q)
    rw [hx] at f5 f6
    rw [hy] at f5 f6
    have x1 : -0.482 ≤ 7000 * u - 7000 * v := by norm_num; linarith
    have x2 : 7000 * u - 7000 * v ≤ -0.481 := by norm_num; linarith
    have cc : 0.8 ≤ 7000 * v := by norm_num; linarith
    obtain ⟨s0, s1⟩ := f5 cc (le_trans (by norm_num) x1) (x2.trans (by norm_num))
    have f6 := f6 cc
    have s2 : s ≤ 0.7 := by rw [f6]; exact jet_climb_suction x1 x2
    have t1 := jet_t hm0 co0 f3 f4
    have t2 : t ≤ 0.9045 := by
      by_contra hc
      have hc := not_le.mp hc
      have : (0.9045:ℝ) ^ 5 < t ^ 5 := by gcongr
      have : 0.4012 * 0.9847 ≤ m * co := by gcongr
      norm_num at *; linarith
    rw [e]
    refine le_trans ?_ (jet_low (S := 0.7) (T := 0.9045) (κ := 0.1457) (β := 0.0742) f1 (hκ.trans f2) f3 t1 t2 s0 s2 (by norm_num) (by norm_num) (by norm_num) (by norm_num))
    norm_num

/-- tests/t_constraintanalysis.py:205-209: the thrust to weight ratio recorded for the climb of the business jet at the last wing loading is
not that of the code; the assertion compares what `ndarray.all` makes of the arrays and does not notice. -/
theorem C130_climb_violated (X : Ext) : ∃ r t₁ t₂ t₃ t₄ t₅ t₆, construct jetBrief jetDesign jetPerf none (.str "jet") = .ok r ∧
    twrequired_clm X r.concept (.array [2000, 3000, 4000, 5000, 6000, 7000]) true = .ok (.array [t₁, t₂, t₃, t₄, t₅, t₆]) ∧
    (npAll [some t₁, some t₂, some t₃, some t₄, some t₅, some t₆] ↔
      npAll [some 0.15268568, some 0.1239213, some 0.11219318, some 0.10727957, some 0.10577321, some 0.10621385]) ∧
    0.1066 < t₆ ∧ ¬ Prints t₆ 0.10621385 1e-8 := by
  obtain ⟨r, hr, h⟩ := jet_concept
  have hcorr := fun v hm => testjet_corr X hr h.cruise.atm h.bpr h.tr (alt := 1000) (T := 281.65) (v := v) (by norm_num)
    (by norm_num [isatemp, Level1, A1, B1]) (by norm_num) (by norm_num) hm
  obtain ⟨c, hc⟩ : ∃ c, c = r.concept := ⟨_, rfl⟩
  rw [← hc] at h hcorr
  have e0 : pyNum c.climbalt_m = 1000 := by rw [h.climbalt]; rfl
  have ef := h.climbfrac
  have hd : dens1 c.designatm 1000 = .ok (isadens 0 1000) := by rw [h.cruise.atm]; exact isa_dens1 0 1000 (by norm_num)
  have hd0 : dens1 c.designatm 0 = .ok (isadens 0 0) := by rw [h.cruise.atm]; exact isa_dens1 0 0 (by norm_num)
  have dd : 1.2249998682209657 ≤ isadens 0 0 ∧ isadens 0 0 ≤ 1.2249998682209658 := by
    have e : isadens 0 0 = 1.04884 ^ (4.2558797 : ℝ) := doc_dens (by norm_num) (by norm_num)
    rw [e]; exact DocNum.dens_0
  obtain ⟨d1, d2⟩ := doc_to_dens
  obtain ⟨d3, d4⟩ := dd
  generalize isadens 0 1000 = d at hd d1 d2
  generalize isadens 0 0 = d₀ at hd0 d3 d4
  have d0 : 0 < d := lt_of_lt_of_le (by norm_num) d1
  have d00 : 0 < d₀ := lt_of_lt_of_le (by norm_num) d3
  have hdr := dratio_ok hd hd0 d0 d00
  have tas : ∀ x, Atmos.eas2tas c.designatm x 1000 = .ok (x / √(d / d₀)) := by
    intro x
    unfold Atmos.eas2tas
    rw [hdr]
    rfl
  have hσ : √(d / d₀) ^ 2 = d / d₀ := Real.sq_sqrt (by positivity)
  have hσ0 : 0 < √(d / d₀) := Real.sqrt_pos.mpr (by positivity)
  generalize √(d / d₀) = σ at *
  have eT : isatemp 0 1000 = 281.65 := by norm_num [isatemp, Level1, A1, B1]
  have hv : vsound_mps c.designatm (.scalar 1000) = .ok (.scalar (√(1.4 * 287.05287 * 281.65))) := by
    rw [h.cruise.atm, ← eT]; exact isa_vsound 0 1000 (by norm_num) (by rw [eT]; norm_num)
  have v0 : √(1.4 * 287.05287 * 281.65) ^ 2 = 1.4 * 287.05287 * 281.65 := Real.sq_sqrt (by norm_num)
  have vs0 : 0 < √(1.4 * 287.05287 * 281.65) := Real.sqrt_pos.mpr (by norm_num)
  generalize √(1.4 * 287.05287 * 281.65) = vs at hv v0 vs0
  have ek : kts2mps 250 = 128.6111 := by norm_num [kts2mps]
  have er : fpm2mps 1000 = 5.08 := by norm_num [fpm2mps, feet2m]
  obtain ⟨v, hv'⟩ : ∃ v, v = kts2mps 250 / σ := ⟨_, rfl⟩
  have v2 : v ^ 2 = 128.6111 ^ 2 * d₀ / d := by
    rw [hv', div_pow, hσ, ek]; field_simp
  have vp : 0 < v := by rw [hv', ek]; positivity
  have b1 : 18227 ≤ v ^ 2 := by
    rw [v2, le_div_iff₀ d0]; norm_num at d2 d3 ⊢; linarith
  have b2 : v ^ 2 ≤ 18228 := by
    rw [v2, div_le_iff₀ d0]; norm_num at d1 d4 ⊢; linarith
  have hm := mach1_of (v := v) hv
  have hm2 : (v / vs) ^ 2 = v ^ 2 / (1.4 * 287.05287 * 281.65) := by rw [div_pow, v0]
  have m0 : 0.4012 ≤ v / vs := by
    refine (sq_le_sq₀ (by norm_num) (by positivity)).mp ?_
    rw [hm2, le_div_iff₀ (by norm_num)]; norm_num at b1 ⊢; linarith
  have m1 : v / vs ≤ 0.4014 := by
    refine (sq_le_sq₀ (by positivity) (by norm_num)).mp ?_
    rw [hm2, div_le_iff₀ (by norm_num)]; norm_num at b2 ⊢; linarith
  obtain ⟨K, hK⟩ := KFun.exists X c (v / vs) (by
    intro alt ha; rw [h.cruise.alt] at ha; cases ha; rw [h.cruise.atm]; exact isa_env _ _ (by norm_num) (by norm_num))
  obtain ⟨q, hq⟩ : ∃ q, q = 0.5 * d * v ^ 2 := ⟨_, rfl⟩
  have q1 : 10131.2 ≤ q := by
    rw [hq, v2, show 0.5 * d * (128.6111 ^ 2 * d₀ / d) = 0.5 * 128.6111 ^ 2 * d₀ by field_simp]
    norm_num at d3 ⊢; linarith
  have q2 : q ≤ 10131.3 := by
    rw [hq, v2, show 0.5 * d * (128.6111 ^ 2 * d₀ / d) = 0.5 * 128.6111 ^ 2 * d₀ by field_simp]
    norm_num at d4 ⊢; linarith
  have q0 : 0 < q := lt_of_lt_of_le (by norm_num) q1
  obtain ⟨f, hf⟩ : ∃ f, f = isapress 1000 / 101325 * (1 + v ^ 2 / (1.4 * 287.05287 * 281.65) * 0.2005) ^ (1.401 / 0.401 : ℝ) := ⟨_, rfl⟩
  have hram : v ^ 2 / (1.4 * 287.05287 * 281.65) * 0.2005 ≤ 0.0323 := by
    rw [div_mul_eq_mul_div, div_le_iff₀ (by norm_num)]; norm_num at b2 ⊢; linarith
  have hf2 : 0 < f ∧ f ≤ 0.9912 := by
    obtain ⟨p1, p2⟩ := doc_to_press
    have r0 : 0 ≤ v ^ 2 / (1.4 * 287.05287 * 281.65) * 0.2005 := by positivity
    rw [hf]
    exact jet_ram r0 (by norm_num) hram TestNum.ram_climb.2 (lt_of_lt_of_le (by norm_num) p1) p2 (by norm_num)
  obtain ⟨f0, f1⟩ := hf2
  have hin : ClimbIn X c 250 1000 v (5.08 / σ) f q (v / vs) K := by
    refine ⟨h.climbspeed, h.climbrate, by rw [e0, hv']; exact tas _, by rw [e0, ← er]; exact tas _, ⟨1, ?_⟩, ?_, by rw [e0]; exact hm, hK⟩
    · rw [e0, hf]; exact hcorr _ (hram.trans (by norm_num))
    · rw [e0, hq]; unfold dynamicpressure_pa; rw [hd]; rfl
  have hrv : 5.08 / σ / v = 5.08 / 128.6111 := by rw [hv', ek]; exact div_div_div_cancel_right₀ hσ0.ne' _ _
  obtain ⟨hpos, hlow⟩ := jet_climb_k X h m0 m1 q1 q2 hK
  have form : ∀ w, climbReq c true v (5.08 / σ) f q K w =
      (5.08 / 128.6111 + (1 / w) * q * 0.02 + K w (w / q) / q * w * (1 - (5.08 / 128.6111) ^ 2)) / f := by
    intro w
    unfold climbReq sl climbPoint
    rw [ef, h.cd, mul_one, mul_one, if_pos rfl, one_mul, hrv]
  have pos : ∀ w, 2000 ≤ w → w ≤ 7000 → climbReq c true v (5.08 / σ) f q K w ≠ 0 := by
    intro w w1 w2
    have w0 : 0 < w := by linarith
    rw [form w]
    have := hpos w w1 w2
    have g0 : (0:ℝ) < 1 - (5.08 / 128.6111) ^ 2 := by norm_num
    generalize (1 - (5.08 / 128.6111) ^ 2 : ℝ) = g at g0 ⊢
    positivity
  have key : 0.1066 < climbReq c true v (5.08 / σ) f q K 7000 := by
    rw [form 7000, lt_div_iff₀ f0]
    generalize K 7000 (7000 / q) = k at hlow ⊢
    have a1 : (1 / 7000) * 10131.2 * 0.02 ≤ (1 / 7000) * q * 0.02 := by gcongr
    have g0 : (0:ℝ) ≤ 1 - (5.08 / 128.6111) ^ 2 := by norm_num
    have a2 : 0.0541 / 10131.3 * 7000 * (1 - (5.08 / 128.6111) ^ 2) ≤ k / q * 7000 * (1 - (5.08 / 128.6111) ^ 2) := by gcongr
    generalize (1 / 7000) * q * 0.02 = z at *
    generalize k / q * 7000 * (1 - (5.08 / 128.6111) ^ 2) = y at *
    norm_num at a1 a2 f1 ⊢; linarith
  refine ⟨r, climbReq c true v (5.08 / σ) f q K 2000, climbReq c true v (5.08 / σ) f q K 3000, climbReq c true v (5.08 / σ) f q K 4000,
    climbReq c true v (5.08 / σ) f q K 5000, climbReq c true v (5.08 / σ) f q K 6000, climbReq c true v (5.08 / σ) f q K 7000, hr, ?_, ?_, key, ?_⟩
  · rw [← hc, hin.eval]
    rfl
  · have p₁ := pos 2000 (by norm_num) (by norm_num)
    have p₂ := pos 3000 (by norm_num) (by norm_num)
    have p₃ := pos 4000 (by norm_num) (by norm_num)
    have p₄ := pos 5000 (by norm_num) (by norm_num)
    have p₅ := pos 6000 (by norm_num) (by norm_num)
    have p₆ := pos 7000 (by norm_num) (by norm_num)
    simp only [npAll, List.mem_cons, List.not_mem_nil, or_false, Option.some.injEq, p₁.symm, p₂.symm, p₃.symm, p₄.symm, p₅.symm, p₆.symm, or_self, not_false_eq_true, true_iff]
    norm_num
  · rw [Prints, not_le, lt_abs]; left
    generalize climbReq c true v (5.08 / σ) f q K 7000 = z at key ⊢
    norm_num at key ⊢; linarith

/-! ### Stall speed and ground effect -/

/-- tests/t_constraintanalysis.py:290-306: the stall speed in the take-off configuration. -/
theorem C130_vstall : ∃ r v, construct [] [] [("CLmaxTO", .num 1.6)] none .pyNone = .ok r ∧
    vstall_kias r.concept (.scalar 3500) .takeoff = .ok v ∧ RoundsTo (10000 * v) 1161669 := by
  obtain ⟨r, hr, hc⟩ : ∃ r, construct [] [] [("CLmaxTO", .num 1.6)] none .pyNone = .ok r ∧ r.concept.clmaxto = some 1.6 := by
    apply Exists.intro; constructor
    · rfl
    · rfl
  have dd : 1.2249998682209657 ≤ isadens 0 0 ∧ isadens 0 0 ≤ 1.2249998682209658 := by
    have e : isadens 0 0 = 1.04884 ^ (4.2558797 : ℝ) := doc_dens (by norm_num) (by norm_num)
    rw [e]; exact DocNum.dens_0
  have hd0 : dens1 (.isa 0) 0 = .ok (isadens 0 0) := isa_dens1 0 0 (by norm_num)
  obtain ⟨d1, d2⟩ := dd
  generalize isadens 0 0 = d at hd0 d1 d2
  have d0 : 0 < d := lt_of_lt_of_le (by norm_num) d1
  refine ⟨r, mps2kts √(2 * 3500 / (d * 1.6)), hr, ?_, ?_⟩
  · unfold vstall_kias
    rw [hd0, hc]
    show (if 2 * 3500 / (d * 1.6) < 0 then _ else _) = _
    rw [if_neg (not_lt.mpr (by positivity))]
    rfl
  · have s1 : 59.76143 ≤ √(2 * 3500 / (d * 1.6)) := by
      apply Real.le_sqrt_of_sq_le
      rw [le_div_iff₀ (by positivity)]; norm_num at d2 ⊢; linarith
    have s2 : √(2 * 3500 / (d * 1.6)) ≤ 59.76144 := by
      apply doc_sqrt_le (by norm_num)
      rw [div_le_iff₀ (by positivity)]; norm_num at d1 ⊢; linarith
    generalize √(2 * 3500 / (d * 1.6)) = x at *
    left; rw [abs_lt, mps2kts]
    constructor <;> norm_num at * <;> linarith

end

end Verif.Props
