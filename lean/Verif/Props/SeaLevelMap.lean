import Verif.Props.Trends
import Verif.Props.ThrustFactors
import Verif.Props.Hydrostatic
import Verif.Lemmas.Env

/-
Property C119: reference and size of the sea level mapping. "Multiply SL static thrust by this to get thrust at
specified conditions": the factor is 1 at rest on a standard sea level day, and a requirement is divided by it.
-/

namespace Verif.Props
open Verif Verif.Atmos Verif.Units Verif.Aircraft

noncomputable section

/-! ### The reference condition -/

/-- On a standard day at sea level and at rest, with a throttle ratio of at least 1, the factor of the turbofan with
high bypass ratio, of the turbofan with low bypass ratio and afterburner, of the turbojet with afterburner, of the
analytical turboprop and of the piston engine is 1. -/
theorem C119_static (TR : ℝ) (h : 1 ≤ TR) :
    turbofanthrustfactor 15 101325 0 TR "highbpr" = 1 ∧ turbofanthrustfactor 15 101325 0 TR "lowbpr" = 1 ∧
    turbojetthrustfactor 15 101325 0 TR true = 1 ∧ turbopropthrustfactor_matt 15 101325 0 TR = 1 ∧
    pistonpowerfactor 1.225 = 1 := by
  have e0 : stagT 0 = 1 := by simp [stagT]
  have hT : tempratio 15 0 = 1 := by rw [tempratio_eq, e0]; norm_num
  have hP : pressratio 101325 0 = 1 := by rw [pressratio_eq, e0, Real.one_rpow]; norm_num
  refine ⟨?_, ?_, ?_, ?_, ?_⟩
  · simp only [turbofanthrustfactor, hT, hP, h, if_true, Real.sqrt_zero]; norm_num
  · simp [turbofanthrustfactor, hT, hP, h]
  · simp only [turbojetthrustfactor, hT, hP, h, if_true, Real.sqrt_zero]; norm_num
  · simp only [turbopropthrustfactor_matt, hP]; norm_num
  · norm_num [pistonpowerfactor]

/-- The dry turbojet and the low bypass turbofan without afterburner are not referred to their own static thrust: at
rest on a standard day at sea level the factors are 0.8 and 0.6. The generic jet with bypass ratio 0 uses the former,
so its requirements are divided by 0.8 where nothing has to be corrected. -/
theorem C119_static_violated (TR : ℝ) (h : 1 ≤ TR) :
    turbojetthrustfactor 15 101325 0 TR false = 0.8 ∧
    (∀ ptype, ptype ≠ "highbpr" → ptype ≠ "lowbpr" → turbofanthrustfactor 15 101325 0 TR ptype = 0.6) ∧
    ∀ c : Concept, pyNum c.bpr = 0 → pyNum c.throttle_r = TR →
      ∃ t, jetFactor c 15 101325 0 = .ok t ∧ ∀ req : ℝ, req / t = 1.25 * req := by
  have e0 : stagT 0 = 1 := by simp [stagT]
  have hT : tempratio 15 0 = 1 := by rw [tempratio_eq, e0]; norm_num
  have hP : pressratio 101325 0 = 1 := by rw [pressratio_eq, e0, Real.one_rpow]; norm_num
  have h1 : turbojetthrustfactor 15 101325 0 TR false = 0.8 := by
    simp only [turbojetthrustfactor, hT, hP, h, if_true, Real.sqrt_zero]; norm_num
  refine ⟨h1, ?_, ?_⟩
  · intro ptype n1 n2
    simp [turbofanthrustfactor, hT, hP, h, n1, n2]
  · intro c hb ht
    refine ⟨0.8, ?_, fun req => by ring⟩
    unfold jetFactor
    simp only [hb, if_true, ht, h1]

-- a throttle ratio of 1.07
example : turbofanthrustfactor 15 101325 0 1.07 "highbpr" = 1 ∧ turbojetthrustfactor 15 101325 0 1.07 false = 0.8 :=
  ⟨(C119_static 1.07 (by norm_num)).1, (C119_static_violated 1.07 (by norm_num)).1⟩

/-! ### Size of the factors -/

/-- Bound of the total pressure ratio by a power with natural exponent. -/
theorem stag_pow_le (M : ℝ) : ∃ B, 0 < B ∧ stagT M ^ (1.401 / 0.401 : ℝ) ≤ B ∧ B ^ 2 = stagT M ^ 7 := by
  have h1 := stagT_ge_one M
  refine ⟨stagT M ^ (3.5 : ℝ), by positivity, Real.rpow_le_rpow_of_exponent_le h1 (by norm_num), ?_⟩
  rw [← Real.rpow_natCast, ← Real.rpow_mul (by linarith)]
  rw [show (3.5 : ℝ) * (2 : ℕ) = (7 : ℕ) by norm_num, Real.rpow_natCast]

theorem chord7 (u : ℝ) (h0 : 0 ≤ u) (h1 : u ≤ 1) : (1 + 0.2005 * u) ^ 7 ≤ 1 + 2.594 * u := by
  have p2 : u ^ 2 ≤ u := by nlinarith
  have p3 : u ^ 3 ≤ u := by nlinarith [pow_nonneg h0 2]
  have p4 : u ^ 4 ≤ u := by nlinarith [pow_nonneg h0 3]
  have p5 : u ^ 5 ≤ u := by nlinarith [pow_nonneg h0 4]
  have p6 : u ^ 6 ≤ u := by nlinarith [pow_nonneg h0 5]
  have p7 : u ^ 7 ≤ u := by nlinarith [pow_nonneg h0 6]
  have e : (1 + 0.2005 * u) ^ 7 = 1 + 7 * 0.2005 * u + 21 * 0.2005 ^ 2 * u ^ 2 + 35 * 0.2005 ^ 3 * u ^ 3 +
      35 * 0.2005 ^ 4 * u ^ 4 + 21 * 0.2005 ^ 5 * u ^ 5 + 7 * 0.2005 ^ 6 * u ^ 6 + 0.2005 ^ 7 * u ^ 7 := by ring
  rw [e]
  norm_num
  linarith

theorem chord7_low (u : ℝ) (h0 : 0 ≤ u) (h1 : u ≤ 0.09) : (1 + 0.2005 * u) ^ 7 ≤ 1 + 1.52 * u := by
  have p2 : u ^ 2 ≤ 0.09 * u := by nlinarith
  have p3 : u ^ 3 ≤ 0.09 * u := by nlinarith [pow_nonneg h0 2]
  have p4 : u ^ 4 ≤ 0.09 * u := by nlinarith [pow_nonneg h0 3]
  have p5 : u ^ 5 ≤ 0.09 * u := by nlinarith [pow_nonneg h0 4]
  have p6 : u ^ 6 ≤ 0.09 * u := by nlinarith [pow_nonneg h0 5]
  have p7 : u ^ 7 ≤ 0.09 * u := by nlinarith [pow_nonneg h0 6]
  have e : (1 + 0.2005 * u) ^ 7 = 1 + 7 * 0.2005 * u + 21 * 0.2005 ^ 2 * u ^ 2 + 35 * 0.2005 ^ 3 * u ^ 3 +
      35 * 0.2005 ^ 4 * u ^ 4 + 21 * 0.2005 ^ 5 * u ^ 5 + 7 * 0.2005 ^ 6 * u ^ 6 + 0.2005 ^ 7 * u ^ 7 := by ring
  rw [e]
  norm_num at *
  linarith

/-- Ram pressure against the speed lapse of the high bypass turbofan. -/
theorem ram_high (M : ℝ) (h0 : 0 ≤ M) (h1 : M ≤ 1) : stagT M ^ (1.401 / 0.401 : ℝ) * (1 - 0.49 * √M) ≤ 1 := by
  obtain ⟨B, hB, hle, hsq⟩ := stag_pow_le M
  obtain ⟨s, hs⟩ : ∃ s, s = √M := ⟨_, rfl⟩
  have hs0 : 0 ≤ s := by rw [hs]; exact Real.sqrt_nonneg M
  have hs1 : s ≤ 1 := by rw [hs]; exact Real.sqrt_le_one.mpr h1
  have hM : M = s ^ 2 := by rw [hs, Real.sq_sqrt h0]
  rw [← hs]
  have hst : stagT M = 1 + 0.2005 * s ^ 4 := by rw [hM]; unfold stagT; ring
  have hc := chord7 (s ^ 4) (by positivity) (pow_le_one₀ hs0 hs1)
  rw [← hst, ← hsq] at hc
  have hk : 0 ≤ 1 - 0.49 * s := by norm_num; linarith
  have hq : s * (1 - 0.49 * s) ≤ 0.51 := by norm_num; nlinarith
  have hq0 : 0 ≤ s * (1 - 0.49 * s) := mul_nonneg hs0 hk
  have hq2 : (s * (1 - 0.49 * s)) ^ 2 ≤ 0.2601 := by
    calc (s * (1 - 0.49 * s)) ^ 2 ≤ 0.51 ^ 2 := by gcongr
      _ = 0.2601 := by norm_num
  have hpoly : (1 + 2.594 * s ^ 4) * (1 - 0.49 * s) ^ 2 ≤ 1 := by
    have e : (1 + 2.594 * s ^ 4) * (1 - 0.49 * s) ^ 2 =
        1 - s * (0.98 - 0.2401 * s - 2.594 * s * (s * (1 - 0.49 * s)) ^ 2) := by ring
    rw [e]
    have : 0 ≤ 0.98 - 0.2401 * s - 2.594 * s * (s * (1 - 0.49 * s)) ^ 2 := by
      have := mul_le_mul_of_nonneg_left hq2 hs0
      norm_num at *
      nlinarith
    nlinarith [mul_nonneg hs0 this]
  have h2 : (B * (1 - 0.49 * s)) ^ 2 ≤ 1 := by
    rw [mul_pow]
    exact le_trans (mul_le_mul_of_nonneg_right hc (sq_nonneg _)) hpoly
  calc stagT M ^ (1.401 / 0.401 : ℝ) * (1 - 0.49 * s) ≤ B * (1 - 0.49 * s) := mul_le_mul_of_nonneg_right hle hk
    _ ≤ 1 := by
      have := abs_le_of_sq_le_sq (a := B * (1 - 0.49 * s)) (b := 1) (by linarith) (by norm_num)
      exact (abs_le.mp this).2

/-- Ram pressure against the speed lapse of the dry turbojet, up to Mach 0.3. -/
theorem ram_jet (M : ℝ) (h0 : 0 ≤ M) (h1 : M ≤ 0.3) : stagT M ^ (1.401 / 0.401 : ℝ) * (1 - 0.16 * √M) ≤ 1 := by
  obtain ⟨B, hB, hle, hsq⟩ := stag_pow_le M
  obtain ⟨s, hs⟩ : ∃ s, s = √M := ⟨_, rfl⟩
  have hs0 : 0 ≤ s := by rw [hs]; exact Real.sqrt_nonneg M
  have hM : M = s ^ 2 := by rw [hs, Real.sq_sqrt h0]
  have hs1 : s ≤ 0.55 := by rw [hs]; exact Real.sqrt_le_iff.mpr ⟨by norm_num, by norm_num at *; linarith⟩
  rw [← hs]
  have hst : stagT M = 1 + 0.2005 * s ^ 4 := by rw [hM]; unfold stagT; ring
  have hu : s ^ 4 ≤ 0.09 := by
    have e : s ^ 4 = M * M := by rw [hM]; ring
    rw [e]
    calc M * M ≤ 0.3 * 0.3 := mul_le_mul h1 h1 h0 (by norm_num)
      _ = 0.09 := by norm_num
  have hc := chord7_low (s ^ 4) (by positivity) hu
  rw [← hst, ← hsq] at hc
  have hk : 0 ≤ 1 - 0.16 * s := by norm_num at *; linarith
  have hk1 : 1 - 0.16 * s ≤ 1 := by norm_num; linarith
  have hq : s ^ 3 ≤ 0.17 := by
    calc s ^ 3 ≤ 0.55 ^ 3 := by gcongr
      _ ≤ 0.17 := by norm_num
  have hq2 : s ^ 3 * (1 - 0.16 * s) ^ 2 ≤ 0.17 :=
    le_trans (mul_le_of_le_one_right (by positivity) (pow_le_one₀ hk hk1)) hq
  have hpoly : (1 + 1.52 * s ^ 4) * (1 - 0.16 * s) ^ 2 ≤ 1 := by
    have e : (1 + 1.52 * s ^ 4) * (1 - 0.16 * s) ^ 2 =
        1 - s * (0.32 - 0.0256 * s - 1.52 * (s ^ 3 * (1 - 0.16 * s) ^ 2)) := by ring
    rw [e]
    have : 0 ≤ 0.32 - 0.0256 * s - 1.52 * (s ^ 3 * (1 - 0.16 * s) ^ 2) := by
      norm_num at *
      linarith
    nlinarith [mul_nonneg hs0 this]
  have h2 : (B * (1 - 0.16 * s)) ^ 2 ≤ 1 := by
    rw [mul_pow]
    exact le_trans (mul_le_mul_of_nonneg_right hc (sq_nonneg _)) hpoly
  calc stagT M ^ (1.401 / 0.401 : ℝ) * (1 - 0.16 * s) ≤ B * (1 - 0.16 * s) := mul_le_mul_of_nonneg_right hle hk
    _ ≤ 1 := by
      have := abs_le_of_sq_le_sq (a := B * (1 - 0.16 * s)) (b := 1) (by linarith) (by norm_num)
      exact (abs_le.mp this).2

/-- The high bypass turbofan: at subsonic speeds and at pressures up to the standard one the factor is at most 1, at
every temperature and throttle ratio. -/
theorem C119_highbpr (t p M TR : ℝ) (h0 : 0 ≤ M) (h1 : M ≤ 1) (hp : 0 ≤ p) (hp1 : p ≤ 101325) :
    turbofanthrustfactor t p M TR "highbpr" ≤ 1 := by
  rw [C22_branch_free]
  simp only [turbofanSpec, if_true]
  have h2 := stagT_ge_one M
  have hx : 0 ≤ max 0 ((t + 273.15) / 288.15 * stagT M - TR) := le_max_left _ _
  have hpr : p / 101325 ≤ 1 := by rw [div_le_one (by norm_num)]; exact hp1
  have hpn : 0 ≤ p / 101325 := by positivity
  have hr := ram_high M h0 h1
  have hst : 0 ≤ stagT M ^ (1.401 / 0.401 : ℝ) := by positivity
  have hd : 0 ≤ 3 * max 0 ((t + 273.15) / 288.15 * stagT M - TR) / (1.5 + M) := by positivity
  calc _ ≤ p / 101325 * stagT M ^ (1.401 / 0.401 : ℝ) * (1 - 0.49 * √M) := by
        apply mul_le_mul_of_nonneg_left _ (by positivity)
        linarith
    _ = p / 101325 * (stagT M ^ (1.401 / 0.401 : ℝ) * (1 - 0.49 * √M)) := by ring
    _ ≤ p / 101325 * 1 := mul_le_mul_of_nonneg_left hr hpn
    _ ≤ 1 := by linarith

/-- The dry turbojet up to Mach 0.3: never above 0.8. -/
theorem C119_turbojet_slow (t p M TR : ℝ) (ht : -273.15 < t) (h0 : 0 ≤ M) (h1 : M ≤ 0.3) (hp : 0 ≤ p) (hp1 : p ≤ 101325) :
    turbojetthrustfactor t p M TR false ≤ 0.8 := by
  rw [C23_turbojet_branch_free]
  simp only [turbojetSpec, Bool.false_eq_true, if_false]
  have h2 := stagT_ge_one M
  have hx : 0 ≤ max 0 ((t + 273.15) / 288.15 * stagT M - TR) := le_max_left _ _
  have hpr : p / 101325 ≤ 1 := by rw [div_le_one (by norm_num)]; exact hp1
  have hpn : 0 ≤ p / 101325 := by positivity
  have hr := ram_jet M h0 h1
  have hst : 0 ≤ stagT M ^ (1.401 / 0.401 : ℝ) := by positivity
  have hT : 0 < t + 273.15 := by linarith
  have hd : 0 ≤ 24 * max 0 ((t + 273.15) / 288.15 * stagT M - TR) / ((9 + M) * ((t + 273.15) / 288.15 * stagT M)) := by
    positivity
  calc _ ≤ 0.8 * (p / 101325 * stagT M ^ (1.401 / 0.401 : ℝ)) * (1 - 0.16 * √M) := by
        apply mul_le_mul_of_nonneg_left _ (by positivity)
        linarith
    _ = 0.8 * (p / 101325 * (stagT M ^ (1.401 / 0.401 : ℝ) * (1 - 0.16 * √M))) := by ring
    _ ≤ 0.8 * (p / 101325 * 1) := by
        apply mul_le_mul_of_nonneg_left _ (by norm_num)
        exact mul_le_mul_of_nonneg_left hr hpn
    _ ≤ 0.8 := by norm_num; linarith

example : turbojetthrustfactor 2 80000 0.25 1.07 false ≤ 0.8 :=
  C119_turbojet_slow _ _ _ _ (by norm_num) (by norm_num) (by norm_num) (by norm_num) (by norm_num)

/-- The low bypass turbofan with afterburner at sea level: at every speed other than rest, up to the theta break, the
factor is above 1 (more than the static thrust is assumed). -/
theorem C119_lowbpr_violated (t M TR : ℝ) (hM : M ≠ 0) (hb : tempratio t M ≤ TR) :
    1 + 0.6 * M ^ 2 < turbofanthrustfactor t 101325 M TR "lowbpr" := by
  have e : turbofanthrustfactor t 101325 M TR "lowbpr" = stagT M ^ (1.401 / 0.401 : ℝ) := by
    simp [turbofanthrustfactor, hb, pressratio_eq]
  have hm : 0 < M ^ 2 := by positivity
  rw [e]
  calc 1 + 0.6 * M ^ 2 < 1 + (3 : ℝ) * (0.2005 * M ^ 2) := by norm_num; linarith
    _ ≤ (1 + 0.2005 * M ^ 2) ^ (3 : ℝ) := one_add_mul_self_le_rpow_one_add (by norm_num; linarith) (by norm_num)
    _ = stagT M ^ (3 : ℝ) := by unfold stagT; norm_num
    _ ≤ stagT M ^ (1.401 / 0.401 : ℝ) := Real.rpow_le_rpow_of_exponent_le (stagT_ge_one M) (by norm_num)

/-- The dry turbojet at sea level: above 1 too at high subsonic speed. -/
theorem C119_turbojet_violated (TR : ℝ) (h : 1.2 ≤ TR) : 1 < turbojetthrustfactor 15 101325 0.9 TR false := by
  have est : stagT 0.9 = 1.162405 := by norm_num [stagT]
  have hT : tempratio 15 0.9 ≤ TR := by rw [tempratio_eq, est]; norm_num at *; linarith
  have hP : (1.57 : ℝ) ≤ pressratio 101325 0.9 := by
    rw [pressratio_eq, est]
    have : (1.162405 : ℝ) ^ (3 : ℝ) ≤ 1.162405 ^ (1.401 / 0.401 : ℝ) :=
      Real.rpow_le_rpow_of_exponent_le (by norm_num) (by norm_num)
    have e3 : (1.162405 : ℝ) ^ (3 : ℝ) = 1.162405 ^ 3 := by rw [← Real.rpow_natCast]; norm_num
    rw [e3] at this
    rw [div_self (by norm_num), one_mul]
    refine le_trans ?_ this
    norm_num
  have hs : √(0.9 : ℝ) ≤ 0.95 := Real.sqrt_le_iff.mpr (by norm_num)
  have hs0 := Real.sqrt_nonneg (0.9 : ℝ)
  simp only [turbojetthrustfactor, hT, if_true, Bool.false_eq_true, if_false]
  have hk : (0.848 : ℝ) ≤ 1 - 0.16 * √0.9 := by norm_num at *; linarith
  calc (1:ℝ) < 1.57 * 0.8 * 0.848 := by norm_num
    _ ≤ pressratio 101325 0.9 * 0.8 * (1 - 0.16 * √0.9) := by gcongr

-- sea level at Mach 0.8: the high bypass engine below 1, the low bypass engine above 1.38
example : turbofanthrustfactor 15 101325 0.8 1.2 "highbpr" ≤ 1 ∧ 1 + 0.6 * 0.8 ^ 2 < turbofanthrustfactor 15 101325 0.8 1.2 "lowbpr" :=
  ⟨C119_highbpr _ _ _ _ (by norm_num) (by norm_num) (by norm_num) le_rfl,
    C119_lowbpr_violated _ _ _ (by norm_num) (by rw [tempratio_eq]; norm_num [stagT])⟩

/-! ### Concepts -/

theorem isapress_le_std (h : ℝ) (h0 : 0 ≤ h) : isapress h ≤ 101325 := by
  refine le_trans (isapress_le_sl h h0) ?_
  have e : isapress 0 = C1 ^ E1 := by norm_num [isapress, Level1]
  have b : (11.52608845 : ℝ) ≤ Real.log 101325 ∧ Real.log 101325 ≤ 11.52608846 :=
    LogB.log_bounds 16 24 101325 11.52608845 11.52608846 (by norm_num) (by norm_num) (by norm_num) (by decide +kernel)
  have b1 := ISANum.log_U1_0
  have hC : (0:ℝ) < C1 := by norm_num [C1]
  rw [e, ← Real.log_le_log_iff (Real.rpow_pos_of_pos hC _) (by norm_num), Real.log_rpow hC]
  simp only [C1, E1]
  norm_num at *
  linarith [b.1, b1.2]

theorem isa_temp1c (off h : ℝ) (hh : h ≤ 50000) : temp1c (.isa off) h = .ok (isatemp off h - 273.15) := by
  unfold temp1c airtemp_c
  rw [(isa_scalar off h hh).1]
  rfl

/-- The thrust correction of a generic jet is the factor of its engine type at the conditions of flight. -/
theorem jet_corr {X : Ext} {c : Concept} {v alt t p m T P : ℝ} (h : CorrAt X c v alt t p) (hp : c.propulsion = .str "jet")
    (hm : mach1 c.designatm v alt = .ok m) (hT : temp1c c.designatm alt = .ok T) (hP : press1 c.designatm alt = .ok P) :
    jetFactor c T P m = .ok t := by
  obtain ⟨tc, pc, h1, h2, h3⟩ := h
  have hms : mach c.designatm (.scalar v) (.scalar alt) = .ok [m] := by
    unfold mach1 at hm
    simp only [bind_ok_iff] at hm
    obtain ⟨l, hl, hm⟩ := hm
    rw [hl]
    match l, hm with
    | [x], hm => cases hm; rfl
  unfold slcorr resolvePropulsion at h1
  rw [hp] at h1
  simp only [bind_ok, hms, corrOf, hT, hP, bind_ok_iff] at h1
  obtain ⟨d, hd, ts, hts, h1⟩ := h1
  cases h1
  simp only [recastArray] at h2
  subst h2
  simp only [List.mapM_cons, List.mapM_nil, bind_ok_iff] at hts
  obtain ⟨y, hy, l, hl, e⟩ := hts
  cases hl
  cases e
  simpa [strCorr] using hy

/-- The cruise requirement of a generic jet in a standard atmosphere with offset: at one wing loading the mapped
requirement is the unmapped one divided by the factor of the engine. -/
theorem C119_cruise (X : Ext) (c : Concept) (off s alt m w : ℝ) (ha : c.designatm = .isa off) (ho : -100 ≤ off)
    (hp : c.propulsion = .str "jet") (hb : 0 ≤ pyNum c.bpr) (hs : c.cruisespeed_ktas = some s) (hc : c.cruisealt_m = some alt)
    (hA : alt ≤ 50000) (hm : mach1 c.designatm (kts2mps s) alt = .ok m) :
    ∃ t r, jetFactor c (isatemp off alt - 273.15) (isapress alt) m = .ok t ∧
      twrequired_crs X c (.scalar w) false = .ok (.scalar r) ∧ twrequired_crs X c (.scalar w) true = .ok (.scalar (r / t)) := by
  have hE : EnvOK c.designatm alt := by rw [ha]; exact isa_env off alt ho hA
  obtain ⟨t, q, m', K, h⟩ : ∃ t q m K, CruiseIn X c s alt t q m K := by
    have hP : PropOK c := by unfold PropOK; rw [hp]; exact fun _ => hb
    obtain ⟨t, p, hcor⟩ := corr_exists X hP hE (kts2mps s)
    obtain ⟨q, hq⟩ := hE.dyn (kts2mps s)
    obtain ⟨m', hm'⟩ := hE.mach (kts2mps s)
    obtain ⟨K, hK⟩ := KFun.exists X c m' (fun alt' h' => by rw [hc] at h'; cases h'; exact hE)
    exact ⟨t, q, m', K, hs, hc, ⟨p, hcor⟩, hq, hm', hK⟩
  have em : m' = m := by have := h.mach.symm.trans hm; cases this; rfl
  subst em
  obtain ⟨p, hcor⟩ := h.corr
  have hj := jet_corr hcor hp hm (by rw [ha]; exact isa_temp1c off alt hA) (by rw [ha]; exact isa_press1 off alt hA)
  refine ⟨t, cruiseReq c false t q K w, hj, h.eval false (.scalar w), ?_⟩
  rw [h.eval true (.scalar w)]
  have e : cruiseReq c true t q K w = cruiseReq c false t q K w / t := by
    unfold cruiseReq sl
    simp only [if_true, Bool.false_eq_true, if_false]
    ring
  simp only [recastArray, List.map_cons, List.map_nil, e]
  rfl

/-- High bypass ratio, subsonic cruise between sea level and 50 km: as long as the factor is positive the mapping
never lowers the requirement. -/
theorem C119_cruise_highbpr (X : Ext) (c : Concept) (off s alt m w : ℝ) (ha : c.designatm = .isa off) (ho : -100 ≤ off)
    (hp : c.propulsion = .str "jet") (hb : 5 ≤ pyNum c.bpr) (hs : c.cruisespeed_ktas = some s) (hc : c.cruisealt_m = some alt)
    (hA0 : 0 ≤ alt) (hA : alt ≤ 50000) (hm : mach1 c.designatm (kts2mps s) alt = .ok m) (h0 : 0 ≤ m) (h1 : m ≤ 1) :
    ∃ t r, twrequired_crs X c (.scalar w) false = .ok (.scalar r) ∧ twrequired_crs X c (.scalar w) true = .ok (.scalar (r / t)) ∧
      t ≤ 1 ∧ (0 < t → 0 ≤ r → r ≤ r / t) := by
  obtain ⟨t, r, hj, e1, e2⟩ := C119_cruise X c off s alt m w ha ho hp (by linarith) hs hc hA hm
  have ht : t ≤ 1 := by
    unfold jetFactor at hj
    have n1 : ¬ pyNum c.bpr = 0 := by linarith
    have n2 : ¬ (0 < pyNum c.bpr ∧ pyNum c.bpr < 5) := by intro h; linarith [h.2]
    simp only [n1, n2, hb, if_true, if_false] at hj
    rw [← Except.ok.inj hj]
    exact C119_highbpr _ _ m _ h0 h1 (C12_positive alt).le (isapress_le_std alt hA0)
  refine ⟨t, r, e1, e2, ht, fun hpos hr => ?_⟩
  rw [le_div_iff₀ hpos]
  exact mul_le_of_le_one_right hr ht

/-- Bypass ratio 0, cruise up to Mach 0.3: the mapping raises the requirement at least to 1.25 times, at sea level
too. -/
theorem C119_cruise_turbojet (X : Ext) (c : Concept) (off s alt m w : ℝ) (ha : c.designatm = .isa off) (ho : -100 ≤ off)
    (hp : c.propulsion = .str "jet") (hb : pyNum c.bpr = 0) (hs : c.cruisespeed_ktas = some s) (hc : c.cruisealt_m = some alt)
    (hA0 : 0 ≤ alt) (hA : alt ≤ 50000) (hm : mach1 c.designatm (kts2mps s) alt = .ok m) (h0 : 0 ≤ m) (h1 : m ≤ 0.3) :
    ∃ t r, twrequired_crs X c (.scalar w) false = .ok (.scalar r) ∧ twrequired_crs X c (.scalar w) true = .ok (.scalar (r / t)) ∧
      t ≤ 0.8 ∧ (0 < t → 0 ≤ r → 1.25 * r ≤ r / t) := by
  obtain ⟨t, r, hj, e1, e2⟩ := C119_cruise X c off s alt m w ha ho hp hb.ge hs hc hA hm
  have hT : 0 < isatemp off alt := by
    have := C11_bounds 0 alt
    rw [C11_offset]; linarith [this.1]
  have ht : t ≤ 0.8 := by
    unfold jetFactor at hj
    simp only [hb, if_true] at hj
    rw [← Except.ok.inj hj]
    exact C119_turbojet_slow _ _ m _ (by linarith) h0 h1 (C12_positive alt).le (isapress_le_std alt hA0)
  refine ⟨t, r, e1, e2, ht, fun hpos hr => ?_⟩
  rw [le_div_iff₀ hpos]
  have := mul_le_mul_of_nonneg_left ht hr
  norm_num at *
  linarith

/-- Bypass ratio between 0 and 5, cruise at sea level on a standard day: up to the theta break the mapping lowers every
positive requirement, at every Mach number from 0.001. -/
theorem C119_cruise_lowbpr_violated (X : Ext) (c : Concept) (s m w : ℝ) (ha : c.designatm = .isa 0)
    (hp : c.propulsion = .str "jet") (hb0 : 0 < pyNum c.bpr) (hb : pyNum c.bpr < 5) (hs : c.cruisespeed_ktas = some s)
    (hc : c.cruisealt_m = some 0) (hm : mach1 c.designatm (kts2mps s) 0 = .ok m) (h0 : 0.001 ≤ m)
    (htr : stagT m ≤ pyNum c.throttle_r) :
    ∃ t r, twrequired_crs X c (.scalar w) false = .ok (.scalar r) ∧ twrequired_crs X c (.scalar w) true = .ok (.scalar (r / t)) ∧
      1 < t ∧ (0 < r → r / t < r) := by
  obtain ⟨t, r, hj, e1, e2⟩ := C119_cruise X c 0 s 0 m w ha (by norm_num) hp hb0.le hs hc (by norm_num) hm
  have hm0 : 0 < m := by norm_num at h0; linarith
  have eT : isatemp 0 0 - 273.15 = 15 := by rw [C102_sea_level.1]; norm_num
  have hth : tempratio 15 m ≤ pyNum c.throttle_r := by rw [tempratio_eq]; norm_num; exact htr
  have ht : 1 < t := by
    unfold jetFactor at hj
    simp only [hb0.ne', hb0, hb, and_self, if_true, if_false] at hj
    rw [← Except.ok.inj hj, eT]
    have hv := C119_lowbpr_violated 15 m _ hm0.ne' hth
    have e : turbofanthrustfactor 15 (isapress 0) m (pyNum c.throttle_r) "lowbpr" =
        isapress 0 / 101325 * turbofanthrustfactor 15 101325 m (pyNum c.throttle_r) "lowbpr" := by
      rw [← C22_pressure]; congr 1; field_simp
    have hpr : 1 - 2e-7 ≤ isapress 0 / 101325 := by
      rw [le_div_iff₀ (by norm_num)]
      have := (abs_le.mp C102_sea_level.2.1).1
      linarith
    rw [e]
    have hsq : (0.000001 : ℝ) ≤ m ^ 2 := by
      calc (0.000001 : ℝ) = 0.001 ^ 2 := by norm_num
        _ ≤ m ^ 2 := by gcongr
    calc (1 : ℝ) < (1 - 2e-7) * (1 + 0.6 * 0.000001) := by norm_num
      _ ≤ isapress 0 / 101325 * (1 + 0.6 * m ^ 2) := by gcongr
      _ ≤ _ := by
        apply mul_le_mul_of_nonneg_left hv.le
        exact (div_pos (C12_positive 0) (by norm_num)).le
  refine ⟨t, r, e1, e2, ht, fun hr => ?_⟩
  rw [div_lt_iff₀ (by linarith)]
  nlinarith

/-! Worked cases: an airliner at 10 km, a trainer with a turbojet at 1 km, a fighter at sea level. -/

def slmJet (bpr s alt : ℝ) : Concept :=
  { exC with designatm := .isa 0, propulsion := .str "jet", bpr := some bpr, throttle_r := some 1.2,
             cruisespeed_ktas := some s, cruisealt_m := some alt }

theorem slmJet_mach (bpr s alt lo hi vlo vhi : ℝ) (hA : alt ≤ 50000) (hT0 : 0 ≤ isatemp 0 alt) (hs : 0 ≤ s)
    (h0 : 0 < vlo) (h1 : vlo ^ 2 ≤ 1.4 * R_JPKGPK * isatemp 0 alt) (h2 : 1.4 * R_JPKGPK * isatemp 0 alt ≤ vhi ^ 2) (h3 : 0 < vhi)
    (hlo : lo * vhi ≤ kts2mps s) (hhi : kts2mps s ≤ hi * vlo) :
    ∃ m, mach1 (slmJet bpr s alt).designatm (kts2mps s) alt = .ok m ∧ lo ≤ m ∧ m ≤ hi := by
  have e1 : vlo ≤ vsound (isatemp 0 alt) := by unfold vsound; exact Real.le_sqrt_of_sq_le h1
  have e2 : vsound (isatemp 0 alt) ≤ vhi := by unfold vsound; exact Real.sqrt_le_iff.mpr ⟨h3.le, h2⟩
  have hk : 0 ≤ kts2mps s := by unfold kts2mps; positivity
  refine ⟨_, mach1_of (isa_vsound 0 alt hA hT0), ?_, ?_⟩
  · refine le_trans ((le_div_iff₀ h3).mpr hlo) ?_
    exact div_le_div_of_nonneg_left hk (lt_of_lt_of_le h0 e1) e2
  · refine le_trans ?_ ((div_le_iff₀ h0).mpr hhi)
    exact div_le_div_of_nonneg_left hk h0 e1

example (X : Ext) : ∃ t r, twrequired_crs X (slmJet 8 450 10000) (.scalar 6000) false = .ok (.scalar r) ∧
    twrequired_crs X (slmJet 8 450 10000) (.scalar 6000) true = .ok (.scalar (r / t)) ∧ t ≤ 1 ∧ (0 < t → 0 ≤ r → r ≤ r / t) := by
  have eT : isatemp 0 10000 = 223.15 := by norm_num [isatemp, Level1, A1, B1]
  obtain ⟨m, hm, h0, h1⟩ := slmJet_mach 8 450 10000 0.7 0.8 295 305 (by norm_num) (by rw [eT]; norm_num) (by norm_num) (by norm_num)
    (by rw [eT]; norm_num [R_JPKGPK]) (by rw [eT]; norm_num [R_JPKGPK]) (by norm_num) (by norm_num [kts2mps]) (by norm_num [kts2mps])
  norm_num at h0 h1
  exact C119_cruise_highbpr X _ 0 450 10000 m 6000 rfl (by norm_num) rfl (by norm_num [slmJet, pyNum]) rfl rfl (by norm_num)
    (by norm_num) hm (by linarith) (by linarith)

example (X : Ext) : ∃ t r, twrequired_crs X (slmJet 0 190 1000) (.scalar 1500) false = .ok (.scalar r) ∧
    twrequired_crs X (slmJet 0 190 1000) (.scalar 1500) true = .ok (.scalar (r / t)) ∧ t ≤ 0.8 ∧ (0 < t → 0 ≤ r → 1.25 * r ≤ r / t) := by
  have eT : isatemp 0 1000 = 281.65 := by norm_num [isatemp, Level1, A1, B1]
  obtain ⟨m, hm, h0, h1⟩ := slmJet_mach 0 190 1000 0.28 0.3 330 345 (by norm_num) (by rw [eT]; norm_num) (by norm_num) (by norm_num)
    (by rw [eT]; norm_num [R_JPKGPK]) (by rw [eT]; norm_num [R_JPKGPK]) (by norm_num) (by norm_num [kts2mps]) (by norm_num [kts2mps])
  exact C119_cruise_turbojet X _ 0 190 1000 m 1500 rfl (by norm_num) rfl (by norm_num [slmJet, pyNum]) rfl rfl (by norm_num)
    (by norm_num) hm (by norm_num at h0; linarith) h1

example (X : Ext) : ∃ t r, twrequired_crs X (slmJet 1 550 0) (.scalar 4000) false = .ok (.scalar r) ∧
    twrequired_crs X (slmJet 1 550 0) (.scalar 4000) true = .ok (.scalar (r / t)) ∧ 1 < t ∧ (0 < r → r / t < r) := by
  have eT : isatemp 0 0 = 288.15 := C102_sea_level.1
  obtain ⟨m, hm, h0, h1⟩ := slmJet_mach 1 550 0 0.8 0.9 335 345 (by norm_num) (by rw [eT]; norm_num) (by norm_num) (by norm_num)
    (by rw [eT]; norm_num [R_JPKGPK]) (by rw [eT]; norm_num [R_JPKGPK]) (by norm_num) (by norm_num [kts2mps]) (by norm_num [kts2mps])
  refine C119_cruise_lowbpr_violated X _ 550 m 4000 rfl rfl (by norm_num [slmJet, pyNum]) (by norm_num [slmJet, pyNum]) rfl rfl hm
    (by norm_num at *; linarith) ?_
  have : m ^ 2 ≤ 0.9 ^ 2 := by gcongr
  norm_num at this
  simp only [stagT, slmJet, pyNum]
  norm_num
  linarith

end

end Verif.Props
