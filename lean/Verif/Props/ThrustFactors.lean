import Verif.Model.AtmosHelpers
import Verif.Spec.Basic
import Verif.Lemmas.Tac
import Mathlib.Analysis.SpecialFunctions.Pow.Continuity

/-
Properties C21 - C24: stagnation ratios and thrust/power factors.
-/

namespace Verif.Props
open Verif.Atmos Verif.Units

noncomputable section

/-! ### C21 -/

/-- Isentropic stagnation-to-static temperature ratio for a gas with ratio of specific heats
`1.401`, specification. -/
def stagT (M : ℝ) : ℝ := 1 + (1.401 - 1) / 2 * M ^ 2

theorem stagT_ge_one (M : ℝ) : 1 ≤ stagT M := by
  unfold stagT; nlinarith [sq_nonneg M]

theorem tempratio_eq (t M : ℝ) : tempratio t M = (t + 273.15) / 288.15 * stagT M := by
  simp only [tempratio, stagT, c2k, GAMMA_DRY_AIR]
  rw [show (15 + 273.15 : ℝ) = 288.15 by norm_num]; ring

theorem pressratio_eq (p M : ℝ) : pressratio p M = p / 101325 * stagT M ^ (1.401 / 0.401 : ℝ) := by
  simp only [pressratio, stagT, GAMMA_DRY_AIR]
  rw [show (1.401 - 1 : ℝ) = 0.401 by norm_num,
    show M ^ 2 * (0.401 : ℝ) / 2 = 0.401 / 2 * M ^ 2 by ring]

/-- At rest both ratios are the static ratios; the sign of the Mach number does not matter; the
standard day at rest gives 1 and 1. -/
theorem C21_static (t p M : ℝ) :
    tempratio t 0 = (t + 273.15) / 288.15 ∧ pressratio p 0 = p / 101325 ∧
    tempratio t (-M) = tempratio t M ∧ pressratio p (-M) = pressratio p M ∧
    tempratio 15 0 = 1 ∧ pressratio 101325 0 = 1 := by
  simp only [tempratio_eq, pressratio_eq, stagT]
  refine ⟨by ring, by norm_num, by ring, by ring_nf, by norm_num, by norm_num⟩

/-- Above absolute zero (positive pressure) both ratios are at least the static ratio, and strictly
increasing in the Mach number from 0 on. -/
theorem C21_mono (t p : ℝ) (ht : -273.15 < t) (hp : 0 < p) :
    (∀ M, tempratio t 0 ≤ tempratio t M ∧ pressratio p 0 ≤ pressratio p M) ∧
    (∀ M M', 0 ≤ M → M < M' → tempratio t M < tempratio t M' ∧ pressratio p M < pressratio p M') := by
  have hT : 0 < (t + 273.15) / 288.15 := by
    have : 0 < t + 273.15 := by linarith
    positivity
  have hP : 0 < p / 101325 := by positivity
  constructor
  · intro M
    have h1 := stagT_ge_one M
    have e0 : stagT 0 = 1 := by simp [stagT]
    simp only [tempratio_eq, pressratio_eq, e0, Real.one_rpow]
    constructor
    · exact mul_le_mul_of_nonneg_left h1 hT.le
    · exact mul_le_mul_of_nonneg_left (Real.one_le_rpow h1 (by norm_num)) hP.le
  · intro M M' h0 hlt
    have h1 : stagT M < stagT M' := by
      unfold stagT; nlinarith
    have hpos : 0 ≤ stagT M := by linarith [stagT_ge_one M]
    simp only [tempratio_eq, pressratio_eq]
    constructor
    · exact mul_lt_mul_of_pos_left h1 hT
    · exact mul_lt_mul_of_pos_left (Real.rpow_lt_rpow hpos h1 (by norm_num)) hP

example : tempratio 15 0.5 < tempratio 15 0.8 ∧ pressratio 90000 0.5 < pressratio 90000 0.8 :=
  (C21_mono 15 90000 (by norm_num) (by norm_num)).2 0.5 0.8 (by norm_num) (by norm_num)

/-- Isentropic relation: the stagnation pressure rise is the 1.401/0.401 power of the stagnation
temperature rise, and `tatbysat` with full recovery is that temperature rise. -/
theorem C21_isentropic (t p M : ℝ) (ht : -273.15 < t) :
    pressratio p M = pressratio p 0 * (tempratio t M / tempratio t 0) ^ (1.401 / 0.401 : ℝ) ∧
    tatbysat M 1 = tempratio t M / tempratio t 0 ∧
    (∀ r r', r < r' → M ≠ 0 → tatbysat M r < tatbysat M r') ∧ tatbysat M 0 = 1 := by
  have hT : (t + 273.15) / 288.15 ≠ 0 := by
    have : 0 < t + 273.15 := by linarith
    positivity
  have e0 : stagT 0 = 1 := by simp [stagT]
  have e : tempratio t M / tempratio t 0 = stagT M := by
    simp only [tempratio_eq, e0, mul_one]
    exact mul_div_cancel_left₀ _ hT
  refine ⟨?_, ?_, ?_, ?_⟩
  · rw [e]; simp only [pressratio_eq, e0, Real.one_rpow, mul_one]
  · rw [e]; simp only [tatbysat, stagT, GAMMA_DRY_AIR]; ring
  · intro r r' hr hM
    have : 0 < M ^ 2 := by positivity
    simp only [tatbysat, GAMMA_DRY_AIR]
    nlinarith
  · simp [tatbysat]

-- ISA sea level, Mach 1: the stagnation temperature ratio is 1.2005
example : tempratio 15 1 = 1.2005 := by norm_num [tempratio_eq, stagT]

/-! ### C22 -/

/-- Branch-free specification of the turbofan factor: `x⁺ = max 0 (theta0 - TR)` is the exceedance
of the theta break. -/
def turbofanSpec (t p M TR : ℝ) (ptype : String) : ℝ :=
  let th := (t + 273.15) / 288.15 * stagT M
  let de := p / 101325 * stagT M ^ (1.401 / 0.401 : ℝ)
  let x := max 0 (th - TR)
  if ptype = "highbpr" then de * (1 - 0.49 * √M - 3 * x / (1.5 + M))
  else if ptype = "lowbpr" then de * (1 - 3.5 * x / th)
  else 0.6 * de * (1 - 3.8 * x / th)

/-- The code's branches are the specification with the positive part of the exceedance. -/
theorem C22_branch_free (t p M TR : ℝ) (ptype : String) :
    turbofanthrustfactor t p M TR ptype = turbofanSpec t p M TR ptype := by
  simp only [turbofanthrustfactor, turbofanSpec, tempratio_eq, pressratio_eq]
  by_cases h : (t + 273.15) / 288.15 * stagT M ≤ TR
  · rw [max_eq_left (by linarith)]
    split_ifs <;> simp
  · rw [max_eq_right (by linarith)]
    split_ifs <;> rfl

theorem stagT_cont : Continuous stagT := by unfold stagT; fun_prop

/-- The factor is continuous in temperature, pressure, Mach number and throttle ratio jointly, in
particular across the theta break, for every engine type string. -/
theorem C22_continuous (ptype : String) :
    ContinuousOn (fun x : ℝ × ℝ × ℝ × ℝ =>
      turbofanthrustfactor x.1 x.2.1 x.2.2.1 x.2.2.2 ptype)
      {x | -273.15 < x.1 ∧ 0 ≤ x.2.2.1} := by
  have hth : Continuous (fun x : ℝ × ℝ × ℝ × ℝ => (x.1 + 273.15) / 288.15 * stagT x.2.2.1) := by
    have := stagT_cont; fun_prop
  have hde : Continuous (fun x : ℝ × ℝ × ℝ × ℝ =>
      x.2.1 / 101325 * stagT x.2.2.1 ^ (1.401 / 0.401 : ℝ)) := by
    have h1 : Continuous (fun x : ℝ × ℝ × ℝ × ℝ => stagT x.2.2.1) := by
      have := stagT_cont; fun_prop
    have h2 := h1.rpow_const (p := (1.401 / 0.401 : ℝ)) (fun x => Or.inr (by norm_num))
    fun_prop
  have hx : Continuous (fun x : ℝ × ℝ × ℝ × ℝ =>
      max 0 ((x.1 + 273.15) / 288.15 * stagT x.2.2.1 - x.2.2.2)) := by fun_prop
  simp only [C22_branch_free, turbofanSpec]
  split_ifs
  · apply ContinuousOn.mul hde.continuousOn
    apply ContinuousOn.sub (by fun_prop)
    apply ContinuousOn.div (by fun_prop) (by fun_prop)
    intro x hx; have := hx.2; linarith
  · apply ContinuousOn.mul hde.continuousOn
    apply ContinuousOn.sub (by fun_prop)
    apply ContinuousOn.div (by fun_prop) hth.continuousOn
    intro x hx
    have h1 : 0 < x.1 + 273.15 := by have := hx.1; linarith
    have h2 := stagT_ge_one x.2.2.1
    positivity
  · apply ContinuousOn.mul (continuousOn_const.mul hde.continuousOn)
    apply ContinuousOn.sub (by fun_prop)
    apply ContinuousOn.div (by fun_prop) hth.continuousOn
    intro x hx
    have h1 : 0 < x.1 + 273.15 := by have := hx.1; linarith
    have h2 := stagT_ge_one x.2.2.1
    positivity

/-- Proportional to pressure. -/
theorem C22_pressure (t p M TR k : ℝ) (ptype : String) :
    turbofanthrustfactor t (k * p) M TR ptype = k * turbofanthrustfactor t p M TR ptype := by
  simp only [C22_branch_free, turbofanSpec]
  split_ifs <;> ring

/-- Never above the stagnation pressure ratio. -/
theorem C22_le_delta (t p M TR : ℝ) (ptype : String) (ht : -273.15 < t) (hp : 0 ≤ p) (hM : 0 ≤ M) :
    turbofanthrustfactor t p M TR ptype ≤ pressratio p M := by
  have h1 : 0 < t + 273.15 := by linarith
  have h2 := stagT_ge_one M
  have hth : 0 < (t + 273.15) / 288.15 * stagT M := by positivity
  have hde : 0 ≤ p / 101325 * stagT M ^ (1.401 / 0.401 : ℝ) := by positivity
  have hx : 0 ≤ max 0 ((t + 273.15) / 288.15 * stagT M - TR) := le_max_left _ _
  have hs := Real.sqrt_nonneg M
  simp only [C22_branch_free, turbofanSpec, pressratio_eq]
  have aux : ∀ d q : ℝ, 0 ≤ d → 0 ≤ q → d * (1 - q) ≤ d := by intro d q hd hq; nlinarith
  split_ifs
  · rw [show ∀ a b : ℝ, 1 - a - b = 1 - (a + b) by intros; ring]
    exact aux _ _ hde (by positivity)
  · exact aux _ _ hde (by positivity)
  · calc _ ≤ 0.6 * (p / 101325 * stagT M ^ (1.401 / 0.401 : ℝ)) := aux _ _ (by positivity) (by positivity)
      _ ≤ _ := by linarith

example : turbofanthrustfactor (-20) 50000 0.8 1.1 "lowbpr" ≤ pressratio 50000 0.8 :=
  C22_le_delta _ _ _ _ _ (by norm_num) (by norm_num) (by norm_num)

/-- Raising the throttle ratio never lowers the factor; once the throttle ratio exceeds theta0 it has
no further effect. -/
theorem C22_throttle (t p M TR TR' : ℝ) (ptype : String) (ht : -273.15 < t) (hp : 0 ≤ p) (hM : 0 ≤ M)
    (h : TR ≤ TR') :
    turbofanthrustfactor t p M TR ptype ≤ turbofanthrustfactor t p M TR' ptype ∧
    (tempratio t M ≤ TR →
      turbofanthrustfactor t p M TR ptype = turbofanthrustfactor t p M TR' ptype) := by
  have h1 : 0 < t + 273.15 := by linarith
  have h2 := stagT_ge_one M
  have hth : 0 < (t + 273.15) / 288.15 * stagT M := by positivity
  have hde : 0 ≤ p / 101325 * stagT M ^ (1.401 / 0.401 : ℝ) := by positivity
  have hx : max 0 ((t + 273.15) / 288.15 * stagT M - TR') ≤
      max 0 ((t + 273.15) / 288.15 * stagT M - TR) := max_le_max le_rfl (by linarith)
  simp only [C22_branch_free, turbofanSpec, tempratio_eq]
  constructor
  · split_ifs
    · apply mul_le_mul_of_nonneg_left _ hde
      apply sub_le_sub_left
      apply div_le_div_of_nonneg_right _ (by linarith)
      linarith
    · apply mul_le_mul_of_nonneg_left _ hde
      apply sub_le_sub_left
      apply div_le_div_of_nonneg_right _ hth.le
      linarith
    · apply mul_le_mul_of_nonneg_left _ (by positivity)
      apply sub_le_sub_left
      apply div_le_div_of_nonneg_right _ hth.le
      linarith
  · intro hle
    rw [max_eq_left (by linarith), max_eq_left (by linarith)]

example : turbofanthrustfactor 30 90000 0.6 1 "highbpr" ≤ turbofanthrustfactor 30 90000 0.6 1.1 "highbpr" :=
  (C22_throttle 30 90000 0.6 1 1.1 "highbpr" (by norm_num) (by norm_num) (by norm_num) (by norm_num)).1

/-- Any other type string behaves as military power of the low bypass engine: 60 percent below the
theta break. -/
theorem C22_unknown_type (t p M TR : ℝ) (ptype ptype' : String)
    (h1 : ptype ≠ "highbpr") (h2 : ptype ≠ "lowbpr") (h1' : ptype' ≠ "highbpr") (h2' : ptype' ≠ "lowbpr") :
    turbofanthrustfactor t p M TR ptype = turbofanthrustfactor t p M TR ptype' ∧
    (tempratio t M ≤ TR → turbofanthrustfactor t p M TR ptype =
      0.6 * turbofanthrustfactor t p M TR "lowbpr") := by
  constructor
  · simp [turbofanthrustfactor, h1, h2, h1', h2']
  · intro h
    simp [turbofanthrustfactor, h1, h2, h]

example : (-273.15 : ℝ) < 15 ∧ (0:ℝ) ≤ 101325 ∧
    turbofanthrustfactor 15 101325 0 1 "highbpr" = 1 ∧
    turbofanthrustfactor 15 101325 0 1 "lowbpr" = 1 ∧
    turbofanthrustfactor 15 101325 0 1 "typo" = 0.6 ∧ ("typo" ≠ "highbpr") := by
  have h1 : ("typo" : String) ≠ "highbpr" := by decide
  have h2 : ("typo" : String) ≠ "lowbpr" := by decide
  refine ⟨by norm_num, by norm_num, ?_, ?_, ?_, by decide⟩ <;>
    norm_num [turbofanthrustfactor, tempratio_eq, pressratio_eq, stagT, h1, h2]

/-! ### C23 -/

/-- Branch-free specification of the turbojet factor. -/
def turbojetSpec (t p M TR : ℝ) (ab : Bool) : ℝ :=
  let th := (t + 273.15) / 288.15 * stagT M
  let de := p / 101325 * stagT M ^ (1.401 / 0.401 : ℝ)
  let x := max 0 (th - TR)
  if ab then de * (1 - 0.3 * (th - 1) - 0.1 * √M - 1.5 * x / TR)
  else 0.8 * de * (1 - 0.16 * √M - 24 * x / ((9 + M) * th))

theorem C23_turbojet_branch_free (t p M TR : ℝ) (ab : Bool) :
    turbojetthrustfactor t p M TR ab = turbojetSpec t p M TR ab := by
  simp only [turbojetthrustfactor, turbojetSpec, tempratio_eq, pressratio_eq]
  by_cases h : (t + 273.15) / 288.15 * stagT M ≤ TR
  · rw [max_eq_left (by linarith)]
    split_ifs <;> simp only [mul_zero, zero_div, sub_zero]
    ring
  · rw [max_eq_right (by linarith)]
    split_ifs <;> ring

/-- Continuous in all four inputs jointly (positive throttle ratio), with and without afterburner. -/
theorem C23_turbojet_continuous (ab : Bool) :
    ContinuousOn (fun x : ℝ × ℝ × ℝ × ℝ =>
      turbojetthrustfactor x.1 x.2.1 x.2.2.1 x.2.2.2 ab)
      {x | -273.15 < x.1 ∧ 0 ≤ x.2.2.1 ∧ 0 < x.2.2.2} := by
  have hth : Continuous (fun x : ℝ × ℝ × ℝ × ℝ => (x.1 + 273.15) / 288.15 * stagT x.2.2.1) := by
    have := stagT_cont; fun_prop
  have hde : Continuous (fun x : ℝ × ℝ × ℝ × ℝ =>
      x.2.1 / 101325 * stagT x.2.2.1 ^ (1.401 / 0.401 : ℝ)) := by
    have h1 : Continuous (fun x : ℝ × ℝ × ℝ × ℝ => stagT x.2.2.1) := by
      have := stagT_cont; fun_prop
    have h2 := h1.rpow_const (p := (1.401 / 0.401 : ℝ)) (fun x => Or.inr (by norm_num))
    fun_prop
  have hx : Continuous (fun x : ℝ × ℝ × ℝ × ℝ =>
      max 0 ((x.1 + 273.15) / 288.15 * stagT x.2.2.1 - x.2.2.2)) := by fun_prop
  simp only [C23_turbojet_branch_free, turbojetSpec]
  split_ifs
  · apply ContinuousOn.mul hde.continuousOn
    apply ContinuousOn.sub (by fun_prop)
    apply ContinuousOn.div (by fun_prop) (by fun_prop)
    intro x hx; have := hx.2.2; exact this.ne'
  · apply ContinuousOn.mul (continuousOn_const.mul hde.continuousOn)
    apply ContinuousOn.sub (by fun_prop)
    apply ContinuousOn.div (by fun_prop) (by fun_prop)
    intro x hx
    have h1 : 0 < x.1 + 273.15 := by have := hx.1; linarith
    have h2 := stagT_ge_one x.2.2.1
    have h3 : 0 < 9 + x.2.2.1 := by have := hx.2.1; linarith
    positivity

/-- Up to Mach 0.1 the analytical turboprop factor is the stagnation pressure ratio. -/
theorem C23_turboprop_low_mach (t p M TR : ℝ) (h : M ≤ 0.1) :
    turbopropthrustfactor_matt t p M TR = p / 101325 * stagT M ^ (1.401 / 0.401 : ℝ) := by
  simp only [turbopropthrustfactor_matt, pressratio_eq, h, if_true]

example : turbopropthrustfactor_matt 15 90000 0.05 1 = 90000 / 101325 * stagT 0.05 ^ (1.401 / 0.401 : ℝ) :=
  C23_turboprop_low_mach _ _ _ _ (by norm_num)

/-- Above Mach 0.1 and below the theta break the factor is the pressure ratio reduced by
0.96 (M - 0.1)^(1/4), hence below the pressure ratio, and tends to it as Mach falls to 0.1. -/
theorem C23_turboprop_below_break (t p M TR : ℝ) (h : 0.1 < M) (hp : 0 < p) (hb : tempratio t M ≤ TR) :
    turbopropthrustfactor_matt t p M TR < pressratio p M ∧
    (M ≤ 1.1 → 0 < turbopropthrustfactor_matt t p M TR) ∧
    ((pressratio p M - turbopropthrustfactor_matt t p M TR) / pressratio p M) ^ 4 =
      0.96 ^ 4 * (M - 0.1) := by
  have h2 := stagT_ge_one M
  have hde : 0 < pressratio p M := by rw [pressratio_eq]; positivity
  have hr : 0 < (M - 0.1) ^ (0.25 : ℝ) := Real.rpow_pos_of_pos (by linarith) _
  have e : turbopropthrustfactor_matt t p M TR =
      pressratio p M * (1 - 0.96 * (M - 0.1) ^ (0.25 : ℝ)) := by
    simp only [turbopropthrustfactor_matt, not_le.mpr h, hb, if_true, if_false]
  rw [e]
  refine ⟨by nlinarith, ?_, ?_⟩
  · intro hM
    have : (M - 0.1) ^ (0.25 : ℝ) ≤ 1 := Real.rpow_le_one (by linarith) (by linarith) (by norm_num)
    apply mul_pos hde; linarith
  · have : (pressratio p M - pressratio p M * (1 - 0.96 * (M - 0.1) ^ (0.25 : ℝ))) / pressratio p M
        = 0.96 * (M - 0.1) ^ (0.25 : ℝ) := by field_simp; ring
    rw [this, mul_pow]
    congr 1
    rw [← Real.rpow_natCast, ← Real.rpow_mul (by linarith)]; norm_num

example : 0 < turbopropthrustfactor_matt 15 90000 0.2 1.1 :=
  (C23_turboprop_below_break 15 90000 0.2 1.1 (by norm_num) (by norm_num) (by norm_num [tempratio_eq, stagT])).2.1 (by norm_num)

/-- Above the theta break the factor has no lower bound as the Mach number falls to 0.1: for every
bound there are Mach numbers arbitrarily close to 0.1 where the factor is below it. Since the factor
at 0.1 itself is positive, it jumps there. -/
theorem C23_turboprop_unbounded (t p TR : ℝ) (hp : 0 < p) (ht : -273.15 < t)
    (hb : TR < (t + 273.15) / 288.15) (B ε : ℝ) (hε : 0 < ε) :
    ∃ M, 0.1 < M ∧ M < 0.1 + ε ∧ turbopropthrustfactor_matt t p M TR < B := by
  have hTT : 0 < (t + 273.15) / 288.15 := by
    have : 0 < t + 273.15 := by linarith
    positivity
  set c := (t + 273.15) / 288.15 - TR with hc
  have hcpos : 0 < c := by linarith
  -- choose M = 0.1 + δ
  set K := 101325 / p * |B| + 2 with hK
  have hKpos : 0 < K := by positivity
  set δ := min (ε / 2) (3 * c / (8.13 * K)) with hδ
  have hδpos : 0 < δ := by positivity
  have hδ1 : δ < ε := lt_of_le_of_lt (min_le_left _ _) (by linarith)
  have hδ2 : δ ≤ 3 * c / (8.13 * K) := min_le_right _ _
  refine ⟨0.1 + δ, by linarith, by linarith, ?_⟩
  have hst := stagT_ge_one (0.1 + δ)
  have hth : (t + 273.15) / 288.15 ≤ tempratio t (0.1 + δ) := by
    rw [tempratio_eq]; nlinarith
  have hde : p / 101325 ≤ pressratio p (0.1 + δ) := by
    rw [pressratio_eq]
    have := Real.one_le_rpow hst (show (0:ℝ) ≤ 1.401 / 0.401 by norm_num)
    nlinarith [show 0 < p / 101325 by positivity]
  have hnb : ¬ tempratio t (0.1 + δ) ≤ TR := by linarith
  have hnm : ¬ (0.1 + δ ≤ 0.1) := by linarith
  simp only [turbopropthrustfactor_matt, hnm, hnb, if_false]
  have e1 : 0.1 + δ - 0.1 = δ := by ring
  rw [e1]
  have hr : 0 < δ ^ (0.25 : ℝ) := Real.rpow_pos_of_pos hδpos _
  have hq : K ≤ 3 * (tempratio t (0.1 + δ) - TR) / (8.13 * δ) := by
    rw [le_div_iff₀ (by positivity)]
    rw [le_div_iff₀ (by positivity)] at hδ2
    nlinarith
  have hP : 0 < pressratio p (0.1 + δ) := lt_of_lt_of_le (by positivity) hde
  have hfac : 1 - 0.96 * δ ^ (0.25 : ℝ) - 3 * (tempratio t (0.1 + δ) - TR) / (8.13 * δ) < -(101325 / p * |B| + 1) := by
    linarith
  have h3 : p / 101325 * (101325 / p * |B| + 1) = |B| + p / 101325 := by field_simp
  calc _ < pressratio p (0.1 + δ) * (-(101325 / p * |B| + 1)) := mul_lt_mul_of_pos_left hfac hP
    _ ≤ p / 101325 * (-(101325 / p * |B| + 1)) := by
        have : 0 ≤ 101325 / p * |B| + 1 := by positivity
        nlinarith
    _ = -(|B| + p / 101325) := by rw [mul_neg, h3]
    _ < B := by
        have := neg_abs_le B
        have : 0 < p / 101325 := by positivity
        linarith

/-- A hot day with throttle ratio one: just above Mach 0.1 the factor is below minus one thousand. -/
example : ∃ M, 0.1 < M ∧ M < 0.1 + 0.001 ∧ turbopropthrustfactor_matt 30 90000 M 1 < -1000 :=
  C23_turboprop_unbounded 30 90000 1 (by norm_num) (by norm_num) (by norm_num) (-1000) 0.001 (by norm_num)

/-- Exact reduction above both thresholds: relative to the pressure ratio, the factor loses
`3/8.13` of the exceedance of the throttle ratio per unit Mach number above 0.1. -/
theorem C23_turboprop_above_break (t p M TR : ℝ) (h : 0.1 < M) (hb : TR < tempratio t M) :
    turbopropthrustfactor_matt t p M TR =
      turbopropthrustfactor_matt t p M (tempratio t M) -
        pressratio p M * (tempratio t M - TR) / (2.71 * (M - 0.1)) := by
  have : M - 0.1 ≠ 0 := by linarith
  simp only [turbopropthrustfactor_matt, not_le.mpr h, not_le.mpr hb, if_false, le_refl, if_true]
  field_simp
  ring

-- a hot day (30 C) with throttle ratio 1 is above the theta break
example : (1:ℝ) < (30 + 273.15) / 288.15 ∧ (1:ℝ) < tempratio 30 0.2 ∧ tempratio 15 0.2 ≤ 1.1 := by
  refine ⟨by norm_num, ?_, ?_⟩ <;> norm_num [tempratio_eq, stagT]

/-! ### C24 -/

theorem C24_piston :
    pistonpowerfactor 1.225 = 1 ∧ StrictMono pistonpowerfactor ∧
    (∀ r r' a : ℝ, pistonpowerfactor (a * r + (1 - a) * r') =
      a * pistonpowerfactor r + (1 - a) * pistonpowerfactor r') ∧
    (∀ r, pistonpowerfactor r < 0 ↔ r < 0.132 / 1.132 * 1.225) ∧
    (∀ r, r < 1.225 → pistonpowerfactor r < 1) ∧ pistonpowerfactor 0 = -0.132 := by
  refine ⟨?_, ?_, ?_, ?_, ?_, ?_⟩
  · norm_num [pistonpowerfactor]
  · intro x y h; simp only [pistonpowerfactor]; norm_num; linarith
  · intro r r' a; simp only [pistonpowerfactor]; ring
  · intro r
    simp only [pistonpowerfactor]
    constructor
    · intro h; norm_num at h ⊢; linarith
    · intro h; norm_num at h ⊢; linarith
  · intro r h; simp only [pistonpowerfactor]; norm_num at h ⊢; linarith
  · norm_num [pistonpowerfactor]

example : pistonpowerfactor 0.1 < 0 := by norm_num [pistonpowerfactor]

end

end Verif.Props
