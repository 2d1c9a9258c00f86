import Verif.Props.Constraint3
import Verif.Props.Aero3

/-
Properties C44 and C45: weight fractions.
-/

namespace Verif.Props
open Verif Verif.Aircraft Verif.Units

noncomputable section

/-! ### C44 -/

/-- Division by the weight fraction in the induced drag factor, the cruise weight kept. -/
theorem kfun_scale {X : Ext} {c c' : Concept} {m f : ℝ} {K : ℝ → ℝ → ℝ} (h : KFun X c m K) (hf : f ≠ 0)
    (h1 : kFactors X c' m = kFactors X c m) (h2 : machstar_le c' = machstar_le c)
    (h3 : c'.cruisespeed_ktas = c.cruisespeed_ktas) (h4 : c'.cruisealt_m = c.cruisealt_m)
    (h5 : c'.designatm = c.designatm)
    (h6 : pyNum c'.cruise_weight_fraction = pyNum c.cruise_weight_fraction / f) :
    KFun X c' m (fun w cl => K (w / f) cl) := by
  obtain ⟨ko, k0, k1, clc, e1, e2, e3⟩ := h
  refine ⟨ko, k0, k1, fun w => clc (w / f), h1.trans e1, fun w cl => by rw [h2]; exact e2 _ _, ?_⟩
  rw [h3, h4, h5, h6]
  rcases e3 with ⟨hn, e⟩ | ⟨vc, hc, qc, a1, a2, a3, a4⟩
  · exact Or.inl ⟨hn, fun w => e _⟩
  · refine Or.inr ⟨vc, hc, qc, a1, a2, a3, fun w => ?_⟩
    show clc (w / f) = _
    rw [a4]; field_simp

/-- The concept whose full weight is the climb weight, its cruise weight (in newtons) kept. -/
def climbAtWeight (c : Concept) (f : ℝ) : Concept :=
  { c with climb_weight_fraction := some 1, cruise_weight_fraction := some (pyNum c.cruise_weight_fraction / f) }

/-- The concept whose full weight is the service ceiling weight, its cruise weight (in newtons) kept. -/
def secAtWeight (c : Concept) (f : ℝ) : Concept :=
  { c with sec_weight_fraction := some 1, cruise_weight_fraction := some (pyNum c.cruise_weight_fraction / f) }

/-- Climb: the requirement at wing loading `w` and weight fraction `f` is `f` times the requirement at
wing loading `w * f` and weight fraction one, the cruise weight being kept (its fraction refers to the
new weight). -/
theorem C44_climb (X : Ext) (c : Concept) (b : Bool) (s r v roc t q m : ℝ) (K : ℝ → ℝ → ℝ)
    (h : ClimbIn X c s r v roc t q m K) (f : ℝ) (hf : c.climb_weight_fraction = some f) (hf0 : f ≠ 0) (w : ℝ) :
    ∃ R R', twrequired_clm X c (.scalar w) b = .ok (.scalar R) ∧
      twrequired_clm X (climbAtWeight c f) (.scalar (w * f)) b = .ok (.scalar R') ∧
      R = f * R' := by
  have h' : ClimbIn X (climbAtWeight c f) s r v roc t q m (fun w cl => K (w / f) cl) :=
    ⟨h.speed, h.rate, h.tas, h.troc, h.corr, h.press, h.mach, kfun_scale h.drag hf0 rfl rfl rfl rfl rfl rfl⟩
  refine ⟨_, _, h.eval b _, h'.eval b _, ?_⟩
  have e : pyNum c.climb_weight_fraction = f := by rw [hf]; rfl
  have e1 : pyNum (some (1:ℝ)) = 1 := rfl
  have e2 : w * f / f = w := by field_simp
  have e3 : pyNum (climbAtWeight c f).climb_weight_fraction = 1 := rfl
  have e4 : pyNum (climbAtWeight c f).cdminclean = pyNum c.cdminclean := rfl
  simp only [climbReq, e, e3, e4, e2, mul_one]
  ring

/-- Cruise: no condition is needed. -/
theorem C44_cruise (X : Ext) (c : Concept) (b : Bool) (s alt t q m : ℝ) (K : ℝ → ℝ → ℝ)
    (h : CruiseIn X c s alt t q m K) (f : ℝ) (hf : c.cruise_weight_fraction = some f) (hf0 : f ≠ 0) (w : ℝ) :
    ∃ R R', twrequired_crs X c (.scalar w) b = .ok (.scalar R) ∧
      twrequired_crs X { c with cruise_weight_fraction := some 1 } (.scalar (w * f)) b = .ok (.scalar R') ∧
      R = f * R' := by
  have e : pyNum c.cruise_weight_fraction = f := by rw [hf]; rfl
  have e1 : pyNum (some (1:ℝ)) = 1 := rfl
  have h' : CruiseIn X { c with cruise_weight_fraction := some 1 } s alt t q m (fun w cl => K (w / f) cl) :=
    ⟨h.speed, h.altitude, h.corr, h.press, h.mach, kfun_scale h.drag hf0 rfl rfl rfl rfl rfl (by
      rw [e]; show (1:ℝ) = f / f; field_simp)⟩
  refine ⟨_, _, h.eval b _, h'.eval b _, ?_⟩
  have e2 : w * f / f = w := by field_simp
  simp only [cruiseReq, e, e1, e2, mul_one]
  ring

/-- Service ceiling: as for climb. -/
theorem C44_ceiling (X : Ext) (c : Concept) (b : Bool) (s alt v roc t q m : ℝ) (K : ℝ → ℝ → ℝ)
    (h : CeilIn X c s alt v roc t q m K) (f : ℝ) (hf : c.sec_weight_fraction = some f) (hf0 : f ≠ 0) (w : ℝ) :
    ∃ R R', twrequired_sec X c (.scalar w) b = .ok (.scalar R) ∧
      twrequired_sec X (secAtWeight c f) (.scalar (w * f)) b = .ok (.scalar R') ∧
      R = f * R' := by
  have h' : CeilIn X (secAtWeight c f) s alt v roc t q m (fun w cl => K (w / f) cl) :=
    ⟨h.altitude, h.speed, h.tas, h.troc, h.corr, h.press, h.mach, kfun_scale h.drag hf0 rfl rfl rfl rfl rfl rfl⟩
  refine ⟨_, _, h.eval b _, h'.eval b _, ?_⟩
  have e : pyNum c.sec_weight_fraction = f := by rw [hf]; rfl
  have e1 : pyNum (some (1:ℝ)) = 1 := rfl
  have e2 : w * f / f = w := by field_simp
  have e3 : pyNum (secAtWeight c f).sec_weight_fraction = 1 := rfl
  have e4 : pyNum (secAtWeight c f).cdminclean = pyNum c.cdminclean := rfl
  simp only [ceilReq, e, e3, e4, e2, mul_one]
  ring

/-- Turn: requirement, lift coefficient and feasibility scale; here the cruise fraction stays, because
the induced drag factor is evaluated at the wing loading of the turn. -/
theorem C44_turn (X : Ext) (c : Concept) (b : Bool) (s n t q m : ℝ) (K : ℝ → ℝ → ℝ)
    (h : TurnIn X c s n t q m K) (f : ℝ) (hf : c.turn_weight_fraction = some f) (w : ℝ) :
    ∃ R R' cl fe fe', twrequired_trn X c (.scalar w) b = .ok (.scalar R, .scalar cl, .scalar fe) ∧
      twrequired_trn X { c with turn_weight_fraction := some 1 } (.scalar (w * f)) b =
        .ok (.scalar R', .scalar cl, .scalar fe') ∧
      R = f * R' ∧ fe = fe'.map (fun x => f * x) := by
  have h' : TurnIn X { c with turn_weight_fraction := some 1 } s n t q m K :=
    ⟨h.speed, h.load, h.corr, h.press, h.mach, h.drag⟩
  have e : pyNum c.turn_weight_fraction = f := by rw [hf]; rfl
  have e1 : pyNum (some (1:ℝ)) = 1 := rfl
  have ecl : turnCl { c with turn_weight_fraction := some 1 } n q (w * f) = turnCl c n q w := by
    simp only [turnCl, e, e1, mul_one]
  have er : turnReq c b n t q K w = f * turnReq { c with turn_weight_fraction := some 1 } b n t q K (w * f) := by
    simp only [turnReq, ecl]
    simp only [e, e1, mul_one]
    ring
  refine ⟨turnReq c b n t q K w, turnReq { c with turn_weight_fraction := some 1 } b n t q K (w * f), turnCl c n q w,
    turnFeas c b n t q K w, turnFeas { c with turn_weight_fraction := some 1 } b n t q K (w * f), h.eval b _, ?_, er, ?_⟩
  · rw [h'.eval b _]
    show Except.ok (NumArg.scalar _, NumArg.scalar _, NanArg.scalar _) = _
    rw [ecl]
  · unfold turnFeas
    rw [ecl, er]
    show (if _ > pyNum c.clmaxclean then _ else _) = Option.map _ (if _ > pyNum c.clmaxclean then _ else _)
    split <;> rfl

example (X : Ext) : ∃ v roc t q m K, ClimbIn X { exC with climb_weight_fraction := some 0.9 } 100 1000 v roc t q m K := by
  have hr : Ready { exC with climb_weight_fraction := some 0.9 } :=
    ⟨exC_ready.sea, exC_ready.runway, exC_ready.climb, exC_ready.turn, exC_ready.cruise, exC_ready.ceiling, exC_ready.prop⟩
  exact clm_given (X := X) hr rfl rfl

/-- A faster example with climb at 90 percent of the take-off weight. -/
def exF (f : ℝ) : Concept := { exC with climb_weight_fraction := some f, cruisespeed_ktas := some 300 }

theorem exF_ready (f : ℝ) : Ready (exF f) :=
  ⟨exC_ready.sea, exC_ready.runway, exC_ready.climb, exC_ready.turn, exC_ready.cruise, exC_ready.ceiling, exC_ready.prop⟩

example (X : Ext) (w : ℝ) : ∃ R R', twrequired_clm X (exF 0.9) (.scalar w) true = .ok (.scalar R) ∧
    twrequired_clm X (climbAtWeight (exF 0.9) 0.9) (.scalar (w * 0.9)) true = .ok (.scalar R') ∧ R = 0.9 * R' := by
  obtain ⟨v, roc, t, q, m, K, h⟩ := clm_given (X := X) (exF_ready 0.9) (s := 100) (r := 1000) rfl rfl
  exact C44_climb X _ true 100 1000 v roc t q m K h 0.9 rfl (by norm_num) w

example (X : Ext) (w : ℝ) : ∃ R R', twrequired_crs X { exC with cruise_weight_fraction := some 0.8 } (.scalar w) true = .ok (.scalar R) ∧
    twrequired_crs X { exC with cruise_weight_fraction := some 1 } (.scalar (w * 0.8)) true = .ok (.scalar R') ∧ R = 0.8 * R' := by
  obtain ⟨t, q, m, K, h⟩ := crs_given (X := X) (c := { exC with cruise_weight_fraction := some 0.8 })
    ⟨exC_ready.sea, exC_ready.runway, exC_ready.climb, exC_ready.turn, exC_ready.cruise, exC_ready.ceiling, exC_ready.prop⟩ rfl rfl
  exact C44_cruise X _ true _ _ t q m K h 0.8 rfl (by norm_num) w

example (X : Ext) (w : ℝ) : ∃ R R', twrequired_sec X { exC with sec_weight_fraction := some 0.8 } (.scalar w) true = .ok (.scalar R) ∧
    twrequired_sec X (secAtWeight { exC with sec_weight_fraction := some 0.8 } 0.8) (.scalar (w * 0.8)) true = .ok (.scalar R') ∧
      R = 0.8 * R' := by
  obtain ⟨v, roc, t, q, m, K, h⟩ := sec_given (X := X) (c := { exC with sec_weight_fraction := some 0.8 })
    ⟨exC_ready.sea, exC_ready.runway, exC_ready.climb, exC_ready.turn, exC_ready.cruise, exC_ready.ceiling, exC_ready.prop⟩ rfl rfl
  exact C44_ceiling X _ true _ _ v roc t q m K h 0.8 rfl (by norm_num) w

/-- If the cruise fraction is not rescaled, the climb requirement does not scale: the induced drag factor
refers to the cruise lift coefficient at the unscaled wing loading. -/
theorem C44_climb_violated (X : Ext) : ∃ w R R',
    twrequired_clm X (exF 0.9) (.scalar w) false = .ok (.scalar R) ∧
    twrequired_clm X (exF 1) (.scalar (w * 0.9)) false = .ok (.scalar R') ∧ R ≠ 0.9 * R' := by
  obtain ⟨v, roc, t, q, m, K, h⟩ := clm_given (X := X) (exF_ready 0.9) (s := 100) (r := 1000) rfl rfl
  have h' : ClimbIn X (exF 1) 100 1000 v roc t q m K :=
    ⟨h.speed, h.rate, h.tas, h.troc, h.corr, h.press, h.mach, h.drag⟩
  have hg := climb_gradient h (exF_ready 0.9).climb (exF_ready 0.9).sea
  have hd0 : Atmos.dens1 (exF 0.9).designatm 0 = .ok 1 := exAtm_dens 0 le_rfl (by norm_num)
  have hd3 : Atmos.dens1 (exF 0.9).designatm 3000 = .ok 1 := exAtm_dens 3000 (by norm_num) (by norm_num)
  have hv : v = kts2mps 100 := by
    have h1 := h.tas
    have h2 := (C19_sea_level _ 1 (kts2mps 100) hd0 one_pos).1
    have h3 : pyNum (exF 0.9).climbalt_m = 0 := rfl
    rw [h3, h2] at h1; cases h1; rfl
  have hq : q = 0.5 * 1 * kts2mps 100 ^ 2 := by
    have h1 := h.press
    have h3 : pyNum (exF 0.9).climbalt_m = 0 := rfl
    unfold Atmos.dynamicpressure_pa at h1
    rw [h3, hd0, hv] at h1; cases h1; rfl
  have hq0 : 0 < q := by rw [hq]; norm_num [kts2mps]
  have hm : 0 < m ∧ m ≤ 0.2 := by
    have h1 := h.mach
    have h3 : pyNum (exF 0.9).climbalt_m = 0 := rfl
    rw [h3, hv] at h1
    have h4 : Atmos.mach1 (exF 0.9).designatm (kts2mps 100) 0 = .ok (kts2mps 100 / Atmos.vsound 300) :=
      Atmos.mach1_of (exAtm_vsound 0 le_rfl (by norm_num))
    rw [h4] at h1
    cases h1
    have h5 : (300:ℝ) ≤ Atmos.vsound 300 := by
      unfold Atmos.vsound; apply Real.le_sqrt_of_sq_le; norm_num [Atmos.R_JPKGPK]
    constructor
    · have : (0:ℝ) < kts2mps 100 := by norm_num [kts2mps]
      positivity
    · rw [div_le_iff₀ (by linarith)]
      have : kts2mps 100 ≤ 60 := by norm_num [kts2mps]
      norm_num; linarith
  -- the induced drag factor
  obtain ⟨ko, k0, k1, clc, hk, hK, hclc⟩ := h.drag
  have hclc : ∀ w, clc w = w / (9 * q) := by
    rcases hclc with ⟨hn, -⟩ | ⟨vc, hc, qc, a1, a2, a3, a4⟩
    · rcases hn with hn | hn <;> cases hn
    · cases a1; cases a2
      unfold Atmos.dynamicpressure_pa at a3
      rw [hd3] at a3; cases a3
      intro w
      rw [a4, hq]
      have : pyNum (exF 0.9).cruise_weight_fraction = 1 := rfl
      rw [this]
      norm_num [kts2mps]
  have hstar : machstar_le (exF 0.9) = 1 := by
    simp [machstar_le, Concept.sweep_le_rad, exF, exC, pyNum, Atmos.deg2rad]
  have hwing : Wing (exF 0.9) := by
    have hp := Real.pi_pos
    constructor <;>
      norm_num [exF, exC, pyNum, Concept.sweep_le_rad, Concept.sweep_25_rad, Atmos.deg2rad] <;> exact hp
  have hk01 : k1 < k0 := by
    unfold kFactors at hk
    simp only [bind_ok_iff, pure_ok_iff] at hk
    obtain ⟨_, _, ls, hls, lss, _, hk⟩ := hk
    cases hk
    obtain ⟨a, ha, ha0, ha1⟩ := C72_subsonic hwing hm.1.le (by linarith [hm.2] : m < 1)
    unfold liftslope_prad at hls
    simp only [Option.getD_some, ha, bind_ok, bind_ok_iff, pure_ok_iff] at hls
    obtain ⟨_, _, hls⟩ := hls
    rw [liftslopeblend, if_pos (by norm_num; linarith [hm.2])] at hls
    subst hls
    unfold k100
    rw [if_pos (by linarith [hm.2])]
    apply one_div_lt_one_div_of_lt ha0
    have h9 : pyNum (exF 0.9).aspectratio = 9 := rfl
    have h6 : pyNum (exF 0.9).a_0i = 6 := rfl
    rw [h6] at ha1; rw [h9]
    have hb : (0.9 : ℝ) ≤ √(1 - m ^ 2) := by
      apply Real.le_sqrt_of_sq_le
      nlinarith [hm.1, hm.2]
    have h7 : 6 / √(1 - m ^ 2) ≤ 6 / 0.9 := by gcongr
    have := Real.pi_gt_three
    norm_num at h7
    linarith
  -- wing loading with cl - cl_cruise = 1 at the unscaled loading
  have e9 : pyNum (exF 0.9).climb_weight_fraction = 0.9 := rfl
  have e1 : pyNum (exF 1).climb_weight_fraction = 1 := rfl
  obtain ⟨w, hw⟩ : ∃ w, w = q * (90 / 71) := ⟨_, rfl⟩
  refine ⟨w, _, _, h.eval false _, h'.eval false _, ?_⟩
  show climbReq (exF 0.9) false v roc t q K w ≠ 0.9 * climbReq (exF 1) false v roc t q K (w * 0.9)
  have hcl : w * 0.9 / q = 81 / 71 := by rw [hw]; field_simp; norm_num
  have hc1 : clc w = 10 / 71 := by rw [hclc, hw]; field_simp; norm_num
  have hc2 : clc (w * 0.9) = 9 / 71 := by rw [hclc, hw]; field_simp; norm_num
  have hI : npInterp2 m 0 1 1 0 = 1 - m := by
    unfold npInterp2
    rw [if_neg (by linarith [hm.1]), if_neg (by linarith [hm.2])]
    ring
  have hW : (1 - m) ^ (0.2:ℝ) < 1 := Real.rpow_lt_one (by linarith [hm.2]) (by linarith [hm.1]) (by norm_num)
  have hKne : K w (81 / 71) ≠ K (w * 0.9) (81 / 71) := by
    rw [hK, hK, hc1, hc2, hstar]
    unfold kBlend
    simp only [hI]
    have i1 : npInterp2 (10 / 71) 0.3 0.8 1 0 = 1 := by unfold npInterp2; rw [if_pos (by norm_num)]
    have i2 : npInterp2 (9 / 71) 0.3 0.8 1 0 = 1 := by unfold npInterp2; rw [if_pos (by norm_num)]
    rw [i1, i2]
    have y1 : y_suction (81 / 71 - 10 / 71) 0.3 22.5 1.95 0 = 0 := by
      unfold y_suction; norm_num
    rw [y1]
    have y2 : y_suction (81 / 71 - 9 / 71) 0.3 22.5 1.95 0 < 0 := by
      unfold y_suction
      obtain ⟨x, hx⟩ : ∃ x : ℝ, x = 81 / 71 - 9 / 71 := ⟨_, rfl⟩
      obtain ⟨y, hy⟩ : ∃ y : ℝ, y = 0.1 * (x - ((-0.5 * 0.3 ^ 2) - (0.25 * 0.3) - 0.22)) := ⟨_, rfl⟩
      simp only [← hx, ← hy]
      have ht : 0 < Real.tan y := by
        apply Real.tan_pos_of_pos_of_lt_pi_div_two
        · rw [hy, hx]; norm_num
        · have := Real.pi_gt_three
          rw [hy, hx]; norm_num; linarith
      have h1 : 0 < 22.5 * (x - (1 + 0 * ((-0.5 * 0.3 ^ 2) - (0.25 * 0.3) - 0.22))) := by rw [hx]; norm_num
      have h2 := Real.exp_pos (-1.95 * (x - 0.1))
      have := mul_pos (mul_pos h1 h2) ht
      linarith
    obtain ⟨y, hy⟩ : ∃ y, y = y_suction (81 / 71 - 9 / 71) 0.3 22.5 1.95 0 := ⟨_, rfl⟩
    rw [← hy] at y2 ⊢
    obtain ⟨W, hWd⟩ : ∃ W, W = (1 - m) ^ (0.2:ℝ) := ⟨_, rfl⟩
    rw [← hWd] at hW ⊢
    intro heq
    have hz : (1 - W) * (y * (k0 - k1)) = 0 := by linarith
    rcases mul_eq_zero.mp hz with hz | hz
    · linarith
    · rcases mul_eq_zero.mp hz with hz | hz <;> linarith
  unfold climbReq climbPoint sl
  have ecd : pyNum (exF 1).cdminclean = pyNum (exF 0.9).cdminclean := rfl
  have hcl' : w * 0.9 * 1 / q = 81 / 71 := by rw [mul_one]; exact hcl
  rw [e9, e1, hcl, hcl', one_mul, hg, ecd]
  simp only [Bool.false_eq_true, if_false, mul_one]
  have hgr : gradient 1000 100 ^ 2 < 1 := by norm_num [gradient, fpm2mps, feet2m, kts2mps]
  intro heq
  have hw0 : 0 < w * 0.9 := by rw [hw]; positivity
  have : (K w (81 / 71) - K (w * 0.9) (81 / 71)) * (w * 0.9 / q * (1 - gradient 1000 100 ^ 2)) = 0 := by
    have h3 : ∀ k, k / q * (w * 0.9) * (1 - gradient 1000 100 ^ 2) = k * (w * 0.9 / q * (1 - gradient 1000 100 ^ 2)) := by
      intro k; ring
    rw [h3, h3] at heq
    linarith
  rcases mul_eq_zero.mp this with hz | hz
  · exact hKne (sub_eq_zero.mp hz)
  · have : 0 < w * 0.9 / q * (1 - gradient 1000 100 ^ 2) := mul_pos (by positivity) (by linarith)
    linarith

/-! ### C45 -/

/-- The lift coefficient of the turn is proportional to the climb weight fraction, so two concepts that
differ in nothing else need different lift coefficients at every wing loading. -/
theorem C45_fraction_violated (X : Ext) (c : Concept) (b : Bool) (s n t q m : ℝ) (K : ℝ → ℝ → ℝ)
    (h : TurnIn X c s n t q m K) (f₁ f₂ w : ℝ) :
    ∃ R₁ R₂ cl₁ cl₂ fe₁ fe₂,
      twrequired_trn X { c with climb_weight_fraction := some f₁ } (.scalar w) b = .ok (.scalar R₁, .scalar cl₁, fe₁) ∧
      twrequired_trn X { c with climb_weight_fraction := some f₂ } (.scalar w) b = .ok (.scalar R₂, .scalar cl₂, fe₂) ∧
      cl₁ * f₂ = cl₂ * f₁ ∧
      (f₁ ≠ f₂ → w ≠ 0 → n ≠ 0 → q ≠ 0 → pyNum c.turn_weight_fraction ≠ 0 → cl₁ ≠ cl₂) := by
  have h1 : ∀ f, TurnIn X { c with climb_weight_fraction := some f } s n t q m K := fun f =>
    ⟨h.speed, h.load, h.corr, h.press, h.mach, h.drag⟩
  refine ⟨_, _, _, _, _, _, (h1 f₁).eval b _, (h1 f₂).eval b _, ?_, ?_⟩
  · show w * pyNum c.turn_weight_fraction * f₁ * n / q * f₂ = w * pyNum c.turn_weight_fraction * f₂ * n / q * f₁
    ring
  · intro hne hw hn hq htf heq
    have heq : w * pyNum c.turn_weight_fraction * f₁ * n / q = w * pyNum c.turn_weight_fraction * f₂ * n / q := heq
    field_simp at heq
    exact hne heq

/-- With a constant induced drag factor the requirement itself changes with the climb weight fraction. -/
theorem C45_requirement_violated (X : Ext) (c : Concept) (s n t q m k : ℝ) (K : ℝ → ℝ → ℝ)
    (h : TurnIn X c s n t q m K) (hK : ∀ w cl, K w cl = k) (hk : k ≠ 0) (hn : n ≠ 0) (hq : q ≠ 0)
    (htf : pyNum c.turn_weight_fraction ≠ 0) (f₁ f₂ w : ℝ) (hf : f₁ ≠ f₂) (hw : w ≠ 0) :
    ∃ R₁ R₂ cl₁ cl₂ fe₁ fe₂,
      twrequired_trn X { c with climb_weight_fraction := some f₁ } (.scalar w) false = .ok (.scalar R₁, cl₁, fe₁) ∧
      twrequired_trn X { c with climb_weight_fraction := some f₂ } (.scalar w) false = .ok (.scalar R₂, cl₂, fe₂) ∧
      R₁ ≠ R₂ := by
  have h1 : ∀ f, TurnIn X { c with climb_weight_fraction := some f } s n t q m K := fun f =>
    ⟨h.speed, h.load, h.corr, h.press, h.mach, h.drag⟩
  refine ⟨_, _, _, _, _, _, (h1 f₁).eval false _, (h1 f₂).eval false _, ?_⟩
  have e : ∀ f, turnReq { c with climb_weight_fraction := some f } false n t q K w =
      q * (pyNum c.cdminclean / (w * pyNum c.turn_weight_fraction) + k * (n / q) ^ 2 * (w * pyNum c.turn_weight_fraction * f)) *
        pyNum c.turn_weight_fraction := by
    intro f
    simp only [turnReq, hK]
    rfl
  show turnReq _ _ _ _ _ _ _ ≠ turnReq _ _ _ _ _ _ _
  rw [e, e]
  intro heq
  have : q * (k * (n / q) ^ 2 * (w * pyNum c.turn_weight_fraction * (f₁ - f₂))) * pyNum c.turn_weight_fraction = 0 := by
    linarith
  have hf' := sub_ne_zero.mpr hf
  have : q * (k * (n / q) ^ 2 * (w * pyNum c.turn_weight_fraction * (f₁ - f₂))) * pyNum c.turn_weight_fraction ≠ 0 := by
    positivity
  contradiction

-- a supersonic turn at 1500 kt, where the drag factor is constant
example (X : Ext) : ∃ t q m k K, TurnIn X { exC with turnspeed_ktas := some 1500 } 1500 2 t q m K ∧ (∀ w cl, K w cl = k) ∧
    k ≠ 0 ∧ q ≠ 0 := by
  have hr : Ready { exC with turnspeed_ktas := some 1500 } :=
    ⟨exC_ready.sea, exC_ready.runway, exC_ready.climb, exC_ready.turn, exC_ready.cruise, exC_ready.ceiling, exC_ready.prop⟩
  obtain ⟨t, q, m, K, h⟩ := trn_given (X := X) hr (s := 1500) (n := 2) rfl rfl
  have hm2 : 2 ≤ m := by
    have e := h.mach.symm.trans (Atmos.mach1_of (exAtm_vsound 1000 (by norm_num) (by norm_num)))
    cases e
    have h0 : (0:ℝ) < Atmos.vsound 300 := by
      unfold Atmos.vsound; apply Real.sqrt_pos.mpr; norm_num [Atmos.R_JPKGPK]
    have h1 : Atmos.vsound 300 ≤ 350 := by
      unfold Atmos.vsound; apply Real.sqrt_le_iff.mpr; norm_num [Atmos.R_JPKGPK]
    rw [le_div_iff₀ h0]
    have : (700 : ℝ) ≤ kts2mps 1500 := by norm_num [kts2mps]
    linarith
  have hstar : machstar_le { exC with turnspeed_ktas := some 1500 } = 1 := by
    simp [machstar_le, Concept.sweep_le_rad, exC, pyNum, Atmos.deg2rad]
  obtain ⟨ls, hls, hK⟩ := C42_constant X _ m K h.drag (by linarith) (by rw [hstar]; linarith) (by rw [hstar]; norm_num)
  have hl : 0 < ls := slope_pos_unswept (by simp [Concept.sweep_le_rad, exC, pyNum, Atmos.deg2rad]) rfl hm2 hls
  refine ⟨t, q, m, 1 / ls, K, h, hK, by positivity, ?_⟩
  have hq := h.press
  unfold Atmos.dynamicpressure_pa at hq
  have hd : Atmos.dens1 { exC with turnspeed_ktas := some 1500 }.designatm (pyNum exC.turnalt_m) = .ok 1 :=
    exAtm_dens 1000 (by norm_num) (by norm_num)
  rw [hd] at hq; cases hq
  norm_num [kts2mps]

/-- With climb weight fraction one and load factor one, the turn requirement is the level-flight
requirement at the turn speed and altitude and the turn weight. -/
theorem C45_level (X : Ext) (c : Concept) (b : Bool) (s t q m : ℝ) (K : ℝ → ℝ → ℝ)
    (h : TurnIn X c s 1 t q m K) (hc : c.climb_weight_fraction = some 1)
    (h1 : c.cruisespeed_ktas = some s) (h2 : c.cruisealt_m = some (pyNum c.turnalt_m))
    (h3 : c.cruise_weight_fraction = some 1) (h4 : c.cruisethrustfact = some 1) (hq : q ≠ 0) (w : ℝ) :
    ∃ R cl fe L, twrequired_trn X c (.scalar w) b = .ok (.scalar R, cl, fe) ∧
      twrequired_crs X c (.scalar (w * pyNum c.turn_weight_fraction)) b = .ok (.scalar L) ∧
      R = pyNum c.turn_weight_fraction * L := by
  have h' : CruiseIn X c s (pyNum c.turnalt_m) t q m K := ⟨h1, h2, h.corr, h.press, h.mach, h.drag⟩
  refine ⟨_, _, _, _, h.eval b _, h'.eval b _, ?_⟩
  have e1 : pyNum (some (1:ℝ)) = 1 := rfl
  show turnReq _ _ _ _ _ _ _ = _ * cruiseReq _ _ _ _ _ _
  simp only [turnReq, turnCl, cruiseReq, turnPoint, cruisePoint, hc, h3, h4, e1, mul_one, div_one, sl]
  generalize K (w * pyNum c.turn_weight_fraction) (w * pyNum c.turn_weight_fraction / q) = k
  have : q * (pyNum c.cdminclean / (w * pyNum c.turn_weight_fraction) + k * (1 / q) ^ 2 * (w * pyNum c.turn_weight_fraction)) =
    1 / (w * pyNum c.turn_weight_fraction) * q * pyNum c.cdminclean + k / q * (w * pyNum c.turn_weight_fraction) := by
    field_simp
  rw [this]
  ring

example (X : Ext) : ∃ t q m K, TurnIn X exC 120 2 t q m K ∧ q ≠ 0 := by
  obtain ⟨t, q, m, K, h⟩ := trn_given (X := X) exC_ready (s := 120) (n := 2) rfl rfl
  refine ⟨t, q, m, K, h, ?_⟩
  have hd : Atmos.dens1 exC.designatm (pyNum exC.turnalt_m) = .ok 1 := exAtm_dens 1000 (by norm_num) (by norm_num)
  have hq := h.press
  unfold Atmos.dynamicpressure_pa at hq
  rw [hd] at hq; cases hq
  norm_num [kts2mps]

/-- A concept whose turn is level flight at the cruise condition. -/
example (X : Ext) : ∃ t q m K, TurnIn X { exC with stloadfactor := some 1, cruisespeed_ktas := some 120, cruisealt_m := some 1000 }
    120 1 t q m K := by
  have hr : Ready { exC with stloadfactor := some 1, cruisespeed_ktas := some 120, cruisealt_m := some 1000 } :=
    ⟨exC_ready.sea, exC_ready.runway, exC_ready.climb, exC_ready.turn,
      fun alt h => by cases h; exact exAtm_env 1000 (by norm_num) (by norm_num), exC_ready.ceiling, exC_ready.prop⟩
  exact trn_given (X := X) hr rfl rfl

example (X : Ext) : ∃ R₁ R₂ cl₁ cl₂ fe₁ fe₂,
    twrequired_trn X { exC with climb_weight_fraction := some 0.9 } (.scalar 800) true = .ok (.scalar R₁, .scalar cl₁, fe₁) ∧
    twrequired_trn X { exC with climb_weight_fraction := some 0.8 } (.scalar 800) true = .ok (.scalar R₂, .scalar cl₂, fe₂) ∧
    cl₁ * 0.8 = cl₂ * 0.9 := by
  obtain ⟨t, q, m, K, h⟩ := trn_given (X := X) exC_ready (s := 120) (n := 2) rfl rfl
  obtain ⟨R₁, R₂, cl₁, cl₂, fe₁, fe₂, h1, h2, h3, -⟩ := C45_fraction_violated X exC true 120 2 t q m K h 0.9 0.8 800
  exact ⟨R₁, R₂, cl₁, cl₂, fe₁, fe₂, h1, h2, h3⟩

end

end Verif.Props
