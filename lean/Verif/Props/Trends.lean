import Verif.Props.Frame
import Verif.Props.Constraint6
import Mathlib.Analysis.Calculus.Deriv.MeanValue
import Mathlib.Analysis.SpecialFunctions.Trigonometric.Deriv
import Mathlib.Analysis.SpecialFunctions.Trigonometric.ArctanDeriv

/-
Properties C104 and C105: what more drag and tighter turns cost.
-/

namespace Verif.Props
open Verif Verif.Aircraft Verif.Units Verif.Spec

noncomputable section

/-! ### C104: drag -/

/-- The concept with another clean minimum drag coefficient. -/
def withCd (c : Concept) (x : ℝ) : Concept := { c with cdminclean := some x }

/-- A higher drag coefficient costs its drag in climb: the increment times dynamic pressure over wing loading, in units of the weight. -/
theorem C104_climb (X : Ext) (c : Concept) (b : Bool) (s r v roc t q m : ℝ) (K : ℝ → ℝ → ℝ) (h : ClimbIn X c s r v roc t q m K)
    (hf : pyNum c.climb_weight_fraction ≠ 0) (ht : b = true → t ≠ 0) (x y w : ℝ) (hw : w ≠ 0) :
    ∃ R₁ R₂, twrequired_clm X (withCd c x) (.scalar w) b = .ok (.scalar R₁) ∧
      twrequired_clm X (withCd c y) (.scalar w) b = .ok (.scalar R₂) ∧
      R₂ - R₁ = (if b then 1 / t else 1) * (q * (y - x) / w) := by
  have h1 : ∀ x, ClimbIn X (withCd c x) s r v roc t q m K := fun x =>
    ⟨h.speed, h.rate, h.tas, h.troc, h.corr, h.press, h.mach, h.drag⟩
  refine ⟨_, _, (h1 x).eval b (.scalar w), (h1 y).eval b (.scalar w), ?_⟩
  show climbReq (withCd c y) b v roc t q K w - climbReq (withCd c x) b v roc t q K w = _
  unfold climbReq climbPoint sl
  have e1 : pyNum (withCd c x).cdminclean = x := rfl
  have e2 : pyNum (withCd c y).cdminclean = y := rfl
  have e3 : ∀ x, pyNum (withCd c x).climb_weight_fraction = pyNum c.climb_weight_fraction := fun _ => rfl
  rw [e1, e2, e3, e3]
  generalize K w _ = k
  cases b with
  | false => simp only [Bool.false_eq_true, if_false]; field_simp; ring
  | true => have := ht rfl; simp only [if_true]; field_simp; ring

/-- The same in cruise, at the cruise thrust setting. -/
theorem C104_cruise (X : Ext) (c : Concept) (b : Bool) (s alt t q m : ℝ) (K : ℝ → ℝ → ℝ) (h : CruiseIn X c s alt t q m K)
    (hf : pyNum c.cruise_weight_fraction ≠ 0) (ht : b = true → t ≠ 0) (hthr : pyNum c.cruisethrustfact ≠ 0) (x y w : ℝ) (hw : w ≠ 0) :
    ∃ R₁ R₂, twrequired_crs X (withCd c x) (.scalar w) b = .ok (.scalar R₁) ∧
      twrequired_crs X (withCd c y) (.scalar w) b = .ok (.scalar R₂) ∧
      R₂ - R₁ = (if b then 1 / t else 1) / pyNum c.cruisethrustfact * (q * (y - x) / w) := by
  have h1 : ∀ x, CruiseIn X (withCd c x) s alt t q m K := fun x =>
    ⟨h.speed, h.altitude, h.corr, h.press, h.mach, h.drag⟩
  refine ⟨_, _, (h1 x).eval b (.scalar w), (h1 y).eval b (.scalar w), ?_⟩
  show cruiseReq (withCd c y) b t q K w - cruiseReq (withCd c x) b t q K w = _
  unfold cruiseReq cruisePoint sl
  have e1 : pyNum (withCd c x).cdminclean = x := rfl
  have e2 : pyNum (withCd c y).cdminclean = y := rfl
  have e3 : ∀ x, pyNum (withCd c x).cruise_weight_fraction = pyNum c.cruise_weight_fraction := fun _ => rfl
  have e4 : ∀ x, pyNum (withCd c x).cruisethrustfact = pyNum c.cruisethrustfact := fun _ => rfl
  rw [e1, e2, e3, e3, e4, e4]
  generalize K w _ / q = k
  cases b with
  | false => simp only [Bool.false_eq_true, if_false]; field_simp; ring
  | true => have := ht rfl; simp only [if_true]; field_simp; ring

/-- The same at the service ceiling. -/
theorem C104_ceiling (X : Ext) (c : Concept) (b : Bool) (s alt v roc t q m : ℝ) (K : ℝ → ℝ → ℝ) (h : CeilIn X c s alt v roc t q m K)
    (hf : pyNum c.sec_weight_fraction ≠ 0) (ht : b = true → t ≠ 0) (x y w : ℝ) (hw : w ≠ 0) :
    ∃ R₁ R₂, twrequired_sec X (withCd c x) (.scalar w) b = .ok (.scalar R₁) ∧
      twrequired_sec X (withCd c y) (.scalar w) b = .ok (.scalar R₂) ∧
      R₂ - R₁ = (if b then 1 / t else 1) * (q * (y - x) / w) := by
  have h1 : ∀ x, CeilIn X (withCd c x) s alt v roc t q m K := fun x =>
    ⟨h.altitude, h.speed, h.tas, h.troc, h.corr, h.press, h.mach, h.drag⟩
  refine ⟨_, _, (h1 x).eval b (.scalar w), (h1 y).eval b (.scalar w), ?_⟩
  show ceilReq (withCd c y) b v roc t q K w - ceilReq (withCd c x) b v roc t q K w = _
  unfold ceilReq ceilingPoint sl
  have e1 : pyNum (withCd c x).cdminclean = x := rfl
  have e2 : pyNum (withCd c y).cdminclean = y := rfl
  have e3 : ∀ x, pyNum (withCd c x).sec_weight_fraction = pyNum c.sec_weight_fraction := fun _ => rfl
  rw [e1, e2, e3, e3]
  generalize K w _ = k
  cases b with
  | false => simp only [Bool.false_eq_true, if_false]; field_simp; ring
  | true => have := ht rfl; simp only [if_true]; field_simp; ring

/-- The same in the turn; the lift coefficient and the feasibility do not change. -/
theorem C104_turn (X : Ext) (c : Concept) (b : Bool) (s n t q m : ℝ) (K : ℝ → ℝ → ℝ) (h : TurnIn X c s n t q m K)
    (hf : pyNum c.turn_weight_fraction ≠ 0) (ht : b = true → t ≠ 0) (x y w : ℝ) (hw : w ≠ 0) :
    ∃ R₁ R₂ cl fe₁ fe₂, twrequired_trn X (withCd c x) (.scalar w) b = .ok (.scalar R₁, .scalar cl, .scalar fe₁) ∧
      twrequired_trn X (withCd c y) (.scalar w) b = .ok (.scalar R₂, .scalar cl, .scalar fe₂) ∧ (fe₁ = none ↔ fe₂ = none) ∧
      R₂ - R₁ = (if b then 1 / t else 1) * (q * (y - x) / w) := by
  have h1 : ∀ x, TurnIn X (withCd c x) s n t q m K := fun x =>
    ⟨h.speed, h.load, h.corr, h.press, h.mach, h.drag⟩
  refine ⟨_, _, _, _, _, (h1 x).eval b (.scalar w), (h1 y).eval b (.scalar w), ?_, ?_⟩
  · show turnFeas (withCd c x) b n t q K w = none ↔ turnFeas (withCd c y) b n t q K w = none
    unfold turnFeas
    have e1 : ∀ x, turnCl (withCd c x) n q w = turnCl c n q w := fun _ => rfl
    have e2 : ∀ x, (withCd c x).clmaxclean = c.clmaxclean := fun _ => rfl
    rw [e1, e1, e2, e2]
    split <;> simp
  show turnReq (withCd c y) b n t q K w - turnReq (withCd c x) b n t q K w = _
  unfold turnReq turnPoint sl
  have e1 : pyNum (withCd c x).cdminclean = x := rfl
  have e2 : pyNum (withCd c y).cdminclean = y := rfl
  have e3 : ∀ x, pyNum (withCd c x).turn_weight_fraction = pyNum c.turn_weight_fraction := fun _ => rfl
  have e4 : ∀ x, turnCl (withCd c x) n q w = turnCl c n q w := fun _ => rfl
  have e5 : ∀ x, pyNum (withCd c x).climb_weight_fraction = pyNum c.climb_weight_fraction := fun _ => rfl
  rw [e1, e2, e3, e3, e4, e4, e5, e5]
  generalize K _ _ * (n / q) ^ 2 = k
  cases b with
  | false => simp only [Bool.false_eq_true, if_false]; field_simp; ring
  | true => have := ht rfl; simp only [if_true]; field_simp; ring

/-- At take-off: more drag or rolling resistance in the ground roll costs half of drag over lift and half of the rolling resistance, in
units of the weight, mapped to static conditions; the lift-off speed does not change. -/
theorem C104_takeoff (X : Ext) (c : Concept) (b : Bool) (d : ℝ) (hd : Atmos.dens1 c.designatm (pyNum c.rwyelevation_m) = .ok d)
    (x y μ ν w R₁ R₂ l₁ l₂ a₁ a₂ : ℝ)
    (h₁ : twrequired_to X { c with cdto := some x, mu_r := some μ } (.scalar w) b = .ok (.scalar R₁, .scalar l₁, .scalar a₁))
    (h₂ : twrequired_to X { c with cdto := some y, mu_r := some ν } (.scalar w) b = .ok (.scalar R₂, .scalar l₂, .scalar a₂)) :
    l₁ = l₂ ∧ a₁ = a₂ ∧ ∃ t, (b = true → ∃ p, CorrAt X c l₁ (pyNum c.rwyelevation_m) t p) ∧
      R₂ - R₁ = (if b then 1 / t else 1) * map2static c * ((y - x) / (2 * pyNum c.clto) + (ν - μ) / 2) := by
  obtain ⟨g₁, d₁, t₁, i₁, c₁, rfl, rfl, rfl⟩ := to_scalar h₁
  obtain ⟨g₂, d₂, t₂, i₂, c₂, rfl, rfl, rfl⟩ := to_scalar h₂
  have e₁ : Atmos.dens1 c.designatm (pyNum c.rwyelevation_m) = .ok d₁ := i₁.dens
  have e₂ : Atmos.dens1 c.designatm (pyNum c.rwyelevation_m) = .ok d₂ := i₂.dens
  rw [hd] at e₁ e₂
  cases e₁; cases e₂
  have r₁ : c.groundrun_m = some g₁ := i₁.run
  have r₂ : c.groundrun_m = some g₂ := i₂.run
  rw [r₁] at r₂; cases r₂
  refine ⟨rfl, rfl, t₁, c₁, ?_⟩
  have ht : b = true → t₁ = t₂ := by
    intro hb
    obtain ⟨p₁, tc₁, pc₁, s1, s2, -⟩ := c₁ hb
    obtain ⟨p₂, tc₂, pc₂, u1, u2, -⟩ := c₂ hb
    have s1' : slcorr X c (.scalar (toLof c d w)) (pyNum c.rwyelevation_m) = .ok (tc₁, pc₁) := s1
    have u1' : slcorr X c (.scalar (toLof c d w)) (pyNum c.rwyelevation_m) = .ok (tc₂, pc₂) := u1
    rw [s1'] at u1'; cases u1'
    rw [s2] at u2; simpa using u2
  unfold toStatic takeoffPoint sl
  have m1 : ∀ x μ : ℝ, map2static { c with cdto := some x, mu_r := some μ } = map2static c := fun _ _ => rfl
  have l1 : ∀ x μ : ℝ, toLof { c with cdto := some x, mu_r := some μ } d w = toLof c d w := fun _ _ => rfl
  rw [m1, m1, l1, l1]
  show (if b then _ else map2static c * (_ + 0.5 * y / pyNum c.clto + 0.5 * ν)) -
    (if b then _ else map2static c * (_ + 0.5 * x / pyNum c.clto + 0.5 * μ)) = _
  generalize toLof c d w ^ 2 / (2 * gAcc * g₁) = z
  cases b with
  | false => simp only [Bool.false_eq_true, if_false]; ring
  | true =>
    rw [← ht rfl]; simp only [if_true]
    show map2static c * (z + 0.5 * y / pyNum c.clto + 0.5 * ν) / t₁ - map2static c * (z + 0.5 * x / pyNum c.clto + 0.5 * μ) / t₁ = _
    ring

/-- A higher maximum lift coefficient lowers the lift-off speed and the requirement (before the mapping to sea level). -/
theorem C104_clmaxto (X : Ext) (c : Concept) (hs : TakeoffSigns c) (d : ℝ) (hd : Atmos.dens1 c.designatm (pyNum c.rwyelevation_m) = .ok d)
    (hd0 : 0 < d) (cl w R₁ R₂ l₁ l₂ a₁ a₂ : ℝ) (hw : 0 < w) (hcl : pyNum c.clmaxto < cl)
    (h₁ : twrequired_to X c (.scalar w) false = .ok (.scalar R₁, .scalar l₁, .scalar a₁))
    (h₂ : twrequired_to X { c with clmaxto := some cl } (.scalar w) false = .ok (.scalar R₂, .scalar l₂, .scalar a₂)) :
    R₂ < R₁ ∧ l₂ < l₁ ∧ pyNum c.clmaxto * l₁ ^ 2 = cl * l₂ ^ 2 := by
  obtain ⟨g₁, d₁, t₁, i₁, c₁, rfl, rfl, rfl⟩ := to_scalar h₁
  obtain ⟨g₂, d₂, t₂, i₂, c₂, rfl, rfl, rfl⟩ := to_scalar h₂
  have e₁ : Atmos.dens1 c.designatm (pyNum c.rwyelevation_m) = .ok d₁ := i₁.dens
  have e₂ : Atmos.dens1 c.designatm (pyNum c.rwyelevation_m) = .ok d₂ := i₂.dens
  rw [hd] at e₁ e₂
  cases e₁; cases e₂
  have h0 := hs.clmax
  have hcl0 : 0 < cl := by linarith
  have hs' : TakeoffSigns { c with clmaxto := some cl } := ⟨hs.run, hcl0, hs.cl, hs.cd, hs.mu⟩
  have s1 : toLof c d w ^ 2 = 2.42 * w / (d * pyNum c.clmaxto) := lof_sq hd0 h0 hw.le
  have s2 : toLof { c with clmaxto := some cl } d w ^ 2 = 2.42 * w / (d * cl) := lof_sq hd0 hcl0 hw.le
  have n2 : 0 ≤ toLof c d w := by unfold toLof liftoffPoint; positivity
  refine ⟨?_, ?_, ?_⟩
  · simp only [sl, Bool.false_eq_true, if_false]
    rw [toStatic_eq i₁ hs hd0 hw.le, toStatic_eq i₂ hs' hd0 hw.le]
    have hm : 0 < map2static c := by
      obtain ⟨m1, m2, -⟩ := C49_static c
      rcases le_or_gt (pyNum c.bpr) 1 with hb | hb
      · rw [m1 hb]; norm_num
      · have := (m2 hb).1; norm_num at this ⊢; linarith
    show map2static c * (1.21 * w / (d * cl * gAcc * pyNum c.groundrun_m) + 0.5 * pyNum c.cdto / pyNum c.clto + 0.5 * pyNum c.mu_r) < _
    apply mul_lt_mul_of_pos_left _ hm
    have hg : 0 < gAcc := by norm_num [gAcc]
    have hr := hs.run
    have : 1.21 * w / (d * cl * gAcc * pyNum c.groundrun_m) < 1.21 * w / (d * pyNum c.clmaxto * gAcc * pyNum c.groundrun_m) := by
      apply div_lt_div_of_pos_left (by positivity) (by positivity)
      gcongr
    linarith
  · apply lt_of_pow_lt_pow_left₀ 2 n2
    rw [s1, s2]
    apply div_lt_div_of_pos_left (by positivity) (by positivity)
    gcongr
  · rw [s1, s2]; field_simp

/-! ### Concrete cases: drag coefficient 0.025 and 0.035 at 600 Pa -/

example (X : Ext) : ∃ R₁ R₂, twrequired_clm X (withCd exC 0.025) (.scalar 600) false = .ok (.scalar R₁) ∧
    twrequired_clm X (withCd exC 0.035) (.scalar 600) false = .ok (.scalar R₂) ∧ R₂ - R₁ = 0.5 * kts2mps 100 ^ 2 * 0.01 / 600 := by
  obtain ⟨v, roc, t, q, m, K, h⟩ := clm_given (X := X) exC_ready (s := 100) (r := 1000) rfl rfl
  have hv := h.tas
  rw [exC_tas _ (pyNum exC.climbalt_m) (by norm_num [exC, pyNum]) (by norm_num [exC, pyNum])] at hv; cases hv
  have hq := h.press
  rw [exC_q _ (pyNum exC.climbalt_m) (by norm_num [exC, pyNum]) (by norm_num [exC, pyNum])] at hq; cases hq
  obtain ⟨R₁, R₂, h1, h2, h3⟩ := C104_climb X exC false _ _ _ _ _ _ _ _ h (by norm_num [exC, pyNum]) (by simp) 0.025 0.035 600 (by norm_num)
  exact ⟨R₁, R₂, h1, h2, by rw [h3]; norm_num⟩

example (X : Ext) : ∃ R₁ R₂, twrequired_crs X (withCd exC 0.025) (.scalar 600) false = .ok (.scalar R₁) ∧
    twrequired_crs X (withCd exC 0.035) (.scalar 600) false = .ok (.scalar R₂) ∧ R₂ - R₁ = 0.5 * kts2mps 150 ^ 2 * 0.01 / 600 := by
  obtain ⟨t, q, m, K, h⟩ := crs_given (X := X) exC_ready (s := 150) (alt := 3000) rfl rfl
  have hq := h.press
  rw [exC_q _ 3000 (by norm_num) (by norm_num)] at hq; cases hq
  obtain ⟨R₁, R₂, h1, h2, h3⟩ := C104_cruise X exC false _ _ _ _ _ _ h (by norm_num [exC, pyNum]) (by simp) (by norm_num [exC, pyNum])
    0.025 0.035 600 (by norm_num)
  exact ⟨R₁, R₂, h1, h2, by rw [h3]; norm_num [exC, pyNum]⟩

example (X : Ext) : ∃ R₁ R₂, twrequired_sec X (withCd exC 0.025) (.scalar 600) false = .ok (.scalar R₁) ∧
    twrequired_sec X (withCd exC 0.035) (.scalar 600) false = .ok (.scalar R₂) ∧ R₂ - R₁ = 0.5 * kts2mps 90 ^ 2 * 0.01 / 600 := by
  obtain ⟨v, roc, t, q, m, K, h⟩ := sec_given (X := X) exC_ready (s := 90) (alt := 6000) rfl rfl
  have hv := h.tas
  rw [exC_tas _ 6000 (by norm_num) (by norm_num)] at hv; cases hv
  have hq := h.press
  rw [exC_q _ 6000 (by norm_num) (by norm_num)] at hq; cases hq
  obtain ⟨R₁, R₂, h1, h2, h3⟩ := C104_ceiling X exC false _ _ _ _ _ _ _ _ h (by norm_num [exC, pyNum]) (by simp) 0.025 0.035 600 (by norm_num)
  exact ⟨R₁, R₂, h1, h2, by rw [h3]; norm_num⟩

example (X : Ext) : ∃ R₁ R₂ cl f₁ f₂, twrequired_trn X (withCd exC 0.025) (.scalar 600) false = .ok (.scalar R₁, .scalar cl, .scalar f₁) ∧
    twrequired_trn X (withCd exC 0.035) (.scalar 600) false = .ok (.scalar R₂, .scalar cl, .scalar f₂) ∧
    R₂ - R₁ = 0.5 * kts2mps 120 ^ 2 * 0.01 / 600 := by
  obtain ⟨t, q, m, K, h⟩ := trn_given (X := X) exC_ready (s := 120) (n := 2) rfl rfl
  have hq := h.press
  rw [exC_q _ (pyNum exC.turnalt_m) (by norm_num [exC, pyNum]) (by norm_num [exC, pyNum])] at hq; cases hq
  obtain ⟨R₁, R₂, cl, f₁, f₂, h1, h2, -, h3⟩ := C104_turn X exC false _ _ _ _ _ _ h (by norm_num [exC, pyNum]) (by simp)
    0.025 0.035 600 (by norm_num)
  exact ⟨R₁, R₂, cl, f₁, f₂, h1, h2, by rw [h3]; norm_num⟩

theorem to_exists_of_ready (X : Ext) {c : Concept} (hr : Ready c) {g : ℝ} (hg : c.groundrun_m = some g) (w : ℝ) (b : Bool) :
    ∃ R l a, twrequired_to X c (.scalar w) b = .ok (.scalar R, .scalar l, .scalar a) := by
  obtain ⟨d, -, r, h⟩ := to_given X hr hg (.scalar w) b
  rcases to_point X c b with ⟨e, he⟩ | ⟨g, d, t, -, -, hv⟩
  · rw [he _ (by simp [recastArray])] at h; cases h
  · exact ⟨_, _, _, hv (.scalar w)⟩

theorem exC_ready_to (x y z : Option ℝ) : Ready { exC with cdto := x, mu_r := y, clmaxto := z } :=
  ⟨exC_ready.sea, exC_ready.runway, exC_ready.climb, exC_ready.turn, exC_ready.cruise, exC_ready.ceiling, exC_ready.prop⟩

/-- Gear drag 0.02 and friction 0.01 more. -/
example (X : Ext) : ∃ R₁ R₂ l a, twrequired_to X { exC with cdto := some 0.04, mu_r := some 0.03 } (.scalar 600) false = .ok (.scalar R₁, .scalar l, .scalar a) ∧
    twrequired_to X { exC with cdto := some 0.06, mu_r := some 0.04 } (.scalar 600) false = .ok (.scalar R₂, .scalar l, .scalar a) ∧
    R₂ - R₁ = map2static exC * (0.02 / 1.2 + 0.005) := by
  obtain ⟨R₁, l₁, a₁, h₁⟩ := to_exists_of_ready X (exC_ready_to (some 0.04) (some 0.03) exC.clmaxto) (g := 400) rfl 600 false
  obtain ⟨R₂, l₂, a₂, h₂⟩ := to_exists_of_ready X (exC_ready_to (some 0.06) (some 0.04) exC.clmaxto) (g := 400) rfl 600 false
  obtain ⟨e1, e2, t, -, e3⟩ := C104_takeoff X exC false 1 (exAtm_dens _ (by norm_num [exC, pyNum]) (by norm_num [exC, pyNum])) _ _ _ _ _ _ _ _ _ _ _ h₁ h₂
  subst e1 e2
  refine ⟨R₁, R₂, l₁, a₁, h₁, h₂, ?_⟩
  rw [e3]
  have : pyNum exC.clto = 0.6 := rfl
  rw [this]; simp only [Bool.false_eq_true, if_false]; norm_num

/-- A better flap: 1.6 to 2. -/
example (X : Ext) : ∃ R₁ R₂ l₁ l₂ a₁ a₂, twrequired_to X exC (.scalar 600) false = .ok (.scalar R₁, .scalar l₁, .scalar a₁) ∧
    twrequired_to X { exC with clmaxto := some 2 } (.scalar 600) false = .ok (.scalar R₂, .scalar l₂, .scalar a₂) ∧ R₂ < R₁ ∧ l₂ < l₁ := by
  obtain ⟨R₁, l₁, a₁, h₁⟩ := to_exists_of_ready X exC_ready (g := 400) rfl 600 false
  obtain ⟨R₂, l₂, a₂, h₂⟩ := to_exists_of_ready X (exC_ready_to exC.cdto exC.mu_r (some 2)) (g := 400) rfl 600 false
  obtain ⟨e1, e2, -⟩ := C104_clmaxto X exC (by constructor <;> norm_num [exC, pyNum]) 1
    (exAtm_dens _ (by norm_num [exC, pyNum]) (by norm_num [exC, pyNum])) one_pos 2 600 _ _ _ _ _ _ (by norm_num) (by norm_num [exC, pyNum]) h₁ h₂
  exact ⟨R₁, R₂, l₁, l₂, a₁, a₂, h₁, h₂, e1, e2⟩

end

end Verif.Props
