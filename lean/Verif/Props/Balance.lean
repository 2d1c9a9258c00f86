import Verif.Props.Constraint6

/-
Property C101: every thrust requirement is the thrust of a steady force balance on the aircraft.
-/

namespace Verif.Props
open Verif Verif.Aircraft Verif.Units

noncomputable section

/-! ### Specification: forces on an aircraft of weight `W` and wing area `S` at dynamic pressure `q`,
with drag polar `CD = cd + k CL²` -/

/-- Steady climb at climb angle with sine `sn`: lift carries the weight across the flight path, thrust
carries the drag and the weight along it. -/
def SteadyClimb (q S W cd k sn T : ℝ) : Prop :=
  ∃ cs CL L D, 0 ≤ cs ∧ sn ^ 2 + cs ^ 2 = 1 ∧ L = q * S * CL ∧ L = W * cs ∧
    D = q * S * (cd + k * CL ^ 2) ∧ T = D + W * sn

/-- The same with a small climb angle: lift equals weight. -/
def ShallowClimb (q S W cd k sn T : ℝ) : Prop :=
  ∃ CL L D, L = q * S * CL ∧ L = W ∧ D = q * S * (cd + k * CL ^ 2) ∧ T = D + W * sn

/-- Steady level turn with load factor `n`: lift is `n` times the weight, thrust equals drag. -/
def SteadyTurn (q S W n cd k T : ℝ) : Prop :=
  ∃ CL L D, L = q * S * CL ∧ L = n * W ∧ D = q * S * (cd + k * CL ^ 2) ∧ T = D

/-- Ground roll of length `run` from rest to the speed `v` at constant acceleration; thrust, drag, lift and
wheel friction `mu` balance at the average speed `v / √2` in air of density `d`. -/
def GroundRoll (d S W cd cl mu run v T : ℝ) : Prop :=
  ∃ q a L D, q = d * (v / √2) ^ 2 / 2 ∧ v ^ 2 = 2 * a * run ∧ L = q * S * cl ∧ D = q * S * cd ∧
    W / 9.80665 * a = T - D - mu * (W - L)

/-- The balance has one thrust. -/
theorem SteadyClimb.unique {q S W cd k sn T T' : ℝ} (hq : q ≠ 0) (hS : S ≠ 0) (h : SteadyClimb q S W cd k sn T)
    (h' : SteadyClimb q S W cd k sn T') : T = T' := by
  obtain ⟨cs, CL, L, D, h0, h1, h2, h3, h4, h5⟩ := h
  obtain ⟨cs', CL', L', D', h0', h1', h2', h3', h4', h5'⟩ := h'
  have : cs = cs' := by
    have h6 : cs ^ 2 = cs' ^ 2 := by linarith
    exact (pow_left_inj₀ h0 h0' (by norm_num)).mp h6
  subst this
  have : CL = CL' := by
    have h7 : q * S * CL = q * S * CL' := by rw [← h2, ← h2', h3, h3']
    exact mul_left_cancel₀ (mul_ne_zero hq hS) h7
  subst this
  rw [h5, h5', h4, h4']

/-- The climb requirement, times the weight, is the thrust of the steady climb at the climb weight, the
minimum drag coefficient, the induced drag factor at the lift coefficient of level flight, and the angle whose
sine is climb rate over speed, both as given. Mapped to sea level it is that thrust over the correction. -/
theorem C101_climb (X : Ext) (c : Concept) (b : Bool) (s r v roc t q m : ℝ) (K : ℝ → ℝ → ℝ)
    (h : ClimbIn X c s r v roc t q m K) (he : EnvOK c.designatm (pyNum c.climbalt_m)) (h0 : EnvOK c.designatm 0)
    (w S : ℝ) (hS : 0 < S) (hw : 0 < w) (hq : 0 < q) (hf : 0 < pyNum c.climb_weight_fraction) (ht : b = true → t ≠ 0)
    (hr : |fpm2mps r / kts2mps s| ≤ 1) :
    ∃ R k, twrequired_clm X c (.scalar w) b = .ok (.scalar R) ∧
      induceddragfact_lesm X c (some [w]) (some [w * pyNum c.climb_weight_fraction / q]) (some m) = .ok [k] ∧
      SteadyClimb q S (pyNum c.climb_weight_fraction * (w * S)) (pyNum c.cdminclean) k (fpm2mps r / kts2mps s)
        ((if b then t else 1) * R * (w * S)) := by
  have hg := climb_gradient h he h0
  have hk := h.drag.lesm [w] (fun w => w * pyNum c.climb_weight_fraction / q)
  refine ⟨_, _, h.eval b _, hk, ?_⟩
  obtain ⟨f, hf'⟩ : ∃ f, f = pyNum c.climb_weight_fraction := ⟨_, rfl⟩
  obtain ⟨k, hk'⟩ : ∃ k, k = K w (w * pyNum c.climb_weight_fraction / q) := ⟨_, rfl⟩
  unfold gradient at hg
  obtain ⟨sn, hsn⟩ : ∃ sn, sn = fpm2mps r / kts2mps s := ⟨_, rfl⟩
  simp only [climbReq, climbPoint, hg, ← hk']
  rw [← hsn] at hr ⊢
  rw [← hf'] at hf ⊢
  obtain ⟨h1, h2⟩ := abs_le.mp hr
  have h3 : 0 ≤ 1 - sn ^ 2 := by nlinarith
  refine ⟨√(1 - sn ^ 2), w * f * √(1 - sn ^ 2) / q, _, _, Real.sqrt_nonneg _, ?_, rfl, ?_, rfl, ?_⟩
  · rw [Real.sq_sqrt h3]; ring
  · field_simp
  · have h4 : (w * f * √(1 - sn ^ 2) / q) ^ 2 = (w * f / q) ^ 2 * (1 - sn ^ 2) := by
      rw [div_pow, mul_pow, Real.sq_sqrt h3]; ring
    rw [h4]
    have h5 : 1 * roc / v = sn := by rw [one_mul, hg, hsn]
    cases b with
    | false => simp only [sl, h5, Bool.false_eq_true, if_false]; field_simp; ring
    | true =>
      have := ht rfl
      simp only [sl, h5, if_true]
      field_simp
      ring

/-- The cruise requirement, times throttle and weight, is the drag in level flight at the cruise weight. -/
theorem C101_cruise (X : Ext) (c : Concept) (b : Bool) (s alt t q m : ℝ) (K : ℝ → ℝ → ℝ)
    (h : CruiseIn X c s alt t q m K)
    (w S : ℝ) (hS : 0 < S) (hw : 0 < w) (hq : 0 < q) (hf : 0 < pyNum c.cruise_weight_fraction) (ht : b = true → t ≠ 0)
    (hc : pyNum c.cruisethrustfact ≠ 0) :
    ∃ R k, twrequired_crs X c (.scalar w) b = .ok (.scalar R) ∧
      induceddragfact_lesm X c (some [w]) (some [w * pyNum c.cruise_weight_fraction / q]) (some m) = .ok [k] ∧
      SteadyClimb q S (pyNum c.cruise_weight_fraction * (w * S)) (pyNum c.cdminclean) k 0
        ((if b then t else 1) * pyNum c.cruisethrustfact * R * (w * S)) := by
  have hk := h.drag.lesm [w] (fun w => w * pyNum c.cruise_weight_fraction / q)
  refine ⟨_, _, h.eval b _, hk, 1, w * pyNum c.cruise_weight_fraction / q, _, _, by norm_num, by norm_num, rfl, ?_, rfl, ?_⟩
  · field_simp
  · simp only [cruiseReq, cruisePoint]
    cases b with
    | false => simp only [sl, Bool.false_eq_true, if_false]; field_simp; ring_nf
    | true =>
      have := ht rfl
      simp only [sl, if_true]
      field_simp
      simp

/-- The service ceiling requirement is the thrust of a climb at 100 feet per minute and the climb speed at the
ceiling, both as indicated, with the lift taken equal to the weight. -/
theorem C101_ceiling (X : Ext) (c : Concept) (b : Bool) (s alt v roc t q m : ℝ) (K : ℝ → ℝ → ℝ)
    (h : CeilIn X c s alt v roc t q m K) (he : EnvOK c.designatm alt) (h0 : EnvOK c.designatm 0)
    (w S : ℝ) (hS : 0 < S) (hw : 0 < w) (hq : 0 < q) (hf : 0 < pyNum c.sec_weight_fraction) (ht : b = true → t ≠ 0) :
    ∃ R k, twrequired_sec X c (.scalar w) b = .ok (.scalar R) ∧
      induceddragfact_lesm X c (some [w]) (some [w * pyNum c.sec_weight_fraction / q]) (some m) = .ok [k] ∧
      ShallowClimb q S (pyNum c.sec_weight_fraction * (w * S)) (pyNum c.cdminclean) k (fpm2mps 100 / kts2mps s)
        ((if b then t else 1) * R * (w * S)) := by
  have hk := h.drag.lesm [w] (fun w => w * pyNum c.sec_weight_fraction / q)
  refine ⟨_, _, h.eval b _, hk, w * pyNum c.sec_weight_fraction / q, _, _, rfl, ?_, rfl, ?_⟩
  · field_simp
  · have hg : roc / v = fpm2mps 100 / kts2mps s := by
      obtain ⟨d, p, hd⟩ := he.dens
      obtain ⟨d0, p0, hd0⟩ := h0.dens
      have hr := dratio_ok hd hd0 p p0
      have hs : 0 < √(d / d0) := Real.sqrt_pos.mpr (by positivity)
      have h1 := h.tas
      have h2 := h.troc
      unfold Atmos.eas2tas at h1 h2
      rw [hr] at h1 h2
      cases h1; cases h2
      rw [div_div_div_cancel_right₀ hs.ne']
    simp only [ceilReq, ceilingPoint, hg]
    obtain ⟨sn, hsn⟩ : ∃ sn, sn = fpm2mps 100 / kts2mps s := ⟨_, rfl⟩
    rw [← hsn]
    cases b with
    | false => simp only [sl, Bool.false_eq_true, if_false]; field_simp; ring
    | true =>
      have := ht rfl
      simp only [sl, if_true]
      field_simp
      ring

/-- Taking the lift equal to the weight errs on the safe side: the thrust is at least that of the climb
at the true angle, and exceeds it by the induced drag times the squared sine. -/
theorem C101_shallow (q S W cd k sn T T' : ℝ) (hq : 0 < q) (hS : 0 < S) (h : ShallowClimb q S W cd k sn T)
    (h' : SteadyClimb q S W cd k sn T') : T - T' = k / (q * S) * W ^ 2 * sn ^ 2 ∧ (0 ≤ k → T' ≤ T) := by
  obtain ⟨CL, L, D, h2, h3, h4, h5⟩ := h
  obtain ⟨cs', CL', L', D', h0', h1', h2', h3', h4', h5'⟩ := h'
  have e1 : CL = W / (q * S) := by rw [← h3, h2]; field_simp
  have e2 : CL' = W * cs' / (q * S) := by rw [← h3', h2']; field_simp
  have e3 : T - T' = k / (q * S) * W ^ 2 * sn ^ 2 := by
    have : sn ^ 2 = 1 - cs' ^ 2 := by linarith
    rw [this, h5, h5', h4, h4', e1, e2]
    field_simp
    ring
  refine ⟨e3, fun hk => ?_⟩
  have : 0 ≤ k / (q * S) * W ^ 2 * sn ^ 2 := by positivity
  linarith

example (k : ℝ) (hk : 0 ≤ k) : ∃ T T', ShallowClimb 1000 10 8000 0.02 k 0.6 T ∧ SteadyClimb 1000 10 8000 0.02 k 0.6 T' ∧ T' ≤ T := by
  have h : ShallowClimb 1000 10 8000 0.02 k 0.6 (1000 * 10 * (0.02 + k * 0.8 ^ 2) + 8000 * 0.6) :=
    ⟨0.8, 8000, _, by norm_num, rfl, rfl, rfl⟩
  have h' : SteadyClimb 1000 10 8000 0.02 k 0.6 (1000 * 10 * (0.02 + k * 0.64 ^ 2) + 8000 * 0.6) :=
    ⟨0.8, 0.64, 6400, _, by norm_num, by norm_num, by norm_num, by norm_num, rfl, rfl⟩
  exact ⟨_, _, h, h', (C101_shallow _ _ _ _ _ _ _ _ (by norm_num) (by norm_num) h h').2 hk⟩

/-- With the climb weight fraction at one, the turn requirement is the drag in the turn at the turn weight
and the given load factor. -/
theorem C101_turn (X : Ext) (c : Concept) (b : Bool) (s n t q m : ℝ) (K : ℝ → ℝ → ℝ)
    (h : TurnIn X c s n t q m K) (hc : pyNum c.climb_weight_fraction = 1)
    (w S : ℝ) (hS : 0 < S) (hw : 0 < w) (hq : 0 < q) (hf : 0 < pyNum c.turn_weight_fraction) (ht : b = true → t ≠ 0) :
    ∃ R cl fe k, twrequired_trn X c (.scalar w) b = .ok (.scalar R, .scalar cl, fe) ∧
      induceddragfact_lesm X c (some [w * pyNum c.turn_weight_fraction]) (some [cl]) (some m) = .ok [k] ∧
      q * S * cl = n * (pyNum c.turn_weight_fraction * (w * S)) ∧
      SteadyTurn q S (pyNum c.turn_weight_fraction * (w * S)) n (pyNum c.cdminclean) k
        ((if b then t else 1) * R * (w * S)) := by
  have hk := h.drag.lesm [w * pyNum c.turn_weight_fraction] (fun _ => turnCl c n q w)
  have hl : q * S * turnCl c n q w = n * (pyNum c.turn_weight_fraction * (w * S)) := by
    simp only [turnCl, hc]; field_simp
  refine ⟨_, _, _, _, h.eval b _, hk, hl, turnCl c n q w, _, _, rfl, hl, rfl, ?_⟩
  obtain ⟨k, hk'⟩ : ∃ k, k = K (w * pyNum c.turn_weight_fraction) (turnCl c n q w) := ⟨_, rfl⟩
  simp only [turnReq, turnPoint, ← hk']
  simp only [turnCl, hc]
  cases b with
  | false => simp only [sl, Bool.false_eq_true, if_false]; field_simp
  | true =>
    have := ht rfl
    simp only [sl, if_true]
    field_simp

/-- The take-off requirement, before the mappings to static thrust and to sea level, times the weight, exceeds the
average thrust of the ground roll by `(1 - x)(CDTO/CLTO - mu)/2` of the weight, where `x` is the lift at the lift-off speed and
CLTO over the weight, `1.21 CLTO / CLmaxTO`. -/
theorem C101_takeoff (X : Ext) (c : Concept) (b : Bool) (d w S R lof av T : ℝ)
    (h : twrequired_to X c (.scalar w) b = .ok (.scalar R, .scalar lof, .scalar av))
    (hd : Atmos.dens1 c.designatm (pyNum c.rwyelevation_m) = .ok d) (hd0 : 0 < d)
    (hc : 0 < pyNum c.clmaxto) (hl : 0 < pyNum c.clto) (hg : 0 < pyNum c.groundrun_m) (hw : 0 < w) (hS : 0 < S)
    (hT : GroundRoll d S (w * S) (pyNum c.cdto) (pyNum c.clto) (pyNum c.mu_r) (pyNum c.groundrun_m) lof T) :
    ∃ t, (b = true → ∃ p, CorrAt X c lof (pyNum c.rwyelevation_m) t p) ∧
      ((b = true → t ≠ 0) → (if b then t else 1) * R / map2static c * (w * S) = T +
        (1 - 1.21 * pyNum c.clto / pyNum c.clmaxto) * (pyNum c.cdto / pyNum c.clto - pyNum c.mu_r) / 2 * (w * S)) := by
  obtain ⟨g, d', t, hi, hcor, rfl, rfl, rfl⟩ := to_scalar h
  have e := hi.dens; rw [hd] at e; cases e
  refine ⟨t, hcor, fun ht => ?_⟩
  obtain ⟨q, a, L, D, h1, h2, h3, h4, h5⟩ := hT
  have hsq := lof_sq hd0 hc hw.le
  have hrun : pyNum c.groundrun_m = g := by rw [hi.run]; rfl
  rw [hrun] at h2 hg
  have hq : q = 1.21 * w / (2 * pyNum c.clmaxto) := by
    rw [h1, div_pow, Real.sq_sqrt (by norm_num), toLof, hsq]
    field_simp
    norm_num
  have ha : a = toLof c d w ^ 2 / (2 * g) := by rw [h2]; field_simp
  have hm : map2static c ≠ 0 := by
    have := (map2static_bounds c).1
    linarith
  have e1 : (if b then t else 1) * sl b t (toStatic c g d w) / map2static c =
      takeoffPoint g (pyNum c.cdto) (pyNum c.clto) (pyNum c.mu_r) (toLof c d w) := by
    cases b with
    | false => simp only [sl, toStatic, Bool.false_eq_true, if_false]; field_simp
    | true =>
      have := ht rfl
      simp only [sl, toStatic, if_true]; field_simp
  rw [e1]
  have hT : T = w * S / 9.80665 * a + D + pyNum c.mu_r * (w * S - L) := by linarith
  rw [hT, h3, h4, hq, ha]
  unfold takeoffPoint gAcc
  obtain ⟨V, hV⟩ : ∃ V, V = toLof c d w ^ 2 := ⟨_, rfl⟩
  rw [← hV]
  field_simp
  ring

/-! ### Concrete cases: the example concept at 600 Pa -/

theorem exC_tas (u alt : ℝ) (h0 : 0 ≤ alt) (h1 : alt ≤ 10000) : Atmos.eas2tas exC.designatm u alt = .ok u := by
  have hr :=
    dratio_ok (exAtm_dens alt h0 h1) (exAtm_dens 0 le_rfl (by norm_num)) one_pos one_pos
  unfold Atmos.eas2tas
  show (Atmos.dratio exAtm _ >>= _) = _
  rw [hr, bind_ok]
  norm_num
  rfl

theorem exC_q (u alt : ℝ) (h0 : 0 ≤ alt) (h1 : alt ≤ 10000) :
    Atmos.dynamicpressure_pa exC.designatm u alt = .ok (0.5 * 1 * u ^ 2) := by
  have hd : Atmos.dens1 exC.designatm alt = .ok 1 := exAtm_dens alt h0 h1
  unfold Atmos.dynamicpressure_pa
  rw [hd]; rfl

/-- Climb at 100 knots and 1000 feet per minute. -/
example (X : Ext) : ∃ R q k, twrequired_clm X exC (.scalar 600) false = .ok (.scalar R) ∧
    SteadyClimb q 12 7200 0.025 k (fpm2mps 1000 / kts2mps 100) (R * 7200) := by
  obtain ⟨v, roc, t, q, m, K, h⟩ := clm_given (X := X) exC_ready (s := 100) (r := 1000) rfl rfl
  have hv := h.tas
  rw [exC_tas _ (pyNum exC.climbalt_m) (by norm_num [exC, pyNum]) (by norm_num [exC, pyNum])] at hv; cases hv
  have hq := h.press
  rw [exC_q _ (pyNum exC.climbalt_m) (by norm_num [exC, pyNum]) (by norm_num [exC, pyNum])] at hq; cases hq
  obtain ⟨R, k, h1, h2, h3⟩ := C101_climb X exC false _ _ _ _ _ _ _ _ h exC_ready.climb exC_ready.sea 600 12 (by norm_num)
    (by norm_num) (by norm_num [kts2mps]) (by norm_num [exC, pyNum]) (by simp) (by norm_num [fpm2mps, feet2m, kts2mps, abs_le])
  refine ⟨R, 0.5 * 1 * kts2mps 100 ^ 2, k, h1, by convert h3 using 1 <;> norm_num [exC, pyNum]⟩

/-- Cruise at 150 knots. -/
example (X : Ext) : ∃ R q k, twrequired_crs X exC (.scalar 600) false = .ok (.scalar R) ∧
    SteadyClimb q 12 7200 0.025 k 0 (R * 7200) := by
  obtain ⟨t, q, m, K, h⟩ := crs_given (X := X) exC_ready (s := 150) (alt := 3000) rfl rfl
  have hq := h.press
  rw [exC_q _ 3000 (by norm_num) (by norm_num)] at hq; cases hq
  obtain ⟨R, k, h1, h2, h3⟩ := C101_cruise X exC false _ _ _ _ _ _ h 600 12 (by norm_num)
    (by norm_num) (by norm_num [kts2mps]) (by norm_num [exC, pyNum]) (by simp) (by norm_num [exC, pyNum])
  refine ⟨R, 0.5 * 1 * kts2mps 150 ^ 2, k, h1, by convert h3 using 1 <;> norm_num [exC, pyNum]⟩

/-- The service ceiling at 6000 m, climbing at 90 knots. -/
example (X : Ext) : ∃ R q k, twrequired_sec X exC (.scalar 600) false = .ok (.scalar R) ∧
    ShallowClimb q 12 7200 0.025 k (fpm2mps 100 / kts2mps 90) (R * 7200) := by
  obtain ⟨v, roc, t, q, m, K, h⟩ := sec_given (X := X) exC_ready (s := 90) (alt := 6000) rfl rfl
  have hv := h.tas
  rw [exC_tas _ 6000 (by norm_num) (by norm_num)] at hv; cases hv
  have hq := h.press
  rw [exC_q _ 6000 (by norm_num) (by norm_num)] at hq; cases hq
  obtain ⟨R, k, h1, h2, h3⟩ := C101_ceiling X exC false _ _ _ _ _ _ _ _ h (exC_ready.ceiling _ rfl) exC_ready.sea 600 12 (by norm_num)
    (by norm_num) (by norm_num [kts2mps]) (by norm_num [exC, pyNum]) (by simp)
  refine ⟨R, 0.5 * 1 * kts2mps 90 ^ 2, k, h1, by convert h3 using 1 <;> norm_num [exC, pyNum]⟩

/-- The turn at 120 knots with load factor 2. -/
example (X : Ext) : ∃ R cl fe q k, twrequired_trn X exC (.scalar 600) false = .ok (.scalar R, .scalar cl, fe) ∧
    q * 12 * cl = 14400 ∧ SteadyTurn q 12 7200 2 0.025 k (R * 7200) := by
  obtain ⟨t, q, m, K, h⟩ := trn_given (X := X) exC_ready (s := 120) (n := 2) rfl rfl
  have hq := h.press
  rw [exC_q _ (pyNum exC.turnalt_m) (by norm_num [exC, pyNum]) (by norm_num [exC, pyNum])] at hq; cases hq
  obtain ⟨R, cl, fe, k, h1, h2, h4, h3⟩ := C101_turn X exC false _ _ _ _ _ _ h rfl 600 12 (by norm_num)
    (by norm_num) (by norm_num [kts2mps]) (by norm_num [exC, pyNum]) (by simp)
  refine ⟨R, cl, fe, 0.5 * 1 * kts2mps 120 ^ 2, k, h1, ?_, ?_⟩
  · rw [h4]; norm_num [exC, pyNum]
  · convert h3 using 1 <;> norm_num [exC, pyNum]

/-- A climb at a sine of 0.6 both ways. -/
example : ShallowClimb 100 1 50 0.1 0.2 0.6 (10 + 5 + 30) ∧ SteadyClimb 100 1 50 0.1 0.2 0.6 (10 + 3.2 + 30) :=
  ⟨⟨0.5, 50, 15, by norm_num, rfl, by norm_num, by norm_num⟩,
    ⟨0.8, 0.4, 40, 13.2, by norm_num, by norm_num, by norm_num, by norm_num, by norm_num, by norm_num⟩⟩

/-- The take-off of the example: the ground roll has a thrust, and the requirement is above it since CLTO is
small (0.6 against 1.6 / 1.21) and the drag 0.04 exceeds the friction 0.03 times CLTO. -/
example (X : Ext) : ∃ R lof av T, twrequired_to X exC (.scalar 600) false = .ok (.scalar R, .scalar lof, .scalar av) ∧
    GroundRoll 1 12 7200 0.04 0.6 0.03 400 lof T ∧ T < R / map2static exC * 7200 := by
  obtain ⟨d, -, r, hr⟩ := to_given X exC_ready (g := 400) rfl (.scalar 600) false
  rcases to_point X exC false with ⟨e, he⟩ | ⟨g, d, t, -, -, hv⟩
  · rw [he _ (by simp [recastArray])] at hr; cases hr
  obtain ⟨R, lof, av, h⟩ : ∃ R lof av, twrequired_to X exC (.scalar 600) false = .ok (.scalar R, .scalar lof, .scalar av) :=
    ⟨_, _, _, hv (.scalar 600)⟩
  obtain ⟨T, hT⟩ : ∃ T, GroundRoll 1 12 7200 0.04 0.6 0.03 400 lof T :=
    ⟨7200 / 9.80665 * (lof ^ 2 / 800) + 1 * (lof / √2) ^ 2 / 2 * 12 * 0.04 + 0.03 * (7200 - 1 * (lof / √2) ^ 2 / 2 * 12 * 0.6),
      _, lof ^ 2 / 800, _, _, rfl, by ring, rfl, rfl, by ring⟩
  refine ⟨R, lof, av, T, h, hT, ?_⟩
  obtain ⟨t, -, ht⟩ := C101_takeoff X exC false 1 600 12 R lof av T h (exAtm_dens 0 le_rfl (by norm_num)) one_pos
    (by norm_num [exC, pyNum]) (by norm_num [exC, pyNum]) (by norm_num [exC, pyNum]) (by norm_num) (by norm_num)
    (by convert hT using 1 <;> norm_num [exC, pyNum])
  have h2 := ht (by simp)
  have h3 : (600 : ℝ) * 12 = 7200 := by norm_num
  simp only [Bool.false_eq_true, if_false, one_mul, h3] at h2
  rw [h2]
  have : 0 < (1 - 1.21 * pyNum exC.clto / pyNum exC.clmaxto) * (pyNum exC.cdto / pyNum exC.clto - pyNum exC.mu_r) / 2 * 7200 := by
    norm_num [exC, pyNum]
  linarith

end

end Verif.Props
