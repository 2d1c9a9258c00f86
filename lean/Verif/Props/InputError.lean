import Verif.Props.TurnTrend
import Verif.Props.Balance

/-
Property C143: what an error of the inputs does to the requirements.
-/

namespace Verif.Props
open Verif Verif.Aircraft Verif.Units Verif.Spec

noncomputable section

/-- Specification: two positive numbers that differ by a factor of at most `r`. -/
def Within (r x y : ℝ) : Prop := 0 < x ∧ 0 < y ∧ x ≤ r * y ∧ y ≤ r * x

namespace Within

variable {r x y x' y' : ℝ} {n m : ℕ}

theorem self (hr : 1 ≤ r) (hx : 0 < x) : Within r x x :=
  ⟨hx, hx, by nlinarith, by nlinarith⟩

theorem up (h : Within r x y) : Within (r ^ 1) x y := by rwa [pow_one]

theorem weaken (hr : 1 ≤ r) (h : Within (r ^ n) x y) (hn : n ≤ m) : Within (r ^ m) x y := by
  obtain ⟨h1, h2, h3, h4⟩ := h
  have := pow_le_pow_right₀ hr hn
  exact ⟨h1, h2, h3.trans (by gcongr), h4.trans (by gcongr)⟩

theorem mul (hr : 1 ≤ r) (h : Within (r ^ n) x y) (h' : Within (r ^ m) x' y') : Within (r ^ (n + m)) (x * x') (y * y') := by
  obtain ⟨h1, h2, h3, h4⟩ := h
  obtain ⟨g1, g2, g3, g4⟩ := h'
  have p : 0 < r ^ n := by positivity
  refine ⟨by positivity, by positivity, ?_, ?_⟩
  · calc x * x' ≤ (r ^ n * y) * (r ^ m * y') := by gcongr
      _ = _ := by rw [pow_add]; ring
  · calc y * y' ≤ (r ^ n * x) * (r ^ m * x') := by gcongr
      _ = _ := by rw [pow_add]; ring

theorem inv (h : Within (r ^ n) x y) : Within (r ^ n) x⁻¹ y⁻¹ := by
  obtain ⟨h1, h2, h3, h4⟩ := h
  refine ⟨by positivity, by positivity, ?_, ?_⟩
  · rw [← div_eq_mul_inv, inv_eq_one_div, div_le_div_iff₀ h1 h2]; linarith
  · rw [← div_eq_mul_inv, inv_eq_one_div, div_le_div_iff₀ h2 h1]; linarith

theorem div (hr : 1 ≤ r) (h : Within (r ^ n) x y) (h' : Within (r ^ m) x' y') : Within (r ^ (n + m)) (x / x') (y / y') := by
  rw [div_eq_mul_inv, div_eq_mul_inv]
  exact h.mul hr h'.inv

theorem add (h : Within (r ^ n) x y) (h' : Within (r ^ n) x' y') : Within (r ^ n) (x + x') (y + y') := by
  obtain ⟨h1, h2, h3, h4⟩ := h
  obtain ⟨g1, g2, g3, g4⟩ := h'
  exact ⟨by linarith, by linarith, by linarith, by linarith⟩

theorem scale (a : ℝ) (ha : 0 < a) (h : Within (r ^ n) x y) : Within (r ^ n) (a * x) (a * y) := by
  obtain ⟨h1, h2, h3, h4⟩ := h
  refine ⟨by positivity, by positivity, ?_, ?_⟩ <;> nlinarith

theorem sq (hr : 1 ≤ r) (h : Within (r ^ n) x y) : Within (r ^ (n + n)) (x ^ 2) (y ^ 2) := by
  rw [pow_two, pow_two]; exact h.mul hr h

/-- One minus a number of at most one half. -/
theorem one_sub (hr : 1 ≤ r) (h : Within (r ^ n) x y) (hx : x ≤ 1 / 2) (hy : y ≤ 1 / 2) : Within (r ^ n) (1 - x) (1 - y) := by
  obtain ⟨h1, h2, h3, h4⟩ := h
  have hp : 1 ≤ r ^ n := one_le_pow₀ hr
  generalize r ^ n = ρ at *
  refine ⟨by linarith, by linarith, ?_, ?_⟩
  · have : y / ρ ≤ x := by rw [div_le_iff₀ (by linarith)]; linarith
    have e : ρ * (1 - y) - (1 - y / ρ) = (ρ - 1) * (ρ - y * (ρ + 1)) / ρ := by field_simp; ring
    have : 0 ≤ (ρ - 1) * (ρ - y * (ρ + 1)) / ρ := by
      apply div_nonneg (mul_nonneg (by linarith) (by nlinarith)) (by linarith)
    linarith
  · have : x / ρ ≤ y := by rw [div_le_iff₀ (by linarith)]; linarith
    have e : ρ * (1 - x) - (1 - x / ρ) = (ρ - 1) * (ρ - x * (ρ + 1)) / ρ := by field_simp; ring
    have : 0 ≤ (ρ - 1) * (ρ - x * (ρ + 1)) / ρ := by
      apply div_nonneg (mul_nonneg (by linarith) (by nlinarith)) (by linarith)
    linarith

theorem of_pow (h : Within (r ^ 1) x y) : Within r x y := by rwa [pow_one] at h

/-- The correction applies or not. -/
theorem sl (hr : 1 ≤ r) (b : Bool) {t t' : ℝ} (ht : b = true → Within r t t') (h : Within (r ^ n) x y) :
    Within (r ^ (n + 1)) (Aircraft.sl b t x) (Aircraft.sl b t' y) := by
  unfold Aircraft.sl
  cases b with
  | false => simpa using h.weaken hr (Nat.le_succ n)
  | true => simpa using h.div hr (ht rfl).up

end Within

/-- Dynamic pressure from density and speed. -/
theorem press_within {r d d' v v' q q' h h' : ℝ} {a a' : Atmos.Atm} {n : ℕ} (hr : 1 ≤ r) (hd : Within r d d') (hv : Within (r ^ n) v v')
    (e : Atmos.dens1 a h = .ok d) (e' : Atmos.dens1 a' h' = .ok d')
    (hq : Atmos.dynamicpressure_pa a v h = .ok q) (hq' : Atmos.dynamicpressure_pa a' v' h' = .ok q') : Within (r ^ (1 + (n + n))) q q' := by
  unfold Atmos.dynamicpressure_pa at hq hq'
  rw [e] at hq
  rw [e'] at hq'
  cases hq; cases hq'
  exact (hd.up.scale 0.5 (by norm_num)).mul hr (hv.sq hr)

theorem eas_press {a : Atmos.Atm} {d0 s v q h : ℝ} (p0 : 0 < d0) (e : Atmos.dens1 a 0 = .ok d0) (E : EnvOK a h)
    (ht : Atmos.eas2tas a (kts2mps s) h = .ok v) (hq : Atmos.dynamicpressure_pa a v h = .ok q) : q = 0.5 * (d0 * kts2mps s ^ 2) := by
  obtain ⟨d, p, hd⟩ := E.dens
  have hr := dratio_ok hd e p p0
  unfold Atmos.eas2tas at ht
  rw [hr] at ht
  cases ht
  unfold Atmos.dynamicpressure_pa at hq
  rw [hd] at hq
  cases hq
  have hp : 0 < d / d0 := by positivity
  rw [div_pow, Real.sq_sqrt hp.le]
  field_simp

theorem kts_within {r s s' : ℝ} (h : Within r s s') : Within (r ^ 1) (kts2mps s) (kts2mps s') := by
  have := h.up.scale (kts2mps 1) (by norm_num [kts2mps])
  have f : ∀ s, kts2mps 1 * s = kts2mps s := fun s => by unfold kts2mps; ring
  rwa [f, f] at this

theorem fpm_within {r s s' : ℝ} (h : Within r s s') : Within (r ^ 1) (fpm2mps s) (fpm2mps s') := by
  have := h.up.scale (fpm2mps 1) (by norm_num [fpm2mps, feet2m])
  have f : ∀ s, fpm2mps 1 * s = fpm2mps s := fun s => by unfold fpm2mps feet2m; ring
  rwa [f, f] at this

theorem ratio_of_eas {a : Atmos.Atm} {d0 x y v roc h : ℝ} (p0 : 0 < d0) (e : Atmos.dens1 a 0 = .ok d0) (E : EnvOK a h)
    (ht : Atmos.eas2tas a x h = .ok v) (hq : Atmos.eas2tas a y h = .ok roc) : roc / v = y / x := by
  obtain ⟨d, p, hd⟩ := E.dens
  have hr := dratio_ok hd e p p0
  have hs : 0 < √(d / d0) := Real.sqrt_pos.mpr (by positivity)
  unfold Atmos.eas2tas at ht hq
  rw [hr] at ht hq
  cases ht; cases hq
  rw [div_div_div_cancel_right₀ hs.ne']

/-- Dynamic pressure from the sea level density and the indicated speed. -/
theorem press_eas_within {r d0 d0' s s' v v' q q' h h' : ℝ} {a a' : Atmos.Atm} (hr : 1 ≤ r) (hd : Within r d0 d0') (hv : Within r s s')
    (e : Atmos.dens1 a 0 = .ok d0) (e' : Atmos.dens1 a' 0 = .ok d0') (E : EnvOK a h) (E' : EnvOK a' h')
    (ht : Atmos.eas2tas a (kts2mps s) h = .ok v) (ht' : Atmos.eas2tas a' (kts2mps s') h' = .ok v')
    (hq : Atmos.dynamicpressure_pa a v h = .ok q) (hq' : Atmos.dynamicpressure_pa a' v' h' = .ok q') : Within (r ^ 3) q q' := by
  rw [eas_press hd.1 e E ht hq, eas_press hd.2.1 e' E' ht' hq']
  exact (hd.up.mul hr ((kts_within hv).sq hr)).scale 0.5 (by norm_num)

/-- Two statements of the same cruise. Speed, density, drag coefficient, induced drag factor, weight fraction, thrust setting, thrust
correction and wing loading each within a factor `r` of one another: the requirements are within `r ^ 9`. -/
theorem C143_cruise (X : Ext) (c c' : Concept) (b : Bool) (s s' alt alt' t t' q q' m m' : ℝ) (K K' : ℝ → ℝ → ℝ)
    (h : CruiseIn X c s alt t q m K) (h' : CruiseIn X c' s' alt' t' q' m' K') (r : ℝ) (hr : 1 ≤ r) (d d' w w' : ℝ)
    (e : Atmos.dens1 c.designatm alt = .ok d) (e' : Atmos.dens1 c'.designatm alt' = .ok d')
    (hs : Within r s s') (hd : Within r d d') (ht : b = true → Within r t t') (hw : Within r w w')
    (hcd : Within r (pyNum c.cdminclean) (pyNum c'.cdminclean))
    (hf : Within r (pyNum c.cruise_weight_fraction) (pyNum c'.cruise_weight_fraction))
    (hg : Within r (pyNum c.cruisethrustfact) (pyNum c'.cruisethrustfact))
    (hk : Within r (K w (w * pyNum c.cruise_weight_fraction / q)) (K' w' (w' * pyNum c'.cruise_weight_fraction / q'))) :
    ∃ R R', twrequired_crs X c (.scalar w) b = .ok (.scalar R) ∧ twrequired_crs X c' (.scalar w') b = .ok (.scalar R') ∧
      Within (r ^ 9) R R' := by
  refine ⟨_, _, h.eval b (.scalar w), h'.eval b (.scalar w'), ?_⟩
  show Within _ (cruiseReq c b t q K w) (cruiseReq c' b t' q' K' w')
  have hq : Within (r ^ 3) q q' := press_within hr hd (kts_within hs) e e' h.press h'.press
  unfold cruiseReq cruisePoint
  generalize K w _ = k at *
  generalize K' w' _ = k' at *
  have h1 := hw.up.mul hr hf.up
  have a2 : Within (r ^ 6) (1 / (w * pyNum c.cruise_weight_fraction) * q * pyNum c.cdminclean)
      (1 / (w' * pyNum c'.cruise_weight_fraction) * q' * pyNum c'.cdminclean) := by
    rw [one_div, one_div]
    exact (h1.inv.mul hr hq).mul hr hcd.up
  have a3 : Within (r ^ 6) (k / q * (w * pyNum c.cruise_weight_fraction)) (k' / q' * (w' * pyNum c'.cruise_weight_fraction)) :=
    (hk.up.div hr hq).mul hr h1
  have a4 := ((a2.add a3).sl hr b ht).mul hr hf.up
  rw [one_div (pyNum c.cruisethrustfact), one_div (pyNum c'.cruisethrustfact)]
  exact a4.mul hr hg.up.inv

/-- The same at the service ceiling, from the sea level density and the indicated speed: within `r ^ 8`. -/
theorem C143_ceiling (X : Ext) (c c' : Concept) (b : Bool) (s s' alt alt' v v' roc roc' t t' q q' m m' : ℝ) (K K' : ℝ → ℝ → ℝ)
    (h : CeilIn X c s alt v roc t q m K) (h' : CeilIn X c' s' alt' v' roc' t' q' m' K') (r : ℝ) (hr : 1 ≤ r) (d d' w w' : ℝ)
    (e : Atmos.dens1 c.designatm 0 = .ok d) (e' : Atmos.dens1 c'.designatm 0 = .ok d')
    (E : EnvOK c.designatm alt) (E' : EnvOK c'.designatm alt')
    (hs : Within r s s') (hd : Within r d d') (ht : b = true → Within r t t') (hw : Within r w w')
    (hcd : Within r (pyNum c.cdminclean) (pyNum c'.cdminclean))
    (hf : Within r (pyNum c.sec_weight_fraction) (pyNum c'.sec_weight_fraction))
    (hk : Within r (K w (w * pyNum c.sec_weight_fraction / q)) (K' w' (w' * pyNum c'.sec_weight_fraction / q'))) :
    ∃ R R', twrequired_sec X c (.scalar w) b = .ok (.scalar R) ∧ twrequired_sec X c' (.scalar w') b = .ok (.scalar R') ∧
      Within (r ^ 8) R R' := by
  refine ⟨_, _, h.eval b (.scalar w), h'.eval b (.scalar w'), ?_⟩
  show Within _ (ceilReq c b v roc t q K w) (ceilReq c' b v' roc' t' q' K' w')
  have hq : Within (r ^ 3) q q' := press_eas_within hr hd hs e e' E E' h.tas h'.tas h.press h'.press
  have hg := ratio_of_eas hd.1 e E h.tas h.troc
  have hg' := ratio_of_eas hd.2.1 e' E' h'.tas h'.troc
  unfold ceilReq ceilingPoint
  generalize K w _ = k at *
  generalize K' w' _ = k' at *
  rw [hg, hg']
  have h1 := hw.up.mul hr hf.up
  have a1 : Within (r ^ 6) (fpm2mps 100 / kts2mps s) (fpm2mps 100 / kts2mps s') := by
    have := (kts_within hs).inv.scale (fpm2mps 100) (by norm_num [fpm2mps, feet2m])
    rw [div_eq_mul_inv, div_eq_mul_inv]
    exact this.weaken hr (by norm_num)
  have a2 : Within (r ^ 6) (1 / (w * pyNum c.sec_weight_fraction) * q * pyNum c.cdminclean)
      (1 / (w' * pyNum c'.sec_weight_fraction) * q' * pyNum c'.cdminclean) := by
    rw [one_div, one_div]
    exact (h1.inv.mul hr hq).mul hr hcd.up
  have a3 : Within (r ^ 6) (k / q * (w * pyNum c.sec_weight_fraction)) (k' / q' * (w' * pyNum c'.sec_weight_fraction)) :=
    (hk.up.div hr hq).mul hr h1
  exact (((a1.add a2).add a3).sl hr b ht).mul hr hf.up

/-- The same in climbs of at most 45 degrees, with the climb rate within the factor `r` too: within `r ^ 12`. -/
theorem C143_climb (X : Ext) (c c' : Concept) (b : Bool) (s s' f f' v v' roc roc' t t' q q' m m' : ℝ) (K K' : ℝ → ℝ → ℝ)
    (h : ClimbIn X c s f v roc t q m K) (h' : ClimbIn X c' s' f' v' roc' t' q' m' K') (r : ℝ) (hr : 1 ≤ r) (d d' w w' : ℝ)
    (e : Atmos.dens1 c.designatm 0 = .ok d) (e' : Atmos.dens1 c'.designatm 0 = .ok d')
    (E : EnvOK c.designatm (pyNum c.climbalt_m)) (E' : EnvOK c'.designatm (pyNum c'.climbalt_m))
    (hs : Within r s s') (hrate : Within r f f') (hd : Within r d d') (ht : b = true → Within r t t') (hw : Within r w w')
    (hcd : Within r (pyNum c.cdminclean) (pyNum c'.cdminclean))
    (hf : Within r (pyNum c.climb_weight_fraction) (pyNum c'.climb_weight_fraction))
    (hk : Within r (K w (w * pyNum c.climb_weight_fraction / q)) (K' w' (w' * pyNum c'.climb_weight_fraction / q')))
    (hγ : 2 * (fpm2mps f / kts2mps s) ^ 2 ≤ 1) (hγ' : 2 * (fpm2mps f' / kts2mps s') ^ 2 ≤ 1) :
    ∃ R R', twrequired_clm X c (.scalar w) b = .ok (.scalar R) ∧ twrequired_clm X c' (.scalar w') b = .ok (.scalar R') ∧
      Within (r ^ 12) R R' := by
  refine ⟨_, _, h.eval b (.scalar w), h'.eval b (.scalar w'), ?_⟩
  show Within _ (climbReq c b v roc t q K w) (climbReq c' b v' roc' t' q' K' w')
  have hq : Within (r ^ 3) q q' := press_eas_within hr hd hs e e' E E' h.tas h'.tas h.press h'.press
  have hg := ratio_of_eas hd.1 e E h.tas h.troc
  have hg' := ratio_of_eas hd.2.1 e' E' h'.tas h'.troc
  unfold climbReq climbPoint
  generalize K w _ = k at *
  generalize K' w' _ = k' at *
  rw [one_mul, one_mul, hg, hg']
  have h1 := hw.up.mul hr hf.up
  have a0 : Within (r ^ 2) (fpm2mps f / kts2mps s) (fpm2mps f' / kts2mps s') := (fpm_within hrate).div hr (kts_within hs)
  have a2 : Within (r ^ 6) (1 / (w * pyNum c.climb_weight_fraction) * q * pyNum c.cdminclean)
      (1 / (w' * pyNum c'.climb_weight_fraction) * q' * pyNum c'.cdminclean) := by
    rw [one_div, one_div]
    exact (h1.inv.mul hr hq).mul hr hcd.up
  have a3 : Within (r ^ 6) (k / q * (w * pyNum c.climb_weight_fraction)) (k' / q' * (w' * pyNum c'.climb_weight_fraction)) :=
    (hk.up.div hr hq).mul hr h1
  have a4 : Within (r ^ 4) (1 - (fpm2mps f / kts2mps s) ^ 2) (1 - (fpm2mps f' / kts2mps s') ^ 2) :=
    (a0.sq hr).one_sub hr (by linarith) (by linarith)
  have a5 : Within (r ^ 10) _ _ := a3.mul hr a4
  exact ((((a0.weaken hr (by norm_num)).add (a2.weaken hr (by norm_num))).add a5).sl hr b ht).mul hr hf.up

/-- The same in the turn, with the load factor and both weight fractions: the lift coefficients are within `r ^ 7`, the requirements within
`r ^ 11`. A turn with a lift coefficient below the maximum by the factor `r ^ 8` is feasible in both statements. -/
theorem C143_turn (X : Ext) (c c' : Concept) (b : Bool) (s s' n n' t t' q q' m m' : ℝ) (K K' : ℝ → ℝ → ℝ)
    (h : TurnIn X c s n t q m K) (h' : TurnIn X c' s' n' t' q' m' K') (r : ℝ) (hr : 1 ≤ r) (d d' w w' : ℝ)
    (e : Atmos.dens1 c.designatm (pyNum c.turnalt_m) = .ok d) (e' : Atmos.dens1 c'.designatm (pyNum c'.turnalt_m) = .ok d')
    (hs : Within r s s') (hn : Within r n n') (hd : Within r d d') (ht : b = true → Within r t t') (hw : Within r w w')
    (hcd : Within r (pyNum c.cdminclean) (pyNum c'.cdminclean))
    (hf : Within r (pyNum c.turn_weight_fraction) (pyNum c'.turn_weight_fraction))
    (hg : Within r (pyNum c.climb_weight_fraction) (pyNum c'.climb_weight_fraction))
    (hm : Within r (pyNum c.clmaxclean) (pyNum c'.clmaxclean))
    (hk : Within r (K (w * pyNum c.turn_weight_fraction) (turnCl c n q w)) (K' (w' * pyNum c'.turn_weight_fraction) (turnCl c' n' q' w'))) :
    ∃ R R' cl cl' fe fe', twrequired_trn X c (.scalar w) b = .ok (.scalar R, .scalar cl, .scalar fe) ∧
      twrequired_trn X c' (.scalar w') b = .ok (.scalar R', .scalar cl', .scalar fe') ∧
      Within (r ^ 11) R R' ∧ Within (r ^ 7) cl cl' ∧ (r ^ 8 * cl ≤ pyNum c.clmaxclean → fe = some R ∧ fe' = some R') := by
  refine ⟨_, _, _, _, _, _, h.eval b (.scalar w), h'.eval b (.scalar w'), ?_⟩
  show Within _ (turnReq c b n t q K w) (turnReq c' b n' t' q' K' w') ∧ Within _ (turnCl c n q w) (turnCl c' n' q' w') ∧
    (r ^ 8 * turnCl c n q w ≤ _ → turnFeas c b n t q K w = some (turnReq c b n t q K w) ∧
      turnFeas c' b n' t' q' K' w' = some (turnReq c' b n' t' q' K' w'))
  have hq : Within (r ^ 3) q q' := press_within hr hd (kts_within hs) e e' h.press h'.press
  have h1 := hw.up.mul hr hf.up
  have h2 := h1.mul hr hg.up
  have hcl : Within (r ^ 7) (turnCl c n q w) (turnCl c' n' q' w') := (h2.mul hr hn.up).div hr hq
  refine ⟨?_, hcl, fun hle => ?_⟩
  · unfold turnReq turnPoint
    generalize K _ _ = k at *
    generalize K' _ _ = k' at *
    have a1 : Within (r ^ 6) (q * (pyNum c.cdminclean / (w * pyNum c.turn_weight_fraction)))
        (q' * (pyNum c'.cdminclean / (w' * pyNum c'.turn_weight_fraction))) := hq.mul hr (hcd.up.div hr h1)
    have a2 : Within (r ^ 9) (q * (k * (n / q) ^ 2 * (w * pyNum c.turn_weight_fraction * pyNum c.climb_weight_fraction)))
        (q' * (k' * (n' / q') ^ 2 * (w' * pyNum c'.turn_weight_fraction * pyNum c'.climb_weight_fraction))) := by
      have := ((hk.up.mul hr (hn.up.sq hr)).div hr hq).mul hr h2
      have f : ∀ {q k n x : ℝ}, 0 < q → q * (k * (n / q) ^ 2 * x) = k * n ^ 2 / q * x := by intro q k n x hq; field_simp
      rw [f hq.1, f hq.2.1]
      exact this
    rw [mul_add, mul_add]
    exact (((a1.weaken hr (by norm_num)).add a2).sl hr b ht).mul hr hf.up
  · have r1 : 1 ≤ r ^ 8 := one_le_pow₀ hr
    have c1 : turnCl c n q w ≤ pyNum c.clmaxclean := by nlinarith [hcl.1]
    have c2 : turnCl c' n' q' w' ≤ pyNum c'.clmaxclean := by
      have h3 := hcl.2.2.2
      have h4 := hm.2.2.1
      have h5 : r * (r ^ 7 * turnCl c n q w) ≤ r * pyNum c'.clmaxclean := by
        calc _ = r ^ 8 * turnCl c n q w := by ring
          _ ≤ _ := hle.trans h4
      exact h3.trans (le_of_mul_le_mul_left h5 (by linarith))
    unfold turnFeas
    rw [if_neg (not_lt.mpr c1), if_neg (not_lt.mpr c2)]
    exact ⟨rfl, rfl⟩

/-- The same at take-off: lift-off speeds within `r ^ 2`, requirements within `r ^ 6`. The thrust corrections are those at the lift-off
speeds. -/
theorem C143_takeoff (X : Ext) (c c' : Concept) (b : Bool) (r : ℝ) (hr : 1 ≤ r) (d d' w w' R R' l l' a a' : ℝ)
    (h : twrequired_to X c (.scalar w) b = .ok (.scalar R, .scalar l, .scalar a))
    (h' : twrequired_to X c' (.scalar w') b = .ok (.scalar R', .scalar l', .scalar a'))
    (e : Atmos.dens1 c.designatm (pyNum c.rwyelevation_m) = .ok d) (e' : Atmos.dens1 c'.designatm (pyNum c'.rwyelevation_m) = .ok d')
    (hd : Within r d d') (hw : Within r w w') (hs : Within r (pyNum c.groundrun_m) (pyNum c'.groundrun_m))
    (hcl : Within r (pyNum c.clmaxto) (pyNum c'.clmaxto)) (hcd : Within r (pyNum c.cdto) (pyNum c'.cdto))
    (hclt : Within r (pyNum c.clto) (pyNum c'.clto)) (hμ : Within r (pyNum c.mu_r) (pyNum c'.mu_r))
    (hst : Within r (map2static c) (map2static c'))
    (ht : b = true → ∀ t t' p p', CorrAt X c l (pyNum c.rwyelevation_m) t p → CorrAt X c' l' (pyNum c'.rwyelevation_m) t' p' → Within r t t') :
    Within (r ^ 2) l l' ∧ Within (r ^ 6) R R' := by
  obtain ⟨g, d₁, t, i, c₁, rfl, rfl, rfl⟩ := to_scalar h
  obtain ⟨g', d₁', t', i', c₁', rfl, rfl, rfl⟩ := to_scalar h'
  have u := i.dens; rw [e] at u; cases u
  have u := i'.dens; rw [e'] at u; cases u
  have u := i.run
  rw [u] at hs
  have u := i'.run
  rw [u] at hs
  have hs : Within r g g' := hs
  have hv : Within (r ^ 3) (toLof c d w ^ 2) (toLof c' d' w' ^ 2) := by
    have key : ∀ {d m w : ℝ}, 0 < d → 0 < m → 0 < w → liftoffPoint d m w ^ 2 = 2.42 * (w / (d * m)) := by
      intro d m w hd hm hw
      unfold liftoffPoint
      rw [mul_pow, Real.sq_sqrt (by positivity)]
      ring
    unfold toLof
    rw [key hd.1 hcl.1 hw.1, key hd.2.1 hcl.2.1 hw.2.1]
    exact (hw.up.div hr (hd.up.mul hr hcl.up)).scale 2.42 (by norm_num)
  have hl : Within (r ^ 2) (toLof c d w) (toLof c' d' w') := by
    have hp : ∀ {d m w : ℝ}, 0 < d → 0 < m → 0 < w → 0 < liftoffPoint d m w := by
      intro d m w hd hm hw
      unfold liftoffPoint
      positivity
    have p1 : 0 < toLof c d w := hp hd.1 hcl.1 hw.1
    have p2 : 0 < toLof c' d' w' := hp hd.2.1 hcl.2.1 hw.2.1
    have h4 := hv.weaken hr (m := 4) (by norm_num)
    refine ⟨p1, p2, ?_, ?_⟩
    · refine (pow_le_pow_iff_left₀ (by positivity) (by positivity) two_ne_zero).mp ?_
      have := h4.2.2.1
      nlinarith
    · refine (pow_le_pow_iff_left₀ (by positivity) (by positivity) two_ne_zero).mp ?_
      have := h4.2.2.2
      nlinarith
  refine ⟨hl, ?_⟩
  unfold toStatic takeoffPoint
  have a1 : Within (r ^ 4) (toLof c d w ^ 2 / (2 * gAcc * g)) (toLof c' d' w' ^ 2 / (2 * gAcc * g')) :=
    hv.div hr (hs.up.scale _ (by norm_num [gAcc]))
  have a2 : Within (r ^ 2) (0.5 * pyNum c.cdto / pyNum c.clto) (0.5 * pyNum c'.cdto / pyNum c'.clto) :=
    (hcd.up.scale 0.5 (by norm_num)).div hr hclt.up
  have a3 : Within (r ^ 1) (0.5 * pyNum c.mu_r) (0.5 * pyNum c'.mu_r) := hμ.up.scale 0.5 (by norm_num)
  have a4 := hst.up.mul hr ((a1.add (a2.weaken hr (by norm_num))).add (a3.weaken hr (by norm_num)))
  refine (a4.sl hr b (fun hb => ?_)).weaken hr (by norm_num)
  obtain ⟨p, hp⟩ := c₁ hb
  obtain ⟨p', hp'⟩ := c₁' hb
  exact ht hb _ _ _ _ hp hp'

/-! ### Examples: the light aircraft with a drag coefficient one per cent higher -/

theorem exC_sub (x alt : ℝ) (h0 : 0 ≤ alt) (h1 : alt ≤ 10000) (x0 : 0 < x) (x1 : x ≤ 150) :
    ∃ m, Atmos.mach1 exC.designatm (kts2mps x) alt = .ok m ∧ 0 ≤ m ∧ m < 0.6 := by
  obtain ⟨s0, s1⟩ := exC_vsound
  refine ⟨_, Atmos.mach1_of (exAtm_vsound alt h0 h1), ?_, ?_⟩
  · exact div_nonneg (by unfold kts2mps; positivity) (by linarith)
  · rw [div_lt_iff₀ (by linarith)]
    have : kts2mps x ≤ kts2mps 150 := by unfold kts2mps; gcongr
    have : kts2mps 150 < 0.6 * 340 := by norm_num [kts2mps]
    nlinarith

theorem exC_kpos (X : Ext) {m w x : ℝ} {K : ℝ → ℝ → ℝ} (hK : KFun X exC m K) (m0 : 0 ≤ m) (m1 : m < 0.6)
    (h : ∀ cc, CruiseCl exC w cc → cc ≤ x ∧ x ≤ cc + 1) : 0 < K w x :=
  (KFun.mono hK (Finite.of_wing X exC_isWing m0 m1) (fun cc hc => (h cc hc).1) le_rfl (fun cc hc => (h cc hc).2)).1

/-- In cruise. -/
example (X : Ext) : ∃ R R', twrequired_crs X exC (.scalar 600) false = .ok (.scalar R) ∧
    twrequired_crs X (withCd exC (1.01 * pyNum exC.cdminclean)) (.scalar 600) false = .ok (.scalar R') ∧ Within 1.094 R R' := by
  obtain ⟨t, q, m, K, h⟩ := crs_given (X := X) exC_ready (s := 150) (alt := 3000) rfl rfl
  obtain ⟨m', hm, m0, m1⟩ := exC_sub 150 3000 (by norm_num) (by norm_num) (by norm_num) le_rfl
  have hm' := h.mach; rw [hm] at hm'; cases hm'
  have hq := h.press
  rw [exC_q _ 3000 (by norm_num) (by norm_num)] at hq; cases hq
  have h' : CruiseIn X (withCd exC (1.01 * pyNum exC.cdminclean)) 150 3000 t (0.5 * 1 * kts2mps 150 ^ 2) m K :=
    ⟨h.speed, h.altitude, h.corr, h.press, h.mach, h.drag⟩
  have hd := exAtm_dens 3000 (by norm_num) (by norm_num)
  have one : ∀ x : ℝ, 0 < x → Within 1.01 x x := fun x hx => Within.self (by norm_num) hx
  obtain ⟨R, R', h1, h2, h3⟩ := C143_cruise X exC _ false _ _ _ _ _ _ _ _ _ _ K K h h' 1.01 (by norm_num) 1 1 600 600 hd hd
    (one _ (by norm_num)) (one _ (by norm_num)) (by simp) (one _ (by norm_num))
    (by refine ⟨?_, ?_, ?_, ?_⟩ <;> norm_num [withCd, exC, pyNum]) (one _ (by norm_num [exC, pyNum])) (one _ (by norm_num [exC, pyNum]))
    (one _ (exC_kpos X h.drag m0 m1 (by intro cc hc; rw [exC_cruiseCl _ _ hc]; norm_num [exC, pyNum, kts2mps])))
  obtain ⟨p1, p2, p3, p4⟩ := h3
  refine ⟨R, R', h1, h2, p1, p2, p3.trans ?_, p4.trans ?_⟩ <;> gcongr <;> norm_num

/-- At the service ceiling. -/
example (X : Ext) : ∃ R R', twrequired_sec X exC (.scalar 600) false = .ok (.scalar R) ∧
    twrequired_sec X (withCd exC (1.01 * pyNum exC.cdminclean)) (.scalar 600) false = .ok (.scalar R') ∧ Within 1.083 R R' := by
  obtain ⟨v, roc, t, q, m, K, h⟩ := sec_given (X := X) exC_ready (s := 90) (alt := 6000) rfl rfl
  obtain ⟨m', hm, m0, m1⟩ := exC_sub 90 6000 (by norm_num) (by norm_num) (by norm_num) (by norm_num)
  have hv := h.tas
  rw [exC_tas _ 6000 (by norm_num) (by norm_num)] at hv; cases hv
  have hm' := h.mach; rw [hm] at hm'; cases hm'
  have hq := h.press
  rw [exC_q _ 6000 (by norm_num) (by norm_num)] at hq; cases hq
  have h' : CeilIn X (withCd exC (1.01 * pyNum exC.cdminclean)) 90 6000 (kts2mps 90) roc t (0.5 * 1 * kts2mps 90 ^ 2) m K :=
    ⟨h.altitude, h.speed, h.tas, h.troc, h.corr, h.press, h.mach, h.drag⟩
  have hd := exAtm_dens 0 (by norm_num) (by norm_num)
  have one : ∀ x : ℝ, 0 < x → Within 1.01 x x := fun x hx => Within.self (by norm_num) hx
  obtain ⟨R, R', h1, h2, h3⟩ := C143_ceiling X exC _ false _ _ _ _ _ _ _ _ _ _ _ _ _ _ K K h h' 1.01 (by norm_num) 1 1 600 600 hd hd
    (exC_ready.ceiling _ rfl) (exC_ready.ceiling _ rfl)
    (one _ (by norm_num)) (one _ (by norm_num)) (by simp) (one _ (by norm_num))
    (by refine ⟨?_, ?_, ?_, ?_⟩ <;> norm_num [withCd, exC, pyNum]) (one _ (by norm_num [exC, pyNum]))
    (one _ (exC_kpos X h.drag m0 m1 (by intro cc hc; rw [exC_cruiseCl _ _ hc]; norm_num [exC, pyNum, kts2mps])))
  obtain ⟨p1, p2, p3, p4⟩ := h3
  refine ⟨R, R', h1, h2, p1, p2, p3.trans ?_, p4.trans ?_⟩ <;> gcongr <;> norm_num

/-- In the climb. -/
example (X : Ext) : ∃ R R', twrequired_clm X exC (.scalar 600) false = .ok (.scalar R) ∧
    twrequired_clm X (withCd exC (1.01 * pyNum exC.cdminclean)) (.scalar 600) false = .ok (.scalar R') ∧ Within 1.127 R R' := by
  obtain ⟨v, roc, t, q, m, K, h⟩ := clm_given (X := X) exC_ready (s := 100) (r := 1000) rfl rfl
  obtain ⟨m', hm, m0, m1⟩ := exC_sub 100 (pyNum exC.climbalt_m) (by norm_num [exC, pyNum]) (by norm_num [exC, pyNum]) (by norm_num) (by norm_num)
  have hv := h.tas
  rw [exC_tas _ (pyNum exC.climbalt_m) (by norm_num [exC, pyNum]) (by norm_num [exC, pyNum])] at hv; cases hv
  have hm' := h.mach; rw [hm] at hm'; cases hm'
  have hq := h.press
  rw [exC_q _ (pyNum exC.climbalt_m) (by norm_num [exC, pyNum]) (by norm_num [exC, pyNum])] at hq; cases hq
  have h' : ClimbIn X (withCd exC (1.01 * pyNum exC.cdminclean)) 100 1000 (kts2mps 100) roc t (0.5 * 1 * kts2mps 100 ^ 2) m K :=
    ⟨h.speed, h.rate, h.tas, h.troc, h.corr, h.press, h.mach, h.drag⟩
  have hd := exAtm_dens 0 (by norm_num) (by norm_num)
  have one : ∀ x : ℝ, 0 < x → Within 1.01 x x := fun x hx => Within.self (by norm_num) hx
  obtain ⟨R, R', h1, h2, h3⟩ := C143_climb X exC _ false _ _ _ _ _ _ _ _ _ _ _ _ _ _ K K h h' 1.01 (by norm_num) 1 1 600 600 hd hd
    exC_ready.climb exC_ready.climb
    (one _ (by norm_num)) (one _ (by norm_num)) (one _ (by norm_num)) (by simp) (one _ (by norm_num))
    (by refine ⟨?_, ?_, ?_, ?_⟩ <;> norm_num [withCd, exC, pyNum]) (one _ (by norm_num [exC, pyNum]))
    (one _ (exC_kpos X h.drag m0 m1 (by intro cc hc; rw [exC_cruiseCl _ _ hc]; norm_num [exC, pyNum, kts2mps])))
    (by norm_num [fpm2mps, feet2m, kts2mps]) (by norm_num [fpm2mps, feet2m, kts2mps])
  obtain ⟨p1, p2, p3, p4⟩ := h3
  refine ⟨R, R', h1, h2, p1, p2, p3.trans ?_, p4.trans ?_⟩ <;> gcongr <;> norm_num

/-- In the turn, which stays feasible. -/
example (X : Ext) : ∃ R R' cl cl', twrequired_trn X exC (.scalar 600) false = .ok (.scalar R, .scalar cl, .scalar (some R)) ∧
    twrequired_trn X (withCd exC (1.01 * pyNum exC.cdminclean)) (.scalar 600) false = .ok (.scalar R', .scalar cl', .scalar (some R')) ∧
    Within 1.116 R R' := by
  obtain ⟨t, q, m, K, h⟩ := trn_given (X := X) exC_ready (s := 120) (n := 2) rfl rfl
  obtain ⟨m', hm, m0, m1⟩ := exC_sub 120 (pyNum exC.turnalt_m) (by norm_num [exC, pyNum]) (by norm_num [exC, pyNum]) (by norm_num) (by norm_num)
  have hm' := h.mach; rw [hm] at hm'; cases hm'
  have hq := h.press
  rw [exC_q _ (pyNum exC.turnalt_m) (by norm_num [exC, pyNum]) (by norm_num [exC, pyNum])] at hq; cases hq
  have h' : TurnIn X (withCd exC (1.01 * pyNum exC.cdminclean)) 120 2 t (0.5 * 1 * kts2mps 120 ^ 2) m K :=
    ⟨h.speed, h.load, h.corr, h.press, h.mach, h.drag⟩
  have hd := exAtm_dens (pyNum exC.turnalt_m) (by norm_num [exC, pyNum]) (by norm_num [exC, pyNum])
  have one : ∀ x : ℝ, 0 < x → Within 1.01 x x := fun x hx => Within.self (by norm_num) hx
  obtain ⟨R, R', cl, cl', fe, fe', h1, h2, h3, h4, h5⟩ := C143_turn X exC _ false _ _ _ _ _ _ _ _ _ _ K K h h' 1.01 (by norm_num) 1 1 600 600 hd hd
    (one _ (by norm_num)) (one _ (by norm_num)) (one _ (by norm_num)) (by simp) (one _ (by norm_num))
    (by refine ⟨?_, ?_, ?_, ?_⟩ <;> norm_num [withCd, exC, pyNum]) (one _ (by norm_num [exC, pyNum])) (one _ (by norm_num [exC, pyNum]))
    (one _ (by norm_num [exC, pyNum]))
    (one _ (exC_kpos X h.drag m0 m1 (by intro cc hc; rw [exC_cruiseCl _ _ hc]; norm_num [turnCl, exC, pyNum, kts2mps])))
  have hcl : cl = turnCl exC 2 (0.5 * 1 * kts2mps 120 ^ 2) 600 := by
    have := h.eval false (.scalar 600)
    rw [h1] at this
    simp only [recastArray, List.map_cons, List.map_nil, Atmos.revert, Except.ok.injEq, Prod.mk.injEq, NumArg.scalar.injEq] at this
    exact this.2.1
  obtain ⟨rfl, rfl⟩ := h5 (by rw [hcl]; norm_num [turnCl, exC, pyNum, kts2mps])
  obtain ⟨p1, p2, p3, p4⟩ := h3
  refine ⟨R, R', cl, cl', h1, h2, p1, p2, p3.trans ?_, p4.trans ?_⟩ <;> gcongr <;> norm_num

/-- At take-off, with a drag coefficient of 0.0404 instead of 0.04. -/
example (X : Ext) : ∃ R R' l l' a a', twrequired_to X exC (.scalar 600) false = .ok (.scalar R, .scalar l, .scalar a) ∧
    twrequired_to X { exC with cdto := some 0.0404 } (.scalar 600) false = .ok (.scalar R', .scalar l', .scalar a') ∧ Within 1.062 R R' := by
  obtain ⟨R, l, a, h⟩ := to_exists_of_ready X exC_ready (g := 400) rfl 600 false
  obtain ⟨R', l', a', h'⟩ := to_exists_of_ready X (exC_ready_to (some 0.0404) exC.mu_r exC.clmaxto) (g := 400) rfl 600 false
  have hd := exAtm_dens (pyNum exC.rwyelevation_m) (by norm_num [exC, pyNum]) (by norm_num [exC, pyNum])
  have one : ∀ x : ℝ, 0 < x → Within 1.01 x x := fun x hx => Within.self (by norm_num) hx
  have h3 := (C143_takeoff X exC _ false 1.01 (by norm_num) 1 1 600 600 R R' l l' a a' h h' hd hd (one _ (by norm_num)) (one _ (by norm_num))
    (one _ (by norm_num [exC, pyNum])) (one _ (by norm_num [exC, pyNum])) (by refine ⟨?_, ?_, ?_, ?_⟩ <;> norm_num [exC, pyNum])
    (one _ (by norm_num [exC, pyNum])) (one _ (by norm_num [exC, pyNum])) (one _ (by norm_num [map2static, exC, pyNum])) (by simp)).2
  obtain ⟨p1, p2, p3, p4⟩ := h3
  refine ⟨R, R', l, l', a, a', h, h', p1, p2, p3.trans ?_, p4.trans ?_⟩ <;> gcongr <;> norm_num

end

end Verif.Props
