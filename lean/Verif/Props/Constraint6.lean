import Verif.Props.Constraint5

/-
Properties C49 (take-off), C50 (power and thrust), C52 (stall) and C53 (ground effect).
-/

namespace Verif.Props
open Verif Verif.Aircraft Verif.Units

noncomputable section

/-! ### C49 -/

theorem to_scalar {X : Ext} {c : Concept} {b : Bool} {w tw lof av : ℝ}
    (h : twrequired_to X c (.scalar w) b = .ok (.scalar tw, .scalar lof, .scalar av)) :
    ∃ g d t, TakeoffIn X c g d ∧ (b = true → ∃ p, CorrAt X c lof (pyNum c.rwyelevation_m) t p) ∧
      tw = sl b t (toStatic c g d w) ∧ lof = toLof c d w ∧ av = toLof c d w / √2 := by
  rcases to_point X c b with ⟨e, he⟩ | ⟨g, d, t, hi, ht, hv⟩
  · rw [he _ (by simp [recastArray])] at h; cases h
  · rw [hv] at h
    simp only [recastArray, List.map_cons, List.map_nil, Atmos.revert, Except.ok.injEq, Prod.mk.injEq, NumArg.scalar.injEq] at h
    obtain ⟨rfl, rfl, rfl⟩ := h
    exact ⟨g, d, t w, hi, fun hb => ht hb w, rfl, rfl, rfl⟩

theorem lof_sq {d cl w : ℝ} (hd : 0 < d) (hc : 0 < cl) (hw : 0 ≤ w) :
    liftoffPoint d cl w ^ 2 = 2.42 * w / (d * cl) := by
  unfold liftoffPoint
  rw [mul_pow, Real.sq_sqrt (by positivity)]
  ring

/-- The lift-off speed is 1.1 times the speed at which the lift at the take-off CLmax carries the weight, at
the density at the runway; the average speed is the lift-off speed over root two. -/
theorem C49_speeds (X : Ext) (c : Concept) (b : Bool) (w d tw lof av : ℝ)
    (h : twrequired_to X c (.scalar w) b = .ok (.scalar tw, .scalar lof, .scalar av))
    (hd : Atmos.dens1 c.designatm (pyNum c.rwyelevation_m) = .ok d) (hd0 : 0 < d) (hc : 0 < pyNum c.clmaxto) (hw : 0 ≤ w) :
    ∃ vs, 0 ≤ vs ∧ 0.5 * d * vs ^ 2 * pyNum c.clmaxto = w ∧ lof = 1.1 * vs ∧ 0 ≤ av ∧ 2 * av ^ 2 = lof ^ 2 := by
  obtain ⟨g, d', t, hi, -, -, rfl, rfl⟩ := to_scalar h
  have := hi.dens
  rw [hd] at this; cases this
  refine ⟨√((2 * w) / (d * pyNum c.clmaxto)), Real.sqrt_nonneg _, ?_, rfl, ?_, ?_⟩
  · rw [Real.sq_sqrt (by positivity)]
    field_simp
    norm_num
  · have : 0 ≤ toLof c d w := mul_nonneg (by norm_num) (Real.sqrt_nonneg _)
    positivity
  · rw [div_pow, Real.sq_sqrt (by norm_num)]; ring

theorem map2static_bounds (c : Concept) : 1 ≤ map2static c ∧ map2static c < 4 / 3 := by
  unfold map2static
  split
  · rename_i h
    constructor
    · rw [le_div_iff₀ (by linarith)]; linarith
    · rw [div_lt_iff₀ (by linarith)]; linarith
  · norm_num

/-- The factor between mean and static thrust: one up to bypass ratio one, between 10/9 and 4/3 above, and
increasing with the bypass ratio. -/
theorem C49_static (c : Concept) : (pyNum c.bpr ≤ 1 → map2static c = 1) ∧
    (1 < pyNum c.bpr → 10 / 9 < map2static c ∧ map2static c < 4 / 3) ∧
    ∀ c', pyNum c.bpr ≤ pyNum c'.bpr → map2static c ≤ map2static c' ∧
      (1 < pyNum c'.bpr → pyNum c.bpr < pyNum c'.bpr → map2static c < map2static c') := by
  have one : ∀ c : Concept, pyNum c.bpr ≤ 1 → map2static c = 1 := fun c h => by
    unfold map2static; rw [if_neg (not_lt.mpr h)]
  have up : ∀ c : Concept, 1 < pyNum c.bpr → map2static c = (4 / 3) * (4 + pyNum c.bpr) / (5 + pyNum c.bpr) := fun c h => by
    unfold map2static; rw [if_pos h]
  have lo : ∀ c : Concept, 1 < pyNum c.bpr → 10 / 9 < map2static c := fun c h => by
    rw [up c h, lt_div_iff₀ (by linarith)]; linarith
  refine ⟨one c, fun h => ⟨lo c h, (map2static_bounds c).2⟩, fun c' hle => ?_⟩
  rcases le_or_gt (pyNum c.bpr) 1 with h | h
  · refine ⟨by rw [one c h]; exact (map2static_bounds c').1, fun h' _ => ?_⟩
    rw [one c h]; linarith [lo c' h']
  · have h' : 1 < pyNum c'.bpr := by linarith
    rw [up c h, up c' h']
    constructor
    · rw [div_le_div_iff₀ (by linarith) (by linarith)]; nlinarith
    · intro _ hlt
      rw [div_lt_div_iff₀ (by linarith) (by linarith)]; nlinarith

example : 10 / 9 < map2static { exC with bpr := some 5 } := ((C49_static _).2.1 (by norm_num [pyNum])).1

/-- The parameters of the take-off model have their physical signs. -/
structure TakeoffSigns (c : Concept) : Prop where
  run : 0 < pyNum c.groundrun_m
  clmax : 0 < pyNum c.clmaxto
  cl : 0 < pyNum c.clto
  cd : 0 ≤ pyNum c.cdto
  mu : 0 ≤ pyNum c.mu_r

theorem toStatic_eq {X : Ext} {c : Concept} {g d w : ℝ} (hi : TakeoffIn X c g d) (hs : TakeoffSigns c) (hd : 0 < d) (hw : 0 ≤ w) :
    toStatic c g d w = map2static c * (1.21 * w / (d * pyNum c.clmaxto * gAcc * pyNum c.groundrun_m) +
      0.5 * pyNum c.cdto / pyNum c.clto + 0.5 * pyNum c.mu_r) := by
  have hg : g = pyNum c.groundrun_m := by rw [hi.run]; rfl
  have h1 := hs.clmax; have h2 := hs.run
  have h3 : (0:ℝ) < gAcc := by norm_num [gAcc]
  unfold toStatic takeoffPoint toLof
  rw [lof_sq hd hs.clmax hw, hg]
  congr 3
  field_simp
  norm_num
  ring

theorem toStatic_nonneg {X : Ext} {c : Concept} {g d w : ℝ} (hi : TakeoffIn X c g d) (hs : TakeoffSigns c) (hd : 0 < d)
    (hw : 0 ≤ w) : 0 ≤ toStatic c g d w := by
  rw [toStatic_eq hi hs hd hw]
  have h1 := hs.clmax; have h2 := hs.run; have h4 := hs.cl; have h5 := hs.cd; have h6 := hs.mu
  have h3 : (0:ℝ) < gAcc := by norm_num [gAcc]
  have := (map2static_bounds c).1
  have h7 : 0 < map2static c := by linarith
  positivity

/-- The requirement grows with the wing loading: without mapping always, with mapping when the thrust
available at the higher lift-off speed is not larger. -/
theorem C49_wingloading (X : Ext) (c : Concept) (b : Bool) (hs : TakeoffSigns c) (d : ℝ)
    (hd : Atmos.dens1 c.designatm (pyNum c.rwyelevation_m) = .ok d) (hd0 : 0 < d)
    (w₁ w₂ tw₁ tw₂ l₁ l₂ a₁ a₂ : ℝ) (hw : 0 ≤ w₁) (hlt : w₁ < w₂)
    (h₁ : twrequired_to X c (.scalar w₁) b = .ok (.scalar tw₁, .scalar l₁, .scalar a₁))
    (h₂ : twrequired_to X c (.scalar w₂) b = .ok (.scalar tw₂, .scalar l₂, .scalar a₂))
    (hcorr : b = true → ∀ t₁ t₂ p₁ p₂, CorrAt X c l₁ (pyNum c.rwyelevation_m) t₁ p₁ →
      CorrAt X c l₂ (pyNum c.rwyelevation_m) t₂ p₂ → 0 < t₂ ∧ t₂ ≤ t₁) :
    tw₁ < tw₂ ∧ l₁ < l₂ ∧ a₁ < a₂ := by
  obtain ⟨g, d', t₁, hi, k₁, rfl, rfl, rfl⟩ := to_scalar h₁
  obtain ⟨g', d'', t₂, hi', k₂, rfl, rfl, rfl⟩ := to_scalar h₂
  have e := hi.dens; rw [hd] at e; cases e
  have e := hi'.dens; rw [hd] at e; cases e
  have e := hi'.run; rw [hi.run] at e; cases e
  have c1 := hs.clmax; have c2 := hs.run
  have c3 : (0:ℝ) < gAcc := by norm_num [gAcc]
  have hst : toStatic c g d w₁ < toStatic c g d w₂ := by
    rw [toStatic_eq hi hs hd0 hw, toStatic_eq hi hs hd0 (by linarith)]
    have := (map2static_bounds c).1
    have h7 : 0 < map2static c := by linarith
    gcongr
  have hl : toLof c d w₁ < toLof c d w₂ := by
    unfold toLof liftoffPoint
    have : √((2 * w₁) / (d * pyNum c.clmaxto)) < √((2 * w₂) / (d * pyNum c.clmaxto)) := by
      apply Real.sqrt_lt_sqrt
      · positivity
      · gcongr
    linarith
  refine ⟨?_, hl, by gcongr⟩
  cases b with
  | false => exact hst
  | true =>
    obtain ⟨p₁, q₁⟩ := k₁ rfl
    obtain ⟨p₂, q₂⟩ := k₂ rfl
    obtain ⟨ht0, ht⟩ := hcorr rfl _ _ _ _ q₁ q₂
    show toStatic c g d w₁ / t₁ < toStatic c g d w₂ / t₂
    have := toStatic_nonneg hi hs hd0 hw
    calc toStatic c g d w₁ / t₁ ≤ toStatic c g d w₁ / t₂ := by gcongr
      _ < toStatic c g d w₂ / t₂ := by gcongr

/-- The requirement falls with the available ground run. -/
theorem C49_groundrun (X : Ext) (c : Concept) (b : Bool) (hs : TakeoffSigns c) (d : ℝ)
    (hd : Atmos.dens1 c.designatm (pyNum c.rwyelevation_m) = .ok d) (hd0 : 0 < d)
    (run w tw₁ tw₂ l₁ l₂ a₁ a₂ : ℝ) (hw : 0 < w) (hlt : pyNum c.groundrun_m < run)
    (h₁ : twrequired_to X c (.scalar w) b = .ok (.scalar tw₁, .scalar l₁, .scalar a₁))
    (h₂ : twrequired_to X { c with groundrun_m := some run } (.scalar w) b = .ok (.scalar tw₂, .scalar l₂, .scalar a₂))
    (hcorr : b = true → ∀ t p, CorrAt X c l₁ (pyNum c.rwyelevation_m) t p → 0 < t) :
    tw₂ < tw₁ ∧ l₂ = l₁ ∧ a₂ = a₁ := by
  obtain ⟨g, d', t₁, hi, k₁, rfl, rfl, rfl⟩ := to_scalar h₁
  obtain ⟨g', d'', t₂, hi', k₂, rfl, rfl, rfl⟩ := to_scalar h₂
  have e := hi.dens; rw [hd] at e; cases e
  have e := hi'.dens
  change Atmos.dens1 c.designatm (pyNum c.rwyelevation_m) = .ok d'' at e
  rw [hd] at e; cases e
  have c1 := hs.clmax; have c2 := hs.run
  have c3 : (0:ℝ) < gAcc := by norm_num [gAcc]
  have hs' : TakeoffSigns { c with groundrun_m := some run } := ⟨by show 0 < run; linarith, hs.clmax, hs.cl, hs.cd, hs.mu⟩
  have hst : toStatic { c with groundrun_m := some run } g' d w < toStatic c g d w := by
    rw [toStatic_eq hi hs hd0 hw.le, toStatic_eq hi' hs' hd0 hw.le]
    show map2static c * (1.21 * w / (d * pyNum c.clmaxto * gAcc * run) + _ + _) < _
    have := (map2static_bounds c).1
    have h7 : 0 < map2static c := by linarith
    gcongr
  refine ⟨?_, rfl, rfl⟩
  cases b with
  | false => exact hst
  | true =>
    obtain ⟨p₁, q₁⟩ := k₁ rfl
    obtain ⟨p₂, q₂⟩ := k₂ rfl
    have q₂' : CorrAt X c (toLof c d w) (pyNum c.rwyelevation_m) t₂ p₂ := q₂
    obtain ⟨rfl, rfl⟩ := CorrAt.unique q₁ q₂'
    have ht := hcorr rfl _ _ q₁
    show toStatic { c with groundrun_m := some run } g' d w / t₁ < toStatic c g d w / t₁
    gcongr

theorem exC_signs : TakeoffSigns exC := by constructor <;> norm_num [exC, pyNum]

theorem ex_takeoff (X : Ext) (run w : ℝ) (b : Bool) : ∃ tw lof av,
    twrequired_to X { exC with groundrun_m := some run } (.scalar w) b = .ok (.scalar tw, .scalar lof, .scalar av) := by
  obtain ⟨d, -, r, hr⟩ := to_given X (c := { exC with groundrun_m := some run })
    ⟨exC_ready.sea, exC_ready.runway, exC_ready.climb, exC_ready.turn, exC_ready.cruise, exC_ready.ceiling, exC_ready.prop⟩
    (g := run) rfl (.scalar w) b
  rcases to_point X { exC with groundrun_m := some run } b with ⟨e, he⟩ | ⟨g, d, t, -, -, hv⟩
  · rw [he _ (by simp [recastArray])] at hr; cases hr
  · exact ⟨_, _, _, hv (.scalar w)⟩

/-- Uncorrected requirements of the example: more at the larger wing loading, less on the longer runway, and the
speeds of the model. -/
example (X : Ext) : ∃ tw₁ l₁ a₁ tw₂ l₂ a₂ tw₃ l₃ a₃,
    twrequired_to X exC (.scalar 500) false = .ok (.scalar tw₁, .scalar l₁, .scalar a₁) ∧
    twrequired_to X exC (.scalar 1000) false = .ok (.scalar tw₂, .scalar l₂, .scalar a₂) ∧
    twrequired_to X { exC with groundrun_m := some 600 } (.scalar 500) false = .ok (.scalar tw₃, .scalar l₃, .scalar a₃) ∧
    tw₁ < tw₂ ∧ l₁ < l₂ ∧ tw₃ < tw₁ ∧ ∃ vs, 0 ≤ vs ∧ 0.5 * 1 * vs ^ 2 * pyNum exC.clmaxto = 500 ∧ l₁ = 1.1 * vs := by
  have hd : Atmos.dens1 exC.designatm (pyNum exC.rwyelevation_m) = .ok 1 := exAtm_dens 0 (by norm_num) (by norm_num)
  obtain ⟨tw₁, l₁, a₁, h1⟩ := ex_takeoff X 400 500 false
  obtain ⟨tw₂, l₂, a₂, h2⟩ := ex_takeoff X 400 1000 false
  obtain ⟨tw₃, l₃, a₃, h3⟩ := ex_takeoff X 600 500 false
  obtain ⟨c1, c2, -⟩ := C49_wingloading X exC false exC_signs 1 hd one_pos 500 1000 tw₁ tw₂ l₁ l₂ a₁ a₂ (by norm_num) (by norm_num)
    h1 h2 (fun h => absurd h (by decide))
  obtain ⟨c3, -⟩ := C49_groundrun X exC false exC_signs 1 hd one_pos 600 500 tw₁ tw₃ l₁ l₃ a₁ a₃ (by norm_num)
    (by norm_num [exC, pyNum]) h1 h3 (fun h => absurd h (by decide))
  obtain ⟨vs, v0, v1, v2, -⟩ := C49_speeds X exC false 500 1 tw₁ l₁ a₁ h1 hd one_pos (by norm_num [exC, pyNum]) (by norm_num)
  exact ⟨tw₁, l₁, a₁, tw₂, l₂, a₂, tw₃, l₃, a₃, h1, h2, h3, c1, c2, c3, vs, v0, v1, v2⟩

/-- The requirement (without mapping) falls with the density of the atmosphere at the runway. -/
theorem C49_density (X : Ext) (c : Concept) (hs : TakeoffSigns c) (a : Atmos.Atm) (d₁ d₂ : ℝ)
    (hd₁ : Atmos.dens1 c.designatm (pyNum c.rwyelevation_m) = .ok d₁)
    (hd₂ : Atmos.dens1 a (pyNum c.rwyelevation_m) = .ok d₂) (hd0 : 0 < d₁) (hlt : d₁ < d₂)
    (w tw₁ tw₂ l₁ l₂ a₁ a₂ : ℝ) (hw : 0 < w)
    (h₁ : twrequired_to X c (.scalar w) false = .ok (.scalar tw₁, .scalar l₁, .scalar a₁))
    (h₂ : twrequired_to X { c with designatm := a } (.scalar w) false = .ok (.scalar tw₂, .scalar l₂, .scalar a₂)) :
    tw₂ < tw₁ ∧ l₂ < l₁ ∧ a₂ < a₁ := by
  obtain ⟨g, d', t₁, hi, -, rfl, rfl, rfl⟩ := to_scalar h₁
  obtain ⟨g', d'', t₂, hi', -, rfl, rfl, rfl⟩ := to_scalar h₂
  have e := hi.dens; rw [hd₁] at e; cases e
  have e := hi'.dens
  change Atmos.dens1 a (pyNum c.rwyelevation_m) = .ok d'' at e
  rw [hd₂] at e; cases e
  have c1 := hs.clmax; have c2 := hs.run
  have c3 : (0:ℝ) < gAcc := by norm_num [gAcc]
  have hs' : TakeoffSigns { c with designatm := a } := ⟨hs.run, hs.clmax, hs.cl, hs.cd, hs.mu⟩
  have hl : toLof { c with designatm := a } d₂ w < toLof c d₁ w := by
    unfold toLof liftoffPoint
    show 1.1 * √((2 * w) / (d₂ * pyNum c.clmaxto)) < _
    have : √((2 * w) / (d₂ * pyNum c.clmaxto)) < √((2 * w) / (d₁ * pyNum c.clmaxto)) := by
      apply Real.sqrt_lt_sqrt
      · have : 0 < d₂ := by linarith
        positivity
      · gcongr
    linarith
  refine ⟨?_, hl, by gcongr⟩
  show toStatic { c with designatm := a } g' d₂ w < toStatic c g d₁ w
  rw [toStatic_eq hi hs hd0 hw.le, toStatic_eq hi' hs' (by linarith) hw.le]
  show map2static c * (1.21 * w / (d₂ * pyNum c.clmaxto * gAcc * pyNum c.groundrun_m) + _ + _) < _
  have := (map2static_bounds c).1
  have h7 : 0 < map2static c := by linarith
  gcongr

example : TakeoffSigns exC := by constructor <;> norm_num [exC, pyNum]
example (X : Ext) (w : ℝ) (b : Bool) : ∃ tw lof av,
    twrequired_to X exC (.scalar w) b = .ok (.scalar tw, .scalar lof, .scalar av) := by
  obtain ⟨d, -, r, hr⟩ := to_given X exC_ready (g := 400) rfl (.scalar w) b
  rcases to_point X exC b with ⟨e, he⟩ | ⟨g, d, t, -, -, hv⟩
  · rw [he _ (by simp [recastArray])] at hr; cases hr
  · exact ⟨_, _, _, hv (.scalar w)⟩
/-- The piston engine of the example: the correction does not depend on the speed. -/
example (X : Ext) (l₁ l₂ t₁ t₂ p₁ p₂ : ℝ) (h₁ : CorrAt X exC l₁ 0 t₁ p₁) (h₂ : CorrAt X exC l₂ 0 t₂ p₂) :
    0 < t₂ ∧ t₂ ≤ t₁ := by
  have hp : ∀ v, CorrAt X exC v 0 (Atmos.pistonpowerfactor 1) 1 := by
    intro v
    have he : EnvOK exC.designatm 0 := exAtm_env 0 le_rfl (by norm_num)
    obtain ⟨T, hT⟩ := he.tempc
    obtain ⟨P, hP⟩ := he.press
    obtain ⟨cs, hcs⟩ := he.vsound
    have hd : Atmos.dens1 exC.designatm 0 = .ok 1 := exAtm_dens 0 le_rfl (by norm_num)
    refine ⟨.array [Atmos.pistonpowerfactor 1], .array [1], ?_, rfl, rfl⟩
    have hpr : resolvePropulsion exC = .ok (.str "piston") := rfl
    simp only [slcorr, hpr, bind_ok, (C18_ratio _ _ cs hcs).1 v]
    exact strCorr_byName (m := .piston) .piston hT hP hd _
  obtain ⟨rfl, -⟩ := CorrAt.unique h₁ (hp l₁)
  obtain ⟨rfl, -⟩ := CorrAt.unique h₂ (hp l₂)
  refine ⟨?_, le_rfl⟩
  norm_num [Atmos.pistonpowerfactor]

/-! ### C50 -/

/-- Mechanical power (hp) delivers the thrust power: efficiency times shaft power in watts is thrust times
speed; the thrust is the thrust-to-weight ratio times the weight. -/
def Delivers (tow eta tw v hpow : ℝ) : Prop := eta * (hpow / 1.34102 * 1000) = tw * (tow * gAcc) * v

theorem hp_delivers {tow eta tw v : ℝ} (h : eta ≠ 0) : Delivers tow eta tw v (hp tow eta tw v) := by
  unfold Delivers hp wn2hpkg wn2kwkg wn2wkg
  field_simp

/-- The true air speed of a climb at indicated speed `kias` (knots). -/
def TrueSpeed (a : Atmos.Atm) (kias alt v : ℝ) : Prop := ∃ s, Atmos.eas2tas a kias alt = .ok s ∧ v = kts2mps s

/-- The propulsive efficiencies are not zero. -/
structure EtaOK (c : Concept) : Prop where
  tko : pyNum c.etaprop_to ≠ 0
  trn : pyNum c.etaprop_turn ≠ 0
  clm : pyNum c.etaprop_climb ≠ 0
  crs : pyNum c.etaprop_cruise ≠ 0
  sec : pyNum c.etaprop_sec ≠ 0

/-- Entry by entry, the power requirement is the power that delivers the required thrust at the speed of the
flight condition: lift-off speed, turn speed, true climb speed, cruise speed, true speed at the ceiling.
The infeasible turns are infeasible in both. -/
theorem C50_delivers (X : Ext) (c : Concept) (he : EtaOK c) (w : NumArg) (tow : ℝ) (fo : Bool) (T P : Req)
    (hT : twrequired X c w fo false = .ok T) (hP : powerrequired X c w tow fo false = .ok P)
    (i : ℕ) (hi : i < (recastArray w).length) :
    ∃ t p vc vs, EntryAt T i t ∧ EntryAt P i p ∧
      TrueSpeed c.designatm (pyNum c.climbspeed_kias) (pyNum c.climbalt_m) vc ∧
      TrueSpeed c.designatm (pyNum c.secclimbspd_kias) (pyNum c.servceil_m) vs ∧
      p.liftoffspeed = t.liftoffspeed ∧ p.turncl = t.turncl ∧
      Delivers tow (pyNum c.etaprop_to) t.takeoff t.liftoffspeed p.takeoff ∧
      Delivers tow (pyNum c.etaprop_turn) t.turn (kts2mps (pyNum c.turnspeed_ktas)) p.turn ∧
      (t.turnfeasible = none ↔ p.turnfeasible = none) ∧
      (∀ x y, t.turnfeasible = some x → p.turnfeasible = some y →
        Delivers tow (pyNum c.etaprop_turn) x (kts2mps (pyNum c.turnspeed_ktas)) y) ∧
      Delivers tow (pyNum c.etaprop_climb) t.climb vc p.climb ∧
      Delivers tow (pyNum c.etaprop_cruise) t.cruise (kts2mps (pyNum c.cruisespeed_ktas)) p.cruise ∧
      Delivers tow (pyNum c.etaprop_sec) t.servceil vs p.servceil := by
  have hw : recastArray w ≠ [] := by intro h; rw [h] at hi; simp at hi
  rcases power_point X c tow fo false with ⟨e, he⟩ | ⟨R, vc, vs, pto, ptrn, pclm, pcrs, psec, hin, htw, -, hp⟩
  · rw [he w hw] at hP; cases hP
  · rw [hp w hw] at hP
    rw [htw w] at hT
    cases hP; cases hT
    refine ⟨_, _, vc, vs, entry_reqOf _ R i hi, entry_preqOf _ _ _ i hi, hin.climbspeed, hin.secspeed, rfl, rfl, ?_⟩
    generalize (recastArray w)[i] = x
    simp only [powerAt, sl, Bool.false_eq_true, if_false]
    refine ⟨hp_delivers he.tko, hp_delivers he.trn, ?_, ?_, hp_delivers he.clm, hp_delivers he.crs, hp_delivers he.sec⟩
    · cases (R x).turnfeasible <;> simp
    · intro a b ha hb
      rw [ha] at hb
      cases hb
      exact hp_delivers he.trn

/-- The thrust requirement can be recovered from the power requirement, and the power is inversely proportional
to the efficiency: half the efficiency needs twice the power. -/
theorem C50_recover (tow eta v tw tw' p p' : ℝ) (hm : tow ≠ 0) (hv : v ≠ 0) (he : eta ≠ 0)
    (h : Delivers tow eta tw v p) (h' : Delivers tow eta tw' v p') :
    (p = p' ↔ tw = tw') ∧ tw = eta * (p / 1.34102 * 1000) / (tow * gAcc * v) ∧
    ∀ q, Delivers tow (eta / 2) tw v q → q = 2 * p := by
  have hg : (gAcc:ℝ) ≠ 0 := by norm_num [gAcc]
  unfold Delivers at *
  refine ⟨⟨fun e => ?_, fun e => ?_⟩, ?_, fun q hq => ?_⟩
  · rw [e, h'] at h
    have h2 : tw' * (tow * gAcc * v) = tw * (tow * gAcc * v) := by linarith
    exact (mul_right_cancel₀ (by positivity) h2).symm
  · rw [e, ← h'] at h
    have h2 := mul_left_cancel₀ he h
    norm_num at h2
    linarith
  · rw [eq_div_iff (by positivity), h]; ring
  · rw [← h] at hq
    have h2 : eta * q = eta * (2 * p) := by norm_num at hq; linarith
    exact mul_left_cancel₀ he h2

example (X : Ext) : EtaOK exI ∧ (∃ T, twrequired X exI (.array [500, 1000]) true false = .ok T) ∧
    ∃ P, powerrequired X exI (.array [500, 1000]) 1500 true false = .ok P := by
  refine ⟨?_, (C48_given X exI (.array [500, 1000]) true false exI_ready exI_given).1,
    (C48_given X exI (.array [500, 1000]) true false exI_ready exI_given).2 (by simp [recastArray]) 1500⟩
  constructor <;> norm_num [exI, exC, pyNum]
example : Delivers 1000 0.75 0.25 60 (hp 1000 0.75 0.25 60) := hp_delivers (by norm_num)

/-! ### C52 -/

/-- Knots to metres per second and back is multiplication by this number (C03). -/
def ktsDrift : ℝ := 0.5144444 * 1.9438445

theorem ktsDrift_close : |ktsDrift - 1| < 2e-7 := by norm_num [ktsDrift, abs_lt]

/-- In the standard atmosphere the stall speed at the stall-limited wing loading is the stall speed of the
brief, up to the knots drift; the limit is the wing loading at which the clean CLmax carries the weight. -/
theorem C52_inverse (c : Concept) (ha : c.designatm = .isa 0) (vs cl : ℝ) (hv : c.vstallclean_kcas = some vs)
    (hc : c.clmaxclean = some cl) (hv0 : 0 ≤ vs) (hc0 : 0 < cl) :
    ∃ ws, wsmaxcleanstall_pa c = .ok ws ∧
      (∃ rho, Atmos.dens1 (.isa 0) 0 = .ok rho ∧ ws = 0.5 * rho * (kts2mps vs) ^ 2 * cl) ∧
      vstall_kias c (.scalar ws) (.num cl) = .ok (vs * ktsDrift) := by
  have hd := isa_dens1 0 0 (by norm_num)
  have hp : 0 < Atmos.isadens 0 0 := C13_positive 0 0 (by have := (C11_bounds 0 0).1; linarith)
  refine ⟨0.5 * Atmos.isadens 0 0 * (kts2mps vs) ^ 2 * cl, ?_, ⟨_, hd, rfl⟩, ?_⟩
  · unfold wsmaxcleanstall_pa Atmos.dynamicpressure_pa
    rw [hc, hv, ha, hd]; rfl
  · have hk : 0 ≤ kts2mps vs := by unfold kts2mps; positivity
    have e : 2 * (0.5 * Atmos.isadens 0 0 * (kts2mps vs) ^ 2 * cl) / (Atmos.isadens 0 0 * cl) = (kts2mps vs) ^ 2 := by
      field_simp; norm_num
    unfold vstall_kias
    rw [hd]
    simp only [recastArray, bind_ok, e, not_lt.mpr (sq_nonneg (kts2mps vs)), if_false, Real.sqrt_sq hk]
    show Except.ok _ = _
    unfold ktsDrift mps2kts kts2mps
    congr 1; ring

/-- The smallest wing area for a mass carries exactly the stall-limited wing loading. -/
theorem C52_area (c : Concept) (m ws s : ℝ) (hw : wsmaxcleanstall_pa c = .ok ws) (h0 : ws ≠ 0) (h1 : m ≠ 0)
    (hs : smincleanstall_m2 c m = .ok s) : s ≠ 0 ∧ m * 9.80665 / s = ws ∧
      ∀ s', 0 < ws → 0 < m → 0 < s' → (m * 9.80665 / s' ≤ ws ↔ s ≤ s') := by
  unfold smincleanstall_m2 at hs
  rw [hw] at hs
  cases hs
  have hk : kg2n m = m * 9.80665 := rfl
  rw [hk]
  refine ⟨by positivity, by field_simp, fun s' hw hm hs => ?_⟩
  rw [div_le_iff₀ hs, div_le_iff₀ hw, mul_comm ws]

example : ∃ s, smincleanstall_m2 { exC with designatm := .isa 0 } 1500 = .ok s ∧
    ∃ ws, wsmaxcleanstall_pa { exC with designatm := .isa 0 } = .ok ws ∧ 0 < ws := by
  obtain ⟨ws, h1, ⟨rho, hr, hw⟩, -⟩ := C52_inverse { exC with designatm := .isa 0 } rfl 60 (pyNum exC.clmaxclean) rfl rfl
    (by norm_num) (by norm_num [exC, pyNum])
  have h0 : 0 < ws := by
    obtain ⟨p, hp, hq⟩ := (isa_env 0 0 (by norm_num) (by norm_num)).dens
    rw [hq] at hr; cases hr
    have hk : 0 < kts2mps 60 := by norm_num [kts2mps]
    have hc : 0 < pyNum exC.clmaxclean := by norm_num [exC, pyNum]
    rw [hw]; positivity
  refine ⟨kg2n 1500 / ws, ?_, ws, h1, h0⟩
  unfold smincleanstall_m2; rw [h1, bind_ok]; rfl

/-- The stall speed of an array with several wing loadings raises TypeError although an array is documented. -/
theorem C52_array_violated (c : Concept) (ws : List ℝ) (h : ws.length ≠ 1) (cl : ClArg) :
    vstall_kias c (.array ws) cl = .error .typeError := by
  have hd := isa_dens1 0 0 (by norm_num)
  unfold vstall_kias
  rw [hd]
  match ws, h with
  | [], _ => rfl
  | [_], h => exact absurd rfl h
  | _ :: _ :: _, _ => rfl

example : vstall_kias exC (.array [500, 1000]) (.num 1.5) = .error .typeError := C52_array_violated _ _ (by simp) _

/-- The stall speed with the take-off CLmax uses the value of the performance dictionary. -/
theorem C52_takeoff (c : Concept) (w : NumArg) :
    vstall_kias c w .takeoff = vstall_kias c w (.num (pyNum c.clmaxto)) := rfl

example : ∃ ws, wsmaxcleanstall_pa { exC with designatm := .isa 0 } = .ok ws ∧
    ∃ v, vstall_kias { exC with designatm := .isa 0 } (.scalar ws) (.num (pyNum exC.clmaxclean)) = .ok v ∧ |v - 60| < 1e-4 := by
  obtain ⟨ws, h1, -, h2⟩ := C52_inverse { exC with designatm := .isa 0 } rfl 60 (pyNum exC.clmaxclean) rfl rfl
    (by norm_num) (by norm_num [exC, pyNum])
  refine ⟨ws, h1, 60 * ktsDrift, h2, ?_⟩
  · have := ktsDrift_close
    rw [show 60 * ktsDrift - 60 = 60 * (ktsDrift - 1) by ring, abs_mul, abs_of_pos (by norm_num : (0:ℝ) < 60)]
    norm_num at this ⊢
    linarith

/-! ### C53 -/

/-- The factor lies in [0, 1) and vanishes at zero height only. -/
theorem C53_range (c : Concept) : 0 ≤ wigfactor c ∧ wigfactor c < 1 ∧ (wigfactor c = 0 ↔ pyNum c.wingheightratio = 0) := by
  unfold wigfactor wig
  have h := sq_nonneg (16 * pyNum c.wingheightratio)
  refine ⟨by positivity, ?_, ?_⟩
  · rw [div_lt_one (by linarith)]; linarith
  · rw [div_eq_zero_iff]
    constructor
    · rintro (h' | h')
      · have := pow_eq_zero_iff (two_ne_zero) |>.mp h'
        linarith
      · linarith
    · intro h'; left; rw [h']; norm_num

/-- It is strictly increasing in the height. -/
theorem C53_increasing (c c' : Concept) (h0 : 0 ≤ pyNum c.wingheightratio)
    (h : pyNum c.wingheightratio < pyNum c'.wingheightratio) : wigfactor c < wigfactor c' := by
  unfold wigfactor wig
  have h1 : (16 * pyNum c.wingheightratio) ^ 2 < (16 * pyNum c'.wingheightratio) ^ 2 := by gcongr
  rw [div_lt_div_iff₀ (by positivity) (by positivity)]
  linarith

example : wigfactor { exC with wingheightratio := some 0.1 } < wigfactor { exC with wingheightratio := some 0.2 } :=
  C53_increasing _ _ (by norm_num [pyNum]) (by norm_num [pyNum])

/-- Above one span it is within 0.4 percent of one. -/
theorem C53_high (c : Concept) (h : 1 ≤ pyNum c.wingheightratio) : 0.996 < wigfactor c := by
  unfold wigfactor wig
  have h1 : (256:ℝ) ≤ (16 * pyNum c.wingheightratio) ^ 2 := by nlinarith
  rw [lt_div_iff₀ (by positivity)]
  norm_num
  linarith

example : 0.996 < wigfactor { exC with wingheightratio := some 2 } := C53_high _ (by norm_num [pyNum])

/-- When the height is not specified the factor is practically one. -/
theorem C53_default {b d p : Dict} {a : Option Atmos.Atm} {pa : PropArg} {r : Built}
    (h : construct b d p a pa = .ok r) (hn : dget d "wingheightratio" = none) :
    |wigfactor r.concept - 1| < 1e-6 := by
  have h1 := (C32_design h "wingheightratio" (by unfold Resolved; decide)).2.2.1 (.num 100) rfl (by intro xs h; cases h) hn
  have h2 := (C32_attributes h).wingheightratio
  rw [h1] at h2
  have h3 : r.concept.wingheightratio = some 100 := by
    cases hx : r.concept.wingheightratio with
    | none => rw [hx] at h2; simp [toVal] at h2
    | some x =>
      rw [hx] at h2
      simp only [toVal, Option.some.injEq, Val.num.injEq] at h2
      rw [h2]
  unfold wigfactor wig
  rw [h3]
  norm_num [pyNum, abs_lt]

example : 0 < wigfactor exC ∧ wigfactor exC < 1 := by
  have := C53_range exC
  refine ⟨lt_of_le_of_ne this.1 (fun h => ?_), this.2.1⟩
  have := this.2.2.mp h.symm
  norm_num [exC, pyNum] at this
example : ∃ r, construct [] [] [] none .pyNone = .ok r ∧ dget ([] : Dict) "wingheightratio" = none :=
  C32_all_defaults.elim fun r h => ⟨r, h.1, rfl⟩

end

end Verif.Props
