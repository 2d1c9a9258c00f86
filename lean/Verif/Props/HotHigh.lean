import Verif.Props.Trends
import Verif.Props.Hydrostatic

/-
Property C106: take-off from a hot or high runway.
-/

namespace Verif.Props
open Verif Verif.Aircraft Verif.Units Verif.Spec

noncomputable section

/-- The second day is hotter or the second runway is higher, and neither the other way round. -/
structure Hotter (off elev off' elev' : ℝ) : Prop where
  cold : -100 ≤ off
  day : off ≤ off'
  runway : elev ≤ elev'
  high : elev' < 20000
  one : off < off' ∨ elev < elev'

theorem Hotter.temp {off elev off' elev' : ℝ} (h : Hotter off elev off' elev') (x : ℝ) : 0 < Atmos.isatemp off x ∧ 0 < Atmos.isatemp off' x := by
  have := (C11_bounds 0 x).1
  have h1 := h.cold; have h2 := h.day
  constructor <;> rw [C11_offset] <;> linarith

theorem Hotter.dens {off elev off' elev' : ℝ} (h : Hotter off elev off' elev') :
    0 < Atmos.isadens off' elev' ∧ Atmos.isadens off' elev' < Atmos.isadens off elev := by
  refine ⟨C13_positive _ _ (h.temp _).2, ?_⟩
  have a : off < off' → ∀ x, Atmos.isadens off' x < Atmos.isadens off x := fun ho x => C13_offset_order off off' x (h.temp x).1 ho
  have b : elev < elev' → Atmos.isadens off elev' < Atmos.isadens off elev := fun he =>
    C13_decreasing_block off elev elev' h.cold he (Or.inl h.high)
  rcases h.day.eq_or_lt with rfl | ho
  · rcases h.one with ho | he
    · exact absurd ho (lt_irrefl _)
    · exact b he
  · rcases h.runway.eq_or_lt with rfl | he
    · exact a ho _
    · exact (a ho _).trans (b he)

/-- The concept taking off in the ISA with an offset from a runway at an elevation. -/
def onDay (c : Concept) (off elev : ℝ) : Concept := { c with designatm := .isa off, rwyelevation_m := some elev }

theorem onDay_dens (c : Concept) {off elev : ℝ} (h : elev ≤ 50000) :
    Atmos.dens1 (onDay c off elev).designatm (pyNum (onDay c off elev).rwyelevation_m) = .ok (Atmos.isadens off elev) :=
  isa_dens1 off elev h

/-- On a hotter day or from a higher runway the take-off needs more and the lift-off speed is higher: what accelerates the aircraft, and the square of
the lift-off speed, are inversely proportional to the density. -/
theorem C106_takeoff (X : Ext) (c : Concept) (hs : TakeoffSigns c) (off elev off' elev' : ℝ) (h : Hotter off elev off' elev')
    (w R₁ R₂ l₁ l₂ a₁ a₂ : ℝ) (hw : 0 < w)
    (h₁ : twrequired_to X (onDay c off elev) (.scalar w) false = .ok (.scalar R₁, .scalar l₁, .scalar a₁))
    (h₂ : twrequired_to X (onDay c off' elev') (.scalar w) false = .ok (.scalar R₂, .scalar l₂, .scalar a₂)) :
    R₁ < R₂ ∧ l₁ < l₂ ∧
    l₁ ^ 2 * Atmos.isadens off elev = l₂ ^ 2 * Atmos.isadens off' elev' ∧
    ∃ R₀, R₀ = map2static c * (pyNum c.cdto / pyNum c.clto + pyNum c.mu_r) / 2 ∧ R₀ < R₁ ∧
      (R₁ - R₀) * Atmos.isadens off elev = (R₂ - R₀) * Atmos.isadens off' elev' := by
  obtain ⟨d0, dlt⟩ := h.dens
  have hh := h.high; have hr := h.runway
  obtain ⟨g₁, d₁, t₁, i₁, -, rfl, rfl, rfl⟩ := to_scalar h₁
  obtain ⟨g₂, d₂, t₂, i₂, -, rfl, rfl, rfl⟩ := to_scalar h₂
  have e := i₁.dens; rw [onDay_dens c (by linarith)] at e; cases e
  have e := i₂.dens; rw [onDay_dens c (by linarith)] at e; cases e
  have hs₁ : TakeoffSigns (onDay c off elev) := ⟨hs.run, hs.clmax, hs.cl, hs.cd, hs.mu⟩
  have hs₂ : TakeoffSigns (onDay c off' elev') := ⟨hs.run, hs.clmax, hs.cl, hs.cd, hs.mu⟩
  have hg : (0:ℝ) < gAcc := by norm_num [gAcc]
  have c1 := hs.clmax; have c2 := hs.run
  have hm : 0 < map2static c := by linarith [(map2static_bounds c).1]
  have q1 : ∀ off elev g d, TakeoffIn X (onDay c off elev) g d → TakeoffSigns (onDay c off elev) → 0 < d →
      toStatic (onDay c off elev) g d w = map2static c * (1.21 * w / (d * pyNum c.clmaxto * gAcc * pyNum c.groundrun_m) +
        0.5 * pyNum c.cdto / pyNum c.clto + 0.5 * pyNum c.mu_r) := fun off elev g d hi hs hd => toStatic_eq hi hs hd hw.le
  have d0' : 0 < Atmos.isadens off elev := d0.trans dlt
  have s1 : toLof (onDay c off elev) (Atmos.isadens off elev) w ^ 2 = 2.42 * w / (Atmos.isadens off elev * pyNum c.clmaxto) :=
    lof_sq d0' c1 hw.le
  have s2 : toLof (onDay c off' elev') (Atmos.isadens off' elev') w ^ 2 = 2.42 * w / (Atmos.isadens off' elev' * pyNum c.clmaxto) :=
    lof_sq d0 c1 hw.le
  have n2 : 0 ≤ toLof (onDay c off' elev') (Atmos.isadens off' elev') w := by unfold toLof liftoffPoint; positivity
  simp only [sl, Bool.false_eq_true, if_false]
  rw [q1 _ _ _ _ i₁ hs₁ d0', q1 _ _ _ _ i₂ hs₂ d0]
  generalize Atmos.isadens off elev = d at *
  generalize Atmos.isadens off' elev' = d' at *
  refine ⟨?_, ?_, ?_, _, rfl, ?_, ?_⟩
  · gcongr
  · apply lt_of_pow_lt_pow_left₀ 2 n2
    rw [s1, s2]; gcongr
  · rw [s1, s2]; field_simp
  · have : 0 < 1.21 * w / (d * pyNum c.clmaxto * gAcc * pyNum c.groundrun_m) := by positivity
    have := mul_pos hm this
    have e : map2static c * (pyNum c.cdto / pyNum c.clto + pyNum c.mu_r) / 2 =
      map2static c * (0.5 * pyNum c.cdto / pyNum c.clto + 0.5 * pyNum c.mu_r) := by ring
    rw [e]; nlinarith
  · have e : ∀ d, map2static c * (1.21 * w / (d * pyNum c.clmaxto * gAcc * pyNum c.groundrun_m) +
        0.5 * pyNum c.cdto / pyNum c.clto + 0.5 * pyNum c.mu_r) - map2static c * (pyNum c.cdto / pyNum c.clto + pyNum c.mu_r) / 2 =
        map2static c * (1.21 * w / (pyNum c.clmaxto * gAcc * pyNum c.groundrun_m)) / d := by
      intro d
      rw [show d * pyNum c.clmaxto * gAcc * pyNum c.groundrun_m = (pyNum c.clmaxto * gAcc * pyNum c.groundrun_m) * d by ring, ← div_div]
      ring
    rw [e, e, div_mul_cancel₀ _ d0'.ne', div_mul_cancel₀ _ d0.ne']

/-- A piston engined aircraft. -/
def Piston (c : Concept) : Prop := c.propulsion = .str "piston" ∨ (c.propulsion = .pyFalse ∧ c.bpr = some (-1))

theorem piston_corr (X : Ext) {c : Concept} (hp : Piston c) {alt d : ℝ} (he : EnvOK c.designatm alt)
    (hd : Atmos.dens1 c.designatm alt = .ok d) (v : ℝ) : CorrAt X c v alt (Atmos.pistonpowerfactor d) 1 := by
  obtain ⟨T, hT⟩ := he.tempc
  obtain ⟨P, hP⟩ := he.press
  obtain ⟨cs, hcs⟩ := he.vsound
  refine ⟨.array [Atmos.pistonpowerfactor d], .array [1], ?_, rfl, rfl⟩
  have hpr : resolvePropulsion c = .ok (.str "piston") := by
    unfold resolvePropulsion
    rcases hp with h | ⟨h, hb⟩ <;> rw [h]
    rw [hb]
    norm_num [bprPropulsion, pyNum]
  simp only [slcorr, hpr, bind_ok, (C18_ratio _ _ cs hcs).1 v]
  exact strCorr_byName (m := .piston) .piston hT hP hd _

/-- With a piston engine the requirement for the sea-level static thrust rises even faster, since the engine has less power. -/
theorem C106_piston (X : Ext) (c : Concept) (hs : TakeoffSigns c) (hp : Piston c) (off elev off' elev' : ℝ) (h : Hotter off elev off' elev')
    (hd : 0.132 < 1.132 * (Atmos.isadens off' elev' / 1.225))
    (w R₁ R₂ S₁ S₂ l₁ l₂ a₁ a₂ : ℝ) (hw : 0 < w)
    (h₁ : twrequired_to X (onDay c off elev) (.scalar w) false = .ok (.scalar R₁, .scalar l₁, .scalar a₁))
    (h₂ : twrequired_to X (onDay c off' elev') (.scalar w) false = .ok (.scalar R₂, .scalar l₂, .scalar a₂))
    (g₁ : twrequired_to X (onDay c off elev) (.scalar w) true = .ok (.scalar S₁, .scalar l₁, .scalar a₁))
    (g₂ : twrequired_to X (onDay c off' elev') (.scalar w) true = .ok (.scalar S₂, .scalar l₂, .scalar a₂)) :
    S₁ * R₂ < S₂ * R₁ ∧ S₁ < S₂ ∧ S₂ * (1.132 * (Atmos.isadens off' elev' / 1.225) - 0.132) = R₂ := by
  obtain ⟨d0, dlt⟩ := h.dens
  have hh := h.high; have hr := h.runway
  have key : ∀ off elev R S l a, -100 ≤ off → elev ≤ 50000 → 0.132 < 1.132 * (Atmos.isadens off elev / 1.225) →
      twrequired_to X (onDay c off elev) (.scalar w) false = .ok (.scalar R, .scalar l, .scalar a) →
      twrequired_to X (onDay c off elev) (.scalar w) true = .ok (.scalar S, .scalar l, .scalar a) →
      S * Atmos.pistonpowerfactor (Atmos.isadens off elev) = R := by
    intro off elev R S l a ho he hd hR hS
    obtain ⟨g, d, t, i, -, rfl, -, -⟩ := to_scalar hR
    obtain ⟨g', d', t', i', hc, rfl, -, -⟩ := to_scalar hS
    have e := i.dens; rw [onDay_dens c he] at e; cases e
    have e := i'.dens; rw [onDay_dens c he] at e; cases e
    have e := i.run; rw [i'.run] at e; cases e
    obtain ⟨p, hc⟩ := hc rfl
    have hp' : Piston (onDay c off elev) := hp
    obtain ⟨rfl, -⟩ := CorrAt.unique hc (piston_corr X hp' (isa_env off _ ho he) (onDay_dens c he) l)
    simp only [sl, Bool.false_eq_true, if_false, if_true]
    apply div_mul_cancel₀
    unfold Atmos.pistonpowerfactor
    norm_num at hd ⊢; linarith
  have ho := h.cold; have ho' := h.day
  have k1 := key off elev R₁ S₁ l₁ a₁ ho (by linarith) (by norm_num at hd ⊢; linarith) h₁ g₁
  have k2 := key off' elev' R₂ S₂ l₂ a₂ (by linarith) (by linarith) hd h₂ g₂
  obtain ⟨r1, -, -, R₀, hR₀, r2, -⟩ := C106_takeoff X c hs off elev off' elev' h w R₁ R₂ l₁ l₂ a₁ a₂ hw h₁ h₂
  have hR0 : 0 ≤ R₀ := by
    have hm : 0 < map2static c := by linarith [(map2static_bounds c).1]
    have c1 := hs.cd; have c2 := hs.mu; have c3 := hs.cl
    rw [hR₀]; positivity
  have f2 : 0 < Atmos.pistonpowerfactor (Atmos.isadens off' elev') := by
    unfold Atmos.pistonpowerfactor; norm_num at hd ⊢; linarith
  have f1 : Atmos.pistonpowerfactor (Atmos.isadens off' elev') < Atmos.pistonpowerfactor (Atmos.isadens off elev) := by
    unfold Atmos.pistonpowerfactor; norm_num; linarith
  refine ⟨?_, ?_, k2⟩
  all_goals
    generalize Atmos.pistonpowerfactor (Atmos.isadens off elev) = f at *
    generalize Atmos.pistonpowerfactor (Atmos.isadens off' elev') = f' at *
    have p1 : 0 < f := f2.trans f1
    have s1 : S₁ = R₁ / f := by rw [← k1]; field_simp
    have s2 : S₂ = R₂ / f' := by rw [← k2]; field_simp
    have q1 : 0 < R₁ := by linarith
    have q2 : 0 < R₂ := by linarith
    rw [s1, s2]
  · rw [div_mul_eq_mul_div, div_mul_eq_mul_div, mul_comm R₂ R₁]
    exact div_lt_div_of_pos_left (by positivity) f2 f1
  · exact div_lt_div₀ r1 f1.le q2.le f2

/-! ### Concrete case: 25 degrees above standard from a runway at 1500 m -/

theorem exC_onDay (X : Ext) (off elev : ℝ) (ho : -100 ≤ off) (he : elev ≤ 50000) (b : Bool) :
    ∃ R l a, twrequired_to X (onDay exC off elev) (.scalar 600) b = .ok (.scalar R, .scalar l, .scalar a) := by
  have hr : Ready (onDay exC off elev) := isa_ready _ off rfl ho (by simpa [onDay, pyNum] using he) (by norm_num [onDay, exC, pyNum])
    (by norm_num [onDay, exC, pyNum]) (by norm_num [onDay, exC, pyNum]) (by norm_num [onDay, exC, pyNum])
    (by intro h; exact absurd h (by decide))
  exact to_exists_of_ready X hr (g := 400) rfl 600 b

theorem exHotter : Hotter 0 0 25 1500 := ⟨by norm_num, by norm_num, by norm_num, by norm_num, Or.inl (by norm_num)⟩

example (X : Ext) : ∃ R₁ R₂ l₁ l₂ a₁ a₂, twrequired_to X (onDay exC 0 0) (.scalar 600) false = .ok (.scalar R₁, .scalar l₁, .scalar a₁) ∧
    twrequired_to X (onDay exC 25 1500) (.scalar 600) false = .ok (.scalar R₂, .scalar l₂, .scalar a₂) ∧ R₁ < R₂ ∧ l₁ < l₂ := by
  obtain ⟨R₁, l₁, a₁, h₁⟩ := exC_onDay X 0 0 (by norm_num) (by norm_num) false
  obtain ⟨R₂, l₂, a₂, h₂⟩ := exC_onDay X 25 1500 (by norm_num) (by norm_num) false
  obtain ⟨k1, k2, -⟩ := C106_takeoff X exC (by constructor <;> norm_num [exC, pyNum]) _ _ _ _ exHotter 600 _ _ _ _ _ _ (by norm_num) h₁ h₂
  exact ⟨R₁, R₂, l₁, l₂, a₁, a₂, h₁, h₂, k1, k2⟩

/-- The engine still has power 25 degrees above standard at sea level. -/
theorem exPower : 0.132 < 1.132 * (Atmos.isadens 25 0 / 1.225) := by
  have h := (abs_le.mp C102_sea_level.2.2).1
  have e0 : Atmos.isadens 0 0 = Atmos.isadens0 0 := by simp [Atmos.isadens]
  have e1 : Atmos.isadens 25 0 = Atmos.isadens0 0 / (1 + 25 / 288.15) := by
    unfold Atmos.isadens
    rw [C11_offset, C102_sea_level.1, add_sub_cancel_right]
  rw [e0] at h
  rw [e1]
  norm_num at h ⊢
  linarith

example (X : Ext) : ∃ S₁ S₂ l₁ l₂ a₁ a₂, twrequired_to X (onDay exC 0 0) (.scalar 600) true = .ok (.scalar S₁, .scalar l₁, .scalar a₁) ∧
    twrequired_to X (onDay exC 25 0) (.scalar 600) true = .ok (.scalar S₂, .scalar l₂, .scalar a₂) ∧ S₁ < S₂ := by
  obtain ⟨R₁, l₁, a₁, h₁⟩ := exC_onDay X 0 0 (by norm_num) (by norm_num) false
  obtain ⟨R₂, l₂, a₂, h₂⟩ := exC_onDay X 25 0 (by norm_num) (by norm_num) false
  obtain ⟨S₁, m₁, b₁, g₁⟩ := exC_onDay X 0 0 (by norm_num) (by norm_num) true
  obtain ⟨S₂, m₂, b₂, g₂⟩ := exC_onDay X 25 0 (by norm_num) (by norm_num) true
  have same : ∀ off R l a S m b, twrequired_to X (onDay exC off 0) (.scalar 600) false = .ok (.scalar R, .scalar l, .scalar a) →
      twrequired_to X (onDay exC off 0) (.scalar 600) true = .ok (.scalar S, .scalar m, .scalar b) → m = l ∧ b = a := by
    intro off R l a S m b h g
    obtain ⟨x, d, t, i, -, -, rfl, rfl⟩ := to_scalar h
    obtain ⟨x', d', t', i', -, -, rfl, rfl⟩ := to_scalar g
    have e := i.dens; rw [i'.dens] at e; cases e
    have e := i.run; rw [i'.run] at e; cases e
    exact ⟨rfl, rfl⟩
  obtain ⟨rfl, rfl⟩ := same _ _ _ _ _ _ _ h₁ g₁
  obtain ⟨rfl, rfl⟩ := same _ _ _ _ _ _ _ h₂ g₂
  obtain ⟨-, k, -⟩ := C106_piston X exC (by constructor <;> norm_num [exC, pyNum]) (by unfold Piston; simp [exC]) 0 0 25 0
    ⟨by norm_num, by norm_num, le_refl _, by norm_num, Or.inl (by norm_num)⟩ exPower 600 _ _ _ _ _ _ _ _ (by norm_num) h₁ h₂ g₁ g₂
  exact ⟨S₁, S₂, _, _, _, _, g₁, g₂, k⟩

end

end Verif.Props
