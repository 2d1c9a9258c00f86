import Verif.Props.Aero
import Verif.Lemmas.Interp

/-
Properties C41, C69, C70, C71, C73: sweep interpolation, best climb speed, turn radius, blending of
lift slopes and of suction factors.
-/

namespace Verif.Props
open Verif Verif.Aircraft Verif.Units Verif.Spec

noncomputable section

/-! ### C41 -/

/-- The sweep at a chord fraction in [0, 1] is the point on the line through the leading-edge value at
0 and the quarter-chord value at 0.25. -/
theorem C41_line (c : Concept) (x : ℝ) (h0 : 0 ≤ x) (h1 : x ≤ 1) :
    ∃ s, findchordsweep_rad c (some x) = .ok s ∧
      (s - c.sweep_le_rad) * 0.25 = (c.sweep_25_rad - c.sweep_le_rad) * x := by
  refine ⟨_, by simp only [findchordsweep_rad, h0, h1, and_self, if_true]; rfl, ?_⟩
  ring

example : ∃ s, findchordsweep_rad exC (some 0.6) = .ok s ∧
    (s - exC.sweep_le_rad) * 0.25 = (exC.sweep_25_rad - exC.sweep_le_rad) * 0.6 :=
  C41_line exC 0.6 (by norm_num) (by norm_num)

/-- At the leading edge and at the quarter chord the stored sweeps are returned. -/
theorem C41_points (c : Concept) : findchordsweep_rad c (some 0) = .ok c.sweep_le_rad ∧
    findchordsweep_rad c (some 0.25) = .ok c.sweep_25_rad := by
  constructor
  · simp only [findchordsweep_rad]
    norm_num
  · simp only [findchordsweep_rad]
    norm_num
    congr 1
    ring

/-- Anything else raises ValueError. -/
theorem C41_outside (c : Concept) (x : Option ℝ) :
    findchordsweep_rad c x = .error .valueError ↔ ∀ y, x = some y → y < 0 ∨ 1 < y := by
  cases x with
  | none => simp [findchordsweep_rad]
  | some y =>
    by_cases h : 0 ≤ y ∧ y ≤ 1
    · simp only [findchordsweep_rad, h, and_self, if_true]
      constructor
      · intro h2; cases h2
      · intro h2
        rcases h2 y rfl with h3 | h3 <;> linarith [h.1, h.2]
    · simp only [findchordsweep_rad, h, if_false, true_iff]
      rintro z ⟨⟩
      rw [not_and_or, not_le, not_le] at h
      exact h

example : findchordsweep_rad exC (some 0.5) = .ok 0 := by
  simp only [findchordsweep_rad, exC, Concept.sweep_le_rad, Concept.sweep_25_rad, pyNum, Atmos.deg2rad]
  norm_num

/-! ### C69 -/

/-- Drag power per unit wing area in level flight at wing loading `w` with the drag polar
`CD = cd + k CL²`. -/
def dragPower (ρ cd k w v : ℝ) : ℝ :=
  let q := 0.5 * ρ * v ^ 2
  let cl := w / q
  q * (cd + k * cl ^ 2) * v

theorem dragPower_eq {ρ v : ℝ} (cd k w : ℝ) (hρ : 0 < ρ) (hv : 0 < v) :
    dragPower ρ cd k w v = 0.5 * ρ * cd * v ^ 3 + 2 * k * w ^ 2 / ρ / v := by
  unfold dragPower
  field_simp
  ring

/-- Weighted arithmetic-geometric inequality for `v³` and `1/v`. -/
theorem power_min {A B v0 v : ℝ} (hA : 0 < A) (hB : 3 * A * v0 ^ 4 = B) (h0 : 0 < v0) (hv : 0 < v) (hne : v ≠ v0) :
    A * v0 ^ 3 + B / v0 < A * v ^ 3 + B / v := by
  subst hB
  have h1 : A * v ^ 3 + 3 * A * v0 ^ 4 / v - (A * v0 ^ 3 + 3 * A * v0 ^ 4 / v0) =
      A / v * ((v - v0) ^ 2 * (v ^ 2 + 2 * v * v0 + 3 * v0 ^ 2)) := by
    field_simp
    ring
  have h2 : 0 < (v - v0) ^ 2 := by
    have := sub_ne_zero.mpr hne
    positivity
  have h3 : 0 < A / v * ((v - v0) ^ 2 * (v ^ 2 + 2 * v * v0 + 3 * v0 ^ 2)) := by positivity
  linarith

/-- The speed at one wing loading. -/
theorem bestspeed_minimises {ρ cd k w v : ℝ} (hρ : 0 < ρ) (hcd : 0 < cd) (hk : 0 < k) (hw : 0 < w) (hv : 0 < v)
    (hne : v ≠ √(2 / ρ * w * √(k / (3 * cd)))) :
    dragPower ρ cd k w (√(2 / ρ * w * √(k / (3 * cd)))) < dragPower ρ cd k w v := by
  obtain ⟨v0, hv0⟩ : ∃ v0, v0 = √(2 / ρ * w * √(k / (3 * cd))) := ⟨_, rfl⟩
  rw [← hv0] at hne ⊢
  have hs : 0 < √(k / (3 * cd)) := Real.sqrt_pos.mpr (by positivity)
  have h0 : 0 < v0 := by rw [hv0]; exact Real.sqrt_pos.mpr (by positivity)
  have hsq : v0 ^ 2 = 2 / ρ * w * √(k / (3 * cd)) := by
    rw [hv0]; exact Real.sq_sqrt (by positivity)
  have hsq2 : √(k / (3 * cd)) ^ 2 = k / (3 * cd) := Real.sq_sqrt (by positivity)
  have h4 : v0 ^ 4 = 4 / ρ ^ 2 * w ^ 2 * (k / (3 * cd)) := by
    rw [← hsq2]
    calc v0 ^ 4 = (v0 ^ 2) ^ 2 := by ring
      _ = _ := by rw [hsq]; ring
  rw [dragPower_eq _ _ _ hρ h0, dragPower_eq _ _ _ hρ hv]
  apply power_min (by positivity) _ h0 hv hne
  rw [h4]
  field_simp
  ring

/-- The best climb speed minimises the drag power for the concept's drag polar, strictly, at every
wing loading of the array. -/
theorem C69_minimises (c : Concept) (w : NumArg) (alt ρ : ℝ) (hAR : 0 < pyNum c.aspectratio)
    (hcd : 0 < pyNum c.cdminclean) (hρ : Atmos.dens1 c.designatm alt = .ok ρ) (hρ0 : 0 < ρ)
    (hw : ∀ x ∈ recastArray w, 0 < x) :
    ∃ (k : ℝ) (best : ℝ → ℝ), induceddragfact c none none = .ok k ∧
      bestclimbspeedprop c w alt = .ok (Atmos.revert ((recastArray w).map best)) ∧
      ∀ x ∈ recastArray w, 0 < best x ∧ ∀ v, 0 < v → v ≠ best x →
        dragPower ρ (pyNum c.cdminclean) k x (best x) < dragPower ρ (pyNum c.cdminclean) k x v := by
  obtain ⟨k, hk, hk0, _⟩ := C40_factor c none hAR
  refine ⟨k, fun x => √(2 / ρ * x * √(k / (3 * pyNum c.cdminclean))), hk, ?_, ?_⟩
  · simp only [bestclimbspeedprop, hk, hρ, bind_ok]
    rfl
  · intro x hx
    have hx0 := hw x hx
    refine ⟨?_, fun v hv hne => bestspeed_minimises hρ0 hcd hk0 hx0 hv hne⟩
    have hs : 0 < √(k / (3 * pyNum c.cdminclean)) := Real.sqrt_pos.mpr (by positivity)
    exact Real.sqrt_pos.mpr (by positivity)

theorem exAtm_alts (alt : ℝ) (h0 : 0 ≤ alt) (h1 : alt ≤ 10000) :
    Atmos.alttest exAtm (.scalar alt) = .ok [alt] := by
  have e0 : ¬ alt < 0 := not_lt.mpr h0
  have e1 : ¬ 10000 < alt := not_lt.mpr h1
  simp [Atmos.alttest, exAtm, Atmos.loalt, Atmos.hialt, recastArray, e0, e1]

theorem exAtm_interp (alt y : ℝ) (h0 : 0 ≤ alt) (h1 : alt ≤ 10000) :
    Atmos.interp1d [0, 10000] [y, y] alt = .ok y := by
  have e0 : ¬ alt < 0 := not_lt.mpr h0
  have e1 : ¬ 10000 < alt := not_lt.mpr h1
  unfold Atmos.interp1d
  rw [Atmos.sortTable_sorted (by norm_num)]
  simp [Atmos.interpSeg, Atmos.linSeg, e0, e1, h1]

theorem exAtm_dens (alt : ℝ) (h0 : 0 ≤ alt) (h1 : alt ≤ 10000) : Atmos.dens1 exAtm alt = .ok 1 := by
  have h : Atmos.airdens_kgpm3 exAtm (.scalar alt) = .ok (.scalar 1) := by
    unfold Atmos.airdens_kgpm3
    rw [exAtm_alts alt h0 h1]
    simp only [bind_ok, exAtm, List.mapM_cons, List.mapM_nil, exAtm_interp alt 1 h0 h1]
    rfl
  unfold Atmos.dens1
  rw [h]
  rfl

example : ∃ r, bestclimbspeedprop exC (.array [800, 1000, 1200]) 1000 = .ok r := by
  obtain ⟨k, b, _, h, _⟩ := C69_minimises exC (.array [800, 1000, 1200]) 1000 1 (by norm_num [exC, pyNum])
    (by norm_num [exC, pyNum]) (exAtm_dens 1000 (by norm_num) (by norm_num)) (by norm_num)
    (by simp [recastArray])
  exact ⟨_, h⟩

/-! ### C70 -/

/-- For bank angles between 0 and 90 degrees the radius is positive and gives the centripetal
acceleration g tan(bank), so that weight and centripetal force add up to the load factor
1 / cos(bank). -/
theorem C70_radius (c : Concept) (b : ℝ) (h0 : 0 < b) (h1 : b < 90) (hv : 0 < pyNum c.turnspeed_ktas) :
    0 < bank2turnradius c b ∧
    (kts2mps (pyNum c.turnspeed_ktas)) ^ 2 / bank2turnradius c b = gAcc * Real.tan (b * Real.pi / 180) ∧
    √(1 + ((kts2mps (pyNum c.turnspeed_ktas)) ^ 2 / bank2turnradius c b / gAcc) ^ 2) =
      1 / Real.cos (b * Real.pi / 180) := by
  have hb : Atmos.deg2rad b = b * Real.pi / 180 := by unfold Atmos.deg2rad; ring
  unfold bank2turnradius
  rw [hb]
  obtain ⟨x, hx⟩ : ∃ x, x = b * Real.pi / 180 := ⟨_, rfl⟩
  have hp := Real.pi_pos
  have hx0 : 0 < x := by rw [hx]; positivity
  have hx1 : x < Real.pi / 2 := by rw [hx]; nlinarith
  rw [← hx]
  have ht := Real.tan_pos_of_pos_of_lt_pi_div_two hx0 hx1
  have hc : 0 < Real.cos x := Real.cos_pos_of_mem_Ioo ⟨by linarith, hx1⟩
  have hg : 0 < gAcc := by norm_num [gAcc]
  have hv' : 0 < kts2mps (pyNum c.turnspeed_ktas) := by unfold kts2mps; positivity
  have h2 : (kts2mps (pyNum c.turnspeed_ktas)) ^ 2 /
      ((kts2mps (pyNum c.turnspeed_ktas)) ^ 2 / (gAcc * Real.tan x)) = gAcc * Real.tan x := by
    field_simp
  refine ⟨by positivity, h2, ?_⟩
  rw [h2]
  have h3 : gAcc * Real.tan x / gAcc = Real.tan x := by field_simp
  rw [h3]
  have h4 : 1 + Real.tan x ^ 2 = (1 / Real.cos x) ^ 2 := by
    rw [Real.tan_eq_sin_div_cos, div_pow, div_pow]
    field_simp
    rw [add_comm, Real.sin_sq_add_cos_sq]
  rw [h4, Real.sqrt_sq (by positivity)]

example : 0 < bank2turnradius exC 60 :=
  (C70_radius exC 60 (by norm_num) (by norm_num) (by norm_num [exC, pyNum])).1

/-- A steeper bank gives a tighter turn. -/
theorem C70_bank (c : Concept) (b b' : ℝ) (h0 : 0 < b) (h : b < b') (h1 : b' < 90) (hv : 0 < pyNum c.turnspeed_ktas) :
    bank2turnradius c b' < bank2turnradius c b := by
  unfold bank2turnradius Atmos.deg2rad
  have hp := Real.pi_pos
  have hx0 : 0 < b * (Real.pi / 180) := by positivity
  have hx1 : b * (Real.pi / 180) < b' * (Real.pi / 180) := by
    apply mul_lt_mul_of_pos_right h; positivity
  have hx2 : b' * (Real.pi / 180) < Real.pi / 2 := by nlinarith
  have ht := Real.tan_pos_of_pos_of_lt_pi_div_two hx0 (by linarith)
  have ht2 := Real.tan_lt_tan_of_nonneg_of_lt_pi_div_two hx0.le hx2 hx1
  have hg : 0 < gAcc := by norm_num [gAcc]
  have hv' : 0 < kts2mps (pyNum c.turnspeed_ktas) := by unfold kts2mps; positivity
  apply div_lt_div_of_pos_left <;> first | positivity | nlinarith

example : bank2turnradius exC 60 < bank2turnradius exC 45 :=
  C70_bank exC 45 60 (by norm_num) (by norm_num) (by norm_num) (by norm_num [exC, pyNum])

/-- Twice the speed, four times the radius: the radius grows with the square of the speed. -/
theorem C70_speed (c c' : Concept) (b k : ℝ)
    (h : pyNum c'.turnspeed_ktas = k * pyNum c.turnspeed_ktas) :
    bank2turnradius c' b = k ^ 2 * bank2turnradius c b := by
  unfold bank2turnradius kts2mps
  rw [h]
  ring

example : 0 < bank2turnradius exC 60 :=
  (C70_radius exC 60 (by norm_num) (by norm_num) (by norm_num [exC, pyNum])).1

/-! ### C71 -/

theorem clamp_one {y : ℝ} (h : 1 ≤ y) : max 0 (min 1 y) = 1 := by
  rw [min_eq_left h, max_eq_right zero_le_one]
theorem clamp_zero {y : ℝ} (h : y ≤ 0) : max 0 (min 1 y) = 0 := by
  rw [max_eq_left]; exact (min_le_right _ _).trans h
theorem clamp_mid {y : ℝ} (h0 : 0 ≤ y) (h1 : y ≤ 1) : max 0 (min 1 y) = y := by
  rw [min_eq_right h1, max_eq_right h0]

/-- The lift slope is a mixture of the three estimates with non-negative weights of sum one that
depend on the Mach number alone: the subsonic weight is 1 up to Mach 0.6 and 0 from Mach 0.8, the
supersonic weight 0 up to Mach 1.3 and 1 from Mach 1.4, both continuous at every Mach number. -/
theorem C71_weights : ∃ ws wp : ℝ → ℝ,
    (∀ m a b t, liftslopeblend m a b t = ws m * a + wp m * b + (1 - ws m - wp m) * t) ∧
    Continuous ws ∧ Continuous wp ∧
    (∀ m, 0 ≤ ws m ∧ 0 ≤ wp m ∧ ws m + wp m ≤ 1) ∧
    (∀ m, m ≤ 0.6 → ws m = 1) ∧ (∀ m, 0.8 ≤ m → ws m = 0) ∧
    (∀ m, m ≤ 1.3 → wp m = 0) ∧ (∀ m, 1.4 ≤ m → wp m = 1) ∧
    (∀ m, 0.6 < m → m < 0.8 → 0 < ws m ∧ ws m < 1) ∧ (∀ m, 1.3 < m → m < 1.4 → 0 < wp m ∧ wp m < 1) := by
  norm_num
  refine ⟨fun m => max 0 (min 1 (4 - 5 * m)), fun m => max 0 (min 1 (10 * m - 13)), ?_, by fun_prop, by fun_prop,
    ?_, ?_, ?_, ?_, ?_, ?_, ?_⟩
  · intro m a b t
    unfold liftslopeblend weight_sub weight_sup npInterp2
    norm_num
    by_cases h1 : m < 3 / 5
    · rw [if_pos h1, clamp_one (by linarith), clamp_zero (by linarith)]; ring
    by_cases h2 : 7 / 5 < m
    · rw [if_neg h1, if_pos h2, clamp_one (y := 10 * m - 13) (by linarith), clamp_zero (by linarith)]; ring
    rw [if_neg h1, if_neg h2]
    push Not at h1 h2
    by_cases h3 : m < 4 / 5
    · have e1 : m < 1 := by linarith
      have e2 : m < 7 / 5 := by linarith
      have e3 : ¬ 4 / 5 ≤ m := by linarith
      rw [clamp_mid (y := 4 - 5 * m) (by linarith) (by linarith), clamp_zero (by linarith)]
      rcases h1.lt_or_eq with h4 | h4
      · have e4 : ¬ m ≤ 3 / 5 := by linarith
        simp only [e1, e2, e3, e4, h3, h4, if_true, if_false, and_self]
        ring
      · subst h4; norm_num
    by_cases h5 : 13 / 10 < m
    · have e1 : ¬ m < 1 := by linarith
      have e2 : 3 / 5 < m := by linarith
      have e3 : ¬ m ≤ 13 / 10 := by linarith
      rw [clamp_mid (y := 10 * m - 13) (by linarith) (by linarith), clamp_zero (by linarith)]
      rcases h2.lt_or_eq with h4 | h4
      · have e4 : ¬ 7 / 5 ≤ m := by linarith
        simp only [e1, e2, e3, e4, h3, h4, h5, if_true, if_false, and_self]
        ring
      · subst h4; norm_num
    · push Not at h3 h5
      rw [clamp_zero (y := 4 - 5 * m) (by linarith), clamp_zero (by linarith)]
      have e1 : 3 / 5 < m := by linarith
      have e2 : m < 7 / 5 := by linarith
      have e3 : ¬ m ≤ 3 / 5 := by linarith
      simp only [e1, e2, e3, h3, h5, not_lt.mpr h3, not_lt.mpr h5, if_true, if_false, and_self]
      split <;> ring
  · intro m
    refine ⟨le_max_left _ _, le_max_left _ _, ?_⟩
    show max 0 (min 1 (4 - 5 * m)) + max 0 (min 1 (10 * m - 13)) ≤ 1
    rcases le_total m 1 with h | h
    · rw [clamp_zero (y := 10 * m - 13) (by linarith)]
      have : max 0 (min 1 (4 - 5 * m)) ≤ 1 := max_le zero_le_one (min_le_left _ _)
      linarith
    · rw [clamp_zero (y := 4 - 5 * m) (by linarith)]
      have : max 0 (min 1 (10 * m - 13)) ≤ 1 := max_le zero_le_one (min_le_left _ _)
      linarith
  · intro m h; exact clamp_one (by linarith)
  · intro m h; exact clamp_zero (by linarith)
  · intro m h; exact clamp_zero (by linarith)
  · intro m h; exact clamp_one (by linarith)
  · intro m h h'
    simp only [clamp_mid (y := 4 - 5 * m) (by linarith) (by linarith)]
    constructor <;> linarith
  · intro m h h'
    simp only [clamp_mid (y := 10 * m - 13) (by linarith) (by linarith)]
    constructor <;> linarith

/-- The lift slope is this mixture of the concept's subsonic, supersonic and transonic estimates, for a
given Mach number and, when none is given, for Mach 0.3. -/
theorem C71_estimates (X : Ext) (c : Concept) (m : Option ℝ) :
    ∃ sub trans, a_subsonic c (m.getD 0.3) = .ok sub ∧ a_transonic X c (m.getD 0.3) = .ok trans ∧
      liftslope_prad X c m = .ok (liftslopeblend (m.getD 0.3) sub (a_supersonic c (m.getD 0.3)) trans) := by
  have hsub : ∀ x, ∃ y, a_subsonic c x = .ok y := by
    intro x
    obtain ⟨s, hs, _⟩ := C41_line c 0.5 (by norm_num) (by norm_num)
    simp only [a_subsonic, hs, bind_ok]
    exact ⟨_, rfl⟩
  have htr : ∀ x, ∃ y, a_transonic X c x = .ok y := by
    intro x
    obtain ⟨y0, h0⟩ := hsub 0.6
    obtain ⟨y1, h1⟩ := hsub (0.6 + 3e-2)
    simp only [a_transonic, h0, h1, bind_ok]
    exact ⟨_, rfl⟩
  obtain ⟨a, ha⟩ := hsub (m.getD 0.3)
  obtain ⟨t, ht⟩ := htr (m.getD 0.3)
  refine ⟨a, t, ha, ht, ?_⟩
  simp only [liftslope_prad, ha, ht, bind_ok]
  rfl

/-- In the blending ranges the result lies between the two estimates blended; elsewhere it is one of
the estimates. -/
theorem C71_ranges (m a b t : ℝ) :
    (m ≤ 0.6 → liftslopeblend m a b t = a) ∧
    (0.6 ≤ m → m ≤ 0.8 → Between a (liftslopeblend m a b t) t) ∧
    (0.8 ≤ m → m ≤ 1.3 → liftslopeblend m a b t = t) ∧
    (1.3 ≤ m → m ≤ 1.4 → Between t (liftslopeblend m a b t) b) ∧
    (1.4 ≤ m → liftslopeblend m a b t = b) := by
  obtain ⟨ws, wp, h, _, _, hr, h1, h2, h3, h4, _⟩ := C71_weights
  have mix : ∀ w x y : ℝ, 0 ≤ w → w ≤ 1 → Between x (w * x + (1 - w) * y) y := by
    intro w x y h0 h1
    rcases le_total x y with h | h
    · left; constructor <;> nlinarith
    · right; constructor <;> nlinarith
  refine ⟨fun hm => ?_, fun hm hm' => ?_, fun hm hm' => ?_, fun hm hm' => ?_, fun hm => ?_⟩
  · rw [h, h1 m hm, h3 m (by norm_num at hm ⊢; linarith)]; ring
  · have hp := h3 m (by norm_num at hm' ⊢; linarith)
    have := hr m
    rw [h, hp]
    convert mix (ws m) a t this.1 (by linarith [this.2.2, this.2.1]) using 1
    ring
  · rw [h, h2 m hm, h3 m hm']; ring
  · have hs := h2 m (by norm_num at hm ⊢; linarith)
    have := hr m
    rw [h, hs]
    convert mix (1 - wp m) t b (by linarith [this.2.2, this.1]) (by linarith [this.2.1]) using 1
    ring
  · rw [h, h4 m hm, h2 m (by norm_num at hm ⊢; linarith)]; ring

/-- At Mach 0.7 the subsonic and the transonic estimate count equally. -/
example : liftslopeblend 0.7 4 100 6 = 5 := by
  norm_num [liftslopeblend, weight_sub, weight_sup, npInterp2]

/-! ### C73 -/

/-- The parabola used between Mach 1 and the sonic leading edge solves the linear system of lines
972-976. -/
theorem k100parabola_solves (x1 y1 m1 x2 y2 : ℝ) (h : x1 ≠ x2) :
    ∃ a b d, (∀ m, k100parabola x1 y1 m1 x2 y2 m = a * m ^ 2 + b * m + d) ∧
      a * x1 ^ 2 + b * x1 + d = y1 ∧ a * x2 ^ 2 + b * x2 + d = y2 ∧ 2 * x1 * a + b = m1 ∧
      ∀ a' b' d', a' * x1 ^ 2 + b' * x1 + d' = y1 → a' * x2 ^ 2 + b' * x2 + d' = y2 → 2 * x1 * a' + b' = m1 →
        a' = a ∧ b' = b ∧ d' = d := by
  have h' : x2 - x1 ≠ 0 := sub_ne_zero.mpr (Ne.symm h)
  obtain ⟨a, ha⟩ : ∃ a, a = (y2 - y1 - m1 * (x2 - x1)) / (x2 - x1) ^ 2 := ⟨_, rfl⟩
  have ha2 : a * (x2 - x1) ^ 2 = y2 - y1 - m1 * (x2 - x1) := by rw [ha]; field_simp
  refine ⟨a, m1 - 2 * a * x1, y1 - a * x1 ^ 2 - (m1 - 2 * a * x1) * x1, fun m => ?_, by ring, by linarith,
    by ring, ?_⟩
  · simp only [k100parabola, ← ha]
  · intro a' b' d' e1 e2 e3
    have hb : b' = m1 - 2 * x1 * a' := by linarith
    have hd : d' = y1 - a' * x1 ^ 2 - b' * x1 := by linarith
    have : a' * (x2 - x1) ^ 2 = a * (x2 - x1) ^ 2 := by
      rw [ha2]; rw [hd, hb] at e2; linarith
    have haa : a' = a := mul_right_cancel₀ (pow_ne_zero 2 h') this
    subst haa
    exact ⟨rfl, by linarith, by rw [hd, hb]; ring⟩

/-- Below Mach 1 the full-suction factor is the ideal value. -/
theorem C73_subsonic (ar ms k0s k0 m : ℝ) (h : m < 1) : k100 ar ms k0s k0 m = 1 / (Real.pi * ar) := by
  simp only [k100, h, if_true]

example : k100 9 2 3 7 0.8 = 1 / (Real.pi * 9) := C73_subsonic _ _ _ _ _ (by norm_num)

/-- From the sonic leading edge on it is the zero-suction factor. -/
theorem C73_supersonic (ar ms k0s k0 m : ℝ) (h1 : 1 ≤ m) (h : ms ≤ m) : k100 ar ms k0s k0 m = k0 := by
  simp only [k100, not_lt.mpr h1, not_lt.mpr h, if_false]

example : k100 9 2 3 7 2.5 = 7 := C73_supersonic _ _ _ _ _ (by norm_num) (by norm_num)

/-- In between it starts at the ideal value with zero slope, ends at the zero-suction factor of the
sonic leading edge, and lies between the two. -/
theorem C73_between (ar ms k0s k0 : ℝ) (hms : 1 < ms) :
    ∃ f : ℝ → ℝ, (∀ m, 1 ≤ m → m < ms → k100 ar ms k0s k0 m = f m) ∧
      f 1 = 1 / (Real.pi * ar) ∧ HasDerivAt f 0 1 ∧ f ms = k0s ∧
      ∀ m, 1 ≤ m → m ≤ ms → Between (1 / (Real.pi * ar)) (f m) k0s := by
  obtain ⟨y, hy⟩ : ∃ y, y = 1 / (Real.pi * ar) := ⟨_, rfl⟩
  have hne : ms - 1 ≠ 0 := by linarith
  have hpos : 0 < ms - 1 := by linarith
  have hf : ∀ m, k100parabola 1 y 0 ms k0s m = y + (k0s - y) * ((m - 1) / (ms - 1)) ^ 2 := by
    intro m
    unfold k100parabola
    field_simp
    ring
  refine ⟨fun m => y + (k0s - y) * ((m - 1) / (ms - 1)) ^ 2, ?_, ?_, ?_, ?_, ?_⟩
  · intro m h1 h2
    simp only [k100, not_lt.mpr h1, h2, if_false, if_true, ← hy]
    exact hf m
  · simp [hy]
  · have h1 : HasDerivAt (fun m : ℝ => (m - 1) / (ms - 1)) (1 / (ms - 1)) 1 :=
      ((hasDerivAt_id (1 : ℝ)).sub_const 1).div_const (ms - 1)
    have h2 := ((h1.pow 2).const_mul (k0s - y)).const_add y
    have h3 : (k0s - y) * (((2 : ℕ) : ℝ) * ((1 - 1) / (ms - 1)) ^ (2 - 1) * (1 / (ms - 1))) = 0 := by simp
    rw [h3] at h2
    exact h2
  · show y + (k0s - y) * ((ms - 1) / (ms - 1)) ^ 2 = k0s
    rw [div_self hne]; ring
  · intro m h1 h2
    obtain ⟨s, hs⟩ : ∃ s, s = ((m - 1) / (ms - 1)) ^ 2 := ⟨_, rfl⟩
    have hs0 : 0 ≤ s := hs ▸ sq_nonneg _
    have hs1 : s ≤ 1 := by
      rw [hs]
      have h3 : 0 ≤ (m - 1) / (ms - 1) := div_nonneg (by linarith) hpos.le
      have h4 : (m - 1) / (ms - 1) ≤ 1 := by rw [div_le_one hpos]; linarith
      nlinarith
    show Between (1 / (Real.pi * ar)) (y + (k0s - y) * ((m - 1) / (ms - 1)) ^ 2) k0s
    rw [← hs, ← hy]
    rcases le_total y k0s with h | h
    · left; constructor <;> nlinarith
    · right; constructor <;> nlinarith

/-- A wing with sixty degrees of sweep: sonic leading edge at Mach 2, factor halfway at Mach 1.5. -/
example : k100 (1 / Real.pi) 2 3 7 1.5 = 1 + 2 * 0.25 := by
  have : Real.pi * (1 / Real.pi) = 1 := by field_simp
  simp only [k100, k100parabola, this]
  norm_num

/-- The factor the requirements use has these arguments: the concept's aspect ratio and leading-edge
sweep, and the reciprocal lift slopes. -/
theorem C73_used (X : Ext) (c : Concept) (m : ℝ) {ko k0 k1 : ℝ} (h : kFactors X c m = .ok (ko, k0, k1)) :
    ∃ ls lss, liftslope_prad X c (some m) = .ok ls ∧ liftslope_prad X c (some (1 / Real.cos c.sweep_le_rad)) = .ok lss ∧
      k0 = 1 / ls ∧ k1 = k100 (pyNum c.aspectratio) (1 / Real.cos c.sweep_le_rad) (1 / lss) (1 / ls) m := by
  simp only [kFactors, bind_ok_iff, pure_ok_iff] at h
  obtain ⟨ko', _, ls, h1, lss, h2, h3⟩ := h
  cases h3
  exact ⟨ls, lss, h1, h2, rfl, rfl⟩

example (X : Ext) : ∃ ko k0 k1, kFactors X exC 0.5 = .ok (ko, k0, k1) := by
  obtain ⟨s1, t1, -, -, h1⟩ := C71_estimates X exC (some 0.5)
  obtain ⟨s2, t2, -, -, h2⟩ := C71_estimates X exC (some (machstar_le exC))
  obtain ⟨k, hk⟩ : ∃ k, induceddragfact exC (some 24) (some (min 0.5 0.6)) = .ok k := by
    refine ⟨_, C39_mean exC 24 _ ⟨2, ?_⟩⟩
    simp only [chosen, Finset.mem_filter]
    exact ⟨by simp, 1, by norm_num⟩
  unfold kFactors
  rw [h1, h2, hk]
  exact ⟨_, _, _, rfl⟩

end

end Verif.Props
