import Verif.Props.TurnTrend
import Verif.Props.OswaldMach

/-
Property C124: what the requirement does between the ends of a range of the brief, which is all the sensitivity
study looks at.
-/

namespace Verif.Props
open Verif Verif.Aircraft Verif.Units Verif.Spec

noncomputable section

/-! ### Drag coefficient: linear interpolation -/

/-- At a drag coefficient inside a range the climb requirement is interpolated linearly between those at the ends. -/
theorem C124_climb_drag (X : Ext) (c : Concept) (b : Bool) (s r v roc t q m : ℝ) (K : ℝ → ℝ → ℝ) (h : ClimbIn X c s r v roc t q m K)
    (hf : pyNum c.climb_weight_fraction ≠ 0) (ht : b = true → t ≠ 0) (lo hi p w : ℝ) (hw : w ≠ 0) :
    ∃ R₁ R R₂, twrequired_clm X (withCd c lo) (.scalar w) b = .ok (.scalar R₁) ∧
      twrequired_clm X (withCd c (lo + p * (hi - lo))) (.scalar w) b = .ok (.scalar R) ∧
      twrequired_clm X (withCd c hi) (.scalar w) b = .ok (.scalar R₂) ∧ R = R₁ + p * (R₂ - R₁) := by
  obtain ⟨R₁, R₂, h1, h2, h3⟩ := C104_climb X c b s r v roc t q m K h hf ht lo hi w hw
  obtain ⟨R₁', R, h1', h2', h3'⟩ := C104_climb X c b s r v roc t q m K h hf ht lo (lo + p * (hi - lo)) w hw
  rw [h1] at h1'; cases h1'
  refine ⟨R₁, R, R₂, h1, h2', h2, ?_⟩
  have : R - R₁ = p * (R₂ - R₁) := by rw [h3, h3']; ring
  linarith

/-- So is the cruise requirement. -/
theorem C124_cruise_drag (X : Ext) (c : Concept) (b : Bool) (s alt t q m : ℝ) (K : ℝ → ℝ → ℝ) (h : CruiseIn X c s alt t q m K)
    (hf : pyNum c.cruise_weight_fraction ≠ 0) (ht : b = true → t ≠ 0) (hthr : pyNum c.cruisethrustfact ≠ 0) (lo hi p w : ℝ)
    (hw : w ≠ 0) :
    ∃ R₁ R R₂, twrequired_crs X (withCd c lo) (.scalar w) b = .ok (.scalar R₁) ∧
      twrequired_crs X (withCd c (lo + p * (hi - lo))) (.scalar w) b = .ok (.scalar R) ∧
      twrequired_crs X (withCd c hi) (.scalar w) b = .ok (.scalar R₂) ∧ R = R₁ + p * (R₂ - R₁) := by
  obtain ⟨R₁, R₂, h1, h2, h3⟩ := C104_cruise X c b s alt t q m K h hf ht hthr lo hi w hw
  obtain ⟨R₁', R, h1', h2', h3'⟩ := C104_cruise X c b s alt t q m K h hf ht hthr lo (lo + p * (hi - lo)) w hw
  rw [h1] at h1'; cases h1'
  refine ⟨R₁, R, R₂, h1, h2', h2, ?_⟩
  have : R - R₁ = p * (R₂ - R₁) := by rw [h3, h3']; ring
  linarith

/-- So is the service ceiling requirement. -/
theorem C124_ceiling_drag (X : Ext) (c : Concept) (b : Bool) (s alt v roc t q m : ℝ) (K : ℝ → ℝ → ℝ)
    (h : CeilIn X c s alt v roc t q m K) (hf : pyNum c.sec_weight_fraction ≠ 0) (ht : b = true → t ≠ 0) (lo hi p w : ℝ) (hw : w ≠ 0) :
    ∃ R₁ R R₂, twrequired_sec X (withCd c lo) (.scalar w) b = .ok (.scalar R₁) ∧
      twrequired_sec X (withCd c (lo + p * (hi - lo))) (.scalar w) b = .ok (.scalar R) ∧
      twrequired_sec X (withCd c hi) (.scalar w) b = .ok (.scalar R₂) ∧ R = R₁ + p * (R₂ - R₁) := by
  obtain ⟨R₁, R₂, h1, h2, h3⟩ := C104_ceiling X c b s alt v roc t q m K h hf ht lo hi w hw
  obtain ⟨R₁', R, h1', h2', h3'⟩ := C104_ceiling X c b s alt v roc t q m K h hf ht lo (lo + p * (hi - lo)) w hw
  rw [h1] at h1'; cases h1'
  refine ⟨R₁, R, R₂, h1, h2', h2, ?_⟩
  have : R - R₁ = p * (R₂ - R₁) := by rw [h3, h3']; ring
  linarith

/-- So is the turn requirement; which turns are feasible does not depend on the drag coefficient. -/
theorem C124_turn_drag (X : Ext) (c : Concept) (b : Bool) (s n t q m : ℝ) (K : ℝ → ℝ → ℝ) (h : TurnIn X c s n t q m K)
    (hf : pyNum c.turn_weight_fraction ≠ 0) (ht : b = true → t ≠ 0) (lo hi p w : ℝ) (hw : w ≠ 0) :
    ∃ R₁ R R₂ cl fe₁ fe fe₂, twrequired_trn X (withCd c lo) (.scalar w) b = .ok (.scalar R₁, .scalar cl, .scalar fe₁) ∧
      twrequired_trn X (withCd c (lo + p * (hi - lo))) (.scalar w) b = .ok (.scalar R, .scalar cl, .scalar fe) ∧
      twrequired_trn X (withCd c hi) (.scalar w) b = .ok (.scalar R₂, .scalar cl, .scalar fe₂) ∧ R = R₁ + p * (R₂ - R₁) ∧
      (fe₁ = none ↔ fe = none) ∧ (fe = none ↔ fe₂ = none) := by
  obtain ⟨R₁, R₂, cl, fe₁, fe₂, h1, h2, h4, h3⟩ := C104_turn X c b s n t q m K h hf ht lo hi w hw
  obtain ⟨R₁', R, cl', fe₁', fe, h1', h2', h4', h3'⟩ := C104_turn X c b s n t q m K h hf ht lo (lo + p * (hi - lo)) w hw
  rw [h1] at h1'; cases h1'
  refine ⟨R₁, R, R₂, cl, fe₁, fe, fe₂, h1, h2', h2, ?_, h4', h4'.symm.trans h4⟩
  have : R - R₁ = p * (R₂ - R₁) := by rw [h3, h3']; ring
  linarith

/-- A quarter into the range 0.025 to 0.035. -/
example (X : Ext) : ∃ R₁ R R₂, twrequired_clm X (withCd exC 0.025) (.scalar 600) false = .ok (.scalar R₁) ∧
    twrequired_clm X (withCd exC (0.025 + 1 / 4 * (0.035 - 0.025))) (.scalar 600) false = .ok (.scalar R) ∧
    twrequired_clm X (withCd exC 0.035) (.scalar 600) false = .ok (.scalar R₂) ∧ R = R₁ + 1 / 4 * (R₂ - R₁) := by
  obtain ⟨v, roc, t, q, m, K, h⟩ := clm_given (X := X) exC_ready (s := 100) (r := 1000) rfl rfl
  exact C124_climb_drag X exC false _ _ _ _ _ _ _ _ h (by norm_num [exC, pyNum]) (by simp) 0.025 0.035 (1 / 4) 600 (by norm_num)

example (X : Ext) : ∃ R₁ R R₂, twrequired_crs X (withCd exC 0.025) (.scalar 600) false = .ok (.scalar R₁) ∧
    twrequired_crs X (withCd exC (0.025 + 1 / 4 * (0.035 - 0.025))) (.scalar 600) false = .ok (.scalar R) ∧
    twrequired_crs X (withCd exC 0.035) (.scalar 600) false = .ok (.scalar R₂) ∧ R = R₁ + 1 / 4 * (R₂ - R₁) := by
  obtain ⟨t, q, m, K, h⟩ := crs_given (X := X) exC_ready (s := 150) (alt := 3000) rfl rfl
  exact C124_cruise_drag X exC false _ _ _ _ _ _ h (by norm_num [exC, pyNum]) (by simp) (by norm_num [exC, pyNum])
    0.025 0.035 (1 / 4) 600 (by norm_num)

example (X : Ext) : ∃ R₁ R R₂, twrequired_sec X (withCd exC 0.025) (.scalar 600) false = .ok (.scalar R₁) ∧
    twrequired_sec X (withCd exC (0.025 + 1 / 4 * (0.035 - 0.025))) (.scalar 600) false = .ok (.scalar R) ∧
    twrequired_sec X (withCd exC 0.035) (.scalar 600) false = .ok (.scalar R₂) ∧ R = R₁ + 1 / 4 * (R₂ - R₁) := by
  obtain ⟨v, roc, t, q, m, K, h⟩ := sec_given (X := X) exC_ready (s := 90) (alt := 6000) rfl rfl
  exact C124_ceiling_drag X exC false _ _ _ _ _ _ _ _ h (by norm_num [exC, pyNum]) (by simp) 0.025 0.035 (1 / 4) 600 (by norm_num)

example (X : Ext) : ∃ t q m K, TurnIn X exC 120 2 t q m K ∧ pyNum exC.turn_weight_fraction ≠ 0 := by
  obtain ⟨t, q, m, K, h⟩ := trn_given (X := X) exC_ready (s := 120) (n := 2) rfl rfl
  exact ⟨t, q, m, K, h, by norm_num [exC, pyNum]⟩

/-! ### Ground run: below the mean -/

/-- For a ground run strictly inside a range the take-off requirement lies between those at the ends, and below their linear
interpolation. -/
theorem C124_groundrun (X : Ext) (c : Concept) (hs : TakeoffSigns c) (d : ℝ)
    (hd : Atmos.dens1 c.designatm (pyNum c.rwyelevation_m) = .ok d) (hd0 : 0 < d)
    (lo hi p w R₁ R R₂ l₁ l l₂ a₁ a a₂ : ℝ) (hw : 0 < w) (hlo : 0 < lo) (hlt : lo < hi) (p0 : 0 < p) (p1 : p < 1)
    (h₁ : twrequired_to X { c with groundrun_m := some lo } (.scalar w) false = .ok (.scalar R₁, .scalar l₁, .scalar a₁))
    (h : twrequired_to X { c with groundrun_m := some (lo + p * (hi - lo)) } (.scalar w) false = .ok (.scalar R, .scalar l, .scalar a))
    (h₂ : twrequired_to X { c with groundrun_m := some hi } (.scalar w) false = .ok (.scalar R₂, .scalar l₂, .scalar a₂)) :
    R₂ < R ∧ R < R₁ ∧ R < R₁ + p * (R₂ - R₁) ∧ l₁ = l ∧ l = l₂ := by
  have key : ∀ run R l a, 0 < run →
      twrequired_to X { c with groundrun_m := some run } (.scalar w) false = .ok (.scalar R, .scalar l, .scalar a) →
      R = map2static c * (1.21 * w / (d * pyNum c.clmaxto * gAcc * run) +
      0.5 * pyNum c.cdto / pyNum c.clto + 0.5 * pyNum c.mu_r) ∧ l = toLof c d w := by
    intro run R l a hrun h
    obtain ⟨g, d', t, hi, -, rfl, rfl, -⟩ := to_scalar h
    have e := hi.dens
    have hd' : Atmos.dens1 ({ c with groundrun_m := some run } : Concept).designatm
      (pyNum ({ c with groundrun_m := some run } : Concept).rwyelevation_m) = .ok d := hd
    rw [hd'] at e; cases e
    have hs' : TakeoffSigns { c with groundrun_m := some run } := ⟨hrun, hs.clmax, hs.cl, hs.cd, hs.mu⟩
    refine ⟨?_, rfl⟩
    show toStatic { c with groundrun_m := some run } g d w = _
    rw [toStatic_eq hi hs' hd0 hw.le]
    rfl
  have hmid : 0 < lo + p * (hi - lo) := by nlinarith
  obtain ⟨e1, k1⟩ := key _ _ _ _ hlo h₁
  obtain ⟨e, k⟩ := key _ _ _ _ hmid h
  obtain ⟨e2, k2⟩ := key _ _ _ _ (hlo.trans hlt) h₂
  have c1 := hs.clmax
  have c3 : (0:ℝ) < gAcc := by norm_num [gAcc]
  have h7 : 0 < map2static c := by linarith [(map2static_bounds c).1]
  obtain ⟨A, hA⟩ : ∃ A, A = map2static c * (1.21 * w / (d * pyNum c.clmaxto * gAcc)) := ⟨_, rfl⟩
  obtain ⟨B, hB⟩ : ∃ B, B = map2static c * (0.5 * pyNum c.cdto / pyNum c.clto + 0.5 * pyNum c.mu_r) := ⟨_, rfl⟩
  have A0 : 0 < A := by rw [hA]; positivity
  have form : ∀ run, 0 < run → map2static c * (1.21 * w / (d * pyNum c.clmaxto * gAcc * run) +
      0.5 * pyNum c.cdto / pyNum c.clto + 0.5 * pyNum c.mu_r) = A * (1 / run) + B := by
    intro run hr
    rw [hA, hB]; field_simp; ring
  rw [form _ hlo] at e1; rw [form _ hmid] at e; rw [form _ (hlo.trans hlt)] at e2
  have hh : 0 < hi := hlo.trans hlt
  have i2 : 1 / hi < 1 / (lo + p * (hi - lo)) := one_div_lt_one_div_of_lt hmid (by nlinarith)
  have i1 : 1 / (lo + p * (hi - lo)) < 1 / lo := one_div_lt_one_div_of_lt hlo (by nlinarith)
  have i3 : 1 / (lo + p * (hi - lo)) < 1 / lo + p * (1 / hi - 1 / lo) := by
    have : 1 / lo + p * (1 / hi - 1 / lo) - 1 / (lo + p * (hi - lo)) =
        p * (1 - p) * (hi - lo) ^ 2 / (lo * hi * (lo + p * (hi - lo))) := by field_simp; ring
    have h0 : 0 < p * (1 - p) * (hi - lo) ^ 2 / (lo * hi * (lo + p * (hi - lo))) := by
      have : 0 < 1 - p := by linarith
      have : 0 < hi - lo := by linarith
      positivity
    linarith
  refine ⟨by rw [e, e2]; gcongr, by rw [e, e1]; gcongr, ?_, by rw [k1, k], by rw [k, k2]⟩
  have := mul_lt_mul_of_pos_left i3 A0
  rw [e, e1, e2]; linarith

/-- Ground runs of 300 to 500 m and in the middle of the range. -/
example (X : Ext) : ∃ R₁ R R₂ l a,
    twrequired_to X { exC with groundrun_m := some 300 } (.scalar 600) false = .ok (.scalar R₁, .scalar l, .scalar a) ∧
    twrequired_to X { exC with groundrun_m := some (300 + 1 / 2 * (500 - 300)) } (.scalar 600) false = .ok (.scalar R, .scalar l, .scalar a) ∧
    R < R₁ + 1 / 2 * (R₂ - R₁) ∧ R₂ < R ∧ R < R₁ := by
  obtain ⟨R₁, l₁, a₁, h1⟩ := ex_takeoff X 300 600 false
  obtain ⟨R, l, a, h⟩ := ex_takeoff X (300 + 1 / 2 * (500 - 300)) 600 false
  obtain ⟨R₂, l₂, a₂, h2⟩ := ex_takeoff X 500 600 false
  obtain ⟨g1, g2, g3, rfl, rfl⟩ := C124_groundrun X exC exC_signs 1 (exAtm_dens _ (by norm_num [exC, pyNum]) (by norm_num [exC, pyNum]))
    one_pos 300 500 (1 / 2) 600 R₁ R R₂ _ _ _ _ _ _ (by norm_num) (by norm_num) (by norm_num) (by norm_num) (by norm_num) h1 h h2
  have ea : a = a₁ := by
    obtain ⟨_, _, _, -, -, -, e1, e2⟩ := to_scalar h1
    obtain ⟨_, _, _, -, -, -, e3, e4⟩ := to_scalar h
    rw [e2, e4, ← e1, ← e3]
  subst ea
  exact ⟨R₁, R, R₂, l₁, a, h1, h, g3, g1, g2⟩

/-! ### Cruise speed: not between -/

/-- A lower bound on the lift curve slope at all Mach numbers below 0.6. -/
theorem slope_ge {X : Ext} {c : Concept} (w : Wing c) {m ls : ℝ} (h0 : 0 ≤ m) (h1 : m < 0.6)
    (h : liftslope_prad X c (some m) = .ok ls) : aSub0 c 0 / 7 ≤ ls := by
  have hm : m < 1 := by norm_num at h1; linarith
  obtain ⟨s, hs, he⟩ := C41_line c 0.5 (by norm_num) (by norm_num)
  have hs2 : s = 2 * c.sweep_25_rad - c.sweep_le_rad := by norm_num at he; linarith
  have hsa : |s| < Real.pi / 2 := by rw [hs2]; exact w.hc
  have ha : a_subsonic c m = .ok ((aSub0 c m + (aSub3 c m + (aSub4 c m + (aSub5 c m + (aSub6 c m s + (aSub7 c m s + aSub8 c m)))))) / 7) := by
    simp only [a_subsonic, hs, bind_ok, List.sum_cons, List.sum_nil, List.length_cons, List.length_nil]
    norm_num
    rfl
  obtain ⟨sub, tr, h2, -, h3⟩ := C71_estimates X c (some m)
  rw [h3] at h
  have h2' : a_subsonic c m = .ok sub := h2
  rw [ha] at h2'
  have h2' := Except.ok.inj h2'
  have : liftslopeblend m sub (a_supersonic c m) tr = ls := by cases h; rfl
  unfold liftslopeblend at this
  rw [if_pos h1] at this
  rw [← this, ← h2']
  have e0 := (C72_sub0 w h0 hm).1
  have e3 := (C72_sub3 w h0 hm).1
  have e4 := (C72_sub4 w h0 hm).1
  have e5 := (C72_sub5 w h0 hm).1
  have e6 := (C72_sub6 (s := s) w h0 hm).1
  have e7 := (C72_sub7 w h0 hm hsa).1
  have e8 := (C72_sub8 w h0 hm).1
  have mono : aSub0 c 0 ≤ aSub0 c m := by
    have := w.ar
    have hp := Real.pi_pos
    unfold aSub0
    dsimp only
    apply div_le_div_of_nonneg_left (by positivity) (by positivity)
    have hb : √(1 - m ^ 2) ^ 2 ≤ √(1 - 0 ^ 2) ^ 2 := by
      rw [Real.sq_sqrt (by nlinarith), Real.sq_sqrt (by norm_num)]; nlinarith
    have := Real.sqrt_le_sqrt (add_le_add_right (mul_le_mul_of_nonneg_left hb
      (sq_nonneg (Real.pi * pyNum c.aspectratio / pyNum c.a_0i / Real.cos c.sweep_25_rad))) 1)
    linarith
  have : aSub0 c 0 ≤ aSub0 c m + (aSub3 c m + (aSub4 c m + (aSub5 c m + (aSub6 c m s + (aSub7 c m s + aSub8 c m))))) := by linarith
  linarith

/-- Bounds on the induced drag factor of the cruise requirement that hold at every speed below Mach 0.6 and every wing
loading. -/
theorem cruise_k_bounds (c : Concept) (wg : Wing c) : ∃ kl kh : ℝ, 0 < kl ∧ 0 < kh ∧ ∀ (X : Ext) (v alt t q m : ℝ) (K : ℝ → ℝ → ℝ) (w : ℝ),
    CruiseIn X { c with cruisespeed_ktas := some v } v alt t q m K → 0 ≤ m → m < 0.6 →
    kl ≤ K w (w * pyNum c.cruise_weight_fraction / q) ∧ K w (w * pyNum c.cruise_weight_fraction / q) ≤ kh := by
  obtain ⟨k, k0, -, hk0, -⟩ := C122_analysis c 0 wg.ar
  have a0 := (C72_sub0 wg (le_refl (0:ℝ)) one_pos).1
  have hpi := Real.pi_pos
  have har := wg.ar
  obtain ⟨k, k0', hk, hk0', g1, g2⟩ := C122_analysis c 0 wg.ar
  rw [hk0] at hk0'; cases hk0'
  have kp := oswald24_pos har hk
  have k0p : 0 < k0 := by norm_num at g2; linarith
  have hpa : 0 < 1 / (Real.pi * pyNum c.aspectratio) := by positivity
  refine ⟨min k0 (1 / (Real.pi * pyNum c.aspectratio)), max (1.0016 * k0) (max (1 / (aSub0 c 0 / 7)) (1 / (Real.pi * pyNum c.aspectratio))),
    lt_min k0p hpa, lt_max_of_lt_right (lt_max_of_lt_right hpa), ?_⟩
  intro X v alt t q m K w h m0 m1
  obtain ⟨c', hc'⟩ : ∃ c', c' = { c with cruisespeed_ktas := some v } := ⟨_, rfl⟩
  rw [← hc'] at h
  have wg' : Wing c' := by rw [hc']; exact ⟨wg.ar, wg.a0, wg.le, wg.qc, wg.hc⟩
  have ear : pyNum c'.aspectratio = pyNum c.aspectratio := by rw [hc']
  have eas : aSub0 c' 0 = aSub0 c 0 := by rw [hc']; rfl
  have ef : pyNum c'.cruise_weight_fraction = pyNum c.cruise_weight_fraction := by rw [hc']
  have hK := h.drag.lesm [w] (fun w => w * pyNum c.cruise_weight_fraction / q)
  have m1' : m < 1 := by norm_num at m1; linarith
  refine C100_between (c := c') (m := m) (w := w) (cl := w * pyNum c.cruise_weight_fraction / q) (cos_pos_of_abs wg'.le) m0 hK ?_ ?_ ?_ ?_
  · intro cc hcc
    unfold CruiseCl at hcc
    rw [h.speed, h.altitude] at hcc
    obtain ⟨q', hq', e⟩ := hcc
    rw [h.press] at hq'; cases hq'
    rw [e, ef]; norm_num
  · intro ko hko
    obtain ⟨k, k0', hk, hk0', g1, g2⟩ := C122_analysis c' m wg'.ar
    have e0 : induceddragfact c' none none = induceddragfact c none none := by rw [hc']; rfl
    rw [e0, hk0] at hk0'; cases hk0'
    rw [hk] at hko; cases hko
    exact ⟨(min_le_left _ _).trans g1, g2.trans (le_max_left _ _)⟩
  · intro ls hls
    have g := slope_ge wg' m0 m1 hls
    have f := (Finite.of_wing X wg' m0 m1).slope ls hls
    rw [eas] at g
    rw [ear] at f
    refine ⟨(min_le_right _ _).trans (one_div_le_one_div_of_le f.1 f.2), ?_⟩
    exact (one_div_le_one_div_of_le (by positivity) g).trans ((le_max_left _ _).trans (le_max_right _ _))
  · intro ls lss k1 _ _ hf
    rw [hf.1 m1', ear]
    exact ⟨min_le_right _ _, (le_max_right _ _).trans (le_max_right _ _)⟩

/-- The algebra: with speeds in the ratio ε : (1 + ε)/2 : 1, at the wing loading `W` the requirement at the mean speed is below those
at both ends. -/
theorem dip {cd q3 kl kh e W k1 k2 k3 : ℝ} (hcd : 0 < cd) (hq : 0 < q3) (h1 : 0 < kl) (h2 : 0 < kh) (he : 0 < e) (he1 : e ≤ 0.1)
    (he2 : 7 * kh * e ^ 2 ≤ kl) (hW : 0 < W) (hW2 : W ^ 2 = cd * q3 ^ 2 / (8 * kh)) (b1 : kl ≤ k1) (b2 : k2 ≤ kh) (b3 : 0 ≤ k3) :
    (q3 * ((1 + e) / 2) ^ 2) * cd / W + k2 / (q3 * ((1 + e) / 2) ^ 2) * W < (q3 * e ^ 2) * cd / W + k1 / (q3 * e ^ 2) * W ∧
    (q3 * ((1 + e) / 2) ^ 2) * cd / W + k2 / (q3 * ((1 + e) / 2) ^ 2) * W < q3 * cd / W + k3 / q3 * W := by
  norm_num at he1
  have u0 : 1 / 4 ≤ ((1 + e) / 2) ^ 2 := by nlinarith
  have u1 : ((1 + e) / 2) ^ 2 ≤ 0.31 := by norm_num; nlinarith
  obtain ⟨u, hu⟩ : ∃ u, u = ((1 + e) / 2) ^ 2 := ⟨_, rfl⟩
  rw [← hu] at u0 u1 ⊢
  have up : 0 < u := by linarith
  have hkW : W ^ 2 * (8 * kh) = cd * q3 ^ 2 := by rw [hW2]; field_simp
  -- the induced part at the mean speed
  have i2 : k2 / (q3 * u) * W ≤ q3 * cd / W * (1 / 2) := by
    have : k2 / (q3 * u) * W ≤ kh / (q3 * (1 / 4)) * W := by gcongr
    refine this.trans (le_of_eq ?_)
    field_simp
    nlinarith
  have i1 : q3 * cd / W * (7 / 8) ≤ k1 / (q3 * e ^ 2) * W := by
    have a1 : 7 * kh / q3 * W ≤ k1 / (q3 * e ^ 2) * W := by
      apply mul_le_mul_of_nonneg_right _ hW.le
      rw [div_le_div_iff₀ hq (by positivity)]
      nlinarith
    refine le_trans (le_of_eq ?_) a1
    field_simp
    nlinarith
  have i3 : 0 ≤ k3 / q3 * W := by positivity
  obtain ⟨D, hD⟩ : ∃ D, D = q3 * cd / W := ⟨_, rfl⟩
  have D0 : 0 < D := by rw [hD]; positivity
  have d2 : q3 * u * cd / W = D * u := by rw [hD]; ring
  have d1 : q3 * e ^ 2 * cd / W = D * e ^ 2 := by rw [hD]; ring
  rw [d1, d2]
  rw [← hD] at i1 i2 ⊢
  have d3 := mul_le_mul_of_nonneg_left u1 D0.le
  have d4 : 0 ≤ D * e ^ 2 := by positivity
  norm_num at d3
  constructor <;> linarith

/-- For every concept with drag, and every cruise speed below Mach 0.6, there are a lower speed and a wing loading such that the
requirement at the mean of the two speeds – the nominal value of a range between them – is lower than at both ends. The
difference of the requirements at the ends, which is the effect the study reports, is then less than what lies between
the nominal value and the higher end. -/
theorem C124_cruise_speed_violated (X : Ext) (c : Concept) (hr : Ready c) (wg : Wing c) (alt cs : ℝ) (halt : c.cruisealt_m = some alt)
    (hcs : Atmos.vsound_mps c.designatm (.scalar alt) = .ok (.scalar cs)) (hcd : 0 < pyNum c.cdminclean)
    (hf : 0 < pyNum c.cruise_weight_fraction) (hthr : 0 < pyNum c.cruisethrustfact) (v : ℝ) (hv : 0 < v) (hm : kts2mps v < 0.6 * cs) :
    ∃ u w R₁ R R₂, 0 < u ∧ u < v ∧ 0 < w ∧
      twrequired_crs X { c with cruisespeed_ktas := some u } (.scalar w) false = .ok (.scalar R₁) ∧
      twrequired_crs X { c with cruisespeed_ktas := some ((u + v) / 2) } (.scalar w) false = .ok (.scalar R) ∧
      twrequired_crs X { c with cruisespeed_ktas := some v } (.scalar w) false = .ok (.scalar R₂) ∧
      R < R₁ ∧ R < R₂ ∧ |R₂ - R₁| < max R₁ R₂ - R := by
  obtain ⟨kl, kh, l0, h0, hb⟩ := cruise_k_bounds c wg
  obtain ⟨d, d0, hd⟩ := (hr.cruise alt halt).dens
  have kp : ∀ x, 0 < x → 0 < kts2mps x := fun x hx => by unfold kts2mps; positivity
  have cs0 : 0 < cs := by have := kp v hv; norm_num at hm; linarith
  -- the data at any speed up to v
  have key : ∀ x, 0 < x → x ≤ v → ∃ R : ℝ → ℝ, ∃ k : ℝ → ℝ, (∀ w, twrequired_crs X { c with cruisespeed_ktas := some x } (.scalar w) false = .ok (.scalar (R w))) ∧
      (∀ w, R w = cruiseScale c false 1 * (0.5 * d * kts2mps x ^ 2 * pyNum c.cdminclean / (w * pyNum c.cruise_weight_fraction) +
        k w / (0.5 * d * kts2mps x ^ 2) * (w * pyNum c.cruise_weight_fraction))) ∧ ∀ w, kl ≤ k w ∧ k w ≤ kh := by
    intro x hx hxv
    obtain ⟨t, q, m, K, h⟩ := crs_given (X := X) (c := { c with cruisespeed_ktas := some x })
      ⟨hr.sea, hr.runway, hr.climb, hr.turn, hr.cruise, hr.ceiling, hr.prop⟩ (s := x) (alt := alt) rfl halt
    have hq := h.press
    have hq' : Atmos.dynamicpressure_pa c.designatm (kts2mps x) alt = .ok (0.5 * d * kts2mps x ^ 2) := by
      unfold Atmos.dynamicpressure_pa; rw [hd]; rfl
    have e : 0.5 * d * kts2mps x ^ 2 = q := Except.ok.inj (hq'.symm.trans hq)
    have hm' := h.mach
    have em : kts2mps x / cs = m := Except.ok.inj ((Atmos.mach1_of hcs).symm.trans hm')
    have m0 : 0 ≤ m := by rw [← em]; have := kp x hx; positivity
    have m1 : m < 0.6 := by
      rw [← em, div_lt_iff₀ cs0]
      have : kts2mps x ≤ kts2mps v := by unfold kts2mps; gcongr
      linarith
    refine ⟨cruiseReq { c with cruisespeed_ktas := some x } false t q K, fun w => K w (w * pyNum c.cruise_weight_fraction / q), fun w => h.eval false _, fun w => ?_,
      fun w => hb X x alt t q m K w h m0 m1⟩
    rw [cruiseReq_eq, e]
    rfl
  obtain ⟨e, e0, e1, e2⟩ : ∃ e : ℝ, 0 < e ∧ e ≤ 0.1 ∧ 7 * kh * e ^ 2 ≤ kl := by
    refine ⟨min 0.1 (√(kl / (7 * kh))), by positivity, min_le_left _ _, ?_⟩
    have hs : min 0.1 (√(kl / (7 * kh))) ^ 2 ≤ kl / (7 * kh) := by
      have := pow_le_pow_left₀ (by positivity) (min_le_right 0.1 (√(kl / (7 * kh)))) 2
      rwa [Real.sq_sqrt (by positivity)] at this
    calc 7 * kh * min 0.1 (√(kl / (7 * kh))) ^ 2 ≤ 7 * kh * (kl / (7 * kh)) := by gcongr
      _ = kl := by field_simp
  have e1' : e < 1 := by norm_num at e1; linarith
  obtain ⟨q3, hq3⟩ : ∃ q3, q3 = 0.5 * d * kts2mps v ^ 2 := ⟨_, rfl⟩
  have q0 : 0 < q3 := by rw [hq3]; have := kp v hv; positivity
  obtain ⟨W, hW⟩ : ∃ W, W = √(pyNum c.cdminclean * q3 ^ 2 / (8 * kh)) := ⟨_, rfl⟩
  have W0 : 0 < W := by rw [hW]; positivity
  have W2 : W ^ 2 = pyNum c.cdminclean * q3 ^ 2 / (8 * kh) := by rw [hW, Real.sq_sqrt (by positivity)]
  have eu : 0 < e * v := by positivity
  have ev : e * v < v := by nlinarith
  obtain ⟨R₁, k₁, r1, f1, b1⟩ := key (e * v) eu ev.le
  obtain ⟨R, k, r, f, b⟩ := key ((e * v + v) / 2) (by linarith) (by linarith)
  obtain ⟨R₂, k₂, r2, f2, b2⟩ := key v hv le_rfl
  obtain ⟨w, hw⟩ : ∃ w, w = W / pyNum c.cruise_weight_fraction := ⟨_, rfl⟩
  have w0 : 0 < w := by rw [hw]; positivity
  have wf : w * pyNum c.cruise_weight_fraction = W := by rw [hw]; field_simp
  have f1 := f1 w; have f := f w; have f2 := f2 w
  have x1 : 0.5 * d * kts2mps (e * v) ^ 2 = q3 * e ^ 2 := by rw [hq3]; unfold kts2mps; ring
  have x2 : 0.5 * d * kts2mps ((e * v + v) / 2) ^ 2 = q3 * ((1 + e) / 2) ^ 2 := by rw [hq3]; unfold kts2mps; ring
  rw [wf, x1] at f1; rw [wf, x2] at f; rw [wf, ← hq3] at f2
  obtain ⟨s1, s2⟩ := dip hcd q0 l0 h0 e0 e1 e2 W0 W2 (b1 w).1 (b w).2 (l0.le.trans (b2 w).1)
  have sc : 0 < cruiseScale c false 1 := by unfold cruiseScale; simp; positivity
  have g1 : R w < R₁ w := by rw [f, f1]; exact mul_lt_mul_of_pos_left s1 sc
  have g2 : R w < R₂ w := by rw [f, f2]; exact mul_lt_mul_of_pos_left s2 sc
  refine ⟨e * v, w, R₁ w, R w, R₂ w, eu, ev, w0, r1 w, r w, r2 w, g1, g2, ?_⟩
  rw [abs_lt]
  rcases le_total (R₁ w) (R₂ w) with hl | hl
  · rw [max_eq_right hl]; constructor <;> linarith
  · rw [max_eq_left hl]; constructor <;> linarith

/-- The example aircraft with 150 knots as the upper end. -/
example (X : Ext) : ∃ u w R₁ R R₂, 0 < u ∧ u < 150 ∧ 0 < w ∧
    twrequired_crs X { exC with cruisespeed_ktas := some u } (.scalar w) false = .ok (.scalar R₁) ∧
    twrequired_crs X { exC with cruisespeed_ktas := some ((u + 150) / 2) } (.scalar w) false = .ok (.scalar R) ∧
    twrequired_crs X { exC with cruisespeed_ktas := some 150 } (.scalar w) false = .ok (.scalar R₂) ∧
    R < R₁ ∧ R < R₂ ∧ |R₂ - R₁| < max R₁ R₂ - R :=
  C124_cruise_speed_violated X exC exC_ready exC_isWing 3000 _ rfl (exAtm_vsound 3000 (by norm_num) (by norm_num))
    (by norm_num [exC, pyNum]) (by norm_num [exC, pyNum]) (by norm_num [exC, pyNum]) 150 (by norm_num)
    (by obtain ⟨s0, s1⟩ := exC_vsound; norm_num [kts2mps]; linarith)

end

end Verif.Props
