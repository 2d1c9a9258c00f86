import Verif.Props.Continuity
import Verif.Props.Constraint3
import Mathlib.Topology.MetricSpace.Pseudo.Basic

/-
Property C139: the design point read off a grid of wing loadings.
-/

namespace Verif.Props
open Verif Verif.Aircraft Verif.Units

noncomputable section

/-! ### Specification -/

/-- A grid of wing loadings between `a` and `b` in steps of at most `h`, starting at `a`. -/
def Steps (grid : List ℝ) (a b h : ℝ) : Prop :=
  (∀ g ∈ grid, a ≤ g ∧ g ≤ b) ∧ ∀ x, a ≤ x → x ≤ b → ∃ g ∈ grid, g ≤ x ∧ x - g ≤ h

/-- The combined requirement at one wing loading (`none` for NaN). -/
def CombinedAt (X : Ext) (c : Concept) (fo : Bool) (w : ℝ) (y : Option ℝ) : Prop :=
  ∃ r, twrequired X c (.scalar w) fo false = .ok r ∧ r.combined = .scalar y

/-- `np.linspace(a, b, n + 2)` -/
def linGrid (a b : ℝ) (n : ℕ) : List ℝ := (List.range (n + 2)).map (fun i : ℕ => a + i * ((b - a) / (n + 1)))

theorem linGrid_steps (a b : ℝ) (n : ℕ) (hab : a ≤ b) : Steps (linGrid a b n) a b ((b - a) / (n + 1)) := by
  have hn : (0 : ℝ) < n + 1 := by positivity
  have h0 : 0 ≤ (b - a) / (n + 1) := div_nonneg (by linarith) hn.le
  have hb : ((n : ℝ) + 1) * ((b - a) / (n + 1)) = b - a := by field_simp
  constructor
  · intro g hg
    simp only [linGrid, List.mem_map, List.mem_range] at hg
    obtain ⟨i, hi, rfl⟩ := hg
    have h1 : (i : ℝ) ≤ n + 1 := by exact_mod_cast (by omega : i ≤ n + 1)
    constructor
    · have := mul_nonneg (Nat.cast_nonneg (α := ℝ) i) h0; linarith
    · have := mul_le_mul_of_nonneg_right h1 h0; linarith
  · intro x hx hxb
    rcases h0.eq_or_lt with h | h
    · have : b = a := by rw [← h, mul_zero] at hb; linarith
      exact ⟨a, by simp only [linGrid, List.mem_map, List.mem_range]; exact ⟨0, by omega, by simp⟩, hx, by linarith⟩
    · obtain ⟨s, hs⟩ : ∃ s, s = (b - a) / ((n : ℝ) + 1) := ⟨_, rfl⟩
      rw [← hs] at h hb ⊢
      have hq : 0 ≤ (x - a) / s := div_nonneg (by linarith) h.le
      have f1 := Nat.floor_le hq
      have f2 := Nat.lt_floor_add_one ((x - a) / s)
      rw [le_div_iff₀ h] at f1
      rw [div_lt_iff₀ h] at f2
      refine ⟨a + (⌊(x - a) / s⌋₊ : ℝ) * s, ?_, by linarith, by linarith⟩
      simp only [linGrid, List.mem_map, List.mem_range]
      refine ⟨⌊(x - a) / s⌋₊, ?_, by rw [hs]⟩
      have : ((⌊(x - a) / s⌋₊ : ℕ) : ℝ) < n + 2 := by
        have : (⌊(x - a) / s⌋₊ : ℝ) * s ≤ ((n : ℝ) + 1) * s := by linarith
        have := le_of_mul_le_mul_right this h
        linarith
      exact_mod_cast this

/-! ### Continuous functions cut off at a level -/

theorem grid_min {f : ℝ → ℝ} {a b κ L : ℝ} (hab : a ≤ b) (hf : ContinuousOn f (Set.Icc a b)) (hκ : 0 ≤ κ) (ha : a * κ ≤ L) :
    ∃ w, w ∈ Set.Icc a b ∧ w * κ ≤ L ∧ (∀ u ∈ Set.Icc a b, u * κ ≤ L → f w ≤ f u) ∧
      ∀ ε, 0 < ε → ∃ h, 0 < h ∧ ∀ grid, Steps grid a b h → ∃ g ∈ grid, g * κ ≤ L ∧ f g < f w + ε := by
  have hS : IsCompact (Set.Icc a b ∩ {u | u * κ ≤ L}) :=
    isCompact_Icc.inter_right (isClosed_le (by fun_prop) continuous_const)
  obtain ⟨w, ⟨hw1, hw2⟩, hmin⟩ := hS.exists_isMinOn ⟨a, ⟨le_refl a, hab⟩, ha⟩ (hf.mono Set.inter_subset_left)
  refine ⟨w, hw1, hw2, fun u hu hL => hmin ⟨hu, hL⟩, fun ε hε => ?_⟩
  have hc : ContinuousWithinAt f (Set.Icc a b) w := hf w hw1
  obtain ⟨δ, hδ, hd⟩ := Metric.continuousWithinAt_iff.mp hc ε hε
  refine ⟨δ / 2, by linarith, fun grid hg => ?_⟩
  obtain ⟨g, hgm, hgw, hgd⟩ := hg.2 w hw1.1 hw1.2
  refine ⟨g, hgm, (mul_le_mul_of_nonneg_right hgw hκ).trans hw2, ?_⟩
  have := hd (x := g) (hg.1 g hgm) (by rw [Real.dist_eq, abs_sub_lt_iff]; constructor <;> linarith)
  rw [Real.dist_eq, abs_sub_lt_iff] at this
  linarith [this.1]

/-! ### The combined requirement -/

/-- The combined requirement of a complete brief at each wing loading: a continuous function, NaN where the turn
would stall if infeasible turns are left out. -/
theorem combined_fun (X : Ext) (c : Concept) (fo : Bool) (hr : Ready c) {cs cr ts n rs ra ss sa : ℝ}
    (hg : c.groundrun_m ≠ none) (h1 : c.climbspeed_kias = some cs) (h2 : c.climbrate_fpm = some cr)
    (h3 : c.turnspeed_ktas = some ts) (h4 : c.stloadfactor = some n)
    (h5 : c.cruisespeed_ktas = some rs) (h6 : c.cruisealt_m = some ra)
    (h7 : c.secclimbspd_kias = some ss) (h8 : c.servceil_m = some sa)
    (w1 : pyNum c.climb_weight_fraction ≠ 0) (w2 : pyNum c.turn_weight_fraction ≠ 0)
    (w3 : pyNum c.cruise_weight_fraction ≠ 0) (w4 : pyNum c.sec_weight_fraction ≠ 0) :
    ∃ f vc qc qt vs qs, Atmos.eas2tas c.designatm (kts2mps cs) (pyNum c.climbalt_m) = .ok vc ∧
      Atmos.dynamicpressure_pa c.designatm vc (pyNum c.climbalt_m) = .ok qc ∧
      Atmos.dynamicpressure_pa c.designatm (kts2mps ts) (pyNum c.turnalt_m) = .ok qt ∧
      Atmos.eas2tas c.designatm (kts2mps ss) sa = .ok vs ∧ Atmos.dynamicpressure_pa c.designatm vs sa = .ok qs ∧
      (∀ w, CombinedAt X c fo w (if fo = true ∧ w * pyNum c.turn_weight_fraction * pyNum c.climb_weight_fraction * n / qt >
        pyNum c.clmaxclean then none else some (f w))) ∧
      ContinuousOn f (NearCruise c id (fun w => w * pyNum c.climb_weight_fraction / qc) ∩
        NearCruise c (fun w => w * pyNum c.turn_weight_fraction)
          (fun w => w * pyNum c.turn_weight_fraction * pyNum c.climb_weight_fraction * n / qt) ∩
        NearCruise c id (fun w => w * pyNum c.sec_weight_fraction / qs)) := by
  obtain ⟨f1, lof, av, e1, k1, -, -⟩ := C136_takeoff X c hr hg
  obtain ⟨f2, cl, qt, hqt, e2, hcl, k2⟩ := C136_turn X c false hr h3 h4 w2
  obtain ⟨f3, vc, qc, hvc, hqc, e3, k3⟩ := C136_climb X c false hr h1 h2 w1
  obtain ⟨f4, e4, k4⟩ := C136_cruise X c false hr (by rw [h5]; simp) (by rw [h6]; simp) w3
  obtain ⟨f5, vs, qs, hvs, hqs, e5, k5⟩ := C136_ceiling X c false hr h7 h8 w4
  obtain rfl : cl = _ := funext hcl
  refine ⟨fun w => max (max (max (max (f1 w) (f2 w)) (f3 w)) (f4 w)) (f5 w), vc, qc, qt, vs, qs, hvc, hqc, hqt, hvs, hqs,
    fun w => ?_, ?_⟩
  · have a1 : twrequired_to X c (.array [w]) false = _ := e1 w
    have a2 : twrequired_trn X c (.array [w]) false = _ := e2 w
    have a3 : twrequired_clm X c (.array [w]) false = _ := e3 w
    have a4 : twrequired_crs X c (.array [w]) false = _ := e4 w
    have a5 : twrequired_sec X c (.array [w]) false = _ := e5 w
    unfold CombinedAt twrequired
    simp only [recastArray, a1, a2, a3, a4, a5, bind_ok]
    cases fo with
    | false => exact ⟨_, rfl, rfl⟩
    | true =>
      by_cases hx : w * pyNum c.turn_weight_fraction * pyNum c.climb_weight_fraction * n / qt > pyNum c.clmaxclean
      · simp only [hx, and_true, if_true]; exact ⟨_, rfl, rfl⟩
      · simp only [hx, and_false, if_false, if_true]; exact ⟨_, rfl, rfl⟩
  · refine (((k1.continuousOn.sup ?_).sup ?_).sup ?_).sup ?_
    · exact k2.mono (fun w hw => hw.1.2)
    · exact k3.mono (fun w hw => hw.1.1)
    · exact k4.mono (fun w hw => hw.1.1.1)
    · exact k5.mono (fun w hw => hw.2)

/-- Between `a` and `b` (lift coefficients within 10 of those of the cruise, the turn possible at `a`) the combined
requirement has a smallest value, no entry of any grid is below it, and the smallest entry comes as close to it as
desired when the steps of the grid are small enough. -/
theorem C139_design_point (X : Ext) (c : Concept) (fo : Bool) (hr : Ready c) {cs cr ts n rs ra ss sa a b : ℝ}
    (hg : c.groundrun_m ≠ none) (h1 : c.climbspeed_kias = some cs) (h2 : c.climbrate_fpm = some cr)
    (h3 : c.turnspeed_ktas = some ts) (h4 : c.stloadfactor = some n)
    (h5 : c.cruisespeed_ktas = some rs) (h6 : c.cruisealt_m = some ra)
    (h7 : c.secclimbspd_kias = some ss) (h8 : c.servceil_m = some sa)
    (w1 : 0 < pyNum c.climb_weight_fraction) (w2 : 0 < pyNum c.turn_weight_fraction)
    (w3 : pyNum c.cruise_weight_fraction ≠ 0) (w4 : pyNum c.sec_weight_fraction ≠ 0) (hn : 0 ≤ n) (hab : a ≤ b)
    (near : ∀ vc qc qt vs qs, Atmos.eas2tas c.designatm (kts2mps cs) (pyNum c.climbalt_m) = .ok vc →
      Atmos.dynamicpressure_pa c.designatm vc (pyNum c.climbalt_m) = .ok qc →
      Atmos.dynamicpressure_pa c.designatm (kts2mps ts) (pyNum c.turnalt_m) = .ok qt →
      Atmos.eas2tas c.designatm (kts2mps ss) sa = .ok vs → Atmos.dynamicpressure_pa c.designatm vs sa = .ok qs →
      a * pyNum c.turn_weight_fraction * pyNum c.climb_weight_fraction * n / qt ≤ pyNum c.clmaxclean ∧
      ∀ w ∈ Set.Icc a b, w ∈ NearCruise c id (fun w => w * pyNum c.climb_weight_fraction / qc) ∧
        w ∈ NearCruise c (fun w => w * pyNum c.turn_weight_fraction)
          (fun w => w * pyNum c.turn_weight_fraction * pyNum c.climb_weight_fraction * n / qt) ∧
        w ∈ NearCruise c id (fun w => w * pyNum c.sec_weight_fraction / qs)) :
    ∃ w m, a ≤ w ∧ w ≤ b ∧ CombinedAt X c fo w (some m) ∧
      (∀ u y, a ≤ u → u ≤ b → CombinedAt X c fo u (some y) → m ≤ y) ∧
      (∀ grid h, Steps grid a b h → ∃ r, twrequired X c (.array grid) fo false = .ok r ∧
        ∀ y, some y ∈ r.combined.toList → m ≤ y) ∧
      ∀ ε, 0 < ε → ∃ h, 0 < h ∧ ∀ grid, Steps grid a b h → ∃ r, twrequired X c (.array grid) fo false = .ok r ∧
        ∃ y, some y ∈ r.combined.toList ∧ y < m + ε := by
  obtain ⟨f, vc, qc, qt, vs, qs, hvc, hqc, hqt, hvs, hqs, hv, hc⟩ :=
    combined_fun X c fo hr hg h1 h2 h3 h4 h5 h6 h7 h8 w1.ne' w2.ne' w3 w4
  obtain ⟨hLa, hnear⟩ := near vc qc qt vs qs hvc hqc hqt hvs hqs
  have hq0 : 0 ≤ qt := by
    obtain ⟨d, hd, he⟩ := hr.turn.dens
    unfold Atmos.dynamicpressure_pa at hqt
    rw [he] at hqt
    cases hqt
    exact mul_nonneg (mul_nonneg (by norm_num) hd.le) (sq_nonneg _)
  obtain ⟨κ, hκ⟩ : ∃ κ, κ = pyNum c.turn_weight_fraction * pyNum c.climb_weight_fraction * n / qt := ⟨_, rfl⟩
  have hκ0 : 0 ≤ κ := by rw [hκ]; positivity
  have ek : ∀ w, w * pyNum c.turn_weight_fraction * pyNum c.climb_weight_fraction * n / qt = w * κ := fun w => by
    rw [hκ]; ring
  simp only [ek] at hv hLa
  obtain ⟨L, hL⟩ : ∃ L, L = if fo = true then pyNum c.clmaxclean else b * κ := ⟨_, rfl⟩
  have hcut : ∀ w, w ≤ b → (w * κ ≤ L ↔ ¬ (fo = true ∧ w * κ > pyNum c.clmaxclean)) := by
    intro w hw
    rw [hL]
    cases fo with
    | true => simp
    | false => simpa using mul_le_mul_of_nonneg_right hw hκ0
  obtain ⟨w, hw, hwL, hmin, hgrid⟩ := grid_min (L := L) hab (hc.mono (fun u hu => by
    obtain ⟨x1, x2, x3⟩ := hnear u hu
    exact ⟨⟨x1, x2⟩, x3⟩)) hκ0 (by rw [hL]; split_ifs; exacts [hLa, mul_le_mul_of_nonneg_right hab hκ0])
  have val : ∀ u, u ≤ b → u * κ ≤ L → CombinedAt X c fo u (some (f u)) := by
    intro u hu hx
    have := hv u
    rwa [if_neg ((hcut u hu).mp hx)] at this
  have uniq : ∀ u y, u ≤ b → CombinedAt X c fo u (some y) → u * κ ≤ L ∧ y = f u := by
    rintro u y hu ⟨r, e1, e2⟩
    obtain ⟨r', e3, e4⟩ := hv u
    rw [e1] at e3
    cases e3
    rw [e2] at e4
    by_cases hx : fo = true ∧ u * κ > pyNum c.clmaxclean
    · rw [if_pos hx] at e4; cases e4
    · rw [if_neg hx] at e4
      cases e4
      exact ⟨(hcut u hu).mpr hx, rfl⟩
  have arr : ∀ grid, grid ≠ [] → ∃ r, twrequired X c (.array grid) fo false = .ok r ∧ r.combined.toList = grid.map (fun w =>
      if fo = true ∧ w * κ > pyNum c.clmaxclean then none else some (f w)) := by
    intro grid hne
    rcases (C80_combined X c fo false).2 Req.combined (by simp) with ⟨e, he⟩ | ⟨F, hF⟩
    · exfalso
      obtain ⟨r, e1, -⟩ := hv a
      have e2 : twrequired X c (.scalar a) fo false = .error e := he (.scalar a) (by simp [recastArray])
      rw [e2] at e1
      cases e1
    · obtain ⟨r, e1, e2⟩ := hF (.array grid) hne
      refine ⟨r, e1, e2.trans ?_⟩
      refine List.map_congr_left (fun u _ => ?_)
      obtain ⟨r', e3, e4⟩ := hF (.scalar u) (by simp [recastArray])
      obtain ⟨r'', e5, e6⟩ := hv u
      simp only at e3
      rw [e3] at e5
      cases e5
      simp only [e6] at e4
      simpa [NanArg.toList, recastArray] using e4.symm
  refine ⟨w, f w, hw.1, hw.2, val w hw.2 hwL, ?_, ?_, ?_⟩
  · intro u y ha' hb' hy
    obtain ⟨x1, rfl⟩ := uniq u y hb' hy
    exact hmin u ⟨ha', hb'⟩ x1
  · intro grid h hs
    obtain ⟨g0, hg0, -⟩ := hs.2 a le_rfl hab
    obtain ⟨r, e1, e2⟩ := arr grid (List.ne_nil_of_mem hg0)
    refine ⟨r, e1, fun y hy => ?_⟩
    rw [e2, List.mem_map] at hy
    obtain ⟨u, hu, ey⟩ := hy
    obtain ⟨u1, u2⟩ := hs.1 u hu
    by_cases hx : fo = true ∧ u * κ > pyNum c.clmaxclean
    · rw [if_pos hx] at ey; cases ey
    · rw [if_neg hx] at ey
      cases ey
      exact hmin u ⟨u1, u2⟩ ((hcut u u2).mpr hx)
  · intro ε hε
    obtain ⟨h, hh, H⟩ := hgrid ε hε
    refine ⟨h, hh, fun grid hs => ?_⟩
    obtain ⟨g, hgm, hgL, hgf⟩ := H grid hs
    obtain ⟨r, e1, e2⟩ := arr grid (List.ne_nil_of_mem hgm)
    refine ⟨r, e1, f g, ?_, hgf⟩
    rw [e2, List.mem_map]
    exact ⟨g, hgm, by rw [if_neg ((hcut g (hs.1 g hgm).2).mp hgL)]⟩

/-! ### Off the bottom of the cruise bucket -/

/-- Where the induced drag factor does not change, flying off the best cruise wing loading `w₀` costs the share
`(w - w₀)² / (2 w w₀)` of the least requirement. -/
theorem C139_cruise_excess (X : Ext) (c : Concept) (b : Bool) (s alt t q m k : ℝ) (K : ℝ → ℝ → ℝ)
    (h : CruiseIn X c s alt t q m K) (hk : 0 < k) (hq : 0 < q)
    (hcd : 0 < pyNum c.cdminclean) (hf : 0 < pyNum c.cruise_weight_fraction) :
    ∃ w₀, 0 < w₀ ∧ w₀ * pyNum c.cruise_weight_fraction = q * √(pyNum c.cdminclean / k) ∧
      ∀ w, 0 < w → K w (w * pyNum c.cruise_weight_fraction / q) = k →
        twrequired_crs X c (.scalar w) b = .ok (.scalar (cruiseScale c b t * (2 * √(k * pyNum c.cdminclean)) *
          (1 + (w - w₀) ^ 2 / (2 * w * w₀)))) := by
  obtain ⟨g, hg⟩ : ∃ g, g = pyNum c.cruise_weight_fraction := ⟨_, rfl⟩
  obtain ⟨cd, hcd'⟩ : ∃ cd, cd = pyNum c.cdminclean := ⟨_, rfl⟩
  rw [← hg] at hf ⊢
  rw [← hcd'] at hcd ⊢
  obtain ⟨x, hx⟩ : ∃ x, x = √cd := ⟨_, rfl⟩
  obtain ⟨y, hy⟩ : ∃ y, y = √k := ⟨_, rfl⟩
  have x0 : 0 < x := by rw [hx]; exact Real.sqrt_pos.mpr hcd
  have y0 : 0 < y := by rw [hy]; exact Real.sqrt_pos.mpr hk
  have ex : cd = x ^ 2 := by rw [hx, Real.sq_sqrt hcd.le]
  have ey : k = y ^ 2 := by rw [hy, Real.sq_sqrt hk.le]
  have e1 : √(cd / k) = x / y := by rw [Real.sqrt_div hcd.le, ← hx, ← hy]
  have e2 : √(k * cd) = y * x := by rw [Real.sqrt_mul hk.le, ← hx, ← hy]
  refine ⟨q * (x / y) / g, by positivity, by rw [e1]; field_simp, fun w hw hK => ?_⟩
  rw [h.eval b (.scalar w)]
  simp only [recastArray, List.map_cons, List.map_nil, Atmos.revert]
  congr 2
  rw [cruiseReq_eq, ← hg, ← hcd', hK, e2, ex, ey]
  field_simp
  ring

/-- The induced drag factor of the cruise is the same at all wing loadings with cruise lift coefficients up to 0.3,
and at all those from 0.8 on. -/
theorem C139_cruise_factor (X : Ext) (c : Concept) (s alt t q m : ℝ) (K : ℝ → ℝ → ℝ) (h : CruiseIn X c s alt t q m K)
    (u w : ℝ) (hc : u * pyNum c.cruise_weight_fraction / q ≤ 0.3 ∧ w * pyNum c.cruise_weight_fraction / q ≤ 0.3 ∨
      0.8 ≤ u * pyNum c.cruise_weight_fraction / q ∧ 0.8 ≤ w * pyNum c.cruise_weight_fraction / q) :
    K u (u * pyNum c.cruise_weight_fraction / q) = K w (w * pyNum c.cruise_weight_fraction / q) := by
  obtain ⟨ko, k0, k1, clc, -, hK, hcl⟩ := h.drag
  have e : ∀ w, clc w = w * pyNum c.cruise_weight_fraction / q := by
    rcases hcl with ⟨h1 | h1, -⟩ | ⟨vc, ac, qc, h1, h2, h3, h4⟩
    · rw [h.speed] at h1; cases h1
    · rw [h.altitude] at h1; cases h1
    · rw [h.speed] at h1; rw [h.altitude] at h2
      cases h1; cases h2
      rw [h.press] at h3
      cases h3
      exact h4
  have hw : npInterp2 (u * pyNum c.cruise_weight_fraction / q) 0.3 0.8 1 0 =
      npInterp2 (w * pyNum c.cruise_weight_fraction / q) 0.3 0.8 1 0 := by
    rcases hc with ⟨h1, h2⟩ | ⟨h1, h2⟩
    · unfold npInterp2; rw [if_pos h1, if_pos h2]
    · have high : ∀ x : ℝ, 0.8 ≤ x → npInterp2 x 0.3 0.8 1 0 = 0 := fun x hx => by
        unfold npInterp2
        rw [if_neg (not_le.mpr (lt_of_lt_of_le (by norm_num) hx)), if_pos hx]
      rw [high _ h1, high _ h2]
  rw [hK, hK, e, e, sub_self, sub_self]
  unfold kBlend
  simp only [hw]

/-! ### The light aircraft -/

theorem exC_dyn_eq (v alt q : ℝ) (h0 : 0 ≤ alt) (h1 : alt ≤ 10000)
    (h : Atmos.dynamicpressure_pa exC.designatm v alt = .ok q) : q = 0.5 * 1 * v ^ 2 := by
  unfold Atmos.dynamicpressure_pa at h
  have hd : Atmos.dens1 exC.designatm alt = .ok 1 := exAtm_dens alt h0 h1
  rw [hd] at h
  cases h; rfl

theorem exC_tas_eq (e v alt : ℝ) (h0 : 0 ≤ alt) (h1 : alt ≤ 10000)
    (h : Atmos.eas2tas exC.designatm e alt = .ok v) : v = e := by
  unfold Atmos.eas2tas at h
  have hd : Atmos.dens1 exC.designatm alt = .ok 1 := exAtm_dens alt h0 h1
  have hd0 : Atmos.dens1 exC.designatm 0 = .ok 1 := exAtm_dens 0 (by norm_num) (by norm_num)
  rw [dratio_ok hd hd0 one_pos one_pos] at h
  simp only [bind_ok, div_one, Real.sqrt_one] at h
  cases h; rfl

/-- Between 500 and 1500 Pa, where the turn becomes impossible at about 1430 Pa. -/
example (X : Ext) : ∃ w m, 500 ≤ w ∧ w ≤ 1500 ∧ CombinedAt X exC true w (some m) ∧
    (∀ u y, 500 ≤ u → u ≤ 1500 → CombinedAt X exC true u (some y) → m ≤ y) ∧
    (∀ grid h, Steps grid 500 1500 h → ∃ r, twrequired X exC (.array grid) true false = .ok r ∧
      ∀ y, some y ∈ r.combined.toList → m ≤ y) ∧
    ∀ ε, 0 < ε → ∃ h, 0 < h ∧ ∀ grid, Steps grid 500 1500 h → ∃ r, twrequired X exC (.array grid) true false = .ok r ∧
      ∃ y, some y ∈ r.combined.toList ∧ y < m + ε := by
  have f1 : pyNum exC.climb_weight_fraction = 1 := rfl
  have f2 : pyNum exC.turn_weight_fraction = 1 := rfl
  have f3 : pyNum exC.cruise_weight_fraction = 1 := rfl
  have f4 : pyNum exC.sec_weight_fraction = 1 := rfl
  refine C139_design_point X exC true exC_ready (cs := 100) (cr := 1000) (ts := 120) (n := 2) (rs := 150) (ra := 3000)
    (ss := 90) (sa := 6000) (by simp [exC]) rfl rfl rfl rfl rfl rfl rfl rfl (by rw [f1]; norm_num) (by rw [f2]; norm_num)
    (by rw [f3]; norm_num) (by rw [f4]; norm_num) (by norm_num) (by norm_num) ?_
  intro vc qc qt vs qs h1 h2 h3 h4 h5
  obtain rfl := exC_tas_eq _ vc _ (le_refl (0 : ℝ)) (by norm_num [exC, pyNum]) h1
  obtain rfl := exC_tas_eq _ vs _ (by norm_num) (by norm_num) h4
  have e2 : qc = 0.5 * 1 * kts2mps 100 ^ 2 := exC_dyn_eq _ 0 qc (by norm_num) (by norm_num) h2
  have e3 : qt = 0.5 * 1 * kts2mps 120 ^ 2 := exC_dyn_eq _ 1000 qt (by norm_num) (by norm_num) h3
  have e5 : qs = 0.5 * 1 * kts2mps 90 ^ 2 := exC_dyn_eq _ 6000 qs (by norm_num) (by norm_num) h5
  rw [f1, f2, f4, e2, e3, e5, show pyNum exC.clmaxclean = 1.5 from rfl]
  unfold kts2mps
  refine ⟨by norm_num, fun w hw => ?_⟩
  obtain ⟨w0, w1⟩ := hw
  refine ⟨⟨by linarith, fun cc hcc => ?_⟩, ⟨by linarith, fun cc hcc => ?_⟩, ⟨by linarith, fun cc hcc => ?_⟩⟩ <;>
  · rw [exC_cruiseCl _ _ hcc, abs_le]
    unfold kts2mps
    simp only [id]
    constructor <;> norm_num <;> linarith

/-- A hundred and one points between 500 and 1500 Pa. -/
example : Steps (linGrid 500 1500 99) 500 1500 10 := by
  have := linGrid_steps 500 1500 99 (by norm_num)
  norm_num at this
  exact this

/-- The supersonic example: at twice the best wing loading the cruise needs a quarter more thrust. -/
example (X : Ext) : ∃ t k w₀, 0 < w₀ ∧ twrequired_crs X exS (.scalar w₀) false =
      .ok (.scalar (cruiseScale exS false t * (2 * √(k * pyNum exS.cdminclean)))) ∧
    twrequired_crs X exS (.scalar (2 * w₀)) false =
      .ok (.scalar (cruiseScale exS false t * (2 * √(k * pyNum exS.cdminclean)) * 1.25)) := by
  obtain ⟨t, q, m, K, h⟩ := crs_given (X := X) exS_ready (s := 1500) (alt := 3000) rfl rfl
  obtain ⟨m', hm, hm2⟩ := exS_mach
  have e := h.mach.symm.trans hm
  cases e
  have hstar : machstar_le exS = 1 := by
    simp [machstar_le, Concept.sweep_le_rad, exS, exC, pyNum, Atmos.deg2rad]
  obtain ⟨ls, hls, hK⟩ := C42_constant X exS m K h.drag (by linarith) (by rw [hstar]; linarith) (by rw [hstar]; norm_num)
  have hl : 0 < ls := slope_pos_unswept (by simp [Concept.sweep_le_rad, exS, exC, pyNum, Atmos.deg2rad]) rfl hm2 hls
  have hq : 0 < q := by
    have e := exC_dyn_eq _ 3000 q (by norm_num) (by norm_num) h.press
    rw [e]; norm_num [kts2mps]
  obtain ⟨w₀, h0, -, H⟩ := C139_cruise_excess X exS false 1500 3000 t q m (1 / ls) K h (by positivity) hq
    (by norm_num [exS, exC, pyNum]) (by norm_num [exS, exC, pyNum])
  refine ⟨t, 1 / ls, w₀, h0, ?_, ?_⟩
  · rw [H w₀ h0 (hK _ _)]
    simp
  · rw [H (2 * w₀) (by linarith) (hK _ _)]
    congr 3
    field_simp
    norm_num

/-- Slow loadings of the light aircraft: the same induced drag factor at 400 and 800 Pa. -/
example (X : Ext) (t q m : ℝ) (K : ℝ → ℝ → ℝ) (h : CruiseIn X exC 150 3000 t q m K) :
    K 400 (400 * pyNum exC.cruise_weight_fraction / q) = K 800 (800 * pyNum exC.cruise_weight_fraction / q) := by
  refine C139_cruise_factor X exC 150 3000 t q m K h 400 800 (Or.inl ?_)
  rw [exC_dyn_eq _ 3000 q (by norm_num) (by norm_num) h.press, show pyNum exC.cruise_weight_fraction = 1 from rfl]
  unfold kts2mps
  constructor <;> norm_num

end

end Verif.Props
