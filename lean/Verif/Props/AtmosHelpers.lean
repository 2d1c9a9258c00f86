import Verif.Model.AtmosHelpers
import Verif.Spec.Basic
import Verif.Lemmas.Tac
import Mathlib.Topology.Order.OrderClosed

/-
Properties C06 - C09: gas helpers, altitudes, headings, wind components.
-/

namespace Verif.Props
open Verif.Atmos Verif.Spec

noncomputable section

/-! ### C06 -/

theorem C06_inverse (p rho T : ℝ) (hT : 0 < T) :
    idealgasdens_kgm3 (idealgaspress_pa rho T) T = rho ∧
    idealgaspress_pa (idealgasdens_kgm3 p T) T = p := by
  simp only [idealgasdens_kgm3, idealgaspress_pa, R_JPKGPK]
  constructor <;> field_simp

example : idealgasdens_kgm3 (idealgaspress_pa 1.1 280) 280 = 1.1 := (C06_inverse 0 1.1 280 (by norm_num)).1

theorem C06_positive (p rho T : ℝ) (hT : 0 < T) :
    (0 < rho → 0 < idealgaspress_pa rho T) ∧ (0 < p → 0 < idealgasdens_kgm3 p T) := by
  simp only [idealgasdens_kgm3, idealgaspress_pa, R_JPKGPK]
  constructor <;> intro h <;> positivity

example : 0 < idealgaspress_pa 1.1 280 := (C06_positive 0 1.1 280 (by norm_num)).1 (by norm_num)

theorem C06_strictMono (T : ℝ) (hT : 0 < T) :
    StrictMono (fun rho => idealgaspress_pa rho T) ∧ StrictMono (fun p => idealgasdens_kgm3 p T) := by
  simp only [idealgasdens_kgm3, idealgaspress_pa, R_JPKGPK]
  constructor
  · intro x y h
    have : 287.05287 * x < 287.05287 * y := by linarith
    exact mul_lt_mul_of_pos_right this hT
  · intro x y h
    apply div_lt_div_of_pos_right _ hT
    apply div_lt_div_of_pos_right h (by norm_num)

example : idealgaspress_pa 1 280 < idealgaspress_pa 1.1 280 := (C06_strictMono 280 (by norm_num)).1 (by norm_num)

/-- Standard sea-level conditions, to anchor the gas constant: 1.225 kg/m3 at 288.15 K is standard
pressure to within 1 Pa. -/
theorem C06_sea_level : |idealgaspress_pa 1.225 288.15 - 101325| ≤ 1 := by
  simp only [idealgaspress_pa, R_JPKGPK]
  rw [abs_le]; constructor <;> norm_num

example : (0:ℝ) < 288.15 ∧ idealgasdens_kgm3 (287.05287 * 300) 300 = 1 := by
  constructor <;> norm_num [idealgasdens_kgm3, R_JPKGPK]

/-! ### C07 -/

theorem C07_inverse (z h : ℝ) (hz : -6356766 < z) (hh : h < 6356766) :
    geop2geom45m (geom2geop45m z) = z ∧ geom2geop45m (geop2geom45m h) = h := by
  simp only [geop2geom45m, geom2geop45m, R_EARTH_M]
  have h1 : (6356766 + z) ≠ 0 := by linarith
  have h2 : (6356766 - h) ≠ 0 := by linarith
  constructor
  · have e : 6356766 - 6356766 * z / (6356766 + z) = 6356766 ^ 2 / (6356766 + z) := by
      field_simp; ring
    rw [e]; field_simp
  · have e : 6356766 + 6356766 * h / (6356766 - h) = 6356766 ^ 2 / (6356766 - h) := by
      field_simp; ring
    rw [e]; field_simp

example : geop2geom45m (geom2geop45m 11000) = 11000 ∧ geom2geop45m (geop2geom45m (-300)) = -300 :=
  C07_inverse 11000 (-300) (by norm_num) (by norm_num)

theorem C07_range (z h : ℝ) (hz : -6356766 < z) (hh : h < 6356766) :
    geom2geop45m z < 6356766 ∧ -6356766 < geop2geom45m h := by
  simp only [geop2geom45m, geom2geop45m, R_EARTH_M]
  constructor
  · rw [div_lt_iff₀ (by linarith)]; nlinarith
  · rw [lt_div_iff₀ (by linarith)]; nlinarith

example : geom2geop45m 11000 < 6356766 := (C07_range 11000 0 (by norm_num) (by norm_num)).1

theorem C07_below (z : ℝ) (hz : -6356766 < z) :
    geom2geop45m z ≤ z ∧ (geom2geop45m z = z ↔ z = 0) := by
  have hpos : (0:ℝ) < 6356766 + z := by linarith
  have e : z - geom2geop45m z = z ^ 2 / (6356766 + z) := by
    simp only [geom2geop45m, R_EARTH_M]
    field_simp; ring
  constructor
  · have : 0 ≤ z ^ 2 / (6356766 + z) := by positivity
    linarith
  · constructor
    · intro h
      rw [h, sub_self] at e
      have : z ^ 2 = 0 := by
        have := div_eq_zero_iff.mp e.symm
        rcases this with h | h
        · exact h
        · linarith
      exact pow_eq_zero_iff (by norm_num) |>.mp this
    · rintro rfl
      norm_num [geom2geop45m]

example : geom2geop45m 11000 < 11000 :=
  lt_of_le_of_ne (C07_below 11000 (by norm_num)).1 (fun h => by have := (C07_below 11000 (by norm_num)).2.mp h; norm_num at this)

theorem C07_strictMono :
    StrictMonoOn geom2geop45m (Set.Ioi (-6356766)) ∧ StrictMonoOn geop2geom45m (Set.Iio 6356766) := by
  constructor
  · intro x hx y hy h
    simp only [Set.mem_Ioi] at hx hy
    simp only [geom2geop45m, R_EARTH_M]
    rw [div_lt_div_iff₀ (by linarith) (by linarith)]
    nlinarith
  · intro x hx y hy h
    simp only [Set.mem_Iio] at hx hy
    simp only [geop2geom45m, R_EARTH_M]
    rw [div_lt_div_iff₀ (by linarith) (by linarith)]
    nlinarith

-- geometric 6356766 m (one Earth radius) is geopotential half the radius
example : geom2geop45m 6356766 = 3178383 ∧ geop2geom45m 3178383 = 6356766 := by
  constructor <;> norm_num [geom2geop45m, geop2geom45m, R_EARTH_M]

/-! ### C08 -/

theorem C08_reciprocal (h : ℝ) (h0 : 0 ≤ h) (h1 : h ≤ 360) :
    0 < reciprocalhdg h ∧ reciprocalhdg h ≤ 360 ∧ |reciprocalhdg h - h| = 180 ∧
    (0 < h → reciprocalhdg (reciprocalhdg h) = h) ∧ (h = 0 → reciprocalhdg (reciprocalhdg h) = 360) := by
  by_cases hc : h + 180 > 360
  · have e : reciprocalhdg h = h - 180 := by simp [reciprocalhdg, hc]
    rw [e]
    refine ⟨by linarith, by linarith, ?_, ?_, ?_⟩
    · rw [show h - 180 - h = -180 by ring]; norm_num
    · intro _
      have : ¬ (h - 180 + 180 > 360) := by linarith
      simp only [reciprocalhdg, this, if_false]; ring
    · intro hz; linarith
  · have e : reciprocalhdg h = h + 180 := by simp [reciprocalhdg, hc]
    rw [e]
    refine ⟨by linarith, by linarith, ?_, ?_, ?_⟩
    · rw [show h + 180 - h = 180 by ring]; norm_num
    · intro hp
      have : h + 180 + 180 > 360 := by linarith
      simp only [reciprocalhdg, this, if_true]; ring
    · intro hz; subst hz; norm_num [reciprocalhdg]

example : reciprocalhdg 270 = 90 ∧ reciprocalhdg 180 = 360 ∧ reciprocalhdg 0 = 180 := by
  refine ⟨?_, ?_, ?_⟩ <;> norm_num [reciprocalhdg]

/-! ### C09 -/

/-- Degrees to radians, specification. -/
def radOf (d : ℝ) : ℝ := d / 360 * (2 * Real.pi)

/-- Specification of the wind components by plane vectors (north, east): `w` points to where the
wind comes from, `r` along the runway. Head wind is the inner product, cross wind from the right the
signed area of `r` and `w`. -/
def windSpec (heading dir speed : ℝ) : ℝ × ℝ :=
  let w : ℝ × ℝ := (|speed| * Real.cos (radOf dir), |speed| * Real.sin (radOf dir))
  let r : ℝ × ℝ := (Real.cos (radOf heading), Real.sin (radOf heading))
  (w.1 * r.1 + w.2 * r.2, r.1 * w.2 - r.2 * w.1)

theorem wind1_eq_spec (hd d s : ℝ) :
    (headwind1 hd d s, crosswind1 hd d s) = windSpec hd d s := by
  have e : deg2rad (d - hd) = radOf d - radOf hd := by simp only [deg2rad, radOf]; ring
  simp only [headwind1, crosswind1, windSpec, e, Real.cos_sub, Real.sin_sub, Prod.mk.injEq]
  constructor <;> ring

/-- Lists of equal length: the components reported are, position by position, those of the vector
specification. -/
theorem C09_lists (hd : ℝ) (ds ss : List ℝ) (h : ds.length = ss.length) :
    ∃ hs cs, windcomponents hd (.array ds) (.array ss) = .ok (.arrays hs cs) ∧
      hs.length = ds.length ∧ cs.length = ds.length ∧
      ∀ i (h1 : i < hs.length) (h2 : i < cs.length) (h3 : i < ds.length) (h4 : i < ss.length),
        (hs[i], cs[i]) = windSpec hd ds[i] ss[i] := by
  refine ⟨List.zipWith (fun s d => headwind1 hd d s) ss ds,
    List.zipWith (fun s d => crosswind1 hd d s) ss ds, ?_, ?_, ?_, ?_⟩
  · simp [windcomponents, recastArray, broadcast2, h]
  · simp [h]
  · simp [h]
  · intro i h1 h2 h3 h4
    rw [List.getElem_zipWith, List.getElem_zipWith]
    exact wind1_eq_spec _ _ _

example : ∃ hs cs, windcomponents 90 (.array [10, 20]) (.array [5, 7]) = .ok (.arrays hs cs) ∧ hs.length = 2 := by
  obtain ⟨hs, cs, h, h1, -⟩ := C09_lists 90 [10, 20] [5, 7] rfl
  exact ⟨hs, cs, h, h1⟩

/-- Two numbers give two numbers. -/
theorem C09_scalar (hd d s : ℝ) : ∃ h c, windcomponents hd (.scalar d) (.scalar s) = .ok (.scalars h c) ∧
    (h, c) = windSpec hd d s :=
  ⟨headwind1 hd d s, crosswind1 hd d s, by simp [windcomponents, recastArray, broadcast2],
    wind1_eq_spec hd d s⟩

/-- A wind of 10 m/s from the right of runway 09. -/
example : ∃ h c, windcomponents 90 (.scalar 180) (.scalar 10) = .ok (.scalars h c) ∧ (h, c) = windSpec 90 180 10 :=
  C09_scalar 90 180 10

/-- One speed with a list of directions applies the speed to every direction. -/
theorem C09_broadcast_speed (hd s : ℝ) (ds : List ℝ) :
    windcomponents hd (.array ds) (.scalar s) =
      .ok (.arrays (ds.map fun d => (windSpec hd d s).1) (ds.map fun d => (windSpec hd d s).2)) := by
  have e : ∀ d, headwind1 hd d s = (windSpec hd d s).1 ∧ crosswind1 hd d s = (windSpec hd d s).2 := by
    intro d; rw [← wind1_eq_spec]; exact ⟨rfl, rfl⟩
  have e1 : (fun d => headwind1 hd d s) = fun d => (windSpec hd d s).1 := funext fun d => (e d).1
  have e2 : (fun d => crosswind1 hd d s) = fun d => (windSpec hd d s).2 := funext fun d => (e d).2
  match ds with
  | [] => simp [windcomponents, recastArray, broadcast2]
  | [d] => simp [windcomponents, recastArray, broadcast2, e d]
  | d :: d' :: ds => simp [windcomponents, recastArray, broadcast2, e1, e2]

example : windcomponents 90 (.array [60, 180, 300]) (.scalar 10) =
    .ok (.arrays [(windSpec 90 60 10).1, (windSpec 90 180 10).1, (windSpec 90 300 10).1]
      [(windSpec 90 60 10).2, (windSpec 90 180 10).2, (windSpec 90 300 10).2]) :=
  C09_broadcast_speed 90 10 [60, 180, 300]

/-- A direction given as a number with a list of several speeds returns the components for the first
speed only; the others are silently dropped. -/
theorem C09_scalar_direction_drops_speeds (hd d s : ℝ) (ss : List ℝ) :
    ∃ h c, windcomponents hd (.scalar d) (.array (s :: ss)) = .ok (.scalars h c) ∧
      (h, c) = windSpec hd d s := by
  refine ⟨headwind1 hd d s, crosswind1 hd d s, ?_, wind1_eq_spec hd d s⟩
  match ss with
  | [] => simp [windcomponents, recastArray, broadcast2]
  | s' :: ss => simp [windcomponents, recastArray, broadcast2]

example : ∃ h c, windcomponents 90 (.scalar 60) (.array [5, 7, 9]) = .ok (.scalars h c) ∧ (h, c) = windSpec 90 60 5 :=
  C09_scalar_direction_drops_speeds 90 60 5 [7, 9]

/-- Lists of different lengths, both longer than one, raise ValueError. -/
theorem C09_length_mismatch (hd : ℝ) (ds ss : List ℝ) (h : ds.length ≠ ss.length)
    (hd1 : ds.length ≠ 1) (hs1 : ss.length ≠ 1) :
    windcomponents hd (.array ds) (.array ss) = .error .valueError := by
  have h' : ss.length ≠ ds.length := fun e => h e.symm
  have : ∀ f, broadcast2 f ss ds = .error .valueError := by
    intro f
    unfold broadcast2
    rw [if_neg h']
    split
    · simp at hs1
    · simp at hd1
    · rfl
  simp [windcomponents, recastArray, this]

example : windcomponents 90 (.array [10, 20, 30]) (.array [5, 7]) = .error .valueError :=
  C09_length_mismatch _ _ _ (by simp) (by simp) (by simp)

/-- Consequences of the vector specification: magnitude, full turns, sign of the speed, opposite
wind, common rotation, wind along the runway and from the right. -/
theorem C09_laws (hd d s : ℝ) (k : ℤ) (a : ℝ) :
    (windSpec hd d s).1 ^ 2 + (windSpec hd d s).2 ^ 2 = s ^ 2 ∧
    windSpec hd (d + 360 * k) s = windSpec hd d s ∧
    windSpec (hd + 360 * k) d s = windSpec hd d s ∧
    windSpec hd d (-s) = windSpec hd d s ∧
    windSpec hd (d + 180) s = (-(windSpec hd d s).1, -(windSpec hd d s).2) ∧
    windSpec (hd + a) (d + a) s = windSpec hd d s ∧
    windSpec hd hd s = (|s|, 0) ∧
    windSpec hd (hd + 90) s = (0, |s|) := by
  have key : ∀ hd d s, windSpec hd d s =
      (|s| * Real.cos (radOf (d - hd)), |s| * Real.sin (radOf (d - hd))) := by
    intro hd d s
    rw [← wind1_eq_spec]
    have e : deg2rad (d - hd) = radOf (d - hd) := by simp only [deg2rad, radOf]; ring
    simp only [headwind1, crosswind1, e]
  simp only [key]
  refine ⟨?_, ?_, ?_, ?_, ?_, ?_, ?_, ?_⟩
  · have := Real.sin_sq_add_cos_sq (radOf (d - hd))
    have h2 : |s| ^ 2 = s ^ 2 := sq_abs s
    calc _ = |s| ^ 2 * (Real.sin (radOf (d - hd)) ^ 2 + Real.cos (radOf (d - hd)) ^ 2) := by ring
      _ = s ^ 2 := by rw [this, h2]; ring
  · have e : radOf (d + 360 * k - hd) = radOf (d - hd) + k * (2 * Real.pi) := by
      simp only [radOf]; ring
    rw [e, Real.cos_add_int_mul_two_pi, Real.sin_add_int_mul_two_pi]
  · have e : radOf (d - (hd + 360 * k)) = radOf (d - hd) - k * (2 * Real.pi) := by
      simp only [radOf]; ring
    rw [e, Real.cos_sub_int_mul_two_pi, Real.sin_sub_int_mul_two_pi]
  · rw [abs_neg]
  · have e : radOf (d + 180 - hd) = radOf (d - hd) + Real.pi := by simp only [radOf]; ring
    rw [e, Real.cos_add_pi, Real.sin_add_pi]; simp
  · rw [show d + a - (hd + a) = d - hd by ring]
  · simp [radOf]
  · have e : radOf (hd + 90 - hd) = Real.pi / 2 := by simp only [radOf]; ring
    rw [e, Real.cos_pi_div_two, Real.sin_pi_div_two]; simp

example : ([10, 20] : List ℝ).length = ([5, 7] : List ℝ).length := rfl
example : ([10, 20, 30] : List ℝ).length ≠ ([5, 7] : List ℝ).length ∧
    ([10, 20, 30] : List ℝ).length ≠ 1 ∧ ([5, 7] : List ℝ).length ≠ 1 := by simp

end

end Verif.Props
