import Verif.Model.WindFloat
import Verif.Props.AirspeedFloat

/-
Property C155: wind components, geopotential heights, the gas law and airspeed round trips in floating point.
-/

namespace Verif.Props
open Verif Verif.Fl

variable (F : Rounding)

/-- The relative heading in radians, absolute error. -/
theorem relheading_err {hdg dir : ℝ} (h : |dir - hdg| ≤ 360) :
    |Fl.relheading F hdg dir - Atmos.deg2rad (dir - hdg)| ≤ 31.5 * F.u := by
  have a : Acc F 4 (Fl.relheading F hdg dir) (Atmos.deg2rad (dir - hdg)) :=
    (acc_radians (F := F) _).trans ((Acc.rd F (dir - hdg)).mul (Acc.refl (F := F) (Real.pi / 180)))
  have e := a.err 5 (by norm_num) (by norm_num)
  have hu := F.u_nonneg
  have hb : |Atmos.deg2rad (dir - hdg)| ≤ 6.3 := by
    unfold Atmos.deg2rad
    have hp := Real.pi_pos
    have hp2 := Real.pi_lt_d2
    rw [abs_mul, abs_of_pos (by positivity : 0 < Real.pi / 180)]
    have : |dir - hdg| * (Real.pi / 180) ≤ 360 * (Real.pi / 180) := by gcongr
    norm_num at *
    linarith
  have : 5 * F.u * |Atmos.deg2rad (dir - hdg)| ≤ 5 * F.u * 6.3 := by gcongr
  norm_num at *
  linarith

/-- A component from the function value and the error of the angle. -/
theorem component_err {s ch cv e : ℝ} (h1 : |ch - cv| ≤ e) (he : e ≤ 31.5 * F.u) {th : ℝ} (hc : |ch| ≤ 1)
    (ht : |th - ch| ≤ 8 * F.u * |ch|) : |F.rd (|s| * th) - |s| * cv| ≤ 41 * F.u * |s| := by
  have hu := F.u_nonneg
  have hul := F.u_lt
  have hs := abs_nonneg s
  have e1 : |th - ch| ≤ 8 * F.u := ht.trans (by nlinarith [abs_nonneg ch])
  have e2 : |th - cv| ≤ 39.5 * F.u := by
    have := abs_add_le (th - ch) (ch - cv)
    rw [sub_add_sub_cancel] at this
    norm_num at *
    linarith
  have e3 : |th| ≤ 1.0001 := by
    have := abs_sub_abs_le_abs_sub th ch
    norm_num at *
    linarith
  have r := F.err (|s| * th)
  rw [abs_mul, abs_abs] at r
  have e4 : |(|s| * th - |s| * cv)| ≤ |s| * (39.5 * F.u) := by
    rw [← mul_sub, abs_mul, abs_abs]; gcongr
  have e5 : F.u * (|s| * |th|) ≤ F.u * (|s| * 1.0001) := by gcongr
  have := abs_add_le (F.rd (|s| * th) - |s| * th) (|s| * th - |s| * cv)
  rw [sub_add_sub_cancel] at this
  have hus := mul_nonneg hu hs
  norm_num at *
  nlinarith

/-- C155: both wind components are within 41 units of rounding of the wind speed, whatever the direction. -/
theorem C155_components (N : NpTrig F) (hdg dir speed : ℝ) (h : |dir - hdg| ≤ 360) :
    |Fl.headwind F N hdg dir speed - Atmos.headwind1 hdg dir speed| ≤ 41 * F.u * |speed| ∧
      |Fl.crosswind F N hdg dir speed - Atmos.crosswind1 hdg dir speed| ≤ 41 * F.u * |speed| :=
  ⟨component_err F (Real.abs_cos_sub_cos_le _ _) (relheading_err F h) (Real.abs_cos_le_one _) (N.cos_err _),
    component_err F (Real.abs_sin_sub_sin_le _ _) (relheading_err F h) (Real.abs_sin_le_one _) (N.sin_err _)⟩

/-- C155: the computed components are the legs of a right triangle with the wind speed as hypotenuse, to 165 units of rounding of its
square. -/
theorem C155_speed (N : NpTrig F) (hdg dir speed : ℝ) (h : |dir - hdg| ≤ 360) :
    |Fl.headwind F N hdg dir speed ^ 2 + Fl.crosswind F N hdg dir speed ^ 2 - speed ^ 2| ≤ 165 * F.u * speed ^ 2 := by
  obtain ⟨a, b⟩ := C155_components F N hdg dir speed h
  have hu := F.u_nonneg
  have hul := F.u_lt
  have hs := abs_nonneg speed
  have ea : Atmos.headwind1 hdg dir speed ^ 2 + Atmos.crosswind1 hdg dir speed ^ 2 = speed ^ 2 := by
    unfold Atmos.headwind1 Atmos.crosswind1
    rw [mul_pow, mul_pow, ← mul_add, Real.cos_sq_add_sin_sq, mul_one, sq_abs]
  have ha : |Atmos.headwind1 hdg dir speed| ≤ |speed| := by
    unfold Atmos.headwind1
    rw [abs_mul, abs_abs]; exact mul_le_of_le_one_right hs (Real.abs_cos_le_one _)
  have hb : |Atmos.crosswind1 hdg dir speed| ≤ |speed| := by
    unfold Atmos.crosswind1
    rw [abs_mul, abs_abs]; exact mul_le_of_le_one_right hs (Real.abs_sin_le_one _)
  generalize Fl.headwind F N hdg dir speed = x at *
  generalize Fl.crosswind F N hdg dir speed = y at *
  generalize Atmos.headwind1 hdg dir speed = p at *
  generalize Atmos.crosswind1 hdg dir speed = q at *
  have key : ∀ {z r : ℝ}, |z - r| ≤ 41 * F.u * |speed| → |r| ≤ |speed| → |z ^ 2 - r ^ 2| ≤ 82.5 * F.u * |speed| ^ 2 := by
    intro z r h1 h2
    have e : z ^ 2 - r ^ 2 = (z - r) * ((z - r) + 2 * r) := by ring
    have h3 : |(z - r) + 2 * r| ≤ 41 * F.u * |speed| + 2 * |speed| := by
      have := abs_add_le (z - r) (2 * r)
      rw [abs_mul, abs_of_pos (two_pos : (0 : ℝ) < 2)] at this
      linarith
    rw [e, abs_mul]
    have h4 : |z - r| * |(z - r) + 2 * r| ≤ (41 * F.u * |speed|) * (41 * F.u * |speed| + 2 * |speed|) :=
      mul_le_mul h1 h3 (abs_nonneg _) (by positivity)
    have h5 : 41 * F.u * (41 * F.u + 2) ≤ 82.5 * F.u := by norm_num at *; nlinarith
    calc _ ≤ _ := h4
      _ = (41 * F.u * (41 * F.u + 2)) * |speed| ^ 2 := by ring
      _ ≤ _ := mul_le_mul_of_nonneg_right h5 (by positivity)
  have k1 := key a ha
  have k2 := key b hb
  have := abs_add_le (x ^ 2 - p ^ 2) (y ^ 2 - q ^ 2)
  rw [← ea, show x ^ 2 + y ^ 2 - (p ^ 2 + q ^ 2) = (x ^ 2 - p ^ 2) + (y ^ 2 - q ^ 2) by ring, ea]
  rw [sq_abs] at k1 k2
  norm_num at *
  linarith

/-- C155: a head wind is never reported as a tail wind nor the other way round, unless the wind is across the runway to within 41 units
of rounding; likewise for the side the cross wind comes from. -/
theorem C155_sign (N : NpTrig F) (hdg dir speed : ℝ) (h : |dir - hdg| ≤ 360) (hs : speed ≠ 0) :
    (41 * F.u < Real.cos (Atmos.deg2rad (dir - hdg)) → 0 < Fl.headwind F N hdg dir speed) ∧
      (Real.cos (Atmos.deg2rad (dir - hdg)) < -(41 * F.u) → Fl.headwind F N hdg dir speed < 0) ∧
      (41 * F.u < Real.sin (Atmos.deg2rad (dir - hdg)) → 0 < Fl.crosswind F N hdg dir speed) ∧
      (Real.sin (Atmos.deg2rad (dir - hdg)) < -(41 * F.u) → Fl.crosswind F N hdg dir speed < 0) := by
  obtain ⟨a, b⟩ := C155_components F N hdg dir speed h
  unfold Atmos.headwind1 at a
  unfold Atmos.crosswind1 at b
  have hp := abs_pos.mpr hs
  rw [abs_le] at a b
  refine ⟨fun k => ?_, fun k => ?_, fun k => ?_, fun k => ?_⟩ <;> have := mul_lt_mul_of_pos_right k hp <;> linarith [a.1, a.2, b.1, b.2]

/-- C155: geopotential heights are accurate to 4 units of rounding, and so are geometric ones, for heights below the radius of the earth. -/
theorem C155_heights (x : ℝ) (h0 : 0 ≤ x) (h1 : x < Atmos.R_EARTH_M) :
    |Fl.geom2geop45m F x - Atmos.geom2geop45m x| ≤ 4 * F.u * Atmos.geom2geop45m x ∧
      |Fl.geop2geom45m F x - Atmos.geop2geom45m x| ≤ 4 * F.u * Atmos.geop2geom45m x := by
  have hR : 0 < Atmos.R_EARTH_M := by unfold Atmos.R_EARTH_M; norm_num
  have a : Acc F 3 (Fl.geom2geop45m F x) (Atmos.geom2geop45m x) :=
    (((Acc.rd F (Atmos.R_EARTH_M * x))).div (Acc.rd F (Atmos.R_EARTH_M + x))).round
  have b : Acc F 3 (Fl.geop2geom45m F x) (Atmos.geop2geom45m x) :=
    (((Acc.rd F (Atmos.R_EARTH_M * x))).div (Acc.rd F (Atmos.R_EARTH_M - x))).round
  have pa : 0 ≤ Atmos.geom2geop45m x := by unfold Atmos.geom2geop45m; positivity
  have pb : 0 ≤ Atmos.geop2geom45m x := by
    unfold Atmos.geop2geom45m; exact div_nonneg (by positivity) (by linarith)
  have ea := a.err 4 (by norm_num) (by norm_num)
  have eb := b.err 4 (by norm_num) (by norm_num)
  rw [abs_of_nonneg pa] at ea
  rw [abs_of_nonneg pb] at eb
  exact ⟨ea, eb⟩

/-- C155: a geometric height up to 100 km, converted to geopotential and back, returns to within 9 units of rounding. -/
theorem C155_height_inverse (x : ℝ) (h0 : 0 < x) (h1 : x ≤ 100000) :
    |Fl.geop2geom45m F (Fl.geom2geop45m F x) - x| ≤ 9 * F.u * x := by
  have hR : 0 < Atmos.R_EARTH_M := by unfold Atmos.R_EARTH_M; norm_num
  have a : Acc F 3 (Fl.geom2geop45m F x) (Atmos.geom2geop45m x) :=
    (((Acc.rd F (Atmos.R_EARTH_M * x))).div (Acc.rd F (Atmos.R_EARTH_M + x))).round
  have e : Atmos.R_EARTH_M - Atmos.geom2geop45m x = Atmos.R_EARTH_M ^ 2 / (Atmos.R_EARTH_M + x) := by
    unfold Atmos.geom2geop45m; field_simp; ring
  have hy : 0 < Atmos.geom2geop45m x := by unfold Atmos.geom2geop45m; positivity
  have hd : 0 < Atmos.R_EARTH_M - Atmos.geom2geop45m x := by rw [e]; positivity
  have hs : 4 * Atmos.geom2geop45m x ≤ Atmos.R_EARTH_M - Atmos.geom2geop45m x := by
    rw [e]; unfold Atmos.geom2geop45m
    rw [← mul_div_assoc]
    gcongr
    unfold Atmos.R_EARTH_M; linarith
  have er := a.err 4 (by norm_num) (by norm_num)
  rw [abs_of_pos hy] at er
  have c : Acc F 2 (Atmos.R_EARTH_M - Fl.geom2geop45m F x) (Atmos.R_EARTH_M - Atmos.geom2geop45m x) := by
    refine Acc.of_err 1 (by norm_num) hd ?_
    rw [show Atmos.R_EARTH_M - Fl.geom2geop45m F x - (Atmos.R_EARTH_M - Atmos.geom2geop45m x) =
      -(Fl.geom2geop45m F x - Atmos.geom2geop45m x) by ring, abs_neg]
    have := F.u_nonneg
    push_cast
    nlinarith
  have f : Acc F 8 (Fl.geop2geom45m F (Fl.geom2geop45m F x))
      (Atmos.R_EARTH_M * Atmos.geom2geop45m x / (Atmos.R_EARTH_M - Atmos.geom2geop45m x)) :=
    ((((Acc.refl (F := F) Atmos.R_EARTH_M).mul a).round).div c.round).round
  have ex : Atmos.R_EARTH_M * Atmos.geom2geop45m x / (Atmos.R_EARTH_M - Atmos.geom2geop45m x) = x := by
    rw [e]; unfold Atmos.geom2geop45m; field_simp
  rw [ex] at f
  have := f.err 9 (by norm_num) (by norm_num)
  rwa [abs_of_pos h0] at this

/-- C155: the gas law, both ways, is accurate to 4 units of rounding, and the pressure of the density of a pressure is that pressure to 5. -/
theorem C155_gas (p rho t : ℝ) (hp : 0 < p) (hr : 0 < rho) (ht : 0 < t) :
    |Fl.idealgasdens_kgm3 F p t - Atmos.idealgasdens_kgm3 p t| ≤ 4 * F.u * Atmos.idealgasdens_kgm3 p t ∧
      |Fl.idealgaspress_pa F rho t - Atmos.idealgaspress_pa rho t| ≤ 4 * F.u * Atmos.idealgaspress_pa rho t ∧
      |Fl.idealgaspress_pa F (Fl.idealgasdens_kgm3 F p t) t - p| ≤ 5 * F.u * p := by
  have hR : 0 < Atmos.R_JPKGPK := by unfold Atmos.R_JPKGPK; norm_num
  have a : Acc F 3 (Fl.idealgasdens_kgm3 F p t) (Atmos.idealgasdens_kgm3 p t) :=
    ((((Acc.refl (F := F) p).div (Acc.rd F Atmos.R_JPKGPK)).round).div (Acc.refl (F := F) t)).round
  have b : Acc F 3 (Fl.idealgaspress_pa F rho t) (Atmos.idealgaspress_pa rho t) :=
    ((((Acc.rd F Atmos.R_JPKGPK).mul (Acc.refl (F := F) rho)).round).mul (Acc.refl (F := F) t)).round
  have pa : 0 < Atmos.idealgasdens_kgm3 p t := by unfold Atmos.idealgasdens_kgm3; positivity
  have pb : 0 < Atmos.idealgaspress_pa rho t := by unfold Atmos.idealgaspress_pa; positivity
  have hRh : 0 < F.rd Atmos.R_JPKGPK := (Acc.rd F Atmos.R_JPKGPK).pos hR
  have c : Acc F 2 (Fl.idealgasdens_kgm3 F p t) (p / F.rd Atmos.R_JPKGPK / t) :=
    ((((Acc.refl (F := F) p).div (Acc.refl (F := F) (F.rd Atmos.R_JPKGPK))).round).div (Acc.refl (F := F) t)).round
  have d : Acc F 4 (Fl.idealgaspress_pa F (Fl.idealgasdens_kgm3 F p t) t) (F.rd Atmos.R_JPKGPK * (p / F.rd Atmos.R_JPKGPK / t) * t) :=
    (((((Acc.refl (F := F) (F.rd Atmos.R_JPKGPK)).mul c).round).mul (Acc.refl (F := F) t)).round).weaken (by norm_num)
  rw [show F.rd Atmos.R_JPKGPK * (p / F.rd Atmos.R_JPKGPK / t) * t = p by field_simp] at d
  have ea := a.err 4 (by norm_num) (by norm_num)
  have eb := b.err 4 (by norm_num) (by norm_num)
  have ed := d.err 5 (by norm_num) (by norm_num)
  rw [abs_of_pos pa] at ea
  rw [abs_of_pos pb] at eb
  rw [abs_of_pos hp] at ed
  exact ⟨ea, eb, ed⟩

/-- C155: an equivalent airspeed, converted to true airspeed and back at the same altitude, returns to within 3 units of rounding, however
inaccurate the density is. -/
theorem C155_airspeed_inverse (M : Libm2 F) (o v h : ℝ) (H : InIsa o h) (hv : 0 < v) :
    |Fl.isa_tas2eas F M o (Fl.isa_eas2tas F M o v h) h - v| ≤ 3 * F.u * v ∧
      |Fl.isa_eas2tas F M o (Fl.isa_tas2eas F M o v h) h - v| ≤ 3 * F.u * v := by
  obtain ⟨t, t0⟩ := H.hot
  have p := (acc_dens F M.toLibm o h H.off (by linarith [H.low]) H.high).1.pos (C13_positive o h t)
  have p0 := (acc_dens F M.toLibm o 0 H.off (by norm_num) (by norm_num)).1.pos (C13_positive o 0 t0)
  have ps : 0 < F.rd √(F.rd (Fl.isadens F M.toLibm o h / Fl.isadens F M.toLibm o 0)) :=
    (Acc.rd F _).pos (Real.sqrt_pos.mpr ((Acc.rd F _).pos (div_pos p p0)))
  unfold Fl.isa_tas2eas Fl.isa_eas2tas Fl.atm_eas2tas
  generalize F.rd √(F.rd (Fl.isadens F M.toLibm o h / Fl.isadens F M.toLibm o 0)) = s at *
  have a := (((Acc.rd F (v / s)).mul (Acc.refl (F := F) s)).round).weaken (n := 2) (by norm_num)
  have b := (((Acc.rd F (v * s)).div (Acc.refl (F := F) s)).round).weaken (n := 2) (by norm_num)
  rw [div_mul_cancel₀ _ ps.ne'] at a
  rw [mul_div_cancel_right₀ _ ps.ne'] at b
  have ea := a.err 3 (by norm_num) (by norm_num)
  have eb := b.err 3 (by norm_num) (by norm_num)
  rw [abs_of_pos hv] at ea eb
  exact ⟨ea, eb⟩

/-- C155: the equivalent airspeed of a true airspeed in the ISA is accurate to 92 units of rounding. -/
theorem C155_eas (M : Libm2 F) (o h v : ℝ) (H : InIsa o h) :
    ∃ eas, Atmos.tas2eas (.isa o) v h = .ok eas ∧ |Fl.isa_tas2eas F M o v h - eas| ≤ 92 * F.u * |eas| := by
  obtain ⟨t, t0⟩ := H.hot
  have pd := C13_positive o h t
  have pd0 := C13_positive o 0 t0
  have k := dratio_ok (isa_dens1 o h H.high) (isa_dens1 o 0 (by norm_num)) pd pd0
  have a1 := (acc_dens F M.toLibm o h H.off (by linarith [H.low]) H.high).1
  have a2 := (acc_dens F M.toLibm o 0 H.off (by norm_num) (by norm_num)).2 (by norm_num)
  have a3 : Acc F (2 * 89) _ _ := ((a1.div a2).round).weaken (by norm_num)
  have a4 : Acc F 91 _ _ := (((Acc.refl (F := F) v).mul ((a3.sqrt (by positivity)).round)).round).weaken (by norm_num)
  exact ⟨_, by unfold Atmos.tas2eas; rw [k]; rfl, a4.err 92 (by norm_num) (by norm_num)⟩

/-- For the cases below, `np.cos` and `np.sin` (atmospheres.py:265-266): the exact values, rounded. -/
noncomputable def exactTrig (F : Rounding) : NpTrig F where
  cos x := F.rd (Real.cos x)
  cos_err x := by
    have := F.err (Real.cos x)
    have := mul_nonneg F.u_nonneg (abs_nonneg (Real.cos x))
    linarith
  sin x := F.rd (Real.sin x)
  sin_err x := by
    have := F.err (Real.sin x)
    have := mul_nonneg F.u_nonneg (abs_nonneg (Real.sin x))
    linarith

example : |Fl.headwind binary64 (exactTrig binary64) 89.3 240 17 - Atmos.headwind1 89.3 240 17| ≤ 41 * (2 : ℝ) ^ (-53 : ℤ) * |(17 : ℝ)| :=
  (C155_components binary64 (exactTrig binary64) 89.3 240 17 (by norm_num [abs_le])).1

example : |Fl.headwind binary64 (exactTrig binary64) 89.3 240 17 ^ 2 + Fl.crosswind binary64 (exactTrig binary64) 89.3 240 17 ^ 2 - 17 ^ 2| ≤
    165 * (2 : ℝ) ^ (-53 : ℤ) * 17 ^ 2 :=
  C155_speed binary64 (exactTrig binary64) 89.3 240 17 (by norm_num [abs_le])

example : 0 < Fl.headwind binary64 (exactTrig binary64) 90 150 17 := by
  refine (C155_sign binary64 (exactTrig binary64) 90 150 17 (by norm_num [abs_le]) (by norm_num)).1 ?_
  have e : Atmos.deg2rad (150 - 90) = Real.pi / 3 := by unfold Atmos.deg2rad; ring
  rw [e, Real.cos_pi_div_three]
  show 41 * (2 : ℝ) ^ (-53 : ℤ) < 1 / 2
  norm_num

example : |Fl.geom2geop45m binary64 11000 - Atmos.geom2geop45m 11000| ≤ 4 * (2 : ℝ) ^ (-53 : ℤ) * Atmos.geom2geop45m 11000 :=
  (C155_heights binary64 11000 (by norm_num) (by unfold Atmos.R_EARTH_M; norm_num)).1

example : |Fl.geop2geom45m binary64 (Fl.geom2geop45m binary64 11000) - 11000| ≤ 9 * (2 : ℝ) ^ (-53 : ℤ) * 11000 :=
  C155_height_inverse binary64 11000 (by norm_num) (by norm_num)

example : |Fl.idealgaspress_pa binary64 (Fl.idealgasdens_kgm3 binary64 101325 288.15) 288.15 - 101325| ≤ 5 * (2 : ℝ) ^ (-53 : ℤ) * 101325 :=
  (C155_gas binary64 101325 1.225 288.15 (by norm_num) (by norm_num) (by norm_num)).2.2

example : |Fl.isa_tas2eas binary64 (exactLibm binary64) 15 (Fl.isa_eas2tas binary64 (exactLibm binary64) 15 100 9000) 9000 - 100| ≤
    3 * (2 : ℝ) ^ (-53 : ℤ) * 100 :=
  (C155_airspeed_inverse binary64 (exactLibm binary64) 15 100 9000 exIsa (by norm_num)).1

example : ∃ eas, Atmos.tas2eas (.isa 15) 150 9000 = .ok eas ∧
    |Fl.isa_tas2eas binary64 (exactLibm binary64) 15 150 9000 - eas| ≤ 92 * (2 : ℝ) ^ (-53 : ℤ) * |eas| :=
  C155_eas binary64 (exactLibm binary64) 15 9000 150 exIsa

end Verif.Props
