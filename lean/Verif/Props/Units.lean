import Verif.Model.Units
import Verif.Spec.Basic
import Mathlib.Tactic.Ring
import Mathlib.Tactic.Linarith
import Mathlib.Tactic.NormNum
import Mathlib.Tactic.FieldSimp
import Mathlib.Algebra.Order.Ring.Pow

/-
Properties C01 - C05 and C82: unit conversions.
-/

namespace Verif.Props
open Verif.Units Verif.Spec

noncomputable section

/-! ### C01 -/

theorem C01_feet_m : InversePair feet2m m2feet := by
  constructor <;> intro x <;> simp only [feet2m, m2feet] <;> field_simp
theorem C01_feet2_m2 : InversePair feet22m2 m22feet2 := by
  constructor <;> intro x <;> simp only [feet22m2, m22feet2] <;> field_simp
theorem C01_m_km : InversePair m2km km2m := by
  constructor <;> intro x <;> simp only [m2km, km2m] <;> field_simp
theorem C01_c_k : InversePair c2k k2c := by
  constructor <;> intro x <;> simp only [c2k, k2c] <;> ring
theorem C01_c_r : InversePair c2r r2c := by
  constructor <;> intro x <;> simp only [c2r, r2c] <;> ring
theorem C01_k_r : InversePair k2r r2k := by
  constructor <;> intro x <;> simp only [k2r, r2k] <;> ring
theorem C01_pa_mbar : InversePair pa2mbar mbar2pa := by
  constructor <;> intro x <;> simp only [pa2mbar, mbar2pa] <;> field_simp
theorem C01_inhg_mbar : InversePair inhg2mbar mbar2inhg := by
  constructor <;> intro x <;> simp only [inhg2mbar, mbar2inhg] <;> field_simp
theorem C01_mbar_lbfft2 : InversePair mbar2lbfft2 lbfft22mbar := by
  constructor <;> intro x <;> simp only [mbar2lbfft2, lbfft22mbar] <;> field_simp
theorem C01_kg_n : InversePair kg2n n2kg := by
  constructor <;> intro x <;> simp only [kg2n, n2kg, gAcc] <;> field_simp
theorem C01_lbs_kg : InversePair lbs2kg kg2lbs := by
  constructor <;> intro x <;> simp only [lbs2kg, kg2lbs] <;> field_simp
theorem C01_lbf_n : InversePair lbf2n n2lbf := by
  constructor <;> intro x <;> simp only [lbf2n, n2lbf] <;> field_simp
theorem C01_kw_hp : InversePair kw2hp hp2kw := by
  constructor <;> intro x <;> simp only [kw2hp, hp2kw] <;> field_simp
theorem C01_kgm3_sft3 : InversePair kgm32sft3 sft32kgm3 := by
  constructor <;> intro x <;> simp only [kgm32sft3, sft32kgm3] <;> field_simp
theorem C01_pa_lbfft2 : InversePair pa2lbfft2 lbfft22pa := by
  constructor <;> intro x <;> simp only [pa2lbfft2, lbfft22pa] <;> field_simp

-- concrete non-trivial value: 1000 ft
example : feet2m 1000 = 304.8 ∧ m2feet 304.8 = 1000 := by
  constructor <;> norm_num [feet2m, m2feet]

/-! ### C02 -/

/-- Every two-step chain between the three absolute-consistent scales equals the direct conversion. -/
theorem C02_paths (t : ℝ) :
    k2r (c2k t) = c2r t ∧ k2c (r2k t) = r2c t ∧
    c2r (k2c t) = k2r t ∧ c2k (r2c t) = r2k t ∧
    r2k (c2r t) = c2k t ∧ r2c (k2r t) = k2c t := by
  simp only [k2r, c2k, c2r, k2c, r2k, r2c]
  refine ⟨trivial, ?_, ?_, ?_, ?_, ?_⟩ <;> ring

/-- A step of a conversion chain between the scales (0 Celsius, 1 Kelvin, 2 Rankine). -/
inductive TempStep : Fin 3 → Fin 3 → (ℝ → ℝ) → Prop
  | c2k : TempStep 0 1 Units.c2k
  | k2c : TempStep 1 0 Units.k2c
  | c2r : TempStep 0 2 Units.c2r
  | r2c : TempStep 2 0 Units.r2c
  | k2r : TempStep 1 2 Units.k2r
  | r2k : TempStep 2 1 Units.r2k

/-- A chain of conversions of any length from one scale to another. -/
inductive TempChain : Fin 3 → Fin 3 → (ℝ → ℝ) → Prop
  | nil (a) : TempChain a a id
  | cons {a b c f g} : TempChain a b f → TempStep b c g → TempChain a c (g ∘ f)

/-- Thermodynamic temperature in kelvin of the number `x` on the given scale (independent
definition of the scales: Celsius zero at 273.15 K, Rankine degree 5/9 K). -/
def thermo (s : Fin 3) (x : ℝ) : ℝ :=
  if s = 0 then x + 273.15 else if s = 1 then x else x * (5 / 9)

theorem thermo_step {a b : Fin 3} {f : ℝ → ℝ} (h : TempStep a b f) (x : ℝ) :
    thermo b (f x) = thermo a x := by
  cases h <;> simp [thermo, Units.c2k, Units.k2c, Units.c2r, Units.r2c, Units.k2r, Units.r2k] <;> ring

theorem thermo_injective (s : Fin 3) : Function.Injective (thermo s) := by
  intro x y h
  unfold thermo at h
  split_ifs at h <;> linarith

/-- Any two chains of conversions between the same two scales agree on every temperature, and every
chain preserves the thermodynamic temperature. -/
theorem C02_all_chains {a b : Fin 3} {f g : ℝ → ℝ} (hf : TempChain a b f) (hg : TempChain a b g)
    (t : ℝ) : f t = g t ∧ thermo b (f t) = thermo a t := by
  have key : ∀ {a b : Fin 3} {f : ℝ → ℝ}, TempChain a b f → ∀ t, thermo b (f t) = thermo a t := by
    intro a b f h
    induction h with
    | nil => intro t; rfl
    | cons _ hs ih => intro t; rw [Function.comp, thermo_step hs, ih]
  exact ⟨thermo_injective b ((key hf t).trans (key hg t).symm), key hf t⟩

-- a chain Celsius → Kelvin → Rankine → Celsius → Rankine and the direct one
example : TempChain 0 2 (Units.c2r ∘ Units.r2c ∘ Units.k2r ∘ Units.c2k ∘ id) ∧
    TempChain 0 2 (Units.c2r ∘ id) :=
  ⟨.cons (.cons (.cons (.cons (.nil 0) .c2k) .k2r) .r2c) .c2r, .cons (.nil 0) .c2r⟩

/-- All temperature conversions (including to Fahrenheit) are strictly increasing. -/
theorem C02_strictMono : StrictMono Units.c2k ∧ StrictMono Units.k2c ∧ StrictMono Units.c2r ∧
    StrictMono Units.r2c ∧ StrictMono Units.k2r ∧ StrictMono Units.r2k ∧ StrictMono Units.c2f := by
  refine ⟨?_, ?_, ?_, ?_, ?_, ?_, ?_⟩ <;> intro x y h <;>
    simp only [Units.c2k, Units.k2c, Units.c2r, Units.r2c, Units.k2r, Units.r2k, Units.c2f] <;>
    linarith

/-- The Fahrenheit reading is the Rankine reading with its zero moved to -459.67; water freezes at
32 and boils at 212. -/
theorem C02_fahrenheit (t : ℝ) : c2f t + 459.67 = c2r t ∧ c2f 0 = 32 ∧ c2f 100 = 212 := by
  simp only [c2f, c2r]
  refine ⟨by ring, ?_, ?_⟩ <;> norm_num

/-! ### C03 -/

/-- One round trip m/s → kt → m/s. -/
def ktsRoundTrip (v : ℝ) : ℝ := kts2mps (mps2kts v)

/-- After `n` round trips the speed is multiplied by `c ^ n` for a constant `c` in `(1 - 1e-7, 1)`:
it keeps its sign, never grows in magnitude and is off by at most `n * 1e-7` in relative terms. The
same constant applies when starting from knots. -/
theorem C03_drift : ∃ c : ℝ, 1 - 1e-7 < c ∧ c < 1 ∧ ∀ (n : ℕ) (v : ℝ),
    (fun v => kts2mps (mps2kts v))^[n] v = c ^ n * v ∧
    (fun v => mps2kts (kts2mps v))^[n] v = c ^ n * v ∧
    |(fun v => kts2mps (mps2kts v))^[n] v| ≤ |v| ∧
    0 ≤ v * (fun v => kts2mps (mps2kts v))^[n] v ∧
    |(fun v => kts2mps (mps2kts v))^[n] v - v| ≤ n * 1e-7 * |v| := by
  obtain ⟨c, hc⟩ : ∃ c : ℝ, c = 1.9438445 * 0.5144444 := ⟨_, rfl⟩
  refine ⟨c, by rw [hc]; norm_num, by rw [hc]; norm_num, ?_⟩
  intro n v
  have c0 : (0:ℝ) < c := by rw [hc]; norm_num
  have c1 : c < 1 := by rw [hc]; norm_num
  have clo : 1 - 1e-7 < c := by rw [hc]; norm_num
  have h1 : ∀ n : ℕ, ∀ v, (fun v => kts2mps (mps2kts v))^[n] v = c ^ n * v := by
    intro n
    induction n with
    | zero => intro v; simp
    | succ n ih =>
      intro v
      rw [Function.iterate_succ_apply, ih]
      simp only [kts2mps, mps2kts, hc]; ring
  have h2 : ∀ n : ℕ, ∀ v, (fun v => mps2kts (kts2mps v))^[n] v = c ^ n * v := by
    intro n
    induction n with
    | zero => intro v; simp
    | succ n ih =>
      intro v
      rw [Function.iterate_succ_apply, ih]
      simp only [kts2mps, mps2kts, hc]; ring
  have hp0 : 0 < c ^ n := pow_pos c0 n
  have hp1 : c ^ n ≤ 1 := pow_le_one₀ c0.le c1.le
  have bern : 1 - n * 1e-7 ≤ c ^ n := by
    have := one_add_mul_le_pow (a := c - 1) (by linarith) n
    have e : 1 + (c - 1) = c := by ring
    rw [e] at this
    have hn : (0:ℝ) ≤ n := Nat.cast_nonneg n
    have hm : (n:ℝ) * (1 - 1e-7) ≤ n * c := mul_le_mul_of_nonneg_left clo.le hn
    rw [mul_sub, mul_one] at hm
    rw [mul_sub, mul_one] at this
    linarith
  refine ⟨h1 n v, h2 n v, ?_, ?_, ?_⟩
  · rw [h1, abs_mul, abs_of_pos hp0]
    exact mul_le_of_le_one_left (abs_nonneg v) hp1
  · rw [h1]
    have : v * (c ^ n * v) = c ^ n * v ^ 2 := by ring
    rw [this]; positivity
  · rw [h1]
    have : c ^ n * v - v = (c ^ n - 1) * v := by ring
    rw [this, abs_mul, abs_of_nonpos (by linarith)]
    exact mul_le_mul_of_nonneg_right (by linarith) (abs_nonneg v)

/-- The advertised pair is not inverse: every nonzero speed changes in a round trip. -/
theorem C03_inverse_violated (v : ℝ) (hv : v ≠ 0) :
    kts2mps (mps2kts v) ≠ v ∧ mps2kts (kts2mps v) ≠ v := by
  simp only [kts2mps, mps2kts]
  constructor <;> intro h
  · have : v * (1.9438445 * 0.5144444 - 1) = 0 := by linarith
    rcases mul_eq_zero.mp this with h | h
    · exact hv h
    · norm_num at h
  · have : v * (1.9438445 * 0.5144444 - 1) = 0 := by linarith
    rcases mul_eq_zero.mp this with h | h
    · exact hv h
    · norm_num at h

example : kts2mps (mps2kts 100) < 100 := by norm_num [kts2mps, mps2kts]

/-! ### C04 -/

theorem C04_lbfft2_routes (p : ℝ) :
    |mbar2lbfft2 (pa2mbar p) - pa2lbfft2 p| ≤ 1e-5 * |pa2lbfft2 p| ∧
    (p ≠ 0 → mbar2lbfft2 (pa2mbar p) ≠ pa2lbfft2 p) := by
  simp only [mbar2lbfft2, pa2mbar, pa2lbfft2]
  constructor
  · have : p * 0.01 * 2.08854 - p * 0.020885434273039 = p * (0.01 * 2.08854 - 0.020885434273039) := by
      ring
    rw [this, abs_mul, abs_mul]
    have h1 : |(0.01 * 2.08854 - 0.020885434273039 : ℝ)| ≤ 1e-5 * |(0.020885434273039:ℝ)| := by
      rw [abs_of_neg (by norm_num), abs_of_pos (by norm_num)]; norm_num
    nlinarith [abs_nonneg p, mul_le_mul_of_nonneg_left h1 (abs_nonneg p)]
  · intro hp h
    have : p * (0.01 * 2.08854 - 0.020885434273039) = 0 := by linarith
    rcases mul_eq_zero.mp this with h | h
    · exact hp h
    · norm_num at h

theorem C04_kgm2_roundtrip (p : ℝ) :
    |kgm22pa (pa2kgm2 p) - p| ≤ 1e-10 * |p| ∧ |pa2kgm2 (kgm22pa p) - p| ≤ 1e-10 * |p| ∧
    (p ≠ 0 → kgm22pa (pa2kgm2 p) ≠ p) := by
  simp only [kgm22pa, pa2kgm2, gAcc]
  have h1 : |(0.1019716212978 * 9.80665 - 1 : ℝ)| ≤ 1e-10 := by
    rw [abs_le]; constructor <;> norm_num
  have e1 : p * 0.1019716212978 * 9.80665 - p = (0.1019716212978 * 9.80665 - 1) * p := by ring
  have e2 : p * 9.80665 * 0.1019716212978 - p = (0.1019716212978 * 9.80665 - 1) * p := by ring
  refine ⟨?_, ?_, ?_⟩
  · rw [e1, abs_mul]; exact mul_le_mul_of_nonneg_right h1 (abs_nonneg p)
  · rw [e2, abs_mul]; exact mul_le_mul_of_nonneg_right h1 (abs_nonneg p)
  · intro hp h
    have : p * (0.1019716212978 * 9.80665 - 1) = 0 := by linarith
    rcases mul_eq_zero.mp this with h | h
    · exact hp h
    · norm_num at h

example : mbar2lbfft2 (pa2mbar 101325) < pa2lbfft2 101325 := by
  norm_num [mbar2lbfft2, pa2mbar, pa2lbfft2]

/-! ### C05 -/

theorem C05_inverse (v rho : ℝ) (h : 0 < rho) :
    Units.eas2tas (Units.tas2eas v rho) rho = v ∧ Units.tas2eas (Units.eas2tas v rho) rho = v := by
  have hp : 0 < (rho / 1.225) ^ (0.5 : ℝ) := Real.rpow_pos_of_pos (by positivity) _
  simp only [Units.eas2tas, Units.tas2eas]
  constructor <;> field_simp

example : Units.eas2tas (Units.tas2eas 100 0.9) 0.9 = 100 := (C05_inverse 100 0.9 (by norm_num)).1

/-- The defining relation of equivalent airspeed: same dynamic pressure as in standard sea-level
air, i.e. `1.225 * EAS ^ 2 = rho * TAS ^ 2`, with the same direction. -/
theorem C05_same_dynamic_pressure (v rho : ℝ) (h : 0 < rho) :
    1.225 * Units.tas2eas v rho ^ 2 = rho * v ^ 2 ∧ 0 ≤ v * Units.tas2eas v rho := by
  have hp : 0 < (rho / 1.225) ^ (0.5 : ℝ) := Real.rpow_pos_of_pos (by positivity) _
  have hs : ((rho / 1.225) ^ (0.5 : ℝ)) ^ 2 = rho / 1.225 := by
    rw [← Real.rpow_natCast, ← Real.rpow_mul (by positivity)]; norm_num
  simp only [Units.tas2eas]
  constructor
  · rw [mul_pow, hs]; ring
  · have : v * (v * (rho / 1.225) ^ (0.5 : ℝ)) = v ^ 2 * (rho / 1.225) ^ (0.5 : ℝ) := by ring
    rw [this]; positivity

example : 1.225 * Units.tas2eas 100 0.9 ^ 2 = 0.9 * 100 ^ 2 := (C05_same_dynamic_pressure 100 0.9 (by norm_num)).1

theorem C05_order (v rho : ℝ) (hv : 0 < v) (h : 0 < rho) :
    Units.tas2eas v 1.225 = v ∧ (rho < 1.225 → Units.tas2eas v rho < v) ∧
    (1.225 < rho → v < Units.tas2eas v rho) := by
  simp only [Units.tas2eas]
  refine ⟨by norm_num, ?_, ?_⟩
  · intro hr
    have : (rho / 1.225) ^ (0.5 : ℝ) < 1 := Real.rpow_lt_one (by positivity)
      (by rw [div_lt_one (by norm_num)]; exact hr) (by norm_num)
    nlinarith
  · intro hr
    have : 1 < (rho / 1.225) ^ (0.5 : ℝ) := Real.one_lt_rpow
      (by rw [lt_div_iff₀ (by norm_num)]; linarith) (by norm_num)
    nlinarith

-- density a quarter of standard: TAS 100 is EAS 50
example : Units.tas2eas 100 (1.225 / 4) = 50 := by
  have : ((1:ℝ) / 4) ^ (0.5 : ℝ) = 1 / 2 := by
    rw [show (1:ℝ)/4 = (1/2)^(2:ℝ) by norm_num, ← Real.rpow_mul (by norm_num)]; norm_num
  simp only [Units.tas2eas]
  rw [show (1.225 / 4 / 1.225 : ℝ) = 1 / 4 by norm_num, this]; norm_num

/-! ### C82 -/

/-- Every conversion between proportional units multiplies by a factor within 1e-5 of the one that
follows from the definitions of the units (international foot, knot, pound, standard gravity,
mechanical horsepower, conventional inch of mercury). -/
theorem C82_factors :
    ScalesBy feet2m 0.3048 0 ∧ ScalesBy feet22m2 (0.3048 ^ 2) 1e-5 ∧
    ScalesBy m2km (1 / 1000) 0 ∧ ScalesBy pa2mbar (1 / 100) 0 ∧
    ScalesBy inhg2mbar 33.86389 1e-5 ∧
    ScalesBy mbar2lbfft2 (100 * 0.3048 ^ 2 / (0.45359237 * 9.80665)) 1e-5 ∧
    ScalesBy pa2lbfft2 (0.3048 ^ 2 / (0.45359237 * 9.80665)) 1e-5 ∧
    ScalesBy mps2kts (3600 / 1852) 1e-5 ∧ ScalesBy kts2mps (1852 / 3600) 1e-5 ∧
    ScalesBy pa2kgm2 (1 / 9.80665) 1e-5 ∧ ScalesBy kg2n 9.80665 0 ∧ ScalesBy kgm22pa 9.80665 0 ∧
    ScalesBy fpm2mps (0.3048 / 60) 0 ∧ ScalesBy lbs2kg 0.45359237 1e-5 ∧
    ScalesBy lbf2n (0.45359237 * 9.80665) 1e-5 ∧ ScalesBy wn2wkg 9.80665 0 ∧
    ScalesBy wn2kwkg (9.80665 / 1000) 0 ∧
    ScalesBy kw2hp (1000 / (550 * 0.3048 * 0.45359237 * 9.80665)) 1e-5 ∧
    ScalesBy wn2hpkg (9.80665 / (550 * 0.3048 * 0.45359237 * 9.80665)) 1e-5 ∧
    ScalesBy kgm32sft3 (0.3048 ^ 4 / (0.45359237 * 9.80665)) 1e-5 := by
  have aux : ∀ (f : ℝ → ℝ) (c k ε : ℝ), (∀ x, f x = c * x) → -(ε * k) ≤ c - k → c - k ≤ ε * k →
      0 ≤ k → ScalesBy f k ε := fun f c k ε h h1 h2 h3 =>
    ⟨c, h, by unfold WithinRel; rw [abs_of_nonneg h3]; exact abs_le.mpr ⟨h1, h2⟩⟩
  refine ⟨aux _ 0.3048 _ _ ?_ ?_ ?_ ?_, aux _ (1 / 10.7639) _ _ ?_ ?_ ?_ ?_,
    aux _ (1 / 1000) _ _ ?_ ?_ ?_ ?_, aux _ (1 / 100) _ _ ?_ ?_ ?_ ?_,
    aux _ 33.8639 _ _ ?_ ?_ ?_ ?_, aux _ 2.08854 _ _ ?_ ?_ ?_ ?_,
    aux _ 0.020885434273039 _ _ ?_ ?_ ?_ ?_,
    aux _ 1.9438445 _ _ ?_ ?_ ?_ ?_, aux _ 0.5144444 _ _ ?_ ?_ ?_ ?_,
    aux _ 0.1019716212978 _ _ ?_ ?_ ?_ ?_, aux _ 9.80665 _ _ ?_ ?_ ?_ ?_,
    aux _ 9.80665 _ _ ?_ ?_ ?_ ?_, aux _ (0.3048 / 60) _ _ ?_ ?_ ?_ ?_,
    aux _ 0.453592 _ _ ?_ ?_ ?_ ?_, aux _ (1 / 0.224809) _ _ ?_ ?_ ?_ ?_,
    aux _ 9.80665 _ _ ?_ ?_ ?_ ?_, aux _ (9.80665 / 1000) _ _ ?_ ?_ ?_ ?_,
    aux _ 1.34102 _ _ ?_ ?_ ?_ ?_, aux _ (9.80665 / 1000 * 1.34102) _ _ ?_ ?_ ?_ ?_,
    aux _ 0.00194032 _ _ ?_ ?_ ?_ ?_⟩
  all_goals first
    | (intro x
       simp only [feet2m, feet22m2, m2km, pa2mbar, inhg2mbar, mbar2lbfft2, pa2lbfft2, mps2kts,
        kts2mps, pa2kgm2, kg2n, kgm22pa, fpm2mps, lbs2kg, lbf2n, wn2wkg, wn2kwkg, kw2hp, wn2hpkg,
        kgm32sft3, gAcc]
       ring)
    | norm_num

end

end Verif.Props
