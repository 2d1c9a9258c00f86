import Verif.Props.Profile

/-
Property C110: the calibrated airspeed formula against the pitot equation of compressible flow.
-/

namespace Verif.Props
open Verif Verif.Atmos Verif.Units

noncomputable section

/-- The impact pressure over the static pressure at a Mach number, for a ratio of specific heats of 1.4 (isentropic flow). -/
def impact (m : ℝ) : ℝ := (1 + 0.2 * m ^ 2) ^ (3.5 : ℝ) - 1

theorem pow35_sq {x : ℝ} (h : 0 ≤ x) : 0 ≤ (1 + x) ^ (3.5 : ℝ) ∧ ((1 + x) ^ (3.5 : ℝ)) ^ 2 = (1 + x) ^ 7 := by
  refine ⟨Real.rpow_nonneg (by linarith) _, ?_⟩
  rw [← Real.rpow_natCast, ← Real.rpow_mul (by linarith), ← Real.rpow_natCast]
  norm_num

/-- The binomial series of the power 7/2, cut after the cubic term. -/
def cubicPart (x : ℝ) : ℝ := 3.5 * x + 4.375 * x ^ 2 + 2.1875 * x ^ 3

theorem pow35_bounds {x : ℝ} (h : 0 ≤ x) :
    cubicPart x ≤ (1 + x) ^ (3.5 : ℝ) - 1 ∧ (1 + x) ^ (3.5 : ℝ) - 1 ≤ cubicPart x + 0.2734375 * x ^ 4 := by
  obtain ⟨h0, hs⟩ := pow35_sq h
  generalize (1 + x) ^ (3.5 : ℝ) = s at *
  have p4 : 0 ≤ x ^ 4 := by positivity
  have p5 : 0 ≤ x ^ 5 := by positivity
  have p6 : 0 ≤ x ^ 6 := by positivity
  have p7 : 0 ≤ x ^ 7 := by positivity
  have p8 : 0 ≤ x ^ 8 := by positivity
  unfold cubicPart
  norm_num
  constructor
  · have : (1 + (7 / 2 * x + 35 / 8 * x ^ 2 + 35 / 16 * x ^ 3)) ^ 2 ≤ s ^ 2 := by rw [hs]; nlinarith
    have := le_of_sq_le_sq this h0
    linarith
  · have : s ^ 2 ≤ (1 + (7 / 2 * x + 35 / 8 * x ^ 2 + 35 / 16 * x ^ 3 + 35 / 128 * x ^ 4)) ^ 2 := by rw [hs]; nlinarith
    have := le_of_sq_le_sq this (by positivity)
    linarith

/-- The factor on the equivalent airspeed for the square `y` of the Mach number and the pressure ratio `δ`. -/
def casFactor (δ y : ℝ) : ℝ := 1 + (1 - δ) * y * (1 / 8 + 3 / 640 * (1 - 9 * δ) * y)

theorem cas_t2 {u : ℝ} (u0 : 0 ≤ u) (u1 : u ≤ 1) : |(1 - u) * u * (0.0328125 * u - 0.013125)| ≤ 0.0023 := by
  rw [abs_le]; norm_num
  constructor
  · nlinarith [mul_nonneg u0 (sub_nonneg.mpr u1), mul_nonneg u0 (mul_nonneg u0 (sub_nonneg.mpr u1)), sq_nonneg (5 * u - 1)]
  · nlinarith [mul_nonneg u0 (sq_nonneg (25 * u - 18)), sq_nonneg (25 * u - 18), mul_nonneg (sub_nonneg.mpr u1) (sq_nonneg (25 * u - 18))]

theorem cas_t4 {u k : ℝ} (u0 : 0 ≤ u) (u1 : u ≤ 1) (k1 : |k| ≤ 0.0263) : |(1 - u) * (u / 2 + k) * k| ≤ 0.0041 := by
  rw [abs_mul, abs_mul, abs_of_nonneg (by linarith : 0 ≤ 1 - u)]
  have a1 : |u / 2 + k| ≤ u / 2 + 0.0263 := (abs_add_le _ _).trans (by rw [abs_of_nonneg (by linarith)]; linarith)
  have a2 : (1 - u) * |u / 2 + k| ≤ 0.1513 := by
    have : (1 - u) * |u / 2 + k| ≤ (1 - u) * (u / 2 + 0.0263) := mul_le_mul_of_nonneg_left a1 (by linarith)
    refine this.trans ?_
    norm_num
    nlinarith [sq_nonneg (2 * u - 1)]
  calc (1 - u) * |u / 2 + k| * |k| ≤ 0.1513 * 0.0263 := mul_le_mul a2 k1 (abs_nonneg _) (by norm_num)
    _ ≤ 0.0041 := by norm_num

theorem cas_t6 {u k y h : ℝ} (u0 : 0 ≤ u) (u1 : u ≤ 1) (y0 : 0 ≤ y) (y1 : y ≤ 1) (k1 : |k| ≤ 0.0263) (hk' : h = u / 4 + k) :
    |(0.0525 * y + 0.0175 * (h * y ^ 2)) * ((1 - u) * h) ^ 2| ≤ 0.00058 := by
  have yy : y ^ 2 ≤ 1 := by nlinarith
  have h1 : |h| ≤ 0.2763 := by
    rw [hk']; refine (abs_add_le _ _).trans ?_; rw [abs_of_nonneg (by linarith)]; norm_num at k1 ⊢; linarith
  have a1 : |(1 - u) * h| ≤ 0.0889 := by
    rw [hk', abs_mul, abs_of_nonneg (by linarith : 0 ≤ 1 - u)]
    have a1 : |u / 4 + k| ≤ u / 4 + 0.0263 := (abs_add_le _ _).trans (by rw [abs_of_nonneg (by linarith)]; linarith)
    have : (1 - u) * |u / 4 + k| ≤ (1 - u) * (u / 4 + 0.0263) := mul_le_mul_of_nonneg_left a1 (by linarith)
    refine this.trans ?_
    norm_num
    nlinarith [sq_nonneg (2 * u - 1)]
  have a2 : |0.0525 * y + 0.0175 * (h * y ^ 2)| ≤ 0.0574 := by
    refine (abs_add_le _ _).trans ?_
    have : |h * y ^ 2| ≤ 0.2763 := by
      rw [abs_mul, abs_of_nonneg (by positivity : 0 ≤ y ^ 2)]
      exact (mul_le_of_le_one_right (abs_nonneg _) yy).trans h1
    rw [abs_mul, abs_mul 0.0175, abs_of_nonneg y0, abs_of_pos (by norm_num : (0:ℝ) < 0.0525), abs_of_pos (by norm_num : (0:ℝ) < 0.0175)]
    norm_num at this ⊢
    linarith
  rw [abs_mul, abs_pow]
  calc |0.0525 * y + 0.0175 * (h * y ^ 2)| * |(1 - u) * h| ^ 2 ≤ 0.0574 * 0.0889 ^ 2 :=
        mul_le_mul a2 (pow_le_pow_left₀ (abs_nonneg _) a1 2) (by positivity) (by norm_num)
    _ ≤ 0.00058 := by norm_num

theorem cas_bound {u y g k h A : ℝ} (u0 : 0 ≤ u) (u1 : u ≤ 1) (y0 : 0 ≤ y) (y1 : y ≤ 1) (g1 : |g| ≤ 0.0013) (k1 : |k| ≤ 0.0263)
    (hk' : h = u / 4 + k) (hA : A = u * (0.1 * u - 0.075)) :
    |0.7 * g + 0.175 * (1 - u) * (2 * A + 2 * g * y + h ^ 2) + 0.0175 * (1 - u) ^ 2 * (3 * h + 3 * h ^ 2 * y + h ^ 3 * y ^ 2)| ≤ 0.0085 := by
  have e : 0.7 * g + 0.175 * (1 - u) * (2 * A + 2 * g * y + h ^ 2) + 0.0175 * (1 - u) ^ 2 * (3 * h + 3 * h ^ 2 * y + h ^ 3 * y ^ 2) =
      0.7 * g + (1 - u) * u * (0.0328125 * u - 0.013125) + 0.35 * ((1 - u) * (g * y)) + 0.175 * ((1 - u) * (u / 2 + k) * k)
      + 0.0525 * ((1 - u) ^ 2 * k) + (0.0525 * y + 0.0175 * (h * y ^ 2)) * ((1 - u) * h) ^ 2 := by
    rw [hk', hA]; ring
  rw [e]
  have t2 := cas_t2 u0 u1
  have t3 : |(1 - u) * (g * y)| ≤ 0.0013 := by
    rw [abs_mul, abs_mul, abs_of_nonneg y0, abs_of_nonneg (by linarith : 0 ≤ 1 - u)]
    have : |g| * y ≤ |g| := mul_le_of_le_one_right (abs_nonneg g) y1
    have := mul_nonneg (abs_nonneg g) y0
    nlinarith
  have t4 := cas_t4 u0 u1 k1
  have t5 : |(1 - u) ^ 2 * k| ≤ 0.0263 := by
    rw [abs_mul, abs_of_nonneg (by positivity : 0 ≤ (1 - u) ^ 2)]
    have : (1 - u) ^ 2 ≤ 1 := by nlinarith
    calc (1 - u) ^ 2 * |k| ≤ 1 * |k| := mul_le_mul_of_nonneg_right this (abs_nonneg _)
      _ ≤ 0.0263 := by rw [one_mul]; exact k1
  have t6 := cas_t6 u0 u1 y0 y1 k1 hk'
  clear e hk' k1 hA
  generalize (1 - u) * u * (0.0328125 * u - 0.013125) = v2 at *
  generalize (1 - u) * (g * y) = v3 at *
  generalize (1 - u) * (u / 2 + k) * k = v4 at *
  generalize (1 - u) ^ 2 * k = v5 at *
  generalize (0.0525 * y + 0.0175 * (h * y ^ 2)) * ((1 - u) * h) ^ 2 = v6 at *
  rw [abs_le] at *
  norm_num at *
  constructor <;> linarith [g1.1, g1.2, t2.1, t2.2, t3.1, t3.2, t4.1, t4.2, t5.1, t5.2, t6.1, t6.2]

theorem cas_identity {u y g h A : ℝ} (hA : A = u * (0.1 * u - 0.075)) (hh : h = u / 4 + A * y + g * y ^ 2) :
    cubicPart (0.2 * (1 - u) * y * (1 + h * y)) - (1 - u) * cubicPart (0.2 * y) =
      (0.7 * g + 0.175 * (1 - u) * (2 * A + 2 * g * y + h ^ 2) + 0.0175 * (1 - u) ^ 2 * (3 * h + 3 * h ^ 2 * y + h ^ 3 * y ^ 2)) * ((1 - u) * y ^ 4) := by
  unfold cubicPart
  have key : 0.7 * A + 0.0875 * (1 - u) * u + 0.0175 * (u ^ 2 - 2 * u) = 0 := by rw [hA]; ring
  clear hA
  linear_combination (1 - u) * y ^ 3 * key + (1 - u) * y ^ 2 * (0.7 + 0.35 * (1 - u) * y) * hh

/-- What is left of the cubic parts after division by `δ y⁴`, with `u = 1 - δ`. -/
theorem cas_rest {u y : ℝ} (u0 : 0 ≤ u) (u1 : u ≤ 1) (y0 : 0 ≤ y) (y1 : y ≤ 1) :
    ∃ q F, |q| ≤ 0.0085 ∧ 0 ≤ F ∧ F ≤ 1.28 ∧ casFactor (1 - u) y ^ 2 = F ∧
      cubicPart (0.2 * (1 - u) * y * F) - (1 - u) * cubicPart (0.2 * y) = q * ((1 - u) * y ^ 4) := by
  obtain ⟨b, hb⟩ : ∃ b, b = 3 / 640 * (u * (9 * u - 8)) := ⟨_, rfl⟩
  obtain ⟨A, hA⟩ : ∃ A, A = u * (0.1 * u - 0.075) := ⟨_, rfl⟩
  obtain ⟨g, hg⟩ : ∃ g, g = u / 4 * b + b ^ 2 * y := ⟨_, rfl⟩
  obtain ⟨h, hh⟩ : ∃ h, h = u / 4 + A * y + g * y ^ 2 := ⟨_, rfl⟩
  have b1 : |b| ≤ 0.0084 := by
    rw [hb, abs_le]; norm_num; constructor <;> nlinarith [sq_nonneg (9 * u - 4)]
  have ub : |u / 4 * b| ≤ 0.0012 := by
    have k1 : -0.95 ≤ u ^ 2 * (9 * u - 8) := by
      norm_num
      nlinarith [mul_nonneg u0 (sq_nonneg (27 * u - 16)), sq_nonneg (27 * u - 16)]
    have k2 : u ^ 2 * (9 * u - 8) ≤ 1 := by nlinarith [mul_nonneg u0 (sub_nonneg.mpr u1), mul_nonneg (mul_nonneg u0 u0) (sub_nonneg.mpr u1)]
    have e : u / 4 * b = 3 / 2560 * (u ^ 2 * (9 * u - 8)) := by rw [hb]; ring
    rw [e, abs_le]
    norm_num at k1 ⊢
    constructor <;> linarith
  have b2 : b ^ 2 * y ≤ 0.0001 := by
    rw [abs_le] at b1
    norm_num at b1 ⊢
    nlinarith [sq_nonneg b]
  have b20 : 0 ≤ b ^ 2 * y := by positivity
  have g1 : |g| ≤ 0.0013 := by
    rw [abs_le] at ub ⊢
    rw [hg]
    norm_num at ub b2 ⊢
    constructor <;> linarith
  have A1 : -0.0141 ≤ A ∧ A ≤ 0.025 := by
    rw [hA]
    norm_num
    constructor <;> nlinarith [sq_nonneg (8 * u - 3)]
  have yy : y ^ 2 ≤ 1 := by nlinarith
  have gy : |g * y ^ 2| ≤ 0.0013 := by
    rw [abs_mul, abs_of_nonneg (by positivity : 0 ≤ y ^ 2)]
    norm_num at g1 ⊢
    nlinarith [abs_nonneg g]
  have Ay : |A * y| ≤ 0.025 := by
    rw [abs_mul, abs_of_nonneg y0]
    have : |A| ≤ 0.025 := by rw [abs_le]; norm_num at A1 ⊢; constructor <;> linarith
    norm_num at this ⊢
    nlinarith [abs_nonneg A]
  obtain ⟨k, hk⟩ : ∃ k, k = A * y + g * y ^ 2 := ⟨_, rfl⟩
  have k1 : |k| ≤ 0.0263 := by
    rw [hk]; refine (abs_add_le _ _).trans ?_; norm_num at gy Ay ⊢; linarith
  have hk' : h = u / 4 + k := by rw [hh, hk]; ring
  have ff : casFactor (1 - u) y = 1 + u / 8 * y + b * y ^ 2 := by unfold casFactor; rw [hb]; ring
  have fF : casFactor (1 - u) y ^ 2 = 1 + h * y := by
    rw [ff, hh, hg, hA, hb]; ring
  refine ⟨0.7 * g + 0.175 * (1 - u) * (2 * A + 2 * g * y + h ^ 2) + 0.0175 * (1 - u) ^ 2 * (3 * h + 3 * h ^ 2 * y + h ^ 3 * y ^ 2), 1 + h * y, ?_, ?_, ?_, fF, ?_⟩
  · exact cas_bound u0 u1 y0 y1 g1 k1 hk' hA
  · rw [← fF]; positivity
  · have h1 : h ≤ 0.2763 := by
      rw [abs_le] at k1; rw [hk']; norm_num at k1 ⊢; linarith [k1.2]
    norm_num at h1 ⊢
    nlinarith
  · exact cas_identity hA hh

/-- The factor agrees with the pitot equation to the eighth power of the Mach number. -/
theorem C110_series {δ m : ℝ} (d0 : 0 ≤ δ) (d1 : δ ≤ 1) (m0 : 0 ≤ m) (m1 : m ≤ 1) :
    |((1 + 0.2 * (δ * m ^ 2 * casFactor δ (m ^ 2) ^ 2)) ^ (3.5 : ℝ) - 1) - δ * impact m| ≤ 0.01 * δ * m ^ 8 := by
  have y0 : 0 ≤ m ^ 2 := by positivity
  have y1 : m ^ 2 ≤ 1 := by nlinarith
  obtain ⟨q, F, hq, F0, F1, hF, hc⟩ := cas_rest (u := 1 - δ) (by linarith) (by linarith) y0 y1
  rw [show 1 - (1 - δ) = δ by ring] at hF hc
  rw [hF]
  unfold impact
  rw [show m ^ 8 = (m ^ 2) ^ 4 by ring]
  generalize m ^ 2 = y at *
  have z0 : 0 ≤ 0.2 * δ * y * F := by positivity
  have bz := pow35_bounds z0
  have bw := pow35_bounds (show 0 ≤ 0.2 * y by positivity)
  rw [show 0.2 * (δ * y * F) = 0.2 * δ * y * F by ring]
  have ez : 0.2734375 * (0.2 * δ * y * F) ^ 4 ≤ 0.0012 * (δ * y ^ 4) := by
    have f4 : F ^ 4 ≤ 1.28 ^ 4 := pow_le_pow_left₀ F0 F1 4
    have d4 : δ ^ 4 ≤ δ := by
      have : δ ^ 3 ≤ 1 := pow_le_one₀ d0 d1
      nlinarith
    calc 0.2734375 * (0.2 * δ * y * F) ^ 4 = 0.0004375 * (δ ^ 4 * y ^ 4 * F ^ 4) := by ring
      _ ≤ 0.0004375 * (δ * y ^ 4 * 1.28 ^ 4) := by
        apply mul_le_mul_of_nonneg_left _ (by norm_num)
        exact mul_le_mul (mul_le_mul_of_nonneg_right d4 (by positivity)) f4 (by positivity) (by positivity)
      _ ≤ 0.0012 * (δ * y ^ 4) := by
        have : 0 ≤ δ * y ^ 4 := by positivity
        norm_num; nlinarith
  have ew : δ * (0.2734375 * (0.2 * y) ^ 4) ≤ 0.0005 * (δ * y ^ 4) := by
    have : 0 ≤ δ * y ^ 4 := by positivity
    have e : δ * (0.2734375 * (0.2 * y) ^ 4) = 0.0004375 * (δ * y ^ 4) := by ring
    rw [e]; norm_num; nlinarith
  have w1 := mul_le_mul_of_nonneg_left bw.1 d0
  have w2 := mul_le_mul_of_nonneg_left bw.2 d0
  have D0 : 0 ≤ δ * y ^ 4 := by positivity
  have hqD : |q * (δ * y ^ 4)| ≤ 0.0085 * (δ * y ^ 4) := by
    rw [abs_mul, abs_of_nonneg D0]; exact mul_le_mul_of_nonneg_right hq D0
  rw [mul_add] at w2
  rw [show 0.01 * δ * y ^ 4 = 0.01 * (δ * y ^ 4) by ring]
  rw [abs_le] at hqD ⊢
  obtain ⟨a1, a2⟩ := bz
  generalize δ * y ^ 4 = D at *
  generalize (1 + 0.2 * δ * y * F) ^ (3.5 : ℝ) = P at *
  generalize (1 + 0.2 * y) ^ (3.5 : ℝ) = W at *
  generalize q * D = qD at *
  norm_num at *
  constructor <;> linarith [hqD.1, hqD.2]

theorem pow35_lip {z z' : ℝ} (h0 : 0 ≤ z) (h1 : z ≤ 0.28) (h0' : 0 ≤ z') (h1' : z' ≤ 0.28) :
    |(1 + z') ^ (3.5 : ℝ) - (1 + z) ^ (3.5 : ℝ)| ≤ 16 * |z' - z| := by
  obtain ⟨p, hs⟩ := pow35_sq h0
  obtain ⟨p', hs'⟩ := pow35_sq h0'
  have q : 1 ≤ (1 + z) ^ (3.5 : ℝ) := Real.one_le_rpow (by linarith) (by norm_num)
  have q' : 1 ≤ (1 + z') ^ (3.5 : ℝ) := Real.one_le_rpow (by linarith) (by norm_num)
  generalize (1 + z) ^ (3.5 : ℝ) = a at *
  generalize (1 + z') ^ (3.5 : ℝ) = a' at *
  obtain ⟨s, hse⟩ : ∃ s, s = 1 + z := ⟨_, rfl⟩
  obtain ⟨t, hte⟩ : ∃ s, s = 1 + z' := ⟨_, rfl⟩
  rw [← hse] at hs; rw [← hte] at hs'
  have e : (a' - a) * (a' + a) = (z' - z) * (t ^ 6 + t ^ 5 * s + t ^ 4 * s ^ 2 + t ^ 3 * s ^ 3 + t ^ 2 * s ^ 4 + t * s ^ 5 + s ^ 6) := by
    have : (a' - a) * (a' + a) = a' ^ 2 - a ^ 2 := by ring
    rw [this, hs, hs', show z' - z = t - s by rw [hse, hte]; ring]
    ring
  have s0 : 0 ≤ s := by linarith
  have t0 : 0 ≤ t := by linarith
  have s1 : s ≤ 1.28 := by norm_num at h1 ⊢; linarith
  have t1 : t ≤ 1.28 := by norm_num at h1' ⊢; linarith
  have b : ∀ i j, i + j = 6 → t ^ i * s ^ j ≤ 1.28 ^ 6 := by
    intro i j hij
    rw [← hij, pow_add]
    exact mul_le_mul (pow_le_pow_left₀ t0 t1 i) (pow_le_pow_left₀ s0 s1 j) (by positivity) (by positivity)
  have S0 : 0 ≤ t ^ 6 + t ^ 5 * s + t ^ 4 * s ^ 2 + t ^ 3 * s ^ 3 + t ^ 2 * s ^ 4 + t * s ^ 5 + s ^ 6 := by positivity
  have S1 : t ^ 6 + t ^ 5 * s + t ^ 4 * s ^ 2 + t ^ 3 * s ^ 3 + t ^ 2 * s ^ 4 + t * s ^ 5 + s ^ 6 ≤ 32 := by
    have b0 := b 6 0 rfl; have b1 := b 5 1 rfl; have b2 := b 4 2 rfl; have b3 := b 3 3 rfl; have b4 := b 2 4 rfl; have b5 := b 1 5 rfl; have b6 := b 0 6 rfl
    simp only [pow_zero, pow_one, mul_one, one_mul] at b0 b1 b5 b6
    norm_num at b0 b1 b2 b3 b4 b5 b6
    linarith
  have ea := congrArg abs e
  rw [abs_mul, abs_mul, abs_of_nonneg (by linarith : 0 ≤ a' + a), abs_of_nonneg S0] at ea
  have l : |a' - a| * 2 ≤ |a' - a| * (a' + a) := mul_le_mul_of_nonneg_left (by linarith) (abs_nonneg _)
  have r := mul_le_mul_of_nonneg_left S1 (abs_nonneg (z' - z))
  linarith

/-- In any atmosphere: the calibrated airspeed, read as a Mach number at sea level, gives the impact pressure at altitude within
one per cent of the static pressure times the eighth power of the Mach number, if densities, temperatures and pressures at altitude and
at sea level are in the proportion of the gas law; a relative error `η` there counts at most 4.1 times. -/
theorem C110_gas (a : Atm) {h e d d0 p p0 T T0 η : ℝ} (hd : dens1 a h = .ok d) (hd0 : dens1 a 0 = .ok d0) (pd : 0 < d) (pd0 : 0 < d0)
    (hp : press1 a h = .ok p) (hp0 : press1 a 0 = .ok p0) (pp : 0 < p) (pp0 : p ≤ p0) (hT : 0 < T) (hT0 : 0 < T0)
    (hc : vsound_mps a (.scalar h) = .ok (.scalar (√(1.4 * 287.05287 * T)))) (gas : d * T / (d0 * T0) = (1 + η) * (p / p0)) (hη : |η| ≤ 0.01)
    (he : 0 ≤ e) :
    ∃ cas m, mpseas2mpscas a e h = .ok (cas, m) ∧ 0 ≤ m ∧
      (m ≤ 1 → |p0 * impact (cas / √(1.4 * 287.05287 * T0)) - p * impact m| ≤ 0.01 * p * m ^ 8 + 4.1 * |η| * (p * m ^ 2)) := by
  refine ⟨_, _, mpseas2mpscas_eq hd hd0 pd pd0 hp hp0 hc, by positivity, ?_⟩
  have P0 : 0 < p0 := lt_of_lt_of_le pp pp0
  obtain ⟨m, hm⟩ : ∃ m, m = e / √(d / d0) / √(1.4 * 287.05287 * T) := ⟨_, rfl⟩
  obtain ⟨δ, hδ⟩ : ∃ δ, δ = p / p0 := ⟨_, rfl⟩
  rw [← hm, ← hδ]
  rw [← hδ] at gas
  intro m1
  have m0 : 0 ≤ m := by rw [hm]; positivity
  have δ0 : 0 ≤ δ := by rw [hδ]; positivity
  have δ1 : δ ≤ 1 := by rw [hδ, div_le_one P0]; exact pp0
  have K : (0:ℝ) < 1.4 * 287.05287 := by norm_num
  have hsq : (e / √(1.4 * 287.05287 * T0)) ^ 2 = (1 + η) * δ * m ^ 2 := by
    rw [← gas, hm, div_pow, div_pow, div_pow, Real.sq_sqrt (by positivity), Real.sq_sqrt (by positivity), Real.sq_sqrt (by positivity)]
    field_simp
  have hcas : e * (1 + (1 - δ) * m ^ 2 * (1 / 8 + 3 / 640 * (1 - 9 * δ) * m ^ 2)) / √(1.4 * 287.05287 * T0) =
      e / √(1.4 * 287.05287 * T0) * casFactor δ (m ^ 2) := by unfold casFactor; ring
  rw [hcas]
  have main := C110_series δ0 δ1 m0 m1
  have y0 : 0 ≤ m ^ 2 := by positivity
  have y1 : m ^ 2 ≤ 1 := by nlinarith
  obtain ⟨q, F, -, F0, F1, hF, -⟩ := cas_rest (u := 1 - δ) (by linarith) (by linarith) y0 y1
  rw [show 1 - (1 - δ) = δ by ring] at hF
  rw [abs_le] at hη
  have z1 : 0.2 * (δ * m ^ 2 * casFactor δ (m ^ 2) ^ 2) ≤ 0.28 ∧ 0 ≤ 0.2 * (δ * m ^ 2 * casFactor δ (m ^ 2) ^ 2) := by
    refine ⟨?_, by positivity⟩
    rw [hF]
    have : δ * m ^ 2 * F ≤ 1 * 1 * 1.28 := mul_le_mul (mul_le_mul δ1 y1 y0 zero_le_one) F1 F0 (by norm_num)
    norm_num at this ⊢; linarith
  have z2 : 0.2 * ((1 + η) * (δ * m ^ 2 * casFactor δ (m ^ 2) ^ 2)) ≤ 0.28 ∧ 0 ≤ 0.2 * ((1 + η) * (δ * m ^ 2 * casFactor δ (m ^ 2) ^ 2)) := by
    have e1 : 0 ≤ 1 + η := by norm_num at hη; linarith
    refine ⟨?_, by positivity⟩
    rw [hF]
    have : δ * m ^ 2 * F ≤ 1 * 1 * 1.28 := mul_le_mul (mul_le_mul δ1 y1 y0 zero_le_one) F1 F0 (by norm_num)
    have h3 : (1 + η) * (δ * m ^ 2 * F) ≤ 1.01 * (1 * 1 * 1.28) := mul_le_mul (by norm_num at hη ⊢; linarith) this (by positivity) (by norm_num)
    norm_num at h3 ⊢; linarith
  have lip := pow35_lip z1.2 z1.1 z2.2 z2.1
  have dz : 0.2 * ((1 + η) * (δ * m ^ 2 * casFactor δ (m ^ 2) ^ 2)) - 0.2 * (δ * m ^ 2 * casFactor δ (m ^ 2) ^ 2) = η * (0.2 * (δ * m ^ 2 * F)) := by
    rw [hF]; ring
  have lip2 : 16 * |0.2 * ((1 + η) * (δ * m ^ 2 * casFactor δ (m ^ 2) ^ 2)) - 0.2 * (δ * m ^ 2 * casFactor δ (m ^ 2) ^ 2)| ≤ 4.1 * |η| * (δ * m ^ 2) := by
    rw [dz, abs_mul, abs_of_nonneg (by positivity : 0 ≤ 0.2 * (δ * m ^ 2 * F))]
    have : δ * m ^ 2 * F ≤ δ * m ^ 2 * 1.28 := mul_le_mul_of_nonneg_left F1 (by positivity)
    have h4 := mul_le_mul_of_nonneg_left this (abs_nonneg η)
    have h5 : 0 ≤ |η| * (δ * m ^ 2) := by positivity
    norm_num at h4 ⊢
    nlinarith
  have ecas : (e / √(1.4 * 287.05287 * T0) * casFactor δ (m ^ 2)) ^ 2 = (1 + η) * (δ * m ^ 2 * casFactor δ (m ^ 2) ^ 2) := by
    rw [mul_pow, hsq]; ring
  have tot : |impact (e / √(1.4 * 287.05287 * T0) * casFactor δ (m ^ 2)) - δ * impact m| ≤ 0.01 * δ * m ^ 8 + 4.1 * |η| * (δ * m ^ 2) := by
    have e0 : impact (e / √(1.4 * 287.05287 * T0) * casFactor δ (m ^ 2)) = (1 + 0.2 * ((1 + η) * (δ * m ^ 2 * casFactor δ (m ^ 2) ^ 2))) ^ (3.5 : ℝ) - 1 := by
      unfold impact; rw [ecas]
    rw [e0]
    have l3 := lip.trans lip2
    generalize (1 + 0.2 * ((1 + η) * (δ * m ^ 2 * casFactor δ (m ^ 2) ^ 2))) ^ (3.5 : ℝ) = x at *
    generalize (1 + 0.2 * (δ * m ^ 2 * casFactor δ (m ^ 2) ^ 2)) ^ (3.5 : ℝ) = x' at *
    calc |x - 1 - δ * impact m| = |(x' - 1 - δ * impact m) + (x - x')| := by congr 1; ring
      _ ≤ _ := (abs_add_le _ _).trans (add_le_add main l3)
  have pe : p = p0 * δ := by rw [hδ]; field_simp
  have fin := mul_le_mul_of_nonneg_left tot P0.le
  rw [← abs_of_pos P0, ← abs_mul, abs_of_pos P0] at fin
  rw [pe]
  calc |p0 * impact (e / √(1.4 * 287.05287 * T0) * casFactor δ (m ^ 2)) - p0 * δ * impact m|
      = |p0 * (impact (e / √(1.4 * 287.05287 * T0) * casFactor δ (m ^ 2)) - δ * impact m)| := by congr 1; ring
    _ ≤ p0 * (0.01 * δ * m ^ 8 + 4.1 * |η| * (δ * m ^ 2)) := fin
    _ = _ := by ring

/-- In the ISA, at any altitude from sea level to 50 km and any temperature offset: a pitot tube at the calibrated airspeed at sea level
sees the impact pressure of the flight at altitude, up to one per cent of the static pressure times the eighth power of the Mach number
(and three millionths of the static pressure times its square, from the rounded constants of the ISA). -/
theorem C110_isa {off h e : ℝ} (h0 : 0 ≤ h) (h1 : h ≤ 50000) (ho : -216.65 < off) (he : 0 ≤ e) :
    ∃ cas m, mpseas2mpscas (.isa off) e h = .ok (cas, m) ∧ 0 ≤ m ∧
      (m ≤ 1 → |isapress 0 * impact (cas / √(1.4 * 287.05287 * (288.15 + off))) - isapress h * impact m| ≤
        isapress h * (0.01 * m ^ 8 + 3e-6 * m ^ 2)) := by
  have tb := C11_bounds off h
  have tb0 := C11_bounds off 0
  have hT : 0 < isatemp off h := by linarith [tb.1]
  have hT0 : 0 < isatemp off 0 := by linarith [tb0.1]
  have eT0 : isatemp off 0 = 288.15 + off := by norm_num [isatemp, Level1, A1, B1]
  have p := C12_positive h
  have p0 := C12_positive 0
  have pd := C13_positive off h hT
  have pd0 := C13_positive off 0 hT0
  have g := C14_ideal_gas off h (by linarith) hT
  have g0 := C14_ideal_gas off 0 (by norm_num) hT0
  obtain ⟨x, hx⟩ : ∃ x, x = 287.05287 * isadens off h * isatemp off h := ⟨_, rfl⟩
  obtain ⟨x0, hx0⟩ : ∃ x, x = 287.05287 * isadens off 0 * isatemp off 0 := ⟨_, rfl⟩
  rw [← hx] at g; rw [← hx0] at g0
  have xp : 0 < x := by rw [hx]; positivity
  have xp0 : 0 < x0 := by rw [hx0]; positivity
  obtain ⟨η, hη⟩ : ∃ η, η = x / x0 / (isapress h / isapress 0) - 1 := ⟨_, rfl⟩
  have eη : |η| ≤ 7e-7 := by
    rw [hη]
    have e1 : x / x0 / (isapress h / isapress 0) - 1 = (x * isapress 0 - x0 * isapress h) / (x0 * isapress h) := by field_simp
    rw [e1, abs_div, abs_of_pos (by positivity : 0 < x0 * isapress h), div_le_iff₀ (by positivity)]
    rw [abs_le] at g g0
    norm_num at g g0
    rw [abs_le]
    norm_num
    constructor <;> nlinarith [mul_pos xp xp0, mul_pos xp p0, mul_pos xp0 p]
  have gas : isadens off h * isatemp off h / (isadens off 0 * isatemp off 0) = (1 + η) * (isapress h / isapress 0) := by
    rw [hη, hx, hx0]; field_simp; ring
  obtain ⟨cas, m, r1, r2, r3⟩ := C110_gas (.isa off) (e := e) (isa_dens1 off h h1) (isa_dens1 off 0 (by norm_num)) pd pd0 (isa_press1 off h h1)
    (isa_press1 off 0 (by norm_num)) p (isapress_le_sl h h0) hT hT0 (isa_vsound off h h1 hT.le) gas (eη.trans (by norm_num)) he
  refine ⟨cas, m, r1, r2, fun hm => ?_⟩
  have := r3 hm
  rw [eT0] at this
  refine this.trans ?_
  have k : 4.1 * |η| * (isapress h * m ^ 2) ≤ 3e-6 * (isapress h * m ^ 2) := by
    apply mul_le_mul_of_nonneg_right _ (by positivity)
    norm_num at eη ⊢; linarith
  have e2 : isapress h * (0.01 * m ^ 8 + 3e-6 * m ^ 2) = 0.01 * isapress h * m ^ 8 + 3e-6 * (isapress h * m ^ 2) := by ring
  rw [e2]
  linarith

/-- At 150 m/s equivalent airspeed and 5 km. -/
example : ∃ cas m, mpseas2mpscas (.isa 0) 150 5000 = .ok (cas, m) ∧ 0 ≤ m ∧
      (m ≤ 1 → |isapress 0 * impact (cas / √(1.4 * 287.05287 * (288.15 + 0))) - isapress 5000 * impact m| ≤
        isapress 5000 * (0.01 * m ^ 8 + 3e-6 * m ^ 2)) :=
  C110_isa (by norm_num) (by norm_num) (by norm_num) (by norm_num)

end

end Verif.Props
