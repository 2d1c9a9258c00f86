import Verif.Model.Float

/-
binary64 rounding has the properties of `Rounding`.
-/

namespace Verif.Fl

theorem roundEven_near (z : ℝ) : |(roundEven z : ℝ) - z| ≤ 1 / 2 := by
  have h0 := Int.floor_le z
  have h1 := Int.lt_floor_add_one z
  unfold roundEven
  split_ifs with a b c <;> push_cast <;> rw [abs_le] <;> constructor <;> linarith

theorem roundEven_int (n : ℤ) : roundEven n = n := by
  unfold roundEven
  simp

theorem roundEven_mono : Monotone roundEven := by
  intro x y h
  have hf := Int.floor_le_floor h
  rcases hf.lt_or_eq with hlt | heq
  · have h1 : roundEven x ≤ ⌊x⌋ + 1 := by unfold roundEven; split_ifs <;> omega
    have h2 : ⌊y⌋ ≤ roundEven y := by unfold roundEven; split_ifs <;> omega
    omega
  · unfold roundEven
    rw [← heq]
    split_ifs <;> first | omega | (exfalso; linarith) | skip

theorem roundEven_neg (z : ℝ) : roundEven (-z) = -roundEven z := by
  have h0 := Int.floor_le z
  have h1 := Int.lt_floor_add_one z
  by_cases hz : z = ⌊z⌋
  · rw [hz]
    have : (-(⌊z⌋ : ℝ)) = ((-⌊z⌋ : ℤ) : ℝ) := by push_cast; rfl
    rw [this, roundEven_int, roundEven_int]
  · have hlt : (⌊z⌋ : ℝ) < z := lt_of_le_of_ne h0 (Ne.symm hz)
    have hf : ⌊-z⌋ = -⌊z⌋ - 1 := by
      rw [Int.floor_eq_iff]; push_cast; constructor <;> linarith
    unfold roundEven
    rw [hf]
    have he : Even (-⌊z⌋ - 1) ↔ ¬ Even ⌊z⌋ := by
      rw [Int.even_sub_one, even_neg]
    simp only [he]
    push_cast
    split_ifs <;> first | omega | (exfalso; linarith) | tauto

theorem ulp_pos (x : ℝ) : 0 < ulp x := by unfold ulp; positivity

theorem ulp_neg (x : ℝ) : ulp (-x) = ulp x := by unfold ulp; rw [abs_neg]

theorem rd64_neg (x : ℝ) : rd64 (-x) = -rd64 x := by
  unfold rd64
  by_cases hx : x = 0
  · simp [hx]
  · rw [if_neg (by simpa using hx), if_neg hx, ulp_neg, neg_div, roundEven_neg]; push_cast; ring

theorem ulp_le (x : ℝ) (hx : x ≠ 0) : ulp x ≤ |x| * (2 : ℝ) ^ (-52 : ℤ) := by
  unfold ulp
  rw [zpow_sub₀ (by norm_num), div_eq_mul_inv, ← zpow_neg]
  have := Int.zpow_log_le_self (b := 2) (by norm_num) (abs_pos.2 hx)
  push_cast at this
  exact mul_le_mul_of_nonneg_right this (by positivity)

theorem rd64_err (x : ℝ) : |rd64 x - x| ≤ (2 : ℝ) ^ (-53 : ℤ) * |x| := by
  unfold rd64
  by_cases hx : x = 0
  · simp [hx]
  rw [if_neg hx]
  have hu := ulp_pos x
  have h := roundEven_near (x / ulp x)
  have : (roundEven (x / ulp x) : ℝ) * ulp x - x = ((roundEven (x / ulp x) : ℝ) - x / ulp x) * ulp x := by
    field_simp
  rw [this, abs_mul, abs_of_pos hu]
  calc |(roundEven (x / ulp x) : ℝ) - x / ulp x| * ulp x ≤ 1 / 2 * ulp x := by gcongr
    _ ≤ 1 / 2 * (|x| * (2 : ℝ) ^ (-52 : ℤ)) := by gcongr; exact ulp_le x hx
    _ = (2 : ℝ) ^ (-53 : ℤ) * |x| := by norm_num; ring

/-- Between powers of two the rounded number stays between them. -/
theorem rd64_binade (x : ℝ) (hx : 0 < x) :
    (2 : ℝ) ^ (Int.log 2 x) ≤ rd64 x ∧ rd64 x ≤ (2 : ℝ) ^ (Int.log 2 x + 1) := by
  unfold rd64
  rw [if_neg hx.ne']
  have hu := ulp_pos x
  have h1 := Int.zpow_log_le_self (b := 2) (r := x) (by norm_num) hx
  have h2 := Int.lt_zpow_succ_log_self (b := 2) (by norm_num) x
  push_cast at h1 h2
  have e1 : (2 : ℝ) ^ (Int.log 2 x) = ((2 ^ 52 : ℤ) : ℝ) * ulp x := by
    unfold ulp; rw [abs_of_pos hx, zpow_sub₀ (by norm_num)]; push_cast; field_simp; norm_num
  have e2 : (2 : ℝ) ^ (Int.log 2 x + 1) = ((2 ^ 53 : ℤ) : ℝ) * ulp x := by
    rw [zpow_add₀ (by norm_num), e1]; push_cast; ring
  constructor
  · rw [e1] at h1 ⊢
    have : (2 ^ 52 : ℤ) ≤ roundEven (x / ulp x) := by
      rw [← roundEven_int (2 ^ 52)]; exact roundEven_mono ((le_div_iff₀ hu).2 h1)
    have : ((2 ^ 52 : ℤ) : ℝ) ≤ (roundEven (x / ulp x) : ℝ) := by exact_mod_cast this
    gcongr
  · rw [e2] at h2 ⊢
    have : roundEven (x / ulp x) ≤ (2 ^ 53 : ℤ) := by
      rw [← roundEven_int (2 ^ 53)]; exact roundEven_mono ((div_le_iff₀ hu).2 h2.le)
    have : (roundEven (x / ulp x) : ℝ) ≤ ((2 ^ 53 : ℤ) : ℝ) := by exact_mod_cast this
    gcongr

theorem rd64_mono_pos (x y : ℝ) (hx : 0 < x) (h : x ≤ y) : rd64 x ≤ rd64 y := by
  have hy : 0 < y := hx.trans_le h
  have hl : Int.log 2 x ≤ Int.log 2 y := Int.log_mono_right hx h
  rcases hl.lt_or_eq with hlt | heq
  · refine (rd64_binade x hx).2.trans (le_trans ?_ (rd64_binade y hy).1)
    exact zpow_le_zpow_right₀ (by norm_num) (by omega)
  · unfold rd64
    rw [if_neg hx.ne', if_neg hy.ne']
    have : ulp x = ulp y := by unfold ulp; rw [abs_of_pos hx, abs_of_pos hy, heq]
    rw [this]
    have hu := ulp_pos y
    have : roundEven (x / ulp y) ≤ roundEven (y / ulp y) := roundEven_mono (by gcongr)
    have : (roundEven (x / ulp y) : ℝ) ≤ (roundEven (y / ulp y) : ℝ) := by exact_mod_cast this
    gcongr

theorem rd64_pos (x : ℝ) (hx : 0 < x) : 0 < rd64 x :=
  lt_of_lt_of_le (by positivity) (rd64_binade x hx).1

theorem rd64_mono : Monotone rd64 := by
  intro x y h
  rcases lt_trichotomy x 0 with hx | hx | hx
  · rcases lt_trichotomy y 0 with hy | hy | hy
    · have := rd64_mono_pos (-y) (-x) (by linarith) (by linarith)
      rw [rd64_neg, rd64_neg] at this; linarith
    · have := rd64_pos (-x) (by linarith)
      rw [rd64_neg] at this
      have h0 : rd64 y = 0 := by simp [rd64, hy]
      rw [h0]; linarith
    · have := rd64_pos (-x) (by linarith)
      rw [rd64_neg] at this
      have := rd64_pos y hy
      linarith
  · have h0 : rd64 x = 0 := by simp [rd64, hx]
    rw [h0]
    rcases (hx ▸ h : (0 : ℝ) ≤ y).eq_or_lt with hy | hy
    · simp [rd64, ← hy]
    · exact (rd64_pos y hy).le
  · exact rd64_mono_pos x y hx h

/-- IEEE 754 binary64 as a rounding, without the bounds of the exponent. -/
noncomputable def binary64 : Rounding where
  rd := rd64
  u := (2 : ℝ) ^ (-53 : ℤ)
  u_nonneg := by positivity
  u_lt := by norm_num
  err := rd64_err
  mono := rd64_mono

/-- Numbers with at most 53 binary digits are not changed. -/
theorem rd64_exact (x : ℝ) (k e : ℤ) (hx : x = k * (2 : ℝ) ^ e) (hk : |k| ≤ 2 ^ 53) : rd64 x = x := by
  by_cases h0 : x = 0
  · simp [rd64, h0]
  have hle : e ≤ Int.log 2 |x| - 52 ∨ |k| = 2 ^ 53 ∨ Int.log 2 |x| - 52 < e := by omega
  unfold rd64
  rw [if_neg h0]
  have hu := ulp_pos x
  -- the spacing is at most `2 ^ e`, or `x` is itself a multiple
  have key : ∃ n : ℤ, x / ulp x = n := by
    have habs : |x| = |(k : ℝ)| * (2 : ℝ) ^ e := by rw [hx, abs_mul, abs_of_pos (by positivity : (0 : ℝ) < 2 ^ e)]
    by_cases hc : Int.log 2 |x| - 52 ≤ e
    · refine ⟨k * 2 ^ (e - (Int.log 2 |x| - 52)).toNat, ?_⟩
      have : ((2 : ℝ) ^ (e - (Int.log 2 |x| - 52)).toNat) = (2 : ℝ) ^ (e - (Int.log 2 |x| - 52)) := by
        rw [← zpow_natCast, Int.toNat_of_nonneg (by omega)]
      push_cast
      rw [this, zpow_sub₀ (by norm_num)]
      unfold ulp
      nth_rewrite 1 [hx]
      ring
    · -- then `|x| ≥ 2 ^ (e + 53)`, so `|k| = 2 ^ 53`
      have hlog := Int.zpow_log_le_self (b := 2) (r := |x|) (by norm_num) (abs_pos.2 h0)
      push_cast at hlog
      have h1 : (2 : ℝ) ^ (e + 53) ≤ (2 : ℝ) ^ (Int.log 2 |x|) := zpow_le_zpow_right₀ (by norm_num) (by omega)
      have hk' : |(k : ℝ)| ≤ 2 ^ 53 := by exact_mod_cast hk
      have h2 : |x| ≤ (2 : ℝ) ^ (e + 53) := by
        rw [habs, zpow_add₀ (by norm_num)]
        have : (0 : ℝ) < 2 ^ e := by positivity
        calc |(k : ℝ)| * 2 ^ e ≤ 2 ^ 53 * 2 ^ e := by gcongr
          _ = _ := by norm_num; ring
      have h3 : |x| = (2 : ℝ) ^ (e + 53) := le_antisymm h2 (h1.trans hlog)
      have h4 : Int.log 2 |x| = e + 53 := by rw [h3]; exact_mod_cast Int.log_zpow (R := ℝ) (b := 2) (by norm_num) (e + 53)
      have h5 : |(k : ℝ)| = 2 ^ 53 := by
        have h6 : |(k : ℝ)| * (2 : ℝ) ^ e = 2 ^ 53 * (2 : ℝ) ^ e := by
          rw [← habs, h3, zpow_add₀ (by norm_num)]; norm_num; ring
        exact mul_right_cancel₀ (by positivity) h6
      have hul : ulp x = (2 : ℝ) ^ e * 2 := by
        unfold ulp; rw [h4, show e + 53 - 52 = e + 1 by ring, zpow_add₀ (by norm_num)]; norm_num
      have hk2 : k = 2 ^ 53 ∨ k = -2 ^ 53 := by
        have h7 : |k| = 2 ^ 53 := by exact_mod_cast h5
        rcases abs_cases k with ⟨h, _⟩ | ⟨h, _⟩ <;> omega
      have hp : (0 : ℝ) < 2 ^ e := by positivity
      rcases hk2 with hk2 | hk2
      · refine ⟨2 ^ 52, ?_⟩; rw [hul]; nth_rewrite 1 [hx]; rw [hk2]; push_cast; field_simp; norm_num
      · refine ⟨-2 ^ 52, ?_⟩; rw [hul]; nth_rewrite 1 [hx]; rw [hk2]; push_cast; field_simp; norm_num
  obtain ⟨n, hn⟩ := key
  rw [hn, roundEven_int, ← hn]
  field_simp

theorem log_eq (x : ℝ) (n : ℤ) (h1 : (2 : ℝ) ^ n ≤ x) (h2 : x < (2 : ℝ) ^ (n + 1)) : Int.log 2 x = n := by
  have hx : 0 < x := lt_of_lt_of_le (by positivity) h1
  have a : n ≤ Int.log 2 x := (Int.zpow_le_iff_le_log (b := 2) (by norm_num) hx).1 (by exact_mod_cast h1)
  have b : Int.log 2 x < n + 1 := (Int.lt_zpow_iff_log_lt (b := 2) (by norm_num) hx).1 (by exact_mod_cast h2)
  omega

theorem roundEven_eq (z : ℝ) (k : ℤ) (h : |z - k| < 1 / 2) : roundEven z = k := by
  have h1 := roundEven_near z
  rw [abs_le] at h1
  rw [abs_lt] at h
  have h2 : ((roundEven z : ℤ) : ℝ) < ((k + 1 : ℤ) : ℝ) := by push_cast; linarith [h1.2, h.1, h.2]
  have h3 : ((k - 1 : ℤ) : ℝ) < ((roundEven z : ℤ) : ℝ) := by push_cast; linarith [h1.1, h.1, h.2]
  have h4 : roundEven z < k + 1 := by exact_mod_cast h2
  have h5 : k - 1 < roundEven z := by exact_mod_cast h3
  omega

/-- The binary64 number next to a positive number. -/
theorem rd64_eval (x : ℝ) (k e : ℤ) (h1 : (2 : ℝ) ^ (e + 52) ≤ x) (h2 : x < (2 : ℝ) ^ (e + 53))
    (h3 : |x - k * (2 : ℝ) ^ e| < (2 : ℝ) ^ e / 2) : rd64 x = k * (2 : ℝ) ^ e := by
  have hx : 0 < x := lt_of_lt_of_le (by positivity) h1
  have hp : (0 : ℝ) < (2 : ℝ) ^ e := by positivity
  have hl : Int.log 2 x = e + 52 := log_eq x (e + 52) h1 (by rw [show e + 52 + 1 = e + 53 by ring]; exact h2)
  have hu : ulp x = (2 : ℝ) ^ e := by unfold ulp; rw [abs_of_pos hx, hl]; congr 1; ring
  unfold rd64
  rw [if_neg hx.ne', hu, roundEven_eq _ k]
  rw [show x / (2 : ℝ) ^ e - k = (x - k * (2 : ℝ) ^ e) / (2 : ℝ) ^ e by field_simp, abs_div, abs_of_pos hp, div_lt_iff₀ hp]
  linarith

/-- The same for a number half way between two binary64 numbers: the one with the even significand. -/
theorem rd64_tie (x : ℝ) (k e : ℤ) (h1 : (2 : ℝ) ^ (e + 52) ≤ x) (h2 : x < (2 : ℝ) ^ (e + 53))
    (h3 : |x - k * (2 : ℝ) ^ e| = (2 : ℝ) ^ e / 2) (hk : Even k) : rd64 x = k * (2 : ℝ) ^ e := by
  have hx : 0 < x := lt_of_lt_of_le (by positivity) h1
  have hp : (0 : ℝ) < (2 : ℝ) ^ e := by positivity
  have hl : Int.log 2 x = e + 52 := log_eq x (e + 52) h1 (by rw [show e + 52 + 1 = e + 53 by ring]; exact h2)
  have hu : ulp x = (2 : ℝ) ^ e := by unfold ulp; rw [abs_of_pos hx, hl]; congr 1; ring
  unfold rd64
  rw [if_neg hx.ne', hu]
  have h4 : |x / (2 : ℝ) ^ e - k| = 1 / 2 := by
    rw [show x / (2 : ℝ) ^ e - k = (x - k * (2 : ℝ) ^ e) / (2 : ℝ) ^ e by field_simp, abs_div, abs_of_pos hp, h3]
    field_simp
  have : roundEven (x / (2 : ℝ) ^ e) = k := by
    generalize x / (2 : ℝ) ^ e = z at h4
    unfold roundEven
    rcases abs_eq (by norm_num : (0:ℝ) ≤ 1 / 2) |>.mp h4 with h | h
    · have hf : ⌊z⌋ = k := by rw [Int.floor_eq_iff]; constructor <;> linarith
      rw [hf, if_neg (by linarith), if_neg (by linarith), if_pos hk]
    · have hf : ⌊z⌋ = k - 1 := by rw [Int.floor_eq_iff]; push_cast; constructor <;> linarith
      rw [hf]; push_cast
      rw [if_neg (by linarith), if_neg (by linarith), if_neg]
      · ring
      · rw [Int.even_sub_one]; exact not_not.mpr hk
  rw [this]

end Verif.Fl
