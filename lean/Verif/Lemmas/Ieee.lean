import Verif.Model.Ieee
import Verif.Lemmas.Float
import Verif.Lemmas.Tac

/-! Range of the exponent: `Mag k x` says that `x` lies between `2⁻ᵏ` and `2ᵏ`. -/

namespace Verif.Ieee
open Verif.Fl (rd64 binary64 Libm Rounding)

noncomputable section

/-- `x` lies between `2⁻ᵏ` and `2ᵏ`. -/
def Mag (k : ℕ) (x : ℝ) : Prop := 1 ≤ (2 : ℝ) ^ k * x ∧ x ≤ (2 : ℝ) ^ k

theorem Mag.pos {k : ℕ} {x : ℝ} (h : Mag k x) : 0 < x := by
  by_contra hx
  have : (2 : ℝ) ^ k * x ≤ 0 := mul_nonpos_of_nonneg_of_nonpos (by positivity) (not_lt.1 hx)
  linarith [h.1]

theorem Mag.weaken {k n : ℕ} {x : ℝ} (h : Mag k x) (hn : k ≤ n) : Mag n x := by
  have hp : (2 : ℝ) ^ k ≤ (2 : ℝ) ^ n := pow_le_pow_right₀ (by norm_num) hn
  exact ⟨h.1.trans (mul_le_mul_of_nonneg_right hp h.pos.le), h.2.trans hp⟩

theorem Mag.lower {k : ℕ} {x : ℝ} (h : Mag k x) : (2 : ℝ) ^ (-(k : ℤ)) ≤ x := by
  rw [zpow_neg, zpow_natCast, inv_le_iff_one_le_mul₀ (by positivity), mul_comm]
  exact h.1

theorem Mag.mk' {k : ℕ} {x : ℝ} (h1 : (2 : ℝ) ^ (-(k : ℤ)) ≤ x) (h2 : x ≤ (2 : ℝ) ^ k) : Mag k x := by
  refine ⟨?_, h2⟩
  rw [zpow_neg, zpow_natCast, inv_le_iff_one_le_mul₀ (by positivity), mul_comm] at h1
  exact h1

theorem Mag.mul {a b : ℕ} {x y : ℝ} (hx : Mag a x) (hy : Mag b y) : Mag (a + b) (x * y) := by
  have px := hx.pos
  have py := hy.pos
  constructor
  · have := mul_le_mul hx.1 hy.1 (by norm_num) (by positivity)
    rw [pow_add]
    linarith
  · rw [pow_add]
    exact mul_le_mul hx.2 hy.2 py.le (by positivity)

theorem Mag.inv {a : ℕ} {x : ℝ} (hx : Mag a x) : Mag a x⁻¹ := by
  have px := hx.pos
  constructor
  · rw [← div_eq_mul_inv, le_div_iff₀ px]
    linarith [hx.2]
  · rw [inv_le_iff_one_le_mul₀ px]
    exact hx.1

theorem Mag.div {a b : ℕ} {x y : ℝ} (hx : Mag a x) (hy : Mag b y) : Mag (a + b) (x / y) := by
  rw [div_eq_mul_inv]
  exact hx.mul hy.inv

theorem Mag.add {a b : ℕ} {x y : ℝ} (hx : Mag a x) (hy : Mag b y) : Mag (max a b + 1) (x + y) := by
  have h1 := hx.weaken (le_max_left a b)
  have h2 := hy.weaken (le_max_right a b)
  have px := hx.pos
  have py := hy.pos
  have pp : (0 : ℝ) < 2 ^ max a b := by positivity
  have := mul_pos pp py
  constructor
  · rw [pow_succ]
    linarith [h1.1, mul_pos pp px]
  · rw [pow_succ]
    linarith [h1.2, h2.2]

theorem Mag.sqrt {a : ℕ} {x : ℝ} (hx : Mag (2 * a) x) : Mag a √x := by
  have px := hx.pos
  constructor
  · have : √((1 / 2 ^ a) ^ 2) ≤ √x := by
      apply Real.sqrt_le_sqrt
      rw [div_pow, one_pow, ← pow_mul, mul_comm a 2, div_le_iff₀ (by positivity)]
      linarith [hx.1]
    rw [Real.sqrt_sq (by positivity), div_le_iff₀ (by positivity)] at this
    linarith
  · apply Real.sqrt_le_iff.2 ⟨by positivity, ?_⟩
    rw [← pow_mul, mul_comm a 2]
    exact hx.2

theorem Mag.rd {a : ℕ} {x : ℝ} (hx : Mag a x) : Mag a (rd64 x) := by
  have e1 : rd64 ((2 : ℝ) ^ (a : ℤ)) = (2 : ℝ) ^ (a : ℤ) := Fl.rd64_exact _ 1 a (by simp) (by norm_num)
  have e2 : rd64 ((2 : ℝ) ^ (-(a : ℤ))) = (2 : ℝ) ^ (-(a : ℤ)) := Fl.rd64_exact _ 1 (-(a : ℤ)) (by simp) (by norm_num)
  refine Mag.mk' ?_ ?_
  · rw [← e2]
    exact Fl.rd64_mono hx.lower
  · have := Fl.rd64_mono hx.2
    rw [← zpow_natCast, e1, zpow_natCast] at this
    exact this

/-- Results within the range are rounded as if the exponent had no bounds. -/
theorem ieee_ok {k : ℕ} {x : ℝ} (h : Mag k x) (hk : k ≤ 1000) : ieee x = some (rd64 x) := by
  have r := h.rd
  have e1 : ¬ ((2 : ℝ) ^ (1024 : ℤ) ≤ |rd64 x|) := by
    rw [abs_of_pos r.pos, not_le]
    refine r.2.trans_lt ?_
    rw [← zpow_natCast]
    exact zpow_lt_zpow_right₀ (by norm_num) (by omega)
  have e2 : ¬ (|x| < (2 : ℝ) ^ (-1022 : ℤ)) := by
    rw [abs_of_pos h.pos, not_lt]
    exact (zpow_le_zpow_right₀ (by norm_num) (by omega)).trans h.lower
  unfold ieee
  rw [if_neg e1, if_neg e2]

theorem ieee_zero : ieee 0 = some 0 := by
  have h0 : rd64 0 = 0 := by simp [rd64]
  have h1 : Fl.roundEven 0 = 0 := by simp [Fl.roundEven]
  unfold ieee
  rw [h0, abs_zero, if_neg (not_le.2 (by positivity)), if_pos (by positivity), zero_div, h1]
  simp

/-- The library as seen inside the range. -/
def CLib.lib (L : CLib) : Libm binary64 where
  pow x y := if |(L.pow x y).getD 0 - x ^ y| ≤ 2 * (2 : ℝ) ^ (-53 : ℤ) * x ^ y then (L.pow x y).getD 0 else x ^ y
  pow_err x y hx := by
    split
    · rename_i h
      exact h
    · simp only [sub_self, abs_zero]
      have := Real.rpow_nonneg hx.le y
      have := binary64.u_nonneg
      positivity
  exp x := Real.exp x
  exp_err x := by
    simp only [sub_self, abs_zero]
    have := binary64.u_nonneg
    positivity
  log1p x := Real.log (1 + x)
  log1p_err x _ := by
    simp only [sub_self, abs_zero]
    have := binary64.u_nonneg
    positivity

theorem CLib.pow_mag (L : CLib) {k : ℕ} {x y : ℝ} (hx : 0 < x) (h : Mag k (x ^ y)) (hk : k ≤ 1000) :
    L.pow x y = some (L.lib.pow x y) ∧ Mag (k + 1) (L.lib.pow x y) := by
  obtain ⟨z, e, hz⟩ := L.pow_ok x y hx ((zpow_le_zpow_right₀ (by norm_num) (by omega)).trans h.lower)
    (h.2.trans (by rw [← zpow_natCast]; exact zpow_le_zpow_right₀ (by norm_num) (by omega)))
  have el : L.lib.pow x y = z := by
    show (if |(L.pow x y).getD 0 - x ^ y| ≤ 2 * (2 : ℝ) ^ (-53 : ℤ) * x ^ y then (L.pow x y).getD 0 else x ^ y) = z
    rw [e, Option.getD_some, if_pos hz]
  rw [el]
  refine ⟨e, ?_⟩
  have hp := h.pos
  have hu : 2 * (2 : ℝ) ^ (-53 : ℤ) ≤ 1 / 2 := by norm_num
  have hz' : |z - x ^ y| ≤ 1 / 2 * x ^ y := hz.trans (mul_le_mul_of_nonneg_right hu hp.le)
  rw [abs_le] at hz'
  have pk : (0 : ℝ) < 2 ^ k := by positivity
  constructor
  · have : (2 : ℝ) ^ k * (x ^ y / 2) ≤ 2 ^ k * z := mul_le_mul_of_nonneg_left (by linarith [hz'.1]) pk.le
    rw [pow_succ]
    linarith [h.1]
  · rw [pow_succ]
    linarith [h.2, hz'.2]

theorem CLib.sq (L : CLib) {k : ℕ} {x : ℝ} (h : Mag k x) (hk : 2 * k ≤ 1000) :
    L.pow x 2 = some (L.lib.pow x 2) ∧ Mag (2 * k + 1) (L.lib.pow x 2) := by
  refine L.pow_mag h.pos ?_ hk
  rw [show (x : ℝ) ^ (2 : ℝ) = x * x by rw [Real.rpow_two]; ring, two_mul]
  exact h.mul h

theorem mag_const {k : ℕ} {x : ℝ} (h1 : 1 ≤ (2 : ℝ) ^ k * x) (h2 : x ≤ (2 : ℝ) ^ k) : Mag k x := ⟨h1, h2⟩

theorem mag_one : Mag 0 1 := by constructor <;> norm_num

/-! The formulas. -/

variable (L : CLib)

theorem kts2mps_ok {k : ℕ} {v : ℝ} (h : Mag k v) (hk : k ≤ 900) :
    kts2mps v = some (Fl.kts2mps binary64 v) ∧ Mag (k + 1) (Fl.kts2mps binary64 v) := by
  have c : Mag 1 0.5144444 := by constructor <;> norm_num
  have a := h.mul c.rd
  refine ⟨?_, a.rd⟩
  unfold kts2mps
  rw [ieee_ok c (by norm_num)]
  exact ieee_ok a (by omega)

theorem mps2kts_ok {k : ℕ} {v : ℝ} (h : Mag k v) (hk : k ≤ 900) :
    mps2kts v = some (Fl.mps2kts binary64 v) ∧ Mag (k + 1) (Fl.mps2kts binary64 v) := by
  have c : Mag 1 1.9438445 := by constructor <;> norm_num
  have a := h.mul c.rd
  refine ⟨?_, a.rd⟩
  unfold mps2kts
  rw [ieee_ok c (by norm_num)]
  exact ieee_ok a (by omega)

theorem fpm2mps_ok {k : ℕ} {v : ℝ} (h : Mag k v) (hk : k ≤ 900) :
    fpm2mps v = some (Fl.fpm2mps binary64 v) ∧ Mag (k + 8) (Fl.fpm2mps binary64 v) := by
  have c : Mag 2 0.3048 := by constructor <;> norm_num
  have d : Mag 6 60 := by constructor <;> norm_num
  have a := h.mul c.rd
  have b := a.rd.div d
  refine ⟨?_, b.rd⟩
  unfold fpm2mps feet2m
  rw [ieee_ok c (by norm_num)]
  show ((ieee (v * rd64 0.3048)).bind fun x => ieee (x / 60)) = _
  rw [ieee_ok a (by omega)]
  exact ieee_ok b (by omega)

theorem dynamicpressure_ok {k n : ℕ} {d v : ℝ} (hd : Mag k d) (hv : Mag n v) (hk : k + 2 * n ≤ 900) :
    dynamicpressure_pa L d v = some (Fl.dynamicpressure_pa binary64 L.lib d v) ∧
      Mag (k + 2 * n + 2) (Fl.dynamicpressure_pa binary64 L.lib d v) := by
  have c : Mag 1 0.5 := by constructor <;> norm_num
  have a := c.mul hd
  obtain ⟨e, p⟩ := L.sq hv (by omega)
  have b := a.rd.mul p
  refine ⟨?_, b.rd.weaken (by omega)⟩
  unfold dynamicpressure_pa
  rw [ieee_ok a (by omega), e]
  exact ieee_ok b (by omega)

theorem eas2tas_ok {k n : ℕ} {d d0 v : ℝ} (hd : Mag k d) (hd0 : Mag k d0) (hv : Mag n v) (hk : 2 * k + n ≤ 900) :
    atm_eas2tas d d0 v = some (Fl.atm_eas2tas binary64 d d0 v) ∧ Mag (k + n) (Fl.atm_eas2tas binary64 d d0 v) := by
  have a := hd.div hd0
  have b := (a.rd.weaken (n := 2 * k) (by omega)).sqrt
  have c := hv.div b.rd
  refine ⟨?_, c.rd.weaken (by omega)⟩
  unfold atm_eas2tas
  rw [ieee_ok a (by omega)]
  show ((ieee √(rd64 (d / d0))).bind fun x => ieee (v / x)) = _
  rw [ieee_ok b (by omega)]
  exact ieee_ok c (by omega)

end

end Verif.Ieee
