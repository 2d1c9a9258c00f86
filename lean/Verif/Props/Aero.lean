import Verif.Model.Constraint
import Verif.Spec.Basic
import Verif.Lemmas.Tac
import Verif.Lemmas.PyM
import Mathlib.Data.Nat.Digits.Lemmas
import Mathlib.Data.List.GetD
import Mathlib.Analysis.SpecialFunctions.Trigonometric.Deriv
import Mathlib.Analysis.SpecialFunctions.Sqrt
import Mathlib.Topology.Order.OrderClosed

/-
Properties C39, C40, C41, C69, C70, C71, C73: aerodynamic estimates.
-/

namespace Verif.Props
open Verif Verif.Aircraft Verif.Units

noncomputable section

/-! ### A concept for the examples -/

/-- A calm constant-density atmosphere between 0 and 10 km. -/
def exAtm : Atmos.Atm := .profile ⟨[0, 10000], [300, 300], [1, 1], [86115.861, 86115.861],
  [Atmos.vsound 300, Atmos.vsound 300]⟩

/-- A light aircraft. -/
def exC : Concept where
  climbalt_m := some 0
  climbspeed_kias := some 100
  climbrate_fpm := some 1000
  cruisealt_m := some 3000
  cruisespeed_ktas := some 150
  cruisethrustfact := some 1
  servceil_m := some 6000
  secclimbspd_kias := some 90
  vstallclean_kcas := some 60
  groundrun_m := some 400
  rwyelevation_m := some 0
  turnalt_m := some 1000
  turnspeed_ktas := some 120
  stloadfactor := some 2
  aspectratio := some 9
  sweep_le_deg := some 0
  sweep_25_deg := some 0
  sweep_mt_deg := some 0
  roottaperratio := some 0.5
  wingarea_m2 := some 12
  wingheightratio := some 0.1
  bpr := some (-1)
  throttle_r := some 1
  weight_n := some 10000
  climb_weight_fraction := some 1
  cruise_weight_fraction := some 1
  sec_weight_fraction := some 1
  turn_weight_fraction := some 1
  cdto := some 0.04
  cdminclean := some 0.025
  mu_r := some 0.03
  clto := some 0.6
  clmaxclean := some 1.5
  clminclean := some (-1)
  clmaxto := some 1.6
  a_0i := some 6
  etaprop_climb := some 0.75
  etaprop_cruise := some 0.85
  etaprop_sec := some 0.75
  etaprop_to := some 0.45
  etaprop_turn := some 0.85
  etadefaultflag := 0
  designatm := exAtm
  propulsion := .str "piston"

/-! ### C39 -/

/-- `d` is one of the digits of `n`. -/
def HasDigit (n d : ℕ) : Prop := ∃ i, 10 ^ i ≤ n ∧ n / 10 ^ i % 10 = d

theorem mem_digits_iff (n d : ℕ) : d ∈ Nat.digits 10 n ↔ HasDigit n d := by
  constructor
  · intro h
    obtain ⟨i, hi, rfl⟩ := List.mem_iff_getElem.mp h
    refine ⟨i, (Nat.lt_digits_length_iff (by norm_num) n).mp hi, ?_⟩
    rw [← Nat.getD_digits n i (by norm_num : 2 ≤ 10), List.getD_eq_getElem _ _ hi]
  · rintro ⟨i, hi, rfl⟩
    have hl := (Nat.lt_digits_length_iff (b := 10) (by norm_num) n).mpr hi
    rw [← Nat.getD_digits n i (by norm_num : 2 ≤ 10), List.getD_eq_getElem _ _ hl]
    exact List.getElem_mem hl

/-- The four efficiency estimates by number. -/
def estimate (c : Concept) (m : Option ℝ) : ℕ → ℝ
  | 1 => oswaldspaneff1 c
  | 2 => oswaldspaneff2 c
  | 3 => oswaldspaneff3 c
  | _ => oswaldspaneff4 c (some (m.getD 0.3))

open Classical in
/-- The methods selected: digits between 1 and 4. -/
def chosen (n : ℕ) : Finset ℕ := Finset.filter (HasDigit n) {1, 2, 3, 4}

theorem oswaldlist_spec (c : Concept) (n : ℕ) (m : Option ℝ) :
    ∃ l, oswaldlist c (some (n : ℤ)) m = .ok l ∧ l.sum = ∑ i ∈ chosen n, estimate c m i ∧
      l.length = (chosen n).card := by
  refine ⟨_, by simp only [oswaldlist, not_lt.mpr (Int.natCast_nonneg n), if_false]; rfl, ?_, ?_⟩
  · simp only [Int.toNat_natCast, chosen, ← mem_digits_iff]
    by_cases h1 : 1 ∈ Nat.digits 10 n <;> by_cases h2 : 2 ∈ Nat.digits 10 n <;>
      by_cases h3 : 3 ∈ Nat.digits 10 n <;> by_cases h4 : 4 ∈ Nat.digits 10 n <;>
      simp [h1, h2, h3, h4, Finset.filter_insert, Finset.filter_singleton, estimate]
  · simp only [Int.toNat_natCast, chosen, ← mem_digits_iff]
    by_cases h1 : 1 ∈ Nat.digits 10 n <;> by_cases h2 : 2 ∈ Nat.digits 10 n <;>
      by_cases h3 : 3 ∈ Nat.digits 10 n <;> by_cases h4 : 4 ∈ Nat.digits 10 n <;>
      simp [h1, h2, h3, h4, Finset.filter_insert, Finset.filter_singleton]

/-- A non-negative selector gives the factor for the mean of the selected estimates. -/
theorem C39_mean (c : Concept) (n : ℕ) (m : Option ℝ) (h : (chosen n).Nonempty) :
    induceddragfact c (some (n : ℤ)) m =
      .ok (1 / (Real.pi * pyNum c.aspectratio *
        ((∑ i ∈ chosen n, estimate c m i) / (chosen n).card))) := by
  obtain ⟨l, hl, hs, hc⟩ := oswaldlist_spec c n m
  have hpos : 0 < (chosen n).card := Finset.card_pos.mpr h
  simp only [induceddragfact, hl, bind_ok, hs, hc, hpos, gt_iff_lt, if_true]
  rfl

example (c : Concept) : (chosen 24).Nonempty ∧ induceddragfact c (some ((24 : ℕ) : ℤ)) none =
    .ok (1 / (Real.pi * pyNum c.aspectratio * ((∑ i ∈ chosen 24, estimate c none i) / (chosen 24).card))) := by
  have h : (chosen 24).Nonempty := ⟨2, by
    simp only [chosen, Finset.mem_filter]
    exact ⟨by simp, 1, by norm_num⟩⟩
  exact ⟨h, C39_mean c 24 none h⟩

/-- Without a digit between 1 and 4, or without an integer selector, methods 2 and 4 are averaged. -/
theorem C39_default (c : Concept) (n : ℕ) (m : Option ℝ) (h : ∀ i, 1 ≤ i → i ≤ 4 → ¬ HasDigit n i) :
    induceddragfact c (some (n : ℤ)) m = induceddragfact c none m ∧
    induceddragfact c none m = .ok (1 / (Real.pi * pyNum c.aspectratio *
      ((oswaldspaneff2 c + oswaldspaneff4 c none) / 2))) := by
  constructor
  · obtain ⟨l, hl, hs, hc⟩ := oswaldlist_spec c n m
    have h0 : (chosen n).card = 0 := by
      rw [Finset.card_eq_zero]
      simp only [chosen, Finset.filter_eq_empty_iff]
      intro i hi
      simp only [Finset.mem_insert, Finset.mem_singleton] at hi
      exact h i (by omega) (by omega)
    have hn : l.length = 0 := by omega
    have hn2 : l = [] := List.length_eq_zero_iff.mp hn
    subst hn2
    rw [induceddragfact, hl]; rfl
  · simp only [induceddragfact, oswaldlist, bind_ok, List.length_nil, gt_iff_lt, lt_irrefl, if_false,
      oswaldspaneff4, Option.getD_some, Option.getD_none]
    show Except.ok _ = Except.ok _
    congr 2
    ring

example (c : Concept) : induceddragfact c (some ((579 : ℕ) : ℤ)) none = induceddragfact c none none := by
  refine (C39_default c 579 none ?_).1
  intro i h1 h4
  simp only [← mem_digits_iff]
  norm_num
  omega

/-- Selectors with the same digits among 1 to 4 give the same factor. -/
theorem C39_digits (c : Concept) (n n' : ℕ) (m : Option ℝ)
    (h : ∀ i, 1 ≤ i → i ≤ 4 → (HasDigit n i ↔ HasDigit n' i)) :
    induceddragfact c (some (n : ℤ)) m = induceddragfact c (some (n' : ℤ)) m := by
  have hcc : chosen n = chosen n' := by
    ext i
    simp only [chosen, Finset.mem_filter, Finset.mem_insert, Finset.mem_singleton]
    constructor
    · rintro ⟨hi, hd⟩; exact ⟨hi, (h i (by omega) (by omega)).mp hd⟩
    · rintro ⟨hi, hd⟩; exact ⟨hi, (h i (by omega) (by omega)).mpr hd⟩
  by_cases hne : (chosen n).Nonempty
  · rw [C39_mean c n m hne, C39_mean c n' m (hcc ▸ hne), hcc]
  · have key : ∀ k : ℕ, ¬ (chosen k).Nonempty → ∀ i, 1 ≤ i → i ≤ 4 → ¬ HasDigit k i := by
      intro k hk i h1 h4 hd
      exact hk ⟨i, by
        simp only [chosen, Finset.mem_filter, Finset.mem_insert, Finset.mem_singleton]
        exact ⟨by omega, hd⟩⟩
    rw [(C39_default c n m (key n hne)).1, (C39_default c n' m (key n' (hcc ▸ hne))).1]

-- selector 242 means methods 2 and 4, as 24 does
example (c : Concept) : induceddragfact c (some ((242 : ℕ) : ℤ)) none = induceddragfact c (some ((24 : ℕ) : ℤ)) none := by
  apply C39_digits
  intro i h1 h4
  simp only [← mem_digits_iff]
  norm_num
  omega

/-- Negative selectors raise ValueError. -/
theorem C39_negative (c : Concept) (z : ℤ) (m : Option ℝ) (h : z < 0) :
    induceddragfact c (some z) m = .error .valueError := by
  simp only [induceddragfact, oswaldlist, h, if_true]
  rfl

example : induceddragfact exC (some (-24)) none = .error .valueError := C39_negative _ _ _ (by norm_num)

/-! ### C40 -/

/-- The second estimate lies strictly between 0 and 1 for every positive aspect ratio and sweep. -/
theorem C40_second (c : Concept) (h : 0 < pyNum c.aspectratio) :
    0 < oswaldspaneff2 c ∧ oswaldspaneff2 c < 1 := by
  unfold oswaldspaneff2
  obtain ⟨a, ha⟩ : ∃ a, a = pyNum c.aspectratio := ⟨_, rfl⟩
  obtain ⟨t, ht⟩ : ∃ t, t = Real.tan c.sweep_mt_rad := ⟨_, rfl⟩
  simp only [← ha, ← ht] at *
  have hs : a < √(4 + a ^ 2 * (1 + t ^ 2)) := by
    apply Real.lt_sqrt_of_sq_lt
    nlinarith [sq_nonneg (a * t)]
  have hd : 2 < 2 - a + √(4 + a ^ 2 * (1 + t ^ 2)) := by linarith
  constructor
  · positivity
  · rw [div_lt_one (by linarith)]; exact hd

example : 0 < oswaldspaneff2 exC ∧ oswaldspaneff2 exC < 1 := C40_second exC (by norm_num [exC, pyNum])

/-- It falls strictly with the magnitude of the sweep, and is at least one half without sweep. -/
theorem C40_second_sweep (c c' : Concept) (h : 0 < pyNum c.aspectratio) (ha : c.aspectratio = c'.aspectratio)
    (hs : |pyNum c.sweep_mt_deg| < |pyNum c'.sweep_mt_deg|) (h90 : |pyNum c'.sweep_mt_deg| < 90) :
    oswaldspaneff2 c' < oswaldspaneff2 c ∧ (c.sweep_mt_deg = some 0 → 1 / 2 ≤ oswaldspaneff2 c) := by
  have key : ∀ x : ℝ, (Real.tan x) ^ 2 = (Real.tan |x|) ^ 2 := by
    intro x
    rcases abs_cases x with ⟨h, _⟩ | ⟨h, _⟩ <;> rw [h]
    rw [Real.tan_neg]; ring
  have habs : ∀ x : ℝ, |Atmos.deg2rad x| = |x| * (Real.pi / 180) := by
    intro x
    rw [Atmos.deg2rad, abs_mul, abs_of_pos (by positivity : (0 : ℝ) < Real.pi / 180)]
  have hlt : (Real.tan c.sweep_mt_rad) ^ 2 < (Real.tan c'.sweep_mt_rad) ^ 2 := by
    rw [key c.sweep_mt_rad, key c'.sweep_mt_rad, Concept.sweep_mt_rad, Concept.sweep_mt_rad, habs, habs]
    obtain ⟨x, hx⟩ : ∃ x, x = |pyNum c.sweep_mt_deg| := ⟨_, rfl⟩
    obtain ⟨y, hy⟩ : ∃ y, y = |pyNum c'.sweep_mt_deg| := ⟨_, rfl⟩
    have hx0 : 0 ≤ x := hx ▸ abs_nonneg _
    rw [← hx, ← hy] at hs ⊢
    rw [← hy] at h90
    have hp := Real.pi_pos
    have h1 : 0 ≤ x * (Real.pi / 180) := by positivity
    have h2 : x * (Real.pi / 180) < y * (Real.pi / 180) := by
      apply mul_lt_mul_of_pos_right hs; positivity
    have h3 : y * (Real.pi / 180) < Real.pi / 2 := by nlinarith
    have h4 := Real.tan_lt_tan_of_nonneg_of_lt_pi_div_two h1 h3 h2
    have h5 := Real.tan_nonneg_of_nonneg_of_le_pi_div_two h1 (by linarith)
    nlinarith
  constructor
  · unfold oswaldspaneff2
    rw [← ha]
    obtain ⟨a, ha⟩ : ∃ a, a = pyNum c.aspectratio := ⟨_, rfl⟩
    obtain ⟨t, ht⟩ : ∃ t, t = (Real.tan c.sweep_mt_rad) ^ 2 := ⟨_, rfl⟩
    obtain ⟨u, hu⟩ : ∃ t, t = (Real.tan c'.sweep_mt_rad) ^ 2 := ⟨_, rfl⟩
    have ht0 : 0 ≤ t := ht ▸ sq_nonneg _
    simp only [← ha, ← ht, ← hu] at *
    have hs : a < √(4 + a ^ 2 * (1 + t)) := by
      apply Real.lt_sqrt_of_sq_lt
      nlinarith [sq_nonneg a, mul_nonneg (sq_nonneg a) ht0]
    have h2 : √(4 + a ^ 2 * (1 + t)) < √(4 + a ^ 2 * (1 + u)) := by
      apply Real.sqrt_lt_sqrt (by positivity)
      have : 0 < a ^ 2 := by positivity
      nlinarith
    apply div_lt_div_of_pos_left <;> linarith
  · intro h0
    have : Real.tan c.sweep_mt_rad = 0 := by
      simp [Concept.sweep_mt_rad, h0, pyNum, Atmos.deg2rad]
    unfold oswaldspaneff2
    rw [this]
    obtain ⟨a, ha⟩ : ∃ a, a = pyNum c.aspectratio := ⟨_, rfl⟩
    simp only [← ha] at *
    have h1 : √(4 + a ^ 2 * (1 + 0 ^ 2)) ≤ a + 2 := by
      apply Real.sqrt_le_iff.mpr
      constructor <;> nlinarith
    have h2 : a < √(4 + a ^ 2 * (1 + 0 ^ 2)) := by
      apply Real.lt_sqrt_of_sq_lt
      nlinarith
    rw [div_le_div_iff₀ (by norm_num) (by linarith)]
    linarith

example : oswaldspaneff2 { exC with sweep_mt_deg := some (-30) } < oswaldspaneff2 exC ∧ 1 / 2 ≤ oswaldspaneff2 exC := by
  have := C40_second_sweep exC { exC with sweep_mt_deg := some (-30) } (by norm_num [exC, pyNum]) rfl
    (by norm_num [exC, pyNum]) (by norm_num [pyNum])
  exact ⟨this.1, this.2 rfl⟩

/-- Hoerner's shape polynomial is positive for every taper ratio and sweep. -/
theorem hoerner_pos (t s : ℝ) : 0 < hoernerfactor t s := by
  unfold hoernerfactor
  obtain ⟨x, hx⟩ : ∃ x, x = t - (-0.357 + 0.45 * Real.exp (-0.0375 * s)) := ⟨_, rfl⟩
  simp only [← hx]
  norm_num
  nlinarith [sq_nonneg (x ^ 2 - 1.43 * x + 0.3), sq_nonneg (x - 0.36), sq_nonneg x, sq_nonneg (x^2 - 1.4*x)]

/-- The fourth estimate lies between 0.001 and 0.85 for every taper ratio, sweep and Mach number. -/
theorem C40_fourth (c : Concept) (m : Option ℝ) (h : 0 < pyNum c.aspectratio) :
    0.001 ≤ oswaldspaneff4 c m ∧ oswaldspaneff4 c m < 0.85 := by
  have hk := hoerner_pos (pyNum c.roottaperratio) (pyNum c.sweep_25_deg)
  have hm : keMach (m.getD 0.3) ≤ 1 := by
    unfold keMach
    split
    · rename_i h1
      have : (0 : ℝ) ≤ (m.getD 0.3 / 0.3 - 1) ^ (10.82 : ℝ) := by
        apply Real.rpow_nonneg
        have : (0.3 : ℝ) < m.getD 0.3 := h1
        have : 1 < m.getD 0.3 / 0.3 := by rw [lt_div_iff₀ (by norm_num)]; linarith
        linarith
      norm_num at this ⊢
      linarith
    · exact le_refl 1
  have he : 0 < 1 / (1 + hoernerfactor (pyNum c.roottaperratio) (pyNum c.sweep_25_deg) * pyNum c.aspectratio) ∧
      1 / (1 + hoernerfactor (pyNum c.roottaperratio) (pyNum c.sweep_25_deg) * pyNum c.aspectratio) < 1 := by
    have := mul_pos hk h
    constructor
    · positivity
    · rw [div_lt_one (by linarith)]; linarith
  unfold oswaldspaneff4
  simp only
  obtain ⟨e, hee⟩ : ∃ e, e = 1 / (1 + hoernerfactor (pyNum c.roottaperratio) (pyNum c.sweep_25_deg) *
    pyNum c.aspectratio) := ⟨_, rfl⟩
  obtain ⟨km, hkm⟩ : ∃ k, k = keMach (m.getD 0.3) := ⟨_, rfl⟩
  rw [← hee] at he ⊢
  rw [← hkm] at hm ⊢
  split
  · norm_num
  · rename_i h1
    norm_num at h1 ⊢
    refine ⟨h1, ?_⟩
    have : e * km < 1 := by nlinarith
    nlinarith

example : 0.001 ≤ oswaldspaneff4 exC (some 0.8) ∧ oswaldspaneff4 exC (some 0.8) < 0.85 :=
  C40_fourth exC _ (by norm_num [exC, pyNum])

/-- The factor of the default selection is positive and above the ideal 1 / (π AR). -/
theorem C40_factor (c : Concept) (m : Option ℝ) (h : 0 < pyNum c.aspectratio) :
    ∃ k, induceddragfact c none m = .ok k ∧ 0 < k ∧ 1 / (Real.pi * pyNum c.aspectratio) < k := by
  refine ⟨_, (C39_default c 0 m ?_).2, ?_⟩
  · intro i h1 h4 ⟨j, hj, _⟩
    have : 0 < 10 ^ j := by positivity
    omega
  · have h2 := C40_second c h
    have h4 := C40_fourth c none h
    obtain ⟨e, he⟩ : ∃ e, e = (oswaldspaneff2 c + oswaldspaneff4 c none) / 2 := ⟨_, rfl⟩
    have he0 : 0 < e := by linarith [h2.1, h4.1]
    have he1 : e < 1 := by rw [he]; norm_num at h4 ⊢; linarith [h2.2, h4.2]
    rw [← he]
    have hp := Real.pi_pos
    refine ⟨by positivity, ?_⟩
    apply one_div_lt_one_div_of_lt (by positivity)
    have : 0 < Real.pi * pyNum c.aspectratio := by positivity
    nlinarith

example : 0 < pyNum exC.aspectratio := by norm_num [exC, pyNum]

end

end Verif.Props
