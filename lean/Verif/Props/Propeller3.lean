import Verif.Props.Propeller2
import Mathlib.Topology.MetricSpace.ProperSpace.Real
import Mathlib.Analysis.Real.Pi.Bounds

/-
The range of the propeller efficiency (C93) and the blade drag (C96).
-/

namespace Verif.Propulsion

open Verif Verif.Atmos

noncomputable section

/-! ### C96 -/

theorem glauert_pos {x : ℝ} (h0 : 0 < x) (h1 : x < Real.pi / 2) : 0 < glauert x := by
  have hc : 0 < Real.cos x := Real.cos_pos_of_mem_Ioo ⟨by linarith, h1⟩
  have hc1 : Real.cos x ≤ 1 := Real.cos_le_one x
  have hlog : Real.log ((1 - Real.cos x) / (1 + Real.cos x)) ≤ 0 := by
    apply Real.log_nonpos
    · exact div_nonneg (by linarith) (by linarith)
    · rw [div_le_one (by linarith)]; linarith
  unfold glauert
  have a : 0 < (2 + 5 * Real.tan x ^ 2) / (8 * Real.cos x) := by positivity
  have b : 0 ≤ 3 / 16 * Real.tan x ^ 4 := by positivity
  nlinarith [mul_nonneg b (neg_nonneg.mpr hlog)]

/-- The blade drag coefficient, a parabola fitted to lift coefficient times power coefficient over advance ratio, is
negative from 0.904 upwards (and below -0.051). -/
theorem C96_drag_violated (cl cp J : ℝ) (h : 0.904 ≤ cl * cp / J) : cdbar cl cp J < 0 := by
  unfold cdbar
  obtain ⟨x, hx⟩ : ∃ x, x = cl * cp / J := ⟨_, rfl⟩
  rw [← hx] at h ⊢
  norm_num at h ⊢
  nlinarith

/-- Between 0 and 0.9 it is positive. -/
theorem C96_drag (cl cp J : ℝ) (h0 : 0 ≤ cl * cp / J) (h1 : cl * cp / J ≤ 0.9) : 0 < cdbar cl cp J := by
  unfold cdbar
  obtain ⟨x, hx⟩ : ∃ x, x = cl * cp / J := ⟨_, rfl⟩
  rw [← hx] at h0 h1 ⊢
  norm_num at h0 h1 ⊢
  nlinarith

/-- The profile efficiency is below 1 exactly if the drag coefficient is positive (advancing propeller,
positive power, and induced and swirl efficiencies between 0 and 1): with a negative drag coefficient the blades
give a gain. -/
theorem C96_profile (cp J sigma cd eta1 eta2 : ℝ) (hcp : 0 < cp) (hJ : 0 < J) (hs : 0 < sigma) (h1 : 0 < eta1) (h2 : 0 < eta2) :
    (eta3Of cp J sigma cd eta1 eta2 < 1 ↔ 0 < cd) ∧ (1 < eta3Of cp J sigma cd eta1 eta2 ↔ cd < 0) := by
  have hpi := Real.pi_pos
  have hg : 0 < glauert (Real.arctan (J / (Real.pi * eta1 * eta2))) :=
    glauert_pos (Real.arctan_pos.mpr (by positivity)) (Real.arctan_lt_pi_div_two _)
  unfold eta3Of
  obtain ⟨g, hge⟩ : ∃ g, g = glauert (Real.arctan (J / (Real.pi * eta1 * eta2))) := ⟨_, rfl⟩
  rw [← hge] at hg ⊢
  have e : Real.pi ^ 4 * eta2 ^ 2 * sigma * cd * g / (8 * cp) = cd * (Real.pi ^ 4 * eta2 ^ 2 * sigma * g / (8 * cp)) := by
    ring
  rw [e]
  obtain ⟨q, hq⟩ : ∃ q, q = Real.pi ^ 4 * eta2 ^ 2 * sigma * g / (8 * cp) := ⟨_, rfl⟩
  have hq0 : 0 < q := by rw [hq]; positivity
  rw [← hq]
  constructor
  · constructor
    · intro h; by_contra hc; nlinarith [mul_nonneg (neg_nonneg.mpr (not_lt.mp hc)) hq0.le]
    · intro h; nlinarith [mul_pos h hq0]
  · constructor
    · intro h; by_contra hc; nlinarith [mul_nonneg (not_lt.mp hc) hq0.le]
    · intro h; nlinarith [mul_pos (neg_pos.mpr h) hq0]

example : (0.904:ℝ) ≤ 1.5 * 0.65 / 1 ∧ (0:ℝ) ≤ 0.5 * 0.1 / 0.8 ∧ (0.5:ℝ) * 0.1 / 0.8 ≤ 0.9 := by norm_num

/-! ### C93 -/

theorem eta2_range (cp J e : ℝ) : 0 ≤ eta2Of cp J e ∧ eta2Of cp J e ≤ 1 := by
  unfold eta2Of npInterp2
  split_ifs with c1 c2
  · norm_num
  · norm_num
  · norm_num
    push Not at c1 c2
    constructor <;> linarith

/-- A round keeps the efficiency at or below 1 when it starts from a non-negative induced efficiency and the profile
efficiency lies between 0 and 1. -/
theorem C93_round (cp J sigma cd eta1 : ℝ) (hcp : 0 ≤ cp) (hJ : 0 < J) (h1 : 0 ≤ eta1)
    (h3 : 0 ≤ eta3Of cp J sigma cd eta1 (eta2Of cp J eta1)) (h3' : eta3Of cp J sigma cd eta1 (eta2Of cp J eta1) ≤ 1) :
    (etaRound cp J sigma cd eta1).1 ≤ 1 ∧ (etaRound cp J sigma cd eta1).2 ≤ 1 := by
  have hpi := Real.pi_pos
  obtain ⟨g0, g1⟩ := eta2_range cp J eta1
  unfold etaRound
  simp only []
  obtain ⟨x, hx⟩ : ∃ x, x = eta2Of cp J eta1 := ⟨_, rfl⟩
  obtain ⟨y, hy⟩ : ∃ y, y = eta3Of cp J sigma cd eta1 (eta2Of cp J eta1) := ⟨_, rfl⟩
  rw [← hy] at h3 h3'
  rw [← hx] at g0 g1
  rw [← hy, ← hx]
  have hz : 0 ≤ 2 * cp * x * y * eta1 ^ 3 / (Real.pi * J ^ 3) := by positivity
  obtain ⟨z, hze⟩ : ∃ z, z = 2 * cp * x * y * eta1 ^ 3 / (Real.pi * J ^ 3) := ⟨_, rfl⟩
  rw [← hze] at hz ⊢
  have hxy : 0 ≤ x * y ∧ x * y ≤ 1 := ⟨mul_nonneg g0 h3, by nlinarith⟩
  refine ⟨by linarith, ?_⟩
  rw [mul_assoc]
  nlinarith [mul_nonneg hz hxy.1]

example : 0 ≤ eta3Of 0.05 0.8 0 0.01 0.9 (eta2Of 0.05 0.8 0.9) ∧ eta3Of 0.05 0.8 0 0.01 0.9 (eta2Of 0.05 0.8 0.9) ≤ 1 := by
  unfold eta3Of; simp

theorem roundDp_neg {x : ℝ} (h : x < 0) : roundDp 6 x ≤ 0 := by
  unfold roundDp
  have k := roundEven_near (x * (10:ℝ) ^ (6:ℤ))
  rw [abs_le] at k
  have : (roundEven (x * (10:ℝ) ^ (6:ℤ)) : ℝ) < 1 := by
    have h3 : x * (10:ℝ) ^ (6:ℤ) < 0 := mul_neg_of_neg_of_pos h (by norm_num)
    have h4 := k.2
    norm_num at h3 h4 ⊢
    linarith
  have : roundEven (x * (10:ℝ) ^ (6:ℤ)) ≤ 0 := by
    have h2 : roundEven (x * (10:ℝ) ^ (6:ℤ)) < 1 := by exact_mod_cast this
    omega
  have : (roundEven (x * (10:ℝ) ^ (6:ℤ)) : ℝ) ≤ 0 := by exact_mod_cast this
  exact div_nonpos_of_nonpos_of_nonneg this (by norm_num)

theorem roundDp_pos {x : ℝ} (h : 0.5 < x) : 0 < roundDp 6 x := by
  unfold roundDp
  have k := roundEven_near (x * (10:ℝ) ^ (6:ℤ))
  rw [abs_le] at k
  have h4 := k.1
  norm_num at h h4 ⊢
  by_contra hc
  have h5 : (roundEven (x * 1000000) : ℝ) ≤ 0 := by exact_mod_cast not_lt.mp hc
  linarith

/-- Alternation: a round takes induced efficiencies from `[0.98, 1.02]` to `[-1/4, -0.05]` with a negative
estimate and back with an estimate above 1. -/
structure Swings (rnd : ℝ → ℝ × ℝ) : Prop where
  down : ∀ e, 0.98 ≤ e → e ≤ 1.02 → -(1/4) ≤ (rnd e).1 ∧ (rnd e).1 ≤ -0.05 ∧ (rnd e).2 < 0
  up : ∀ e, -(1/4) ≤ e → e ≤ -0.05 → 0.98 ≤ (rnd e).1 ∧ (rnd e).1 ≤ 1.02 ∧ 1 < (rnd e).2

theorem swings_seq {rnd : ℝ → ℝ × ℝ} (h : Swings rnd) : ∀ k : ℕ,
    (0.98 ≤ itSeq rnd (2 * k) ∧ itSeq rnd (2 * k) ≤ 1.02 ∧ 0.5 < estimate rnd (2 * k) ∧ (0 < k → 1 < estimate rnd (2 * k))) ∧
    (-(1/4) ≤ itSeq rnd (2 * k + 1) ∧ itSeq rnd (2 * k + 1) ≤ -0.05 ∧ estimate rnd (2 * k + 1) < 0)
  | 0 => by
    have a : itSeq rnd 0 = 0.98 := rfl
    refine ⟨⟨by rw [Nat.mul_zero, a], by rw [Nat.mul_zero, a]; norm_num, by norm_num [estimate], by simp⟩, ?_⟩
    exact h.down (itSeq rnd 0) (by rw [a]) (by rw [a]; norm_num)
  | k + 1 => by
    obtain ⟨_, h1, h2, h3⟩ := swings_seq h k
    have u := h.up _ h1 h2
    have e : 2 * (k + 1) = 2 * k + 1 + 1 := by omega
    rw [e]
    refine ⟨⟨u.1, u.2.1, ?_, fun _ => u.2.2⟩, ?_⟩
    · have : 1 < estimate rnd (2 * k + 1 + 1) := u.2.2
      norm_num; linarith
    · exact h.down (itSeq rnd (2 * k + 1 + 1)) u.1 u.2.1

theorem swings_solve {rnd : ℝ → ℝ × ℝ} (h : Swings rnd) (n : ℕ) (hn : 0 < n) : 1 < solve (2 * n : ℕ) 6 rnd := by
  obtain ⟨k, h1, h2, _, h4, _⟩ := C68_result (2 * n : ℕ) 6 rnd
  have hk : k ≤ 2 * n := by
    have := h1 (by have : 0 < 2 * n := by omega
                   exact_mod_cast this)
    have : k < 2 * n + 1 := by exact_mod_cast this
    omega
  have ns : ∀ j, ¬ Settled 6 rnd j := by
    rintro j ⟨hj, hc⟩
    rcases Nat.even_or_odd' j with ⟨i, rfl | rfl⟩
    · have a := (swings_seq h i).1.2.2.1
      have b := (swings_seq h (i - 1)).2.2.2
      rw [show 2 * (i - 1) + 1 = 2 * i - 1 by omega] at b
      have := roundDp_neg b
      have := roundDp_pos a
      linarith
    · have a := (swings_seq h i).1.2.2.1
      have b := (swings_seq h i).2.2.2
      rw [show 2 * i + 1 - 1 = 2 * i by omega] at hc
      have := roundDp_neg b
      have := roundDp_pos a
      linarith
  have hk2 : k = 2 * n := by
    rcases h4 with h4 | h4
    · exact absurd h4 (ns k)
    · have : 2 * n ≤ k := by exact_mod_cast h4
      omega
  rw [h2, hk2]
  exact (swings_seq h n).1.2.2.2 hn

/-- Glauert's function stays bounded along the swings. -/
theorem glauert_bounded {t0 t1 : ℝ} (h0 : 0 < t0) : ∃ B, 0 ≤ B ∧ ∀ t, t0 ≤ |t| → |t| ≤ t1 → |glauert (Real.arctan t)| ≤ B := by
  have hcont : ContinuousOn (fun t => glauert (Real.arctan t)) {t | t0 ≤ |t| ∧ |t| ≤ t1} := by
    intro t ht
    have htne : t ≠ 0 := by rintro rfl; simp at ht; linarith [ht.1]
    have hc : 0 < Real.cos (Real.arctan t) := Real.cos_arctan_pos t
    have hc1 : Real.cos (Real.arctan t) < 1 := by
      rw [Real.cos_arctan, div_lt_one (by positivity)]
      have : 0 < t ^ 2 := by positivity
      rw [Real.lt_sqrt (by norm_num)]; linarith
    apply ContinuousAt.continuousWithinAt
    unfold glauert
    have c1 : ContinuousAt (fun t => Real.cos (Real.arctan t)) t :=
      Real.continuous_cos.continuousAt.comp Real.continuous_arctan.continuousAt
    have c2 : ContinuousAt (fun t => Real.tan (Real.arctan t)) t := by
      simp only [Real.tan_arctan]; exact continuousAt_id
    refine ContinuousAt.sub (ContinuousAt.div (by fun_prop) (by fun_prop) (by positivity)) (ContinuousAt.mul (by fun_prop) ?_)
    refine ContinuousAt.log (ContinuousAt.div (by fun_prop) (by fun_prop) (by positivity)) ?_
    exact div_ne_zero (by linarith) (by linarith)
  have hcomp : IsCompact {t : ℝ | t0 ≤ |t| ∧ |t| ≤ t1} := by
    refine (Metric.isCompact_of_isClosed_isBounded ?_ ?_)
    · exact (isClosed_le continuous_const continuous_abs).inter (isClosed_le continuous_abs continuous_const)
    · refine (Metric.isBounded_closedBall (x := (0:ℝ)) (r := t1)).subset ?_
      intro t ht
      simp only [Metric.mem_closedBall, Real.dist_eq, sub_zero]
      exact ht.2
  obtain ⟨B, hB⟩ := hcomp.exists_bound_of_continuousOn hcont
  refine ⟨max B 0, le_max_right _ _, fun t a b => ?_⟩
  exact (hB t ⟨a, b⟩).trans (le_max_left _ _)

theorem mul_between {a b c d x y : ℝ} (ha : 0 ≤ a) (hc : 0 ≤ c) (h1 : a ≤ x ∧ x ≤ b) (h2 : c ≤ y ∧ y ≤ d) :
    a * c ≤ x * y ∧ x * y ≤ b * d :=
  ⟨mul_le_mul h1.1 h2.1 hc (ha.trans h1.1),
    mul_le_mul h1.2 h2.2 (hc.trans h2.1) (ha.trans (h1.1.trans h1.2))⟩

theorem down_arith {k c e z : ℝ} (hk : 1.178 ≤ k ∧ k ≤ 1.18) (hc : 0.0214 ≤ c ∧ c ≤ 0.0216) (he : 0.98 ≤ e ∧ e ≤ 1.02)
    (hz : 0.9999 ≤ z ∧ z ≤ 1.0001) :
    -(1/4) ≤ 1 - k * ((1 - c * e) * z * e ^ 3) ∧ 1 - k * ((1 - c * e) * z * e ^ 3) ≤ -0.05 ∧
      (1 - k * ((1 - c * e) * z * e ^ 3)) * (1 - c * e) * z < 0 := by
  have h1 := mul_between (by norm_num) (by norm_num) hc he
  have h2 : 0.9779 ≤ 1 - c * e ∧ 1 - c * e ≤ 0.9791 := by
    norm_num at h1 ⊢; constructor <;> linarith
  have h3 := mul_between (by norm_num) (by norm_num) h2 hz
  have h4 : 0.98 ^ 3 ≤ e ^ 3 ∧ e ^ 3 ≤ 1.02 ^ 3 :=
    ⟨pow_le_pow_left₀ (by norm_num) he.1 3, pow_le_pow_left₀ (le_trans (by norm_num) he.1) he.2 3⟩
  have h5 := mul_between (by norm_num) (by norm_num) h3 h4
  have h6 := mul_between (by norm_num) (by norm_num) hk h5
  have h7 : 0 < (1 - c * e) * z := lt_of_lt_of_le (by norm_num) h3.1
  norm_num at h6 ⊢
  refine ⟨by linarith, by linarith, ?_⟩
  rw [mul_assoc]
  exact mul_neg_of_neg_of_pos (by linarith) h7

theorem up_arith {k f z : ℝ} (hk : 1.178 ≤ k ∧ k ≤ 1.18) (hf : 0.05 ≤ f ∧ f ≤ 0.25) (hz : 0.9999 ≤ z ∧ z ≤ 1.0001) :
    0.98 ≤ 1 + k * (z * f ^ 3) ∧ 1 + k * (z * f ^ 3) ≤ 1.02 ∧ 1 < (1 + k * (z * f ^ 3)) * z := by
  have h4 : 0.05 ^ 3 ≤ f ^ 3 ∧ f ^ 3 ≤ 0.25 ^ 3 :=
    ⟨pow_le_pow_left₀ (by norm_num) hf.1 3, pow_le_pow_left₀ (le_trans (by norm_num) hf.1) hf.2 3⟩
  have h5 := mul_between (by norm_num) (by norm_num) hz h4
  have h6 := mul_between (by norm_num) (by norm_num) hk h5
  have h7 : 1 + 0.000147 ≤ 1 + k * (z * f ^ 3) ∧ 1 + k * (z * f ^ 3) ≤ 1.02 := by
    norm_num at h6 ⊢; constructor <;> linarith
  have h8 := mul_between (by norm_num) (by norm_num) h7 hz
  refine ⟨?_, h7.2, ?_⟩
  · have := h7.1; norm_num at this ⊢; linarith
  · have := h8.1; norm_num at this ⊢; linarith

/-- Power coefficient 0.05 at an advance ratio of 0.3, lightly loaded blades of small area. -/
theorem swings_small (cd : ℝ) : ∃ s0, 0 < s0 ∧ ∀ sigma, 0 ≤ sigma → sigma ≤ s0 → Swings (etaRound 0.05 0.3 sigma cd) := by
  have p1 := Real.pi_gt_d4
  have p2 := Real.pi_lt_d4
  have hpi := Real.pi_pos
  obtain ⟨B, hB0, hB⟩ := glauert_bounded (t0 := 0.09) (t1 := 2) (by norm_num)
  obtain ⟨c, hc⟩ : ∃ c, c = 4 * 0.05 / (Real.pi ^ 3 * 0.3) := ⟨_, rfl⟩
  have hp3 : 31 < Real.pi ^ 3 ∧ Real.pi ^ 3 < 31.01 := by
    norm_num at p1 p2 ⊢
    constructor <;> nlinarith [mul_pos hpi hpi]
  have hc1 : 0.0214 < c ∧ c < 0.0216 := by
    rw [hc]
    constructor
    · rw [lt_div_iff₀ (by positivity)]; norm_num at hp3 ⊢; linarith
    · rw [div_lt_iff₀ (by positivity)]; norm_num at hp3 ⊢; linarith
  obtain ⟨k, hk⟩ : ∃ k, k = 2 * 0.05 / (Real.pi * 0.3 ^ 3) := ⟨_, rfl⟩
  have hk1 : 1.178 < k ∧ k < 1.18 := by
    rw [hk]
    constructor
    · rw [lt_div_iff₀ (by positivity)]; norm_num at p2 ⊢; linarith
    · rw [div_lt_iff₀ (by positivity)]; norm_num at p1 ⊢; linarith
  obtain ⟨K, hK⟩ : ∃ K, K = Real.pi ^ 4 * |cd| * B / (8 * 0.05) := ⟨_, rfl⟩
  have hK0 : 0 ≤ K := by rw [hK]; positivity
  refine ⟨0.0001 / (K + 1), by positivity, fun sigma hs0 hs1 => ?_⟩
  have hsK : sigma * K ≤ 0.0001 := by
    rw [le_div_iff₀ (by linarith)] at hs1
    nlinarith
  -- the profile efficiency is close to one
  have near : ∀ e y, 0 ≤ y → y ≤ 1 → 0.05 ≤ |e * y| → |e * y| ≤ 1.02 →
      |eta3Of 0.05 0.3 sigma cd e y - 1| ≤ 0.0001 := by
    intro e y hy0 hy1 h1 h2
    have ht : 0.09 ≤ |0.3 / (Real.pi * e * y)| ∧ |0.3 / (Real.pi * e * y)| ≤ 2 := by
      have hz : 0 < |e * y| := by norm_num at h1 ⊢; linarith
      rw [abs_div, mul_assoc, abs_mul, abs_of_pos hpi, abs_of_pos (by norm_num : (0:ℝ) < 0.3)]
      norm_num at h1 h2 p1 p2 ⊢
      constructor
      · rw [le_div_iff₀ (by positivity)]; nlinarith
      · rw [div_le_iff₀ (by positivity)]; nlinarith
    have hg := hB _ ht.1 ht.2
    unfold eta3Of
    obtain ⟨g, hge⟩ : ∃ g, g = glauert (Real.arctan (0.3 / (Real.pi * e * y))) := ⟨_, rfl⟩
    rw [← hge] at hg ⊢
    have e1 : 1 - Real.pi ^ 4 * y ^ 2 * sigma * cd * g / (8 * 0.05) - 1
        = -(sigma * (y ^ 2 * (Real.pi ^ 4 * (cd * g) / (8 * 0.05)))) := by ring
    rw [e1, abs_neg, abs_mul, abs_of_nonneg hs0, abs_mul, abs_of_nonneg (sq_nonneg y)]
    have e2 : |Real.pi ^ 4 * (cd * g) / (8 * 0.05)| ≤ K := by
      rw [hK, abs_div, abs_mul, abs_mul, abs_of_pos (by positivity : 0 < Real.pi ^ 4),
        abs_of_pos (by norm_num : (0:ℝ) < 8 * 0.05)]
      rw [mul_assoc]
      gcongr
    have e3 : y ^ 2 ≤ 1 := by nlinarith
    calc sigma * (y ^ 2 * |Real.pi ^ 4 * (cd * g) / (8 * 0.05)|) ≤ sigma * (1 * K) := by
          gcongr
      _ ≤ 0.0001 := by rw [one_mul]; exact hsK
  have r1 : ∀ e, (etaRound 0.05 0.3 sigma cd e).1
      = 1 - k * (eta2Of 0.05 0.3 e * eta3Of 0.05 0.3 sigma cd e (eta2Of 0.05 0.3 e) * e ^ 3) := by
    intro e; rw [hk]; unfold etaRound; simp only []; ring
  have r2 : ∀ e, (etaRound 0.05 0.3 sigma cd e).2
      = (etaRound 0.05 0.3 sigma cd e).1 * eta2Of 0.05 0.3 e * eta3Of 0.05 0.3 sigma cd e (eta2Of 0.05 0.3 e) := fun e => rfl
  constructor
  · intro e h1 h2
    have he2 : eta2Of 0.05 0.3 e = 1 - c * e := by
      have ec : 4 * e * 0.05 / (Real.pi ^ 3 * 0.3) = c * e := by rw [hc]; ring
      unfold eta2Of npInterp2
      rw [ec, if_neg, if_neg]
      · ring
      · norm_num at h2 hc1 ⊢; nlinarith
      · norm_num at h1 hc1 ⊢; nlinarith
    have hce := mul_between (by norm_num) (by norm_num) ⟨hc1.1.le, hc1.2.le⟩ ⟨h1, h2⟩
    have hx2 : 0.9779 ≤ 1 - c * e ∧ 1 - c * e ≤ 0.9791 := by
      norm_num at hce ⊢; constructor <;> linarith
    have hex := mul_between (by norm_num) (by norm_num) ⟨h1, h2⟩ hx2
    have n := near e (eta2Of 0.05 0.3 e) (eta2_range _ _ _).1 (eta2_range _ _ _).2 (by
        rw [he2, abs_of_nonneg (le_trans (by norm_num) hex.1)]
        exact le_trans (by norm_num) hex.1) (by
        rw [he2, abs_of_nonneg (le_trans (by norm_num) hex.1)]
        exact le_trans hex.2 (by norm_num))
    rw [r2, r1]
    obtain ⟨z, hz⟩ : ∃ z, z = eta3Of 0.05 0.3 sigma cd e (eta2Of 0.05 0.3 e) := ⟨_, rfl⟩
    rw [← hz] at n ⊢
    rw [he2]
    rw [abs_le] at n
    exact down_arith ⟨hk1.1.le, hk1.2.le⟩ ⟨hc1.1.le, hc1.2.le⟩ ⟨h1, h2⟩ (by norm_num at n ⊢; constructor <;> linarith)
  · intro e h1 h2
    have he2 : eta2Of 0.05 0.3 e = 1 := by
      have ec : 4 * e * 0.05 / (Real.pi ^ 3 * 0.3) = c * e := by rw [hc]; ring
      unfold eta2Of npInterp2
      rw [ec, if_pos]
      · ring
      · norm_num at h2 hc1 ⊢; nlinarith
    have n := near e (eta2Of 0.05 0.3 e) (eta2_range _ _ _).1 (eta2_range _ _ _).2 (by
        rw [he2, mul_one, abs_of_nonpos] <;> norm_num at h1 h2 ⊢ <;> linarith) (by
        rw [he2, mul_one, abs_of_nonpos] <;> norm_num at h1 h2 ⊢ <;> linarith)
    rw [r2, r1]
    obtain ⟨z, hz⟩ : ∃ z, z = eta3Of 0.05 0.3 sigma cd e (eta2Of 0.05 0.3 e) := ⟨_, rfl⟩
    rw [← hz] at n ⊢
    rw [he2]
    rw [abs_le] at n
    obtain ⟨f, hf⟩ : ∃ f, f = -e := ⟨_, rfl⟩
    have ef : e = -f := by rw [hf]; ring
    have hf1 : 0.05 ≤ f ∧ f ≤ 0.25 := by rw [hf]; norm_num at h1 h2 ⊢; constructor <;> linarith
    have ee : 1 - k * (1 * z * e ^ 3) = 1 + k * (z * f ^ 3) := by rw [ef]; ring
    rw [ee, mul_one]
    exact up_arith ⟨hk1.1.le, hk1.2.le⟩ hf1 (by norm_num at n ⊢; constructor <;> linarith)

/-- Efficiencies above 1: for every diameter, engine speed, altitude, design lift coefficient and blade data, all
sufficiently small solidities (zero included), and every even number of solver turns (the default is 30), some
flight Mach number and shaft power give an efficiency above 1. -/
theorem C93_above_one_violated (D rpm h : ℝ) (hD : 0 < D) (hr : 0 < rpm) (hh : h ≤ 50000) (B A cl : Option ℝ) :
    ∃ m P s0, 0 < m ∧ 0 < P ∧ 0 < s0 ∧ ∀ sigma, 0 ≤ sigma → sigma ≤ s0 → ∀ n : ℕ, 0 < n →
      ∃ e, (efficiency ⟨some D, B, A, some sigma, cl, 6, (2 * n : ℕ)⟩ (.scalar m) (.scalar h) (some [some P]) rpm).1
        = .ok [some e] ∧ 1 < e := by
  have ha := sound_pos h
  have hrho := Props.C13_positive 0 h (isa_temp_pos h)
  obtain ⟨s0, hs0, hsw⟩ := swings_small (cdbar (flagNum cl) 0.05 0.3)
  refine ⟨0.3 * (rpm / 60 * D) / sound h, 0.05 * (isadens 0 h * (rpm / 60) ^ 3 * D ^ 5), s0, by positivity, by positivity, hs0,
    fun sigma h0 h1 n hn => ?_⟩
  obtain ⟨p, hp⟩ : ∃ p : Propeller, p = ⟨some D, B, A, some sigma, cl, 6, (2 * n : ℕ)⟩ := ⟨_, rfl⟩
  rw [← hp]
  refine ⟨solve (2 * n : ℕ) 6 (etaRound 0.05 0.3 sigma (cdbar (flagNum cl) 0.05 0.3)), ?_, swings_solve (hsw sigma h0 h1) n hn⟩
  have e1 : (0.05 * (isadens 0 h * (rpm / 60) ^ 3 * D ^ 5)) / (isadens 0 h * (rpm / 60) ^ 3 * D ^ 5) = 0.05 := by
    field_simp
  have e2 : (0.3 * (rpm / 60 * D) / sound h) * sound h / (rpm / 60 * D) = 0.3 := by
    field_simp
  obtain ⟨m, hm⟩ : ∃ m, m = 0.3 * (rpm / 60 * D) / sound h := ⟨_, rfl⟩
  obtain ⟨P, hP⟩ : ∃ P, P = 0.05 * (isadens 0 h * (rpm / 60) ^ 3 * D ^ 5) := ⟨_, rfl⟩
  rw [← hm, ← hP]
  rw [← hP] at e1
  rw [← hm] at e2
  rw [show (efficiency p (.scalar m) (.scalar h) (some [some P]) rpm).1
    = (efficiency p (.array [m]) (.array [h]) (some [some P]) rpm).1 from rfl, eff_eq p [m] [h] [some P] rpm (by simp) (by simpa using hh)]
  unfold etaLoop
  show ((do
        let a ← vsound1 isa0 h
        pure (etaAt (cacheSolidity p) (flagNum (cacheSolidity p).solidity) (isadens 0 h) a m rpm (some P)) : PyM (Option ℝ)) >>= fun b =>
          (do pure [b] : PyM (List (Option ℝ)))) = _
  rw [vsound1_isa h hh]
  have : etaAt (cacheSolidity p) (flagNum (cacheSolidity p).solidity) (isadens 0 h) (sound h) m rpm (some P)
      = some (solve (2 * n : ℕ) 6 (etaRound 0.05 0.3 sigma (cdbar (flagNum cl) 0.05 0.3))) := by
    rw [hp]
    show some (solve (2 * n : ℕ) 6 (etaRound (P / (isadens 0 h * (rpm / 60) ^ 3 * D ^ 5)) (m * sound h / (rpm / 60 * D)) sigma
      (cdbar (flagNum cl) (P / (isadens 0 h * (rpm / 60) ^ 3 * D ^ 5)) (m * sound h / (rpm / 60 * D))))) = _
    rw [e1, e2]
  show Except.ok [etaAt (cacheSolidity p) (flagNum (cacheSolidity p).solidity) (isadens 0 h) (sound h) m rpm (some P)] = _
  rw [this]

/-- A two-metre propeller at 2400 rpm with the default solver. -/
example : ∃ m P sigma e, 0 < sigma ∧ (efficiency ⟨some 2, some 2, some 100, some sigma, some 0.5, 6, 30⟩ (.scalar m) (.scalar 0)
    (some [some P]) 2400).1 = .ok [some e] ∧ 1 < e := by
  obtain ⟨m, P, s0, _, _, h0, h⟩ := C93_above_one_violated 2 2400 0 (by norm_num) (by norm_num) (by norm_num)
    (some 2) (some 100) (some 0.5)
  obtain ⟨e, h1, h2⟩ := h s0 h0.le le_rfl 15 (by norm_num)
  refine ⟨m, P, s0, e, h0, ?_, h2⟩
  have : ((2 * 15 : ℕ) : ℝ) = 30 := by norm_num
  rw [this] at h1
  exact h1

end

end Verif.Propulsion
