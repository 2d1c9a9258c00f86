import Verif.Props.Aero

/-!
C122: the Mach number in the fourth efficiency estimate (constraintanalysis.py:525-585) and what is left of it in the
induced drag factor of the constraint analysis, which caps the Mach number at 0.6 (constraintanalysis.py:952).
-/

namespace Verif.Props
open Verif Verif.Aircraft

noncomputable section

/-- The estimate before the floor, in incompressible flow. -/
def rawE (c : Concept) : ℝ :=
  1 / (1 + hoernerfactor (pyNum c.roottaperratio) (pyNum c.sweep_25_deg) * pyNum c.aspectratio) *
    (1 - 2 * ((0.114 : ℝ) ^ 2)) * 0.85

theorem rawE_pos (c : Concept) (h : 0 < pyNum c.aspectratio) : 0 < rawE c := by
  have hk := mul_pos (hoerner_pos (pyNum c.roottaperratio) (pyNum c.sweep_25_deg)) h
  unfold rawE
  have : (0:ℝ) < 1 - 2 * ((0.114 : ℝ) ^ 2) := by norm_num
  positivity

theorem e4_eq (c : Concept) (m : ℝ) : oswaldspaneff4 c (some m) = max 0.001 (rawE c * keMach m) := by
  unfold oswaldspaneff4 rawE
  simp only [Option.getD_some]
  split_ifs with h
  · rw [max_eq_left (by norm_num at h ⊢; exact h.le)]
  · rw [max_eq_right (by norm_num at h ⊢; exact h)]

theorem e4_none (c : Concept) : oswaldspaneff4 c none = oswaldspaneff4 c (some 0.3) := rfl

theorem ke_slow (m : ℝ) (h : m ≤ 0.3) : keMach m = 1 := by
  unfold keMach; rw [if_neg (not_lt.mpr h)]

theorem e4_none_eq (c : Concept) : oswaldspaneff4 c none = max 0.001 (rawE c) := by
  rw [e4_none, e4_eq, ke_slow _ le_rfl, mul_one]

theorem ke_fast (m : ℝ) (h : 0.3 ≤ m) : keMach m = 1 - 0.001521 * (m / 0.3 - 1) ^ (10.82 : ℝ) := by
  rcases h.eq_or_lt with rfl | h
  · rw [ke_slow _ le_rfl, show (0.3:ℝ) / 0.3 - 1 = 0 by norm_num, Real.zero_rpow (by norm_num)]; norm_num
  · unfold keMach; rw [if_pos h]; ring

theorem ke_antitone {m n : ℝ} (h : m ≤ n) : keMach n ≤ keMach m := by
  have key : ∀ n, (0.3:ℝ) ≤ n → ∀ m, 0.3 ≤ m → m ≤ n → keMach n ≤ keMach m := by
    intro n hn m hm h
    rw [ke_fast n hn, ke_fast m hm]
    have h0 : 0 ≤ m / 0.3 - 1 := by
      rw [sub_nonneg, le_div_iff₀ (by norm_num)]; linarith
    have : (m / 0.3 - 1) ^ (10.82 : ℝ) ≤ (n / 0.3 - 1) ^ (10.82 : ℝ) := by
      apply Real.rpow_le_rpow h0 _ (by norm_num)
      gcongr
    have := mul_le_mul_of_nonneg_left this (show (0:ℝ) ≤ 0.001521 by norm_num)
    linarith
  by_cases hn : n ≤ 0.3
  · rw [ke_slow n hn, ke_slow m (h.trans hn)]
  · push Not at hn
    by_cases hm : m ≤ 0.3
    · rw [ke_slow m hm, ← ke_slow 0.3 le_rfl]; exact key n hn.le _ le_rfl hn.le
    · push Not at hm; exact key n hn.le m hm.le h

/-- Up to Mach 0.3 the estimate is the incompressible one, which is also what leaving the Mach number out gives. -/
theorem C122_slow (c : Concept) (m : ℝ) (h : m ≤ 0.3) : oswaldspaneff4 c (some m) = oswaldspaneff4 c none := by
  rw [e4_eq, e4_none_eq, ke_slow m h, mul_one]

/-- Above, the published decrement: of an estimate above the floor the part `0.001521 (M/0.3 - 1)^10.82` is lost, and the
result is never below 0.001. -/
theorem C122_fast (c : Concept) (m : ℝ) (h : 0.3 ≤ m) (he : 0.001 < oswaldspaneff4 c none) :
    oswaldspaneff4 c (some m) = max 0.001 (oswaldspaneff4 c none * (1 - 0.001521 * (m / 0.3 - 1) ^ (10.82 : ℝ))) := by
  rw [e4_none_eq] at he ⊢
  rw [e4_eq, ke_fast m h]
  have : (0.001:ℝ) < rawE c := by
    rcases lt_max_iff.mp he with h | h
    · exact absurd h (lt_irrefl _)
    · exact h
  rw [max_eq_right this.le]

/-- At Mach 0.6 the loss is exactly 0.1521 per cent. -/
theorem C122_six (c : Concept) (he : 0.0011 < oswaldspaneff4 c none) :
    oswaldspaneff4 c (some 0.6) = 0.998479 * oswaldspaneff4 c none := by
  have h1 : (0.001:ℝ) < oswaldspaneff4 c none := lt_trans (by norm_num) he
  rw [C122_fast c 0.6 (by norm_num) h1, show (0.6:ℝ) / 0.3 - 1 = 1 by norm_num, Real.one_rpow]
  obtain ⟨e, hee⟩ : ∃ e, e = oswaldspaneff4 c none := ⟨_, rfl⟩
  rw [← hee] at he ⊢
  rw [max_eq_right]
  · norm_num; ring
  · norm_num at he ⊢; linarith

theorem exC_e4 : 0.0011 < oswaldspaneff4 exC none := by
  rw [e4_none_eq]
  apply lt_max_of_lt_right
  unfold rawE hoernerfactor
  norm_num [exC, pyNum]

example : oswaldspaneff4 exC (some 0.6) = 0.998479 * oswaldspaneff4 exC none := C122_six exC exC_e4

example : oswaldspaneff4 exC (some 0.8) =
    max 0.001 (oswaldspaneff4 exC none * (1 - 0.001521 * (0.8 / 0.3 - 1) ^ (10.82 : ℝ))) :=
  C122_fast exC 0.8 (by norm_num) (lt_trans (by norm_num) exC_e4)

/-- A faster aircraft never has the larger estimate. -/
theorem C122_antitone (c : Concept) (m n : ℝ) (h : m ≤ n) (ha : 0 < pyNum c.aspectratio) :
    oswaldspaneff4 c (some n) ≤ oswaldspaneff4 c (some m) := by
  rw [e4_eq, e4_eq]
  exact max_le_max le_rfl (mul_le_mul_of_nonneg_left (ke_antitone h) (rawE_pos c ha).le)

example : oswaldspaneff4 exC (some 0.2) = oswaldspaneff4 exC none ∧ oswaldspaneff4 exC (some 0.8) ≤ oswaldspaneff4 exC (some 0.6) :=
  ⟨C122_slow _ _ (by norm_num), C122_antitone _ _ _ (by norm_num) (by norm_num [exC, pyNum])⟩

theorem e4_between (c : Concept) (m r : ℝ) (ha : 0 < pyNum c.aspectratio) (hr1 : r ≤ 1) (hk : r ≤ keMach m) :
    r * oswaldspaneff4 c none ≤ oswaldspaneff4 c (some m) ∧ oswaldspaneff4 c (some m) ≤ oswaldspaneff4 c none := by
  constructor
  · rw [e4_eq, e4_none_eq]
    have hp := (rawE_pos c ha).le
    rcases le_total 0.001 (rawE c) with h | h
    · rw [max_eq_right h]
      apply le_max_of_le_right
      rw [mul_comm]
      exact mul_le_mul_of_nonneg_left hk hp
    · rw [max_eq_left h]
      apply le_max_of_le_left
      norm_num
      linarith
  · by_cases h : m ≤ 0.3
    · rw [C122_slow c m h]
    · push Not at h
      rw [e4_none]
      exact C122_antitone c 0.3 m h.le ha

/-- In the recommended range (Mach below 0.69) at most three per cent are lost. -/
theorem C122_range (c : Concept) (m : ℝ) (h : m < 0.69) (ha : 0 < pyNum c.aspectratio) :
    0.97 * oswaldspaneff4 c none ≤ oswaldspaneff4 c (some m) ∧ oswaldspaneff4 c (some m) ≤ oswaldspaneff4 c none := by
  apply e4_between c m 0.97 ha (by norm_num)
  refine le_trans ?_ (ke_antitone h.le)
  rw [ke_fast 0.69 (by norm_num), show (0.69:ℝ) / 0.3 - 1 = 1.3 by norm_num]
  have h11 : (1.3:ℝ) ^ (10.82 : ℝ) ≤ (1.3:ℝ) ^ ((11:ℕ) : ℝ) := by
    apply Real.rpow_le_rpow_of_exponent_le (by norm_num)
    norm_num
  rw [Real.rpow_natCast] at h11
  obtain ⟨x, hx⟩ : ∃ x, x = (1.3:ℝ) ^ (10.82 : ℝ) := ⟨_, rfl⟩
  rw [← hx] at h11 ⊢
  norm_num at h11 ⊢
  linarith

example : 0.97 * oswaldspaneff4 exC none ≤ oswaldspaneff4 exC (some 0.65) :=
  (C122_range exC 0.65 (by norm_num) (by norm_num [exC, pyNum])).1

theorem ke_85 : keMach 0.85 ≤ 0 := by
  rw [ke_fast 0.85 (by norm_num), show (0.85:ℝ) / 0.3 - 1 = 11 / 6 by norm_num]
  have h1 : ((11 / 6 : ℝ)) ^ ((43:ℝ) / 4) ≤ (11 / 6 : ℝ) ^ (10.82 : ℝ) := by
    apply Real.rpow_le_rpow_of_exponent_le (by norm_num)
    norm_num
  have h2 : (660 : ℝ) ≤ (11 / 6 : ℝ) ^ ((43:ℝ) / 4) := by
    rw [div_eq_mul_inv (43:ℝ) 4, Real.rpow_mul (by norm_num), show (43:ℝ) = ((43:ℕ) : ℝ) by norm_num, Real.rpow_natCast,
      show (4:ℝ)⁻¹ = 1 / ((4:ℕ) : ℝ) by norm_num]
    have : (660:ℝ) = (660 ^ 4) ^ (1 / ((4:ℕ) : ℝ)) := by
      rw [one_div, Real.pow_rpow_inv_natCast (by norm_num) (by norm_num)]
    rw [this]
    apply Real.rpow_le_rpow (by norm_num) _ (by norm_num)
    norm_num
  have h3 := h2.trans h1
  obtain ⟨x, hx⟩ : ∃ x, x = (11 / 6 : ℝ) ^ (10.82 : ℝ) := ⟨_, rfl⟩
  rw [← hx] at h3 ⊢
  norm_num at h3 ⊢
  linarith

/-- From Mach 0.85 on the estimate is the floor 0.001, for every wing, and selected by itself it gives a thousand times
the ideal induced drag. -/
theorem C122_floor (c : Concept) (m : ℝ) (h : 0.85 ≤ m) (ha : 0 < pyNum c.aspectratio) :
    oswaldspaneff4 c (some m) = 0.001 ∧
    induceddragfact c (some 4) (some m) = .ok (1000 / (Real.pi * pyNum c.aspectratio)) := by
  have e : oswaldspaneff4 c (some m) = 0.001 := by
    rw [e4_eq]
    have := mul_nonpos_of_nonneg_of_nonpos (rawE_pos c ha).le ((ke_antitone h).trans ke_85)
    rw [max_eq_left (le_trans this (by norm_num))]
  refine ⟨e, ?_⟩
  have hl : oswaldlist c (some 4) (some m) = .ok [0.001] := by
    unfold oswaldlist
    simp [e]
  unfold induceddragfact
  rw [hl, bind_ok]
  show Except.ok _ = Except.ok _
  congr 1
  have := Real.pi_pos
  simp only [List.length_cons, List.length_nil, List.sum_cons, List.sum_nil]
  norm_num
  field_simp

example : oswaldspaneff4 exC (some 0.9) = 0.001 := (C122_floor exC 0.9 (by norm_num) (by norm_num [exC, pyNum])).1

/-- In the constraint analysis the Mach number of the estimate is capped at 0.6, so compressibility raises the factor of
methods 2 and 4 by less than 0.16 per cent of the incompressible default, at every speed. -/
theorem C122_analysis (c : Concept) (m : ℝ) (ha : 0 < pyNum c.aspectratio) :
    ∃ k k0, induceddragfact c (some 24) (some (min m 0.6)) = .ok k ∧ induceddragfact c none none = .ok k0 ∧
      k0 ≤ k ∧ k ≤ 1.0016 * k0 := by
  have hd := (C39_default c 0 none (by
    intro i h1 h4 ⟨j, hj, _⟩
    have : 0 < 10 ^ j := by positivity
    omega)).2
  have hl : oswaldlist c (some 24) (some (min m 0.6)) = .ok [oswaldspaneff2 c, oswaldspaneff4 c (some (min m 0.6))] := by
    unfold oswaldlist
    simp
  have hk : induceddragfact c (some 24) (some (min m 0.6)) = .ok (1 / (Real.pi * pyNum c.aspectratio *
      ((oswaldspaneff2 c + oswaldspaneff4 c (some (min m 0.6))) / 2))) := by
    unfold induceddragfact
    rw [hl, bind_ok]
    show Except.ok _ = Except.ok _
    congr 1
    simp only [List.length_cons, List.length_nil, List.sum_cons, List.sum_nil]
    norm_num
  refine ⟨_, _, hk, hd, ?_⟩
  have hke : (0.998479:ℝ) ≤ keMach (min m 0.6) := by
    refine le_trans ?_ (ke_antitone (min_le_right m 0.6))
    rw [ke_fast 0.6 (by norm_num), show (0.6:ℝ) / 0.3 - 1 = 1 by norm_num, Real.one_rpow]
    norm_num
  obtain ⟨b1, b2⟩ := e4_between c (min m 0.6) 0.998479 ha (by norm_num) hke
  have h2 := (C40_second c ha).1
  have h4 := (C40_fourth c none ha).1
  have h5 := (C40_fourth c (some (min m 0.6)) ha).1
  obtain ⟨p, hp⟩ : ∃ p, p = Real.pi * pyNum c.aspectratio := ⟨_, rfl⟩
  have hp0 : 0 < p := by rw [hp]; have := Real.pi_pos; positivity
  obtain ⟨x, hx⟩ : ∃ x, x = oswaldspaneff4 c (some (min m 0.6)) := ⟨_, rfl⟩
  obtain ⟨y, hy⟩ : ∃ y, y = oswaldspaneff4 c none := ⟨_, rfl⟩
  obtain ⟨z, hz⟩ : ∃ z, z = oswaldspaneff2 c := ⟨_, rfl⟩
  rw [← hx] at b1 b2 h5 ⊢
  rw [← hy] at b1 b2 h4 ⊢
  rw [← hz] at h2 ⊢
  rw [← hp]
  norm_num at b1 h4 h5
  have hx0 : 0 < x := by linarith
  have hy0 : 0 < y := by linarith
  constructor
  · gcongr
  · rw [mul_one_div, div_le_div_iff₀ (by positivity) (by positivity)]
    have : z + y ≤ 1.0016 * (z + x) := by norm_num; linarith
    have := mul_le_mul_of_nonneg_left this hp0.le
    linarith

example : 0 < pyNum exC.aspectratio := by norm_num [exC, pyNum]

end

end Verif.Props
