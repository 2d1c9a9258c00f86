import Verif.Lemmas.Checked
import Verif.Lemmas.ISALayers

/-
Property C135, third part: standard atmosphere and engine corrections.
-/

namespace Verif.Props
open Verif Verif.Checked

noncomputable section

theorem C135_isapress (h : ℝ) : Checked.isapress h = some (Atmos.isapress h) := by
  have key : ∀ (c d e : ℝ), 0 < c + d * h →
      Checked.pow (some c + some d * some h) (some e) = some ((c + d * h) ^ e) := by
    intro c d e hp
    apply Exactly.suff
    · walk
    · simp only [true_and, not_or, not_lt]
      exact ⟨hp.le, fun h2 => absurd h2.1 hp.ne'⟩
  unfold Checked.isapress Atmos.isapress
  split
  · rename_i h1
    exact key _ _ _ (Verif.ISAL.pos_U1 (by norm_num [Atmos.Level1] at h1; linarith))
  split
  · rfl
  rename_i h2
  have h2 : 0 ≤ h := by norm_num [Atmos.Level2] at h2; linarith
  split
  · exact key _ _ _ (Verif.ISAL.pos_U3 h2)
  split
  · exact key _ _ _ (Verif.ISAL.pos_U4 h2)
  · rfl

example : Checked.isapress 15000 = some (Atmos.isapress 15000) ∧ Checked.isapress (-300) = some (Atmos.isapress (-300)) := ⟨C135_isapress _, C135_isapress _⟩

theorem C135_isadens0 (h : ℝ) : Checked.isadens0 h = some (Atmos.isadens0 h) := by
  have key : ∀ (c d e : ℝ), 0 < c + d * h →
      Checked.pow (some c + some d * some h) (some e) = some ((c + d * h) ^ e) := by
    intro c d e hp
    apply Exactly.suff
    · walk
    · simp only [true_and, not_or, not_lt]
      exact ⟨hp.le, fun h2 => absurd h2.1 hp.ne'⟩
  unfold Checked.isadens0 Atmos.isadens0
  split
  · rename_i h1
    exact key _ _ _ (Verif.ISAL.pos_V1 (by norm_num [Atmos.Level1] at h1; linarith))
  split
  · rfl
  rename_i h2
  have h2 : 0 ≤ h := by norm_num [Atmos.Level2] at h2; linarith
  split
  · exact key _ _ _ (Verif.ISAL.pos_V3 h2)
  split
  · exact key _ _ _ (Verif.ISAL.pos_V4 h2)
  · rfl

example : Checked.isadens0 40000 = some (Atmos.isadens0 40000) := C135_isadens0 _

/-- The standard temperature, without an offset, is positive at every altitude. -/
theorem isatemp_base_pos (o h : ℝ) : 0 < Atmos.isatemp o h - o := by
  unfold Atmos.isatemp Atmos.Level1 Atmos.Level2 Atmos.Level3 Atmos.Level4 Atmos.A1 Atmos.A2 Atmos.A3 Atmos.A4 Atmos.A5
    Atmos.B1 Atmos.B2 Atmos.B3 Atmos.B4 Atmos.B5
  split_ifs <;> norm_num at * <;> linarith

theorem C135_isadens (o h : ℝ) : Exactly (Checked.isadens o h) (Atmos.isatemp o h ≠ 0) (Atmos.isadens o h) := by
  unfold Checked.isadens Atmos.isadens
  rw [C135_isadens0]
  have ht := isatemp_base_pos o h
  obtain ⟨t, hte⟩ : ∃ t, t = Atmos.isatemp o h := ⟨_, rfl⟩
  rw [← hte] at ht ⊢
  apply Exactly.of
  · walk
  · simp only [true_and]
    have e : 1 + o / (t - o) = t / (t - o) := by field_simp; ring
    rw [e]
    constructor
    · rintro ⟨-, h2⟩ h3
      rw [h3, zero_div] at h2
      exact h2 rfl
    · exact fun h2 => ⟨ht.ne', div_ne_zero h2 ht.ne'⟩

example : Checked.isadens 15 3000 = some (Atmos.isadens 15 3000) ∧ Checked.isadens (-288.15) 0 = none := by
  refine ⟨(C135_isadens 15 3000).1 ?_, (C135_isadens _ 0).2 ?_⟩ <;>
    norm_num [Atmos.isatemp, Atmos.Level1, Atmos.A1, Atmos.B1]

theorem C135_isapressalt (p : ℝ) : Exactly (Checked.isapressalt p) (0 < p) (Atmos.isapressalt p) := by
  have key : ∀ (c d e : ℝ), 0 < p → d ≠ 0 → e ≠ 0 →
      Exactly ((Checked.pow (some p) (1 / some e) - some c) / some d) (0 < p) ((p ^ (1 / e) - c) / d) := by
    intro c d e hp hd he
    apply Exactly.of
    · walk
    · simp only [true_and, and_true, not_or, not_lt]
      exact ⟨fun _ => hp, fun _ => ⟨⟨he, hp.le, fun h => absurd h.1 hp.ne'⟩, hd⟩⟩
  have lg : ∀ (f g : ℝ), 0 < f → g ≠ 0 →
      Exactly ((1 / some g) * log1p (some p / some f - 1)) (0 < p) (1 / g * Real.log (1 + (p / f - 1))) := by
    intro f g hf hg
    apply Exactly.of
    · walk
    · simp only [true_and, and_true]
      have e : 1 + (p / f - 1) = p / f := by ring
      rw [e]
      constructor
      · rintro ⟨-, -, h⟩
        by_contra hn
        exact absurd h (not_lt.2 (div_nonpos_of_nonpos_of_nonneg (not_lt.1 hn) hf.le))
      · exact fun h => ⟨hg, hf.ne', div_pos h hf⟩
  unfold Checked.isapressalt Atmos.isapressalt
  split
  · rename_i h1
    exact key _ _ _ (by norm_num [Atmos.pLevel1] at h1; linarith) (by norm_num [Atmos.D1]) (by norm_num [Atmos.E1])
  split
  · exact lg _ _ Verif.ISAL.pos_F2 (by norm_num [Atmos.G2])
  split
  · rename_i h1
    exact key _ _ _ (by norm_num [Atmos.pLevel3] at h1; linarith) (by norm_num [Atmos.D3]) (by norm_num [Atmos.E3])
  split
  · rename_i h1
    exact key _ _ _ (by norm_num [Atmos.pLevel4] at h1; linarith) (by norm_num [Atmos.D4]) (by norm_num [Atmos.E4])
  · exact lg _ _ Verif.ISAL.pos_F5 (by norm_num [Atmos.G5])

example : Checked.isapressalt 50000 = some (Atmos.isapressalt 50000) ∧ Checked.isapressalt 0 = none :=
  ⟨(C135_isapressalt _).1 (by norm_num), (C135_isapressalt _).2 (by norm_num)⟩

theorem C135_isadensalt (d : ℝ) :
    ∃ x, Atmos.isadensalt [d] = .ok [x] ∧ Exactly (Checked.isadensalt d) (0 < d) x := by
  have key : ∀ (c k e : ℝ), 0 < d → k ≠ 0 → e ≠ 0 →
      Exactly ((Checked.pow (some d) (1 / some e) - some c) / some k) (0 < d) ((d ^ (1 / e) - c) / k) := by
    intro c k e hp hd he
    apply Exactly.of
    · walk
    · simp only [true_and, and_true, not_or, not_lt]
      exact ⟨fun _ => hp, fun _ => ⟨⟨he, hp.le, fun h => absurd h.1 hp.ne'⟩, hd⟩⟩
  have lg : ∀ (f g : ℝ), 0 < f → g ≠ 0 →
      Exactly ((1 / some g) * log1p (some d / some f - 1)) (0 < d) (1 / g * Real.log (1 + (d / f - 1))) := by
    intro f g hf hg
    apply Exactly.of
    · walk
    · simp only [true_and, and_true]
      have e : 1 + (d / f - 1) = d / f := by ring
      rw [e]
      constructor
      · rintro ⟨-, -, h⟩
        by_contra hn
        exact absurd h (not_lt.2 (div_nonpos_of_nonpos_of_nonneg (not_lt.1 hn) hf.le))
      · exact fun h => ⟨hg, hf.ne', div_pos h hf⟩
  unfold Checked.isadensalt Atmos.isadensalt
  simp only [List.mapM_cons, List.mapM_nil, Atmos.isadensalt1]
  split_ifs with h1 h2 h3 h4
  · exact ⟨_, rfl, key _ _ _ (by norm_num [Atmos.dLevel1] at h1; linarith) (by norm_num [Atmos.J1]) (by norm_num [Atmos.L1])⟩
  · exact ⟨_, rfl, lg _ _ (by norm_num [Atmos.M2]) (by norm_num [Atmos.N2])⟩
  · exact ⟨_, rfl, key _ _ _ (by norm_num [Atmos.dLevel3] at h3; linarith) (by norm_num [Atmos.J3]) (by norm_num [Atmos.L3])⟩
  · exact ⟨_, rfl, key _ _ _ (by norm_num [Atmos.dLevel4] at h4; linarith) (by norm_num [Atmos.J4]) (by norm_num [Atmos.L4])⟩
  · exact ⟨_, rfl, lg _ _ (by norm_num [Atmos.M5]) (by norm_num [Atmos.N5])⟩

example : (∃ x, Atmos.isadensalt [0.9] = .ok [x] ∧ Checked.isadensalt 0.9 = some x) ∧ Checked.isadensalt (-0.1) = none := by
  obtain ⟨x, h1, h2⟩ := C135_isadensalt 0.9
  obtain ⟨y, -, h3⟩ := C135_isadensalt (-0.1)
  exact ⟨⟨x, h1, h2.1 (by norm_num)⟩, h3.2 (by norm_num)⟩

/-! ### Engines -/

theorem checked_tempratio (t m : ℝ) : Checked.tempratio (some t) (some m) = some (Atmos.tempratio t m) := by
  unfold Checked.tempratio Atmos.tempratio Units.c2k Atmos.GAMMA_DRY_AIR
  apply Exactly.suff
  · walk
  · norm_num

theorem checked_pressratio (p m : ℝ) : Checked.pressratio (some p) (some m) = some (Atmos.pressratio p m) := by
  unfold Checked.pressratio Atmos.pressratio Atmos.GAMMA_DRY_AIR
  have h : 0 < 1 + m ^ 2 * (1.401 - 1) / 2 := by norm_num; positivity
  apply Exactly.suff
  · walk
  · simp only [true_and, not_or, not_lt]
    exact ⟨by norm_num, by norm_num, by norm_num, h.le, fun h2 => absurd h2.1 h.ne'⟩

theorem tempratio_pos {t m : ℝ} (h : -273.15 < t) : 0 < Atmos.tempratio t m := by
  unfold Atmos.tempratio Units.c2k Atmos.GAMMA_DRY_AIR
  have h1 : (0 : ℝ) < t + 273.15 := by linarith
  have h2 : (0 : ℝ) < 1 + m ^ 2 * (1.401 - 1) / 2 := by norm_num; positivity
  exact mul_pos (div_pos h1 (by norm_num)) h2

theorem C135_turbofan (t p m tr : ℝ) (ptype : String) (ht : -273.15 < t) (hm : 0 ≤ m) :
    turbofan (some t) (some p) (some m) (some tr) ptype = some (Atmos.turbofanthrustfactor t p m tr ptype) := by
  have hpos := tempratio_pos (m := m) ht
  have h15 : (1.5 : ℝ) + m ≠ 0 := by positivity
  unfold turbofan Atmos.turbofanthrustfactor
  rw [checked_tempratio, checked_pressratio]
  simp only [Option.bind_eq_bind, Option.bind_some]
  split_ifs <;> (apply Exactly.suff; walk; simp only [true_and]) <;> first | trivial | exact hm | exact ⟨hm, h15⟩ | exact hpos.ne'

example : turbofan (some (-20)) (some 60000) (some 0.7) (some 1.05) "highbpr" = some (Atmos.turbofanthrustfactor (-20) 60000 0.7 1.05 "highbpr") :=
  C135_turbofan _ _ _ _ _ (by norm_num) (by norm_num)

theorem C135_turboprop (t p m tr : ℝ) :
    turboprop_matt (some t) (some p) (some m) (some tr) = some (Atmos.turbopropthrustfactor_matt t p m tr) := by
  unfold turboprop_matt Atmos.turbopropthrustfactor_matt
  rw [checked_tempratio, checked_pressratio]
  simp only [Option.bind_eq_bind, Option.bind_some]
  split_ifs with h1 h2
  · rfl
  · have h3 : 0 < m - 0.1 := by linarith
    apply Exactly.suff
    · walk
    · simp only [true_and, not_or, not_lt]
      exact ⟨h3.le, fun h => absurd h.1 h3.ne'⟩
  · have h3 : 0 < m - 0.1 := by linarith
    apply Exactly.suff
    · walk
    · simp only [true_and, not_or, not_lt]
      exact ⟨⟨h3.le, fun h => absurd h.1 h3.ne'⟩, by positivity⟩

example : turboprop_matt (some 30) (some 60000) (some 0.4) (some 1) = some (Atmos.turbopropthrustfactor_matt 30 60000 0.4 1) := C135_turboprop _ _ _ _

theorem C135_turbojet (t p m tr : ℝ) (b : Bool) (ht : -273.15 < t) (hm : 0 ≤ m) (htr : 0 < tr) :
    turbojet (some t) (some p) (some m) (some tr) b = some (Atmos.turbojetthrustfactor t p m tr b) := by
  have hpos := tempratio_pos (m := m) ht
  have h9 : (9 + m) * Atmos.tempratio t m ≠ 0 := by positivity
  unfold turbojet Atmos.turbojetthrustfactor
  rw [checked_tempratio, checked_pressratio]
  simp only [Option.bind_eq_bind, Option.bind_some]
  split_ifs <;> (apply Exactly.suff; walk; simp only [true_and]) <;> first | trivial | exact hm | exact ⟨hm, h9⟩ | exact ⟨hm, htr.ne'⟩

example : turbojet (some (-20)) (some 60000) (some 0.9) (some 1.05) true = some (Atmos.turbojetthrustfactor (-20) 60000 0.9 1.05 true) :=
  C135_turbojet _ _ _ _ _ (by norm_num) (by norm_num) (by norm_num)

end

end Verif.Props
