import Verif.Lemmas.Checked
import Verif.Lemmas.Env

/-
Property C135: in exact arithmetic no division, root, power, logarithm or tangent of the code's formulas is undefined on physical data. Here the
requirement formulas: `Exactly a P x` says that the checked expression `a` has the value `x` of the model if `P` and is undefined otherwise.
-/

namespace Verif.Props
open Verif Verif.Aircraft Verif.Checked

theorem C135_climb (roc v q cd k w : ℝ) :
    Exactly (climb (some roc) (some v) (some q) (some cd) (some k) (some w)) (v ≠ 0 ∧ w ≠ 0 ∧ q ≠ 0) (climbPoint roc v q cd k w) := by
  unfold climb climbPoint
  apply Exactly.of
  · walk
  · tauto

example : climb (some 5) (some 60) (some 1500) (some 0.03) (some 0.05) (some 1000) = some (climbPoint 5 60 1500 0.03 0.05 1000) ∧
    climb (some 5) (some 60) (some 1500) (some 0.03) (some 0.05) (some 0) = none :=
  ⟨(C135_climb ..).1 (by norm_num), (C135_climb ..).2 (by norm_num)⟩

theorem C135_cruise (q cd k w : ℝ) : Exactly (cruise (some q) (some cd) (some k) (some w)) (w ≠ 0 ∧ q ≠ 0) (cruisePoint q cd k w) := by
  unfold cruise cruisePoint
  apply Exactly.of
  · walk
  · tauto

example : cruise (some 1500) (some 0.03) (some 0.05) (some 1000) = some (cruisePoint 1500 0.03 0.05 1000) ∧
    cruise (some 0) (some 0.03) (some 0.05) (some 1000) = none :=
  ⟨(C135_cruise ..).1 (by norm_num), (C135_cruise ..).2 (by norm_num)⟩

theorem C135_ceiling (roc v q cd k w : ℝ) :
    Exactly (ceiling (some roc) (some v) (some q) (some cd) (some k) (some w)) (v ≠ 0 ∧ w ≠ 0 ∧ q ≠ 0) (ceilingPoint roc v q cd k w) := by
  unfold ceiling ceilingPoint
  apply Exactly.of
  · walk
  · tauto

example : ceiling (some 0.5) (some 60) (some 1500) (some 0.03) (some 0.05) (some 1000) = some (ceilingPoint 0.5 60 1500 0.03 0.05 1000) ∧
    ceiling (some 0.5) (some 0) (some 1500) (some 0.03) (some 0.05) (some 1000) = none :=
  ⟨(C135_ceiling ..).1 (by norm_num), (C135_ceiling ..).2 (by norm_num)⟩

theorem C135_turn (q cd n k w wc : ℝ) :
    Exactly (turn (some q) (some cd) (some n) (some k) (some w) (some wc)) (w ≠ 0 ∧ q ≠ 0) (turnPoint q cd n k w wc) := by
  unfold turn turnPoint
  apply Exactly.of
  · walk
  · tauto

example : turn (some 1500) (some 0.03) (some 2) (some 0.05) (some 1000) (some 990) = some (turnPoint 1500 0.03 2 0.05 1000 990) ∧
    turn (some 1500) (some 0.03) (some 2) (some 0.05) (some 0) (some 990) = none :=
  ⟨(C135_turn ..).1 (by norm_num), (C135_turn ..).2 (by norm_num)⟩

theorem C135_liftoff (d cl w : ℝ) :
    Exactly (liftoff (some d) (some cl) (some w)) (d ≠ 0 ∧ cl ≠ 0 ∧ 0 ≤ w / (d * cl)) (liftoffPoint d cl w) := by
  unfold liftoff liftoffPoint
  apply Exactly.of
  · walk
  · have e : 2 * w / (d * cl) = 2 * (w / (d * cl)) := by ring
    simp only [true_and, ne_eq, mul_eq_zero, not_or, e, and_assoc]
    refine and_congr_right fun _ => and_congr_right fun _ => ?_
    constructor <;> intro h <;> linarith

example : liftoff (some 1.2) (some 1.6) (some 1000) = some (liftoffPoint 1.2 1.6 1000) ∧ liftoff (some 1.2) (some 1.6) (some (-1000)) = none :=
  ⟨(C135_liftoff ..).1 (by norm_num), (C135_liftoff ..).2 (by norm_num)⟩

theorem C135_takeoff (s cd cl mu v : ℝ) :
    Exactly (takeoff (some s) (some cd) (some cl) (some mu) (some v)) (s ≠ 0 ∧ cl ≠ 0) (takeoffPoint s cd cl mu v) := by
  unfold takeoff takeoffPoint Units.gAcc
  apply Exactly.of
  · walk
  · simp only [true_and, and_true, ne_eq, mul_eq_zero]
    norm_num

example : takeoff (some 300) (some 0.04) (some 0.6) (some 0.03) (some 40) = some (takeoffPoint 300 0.04 0.6 0.03 40) ∧
    takeoff (some 300) (some 0.04) (some 0) (some 0.03) (some 40) = none :=
  ⟨(C135_takeoff ..).1 (by norm_num), (C135_takeoff ..).2 (by norm_num)⟩

theorem C135_static (c : Concept) (b : ℝ) (hb : c.bpr = some b) (h : 1 < b) : tostatic (some b) = some (map2static c) := by
  have e : map2static c = 4 / 3 * (4 + b) / (5 + b) := by unfold map2static; simp only [hb, pyNum, Option.getD_some]; rw [if_pos h]
  rw [e]
  unfold tostatic
  apply Exactly.suff
  · walk
  · simp only [true_and]
    exact ⟨by norm_num, by positivity⟩

example (c : Concept) : tostatic (some 6) = some (map2static { c with bpr := some 6 }) := C135_static _ 6 rfl (by norm_num)

theorem C135_power (t v e : ℝ) : Exactly (power (some t) (some v) (some e)) (e ≠ 0) (tw2pw t v e) := by
  unfold power tw2pw
  apply Exactly.of
  · walk
  · tauto

example : power (some 0.3) (some 60) (some 0.8) = some (tw2pw 0.3 60 0.8) ∧ power (some 0.3) (some 60) (some 0) = none :=
  ⟨(C135_power ..).1 (by norm_num), (C135_power ..).2 (by norm_num)⟩

theorem C135_ground (h : ℝ) : ground (some h) = some (wig h) := by
  unfold ground wig
  apply Exactly.suff
  · walk
  · simp only [true_and]
    positivity

example : ground (some 0) = some 0 := by rw [C135_ground]; norm_num [wig]

theorem C135_stall (c : Concept) (w cl : ℝ) (h : 0 ≤ w) (hc : 0 < cl) :
    ∃ v, vstall_kias c (.scalar w) (.num cl) = .ok (Units.mps2kts v) ∧ stall (some w) (some (Atmos.isadens 0 0)) (some cl) = some v := by
  have hd : 0 < Atmos.isadens 0 0 := by
    have e : Atmos.isadens 0 0 = Atmos.I1 ^ Atmos.L1 := by
      unfold Atmos.isadens Atmos.isadens0
      rw [if_pos (by norm_num [Atmos.Level1])]
      simp
    rw [e]
    exact Real.rpow_pos_of_pos (by norm_num [Atmos.I1]) _
  have hx : 0 ≤ 2 * w / (Atmos.isadens 0 0 * cl) := by positivity
  refine ⟨√(2 * w / (Atmos.isadens 0 0 * cl)), ?_, ?_⟩
  · unfold vstall_kias
    rw [isa_dens1 0 0 (by norm_num)]
    simp only [bind_ok, recastArray, if_neg (not_lt.2 hx)]
    rfl
  · unfold stall
    apply Exactly.suff
    · walk
    · simp only [true_and]
      exact ⟨by positivity, hx⟩

example (c : Concept) : ∃ v, vstall_kias c (.scalar 800) (.num 1.5) = .ok (Units.mps2kts v) ∧ stall (some 800) (some (Atmos.isadens 0 0)) (some 1.5) = some v :=
  C135_stall c 800 1.5 (by norm_num) (by norm_num)

end Verif.Props
