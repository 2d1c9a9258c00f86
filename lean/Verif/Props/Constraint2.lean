import Verif.Props.Constraint
import Mathlib.Order.Bounds.Basic

/-
Properties C46 and C47: feasibility of the turn, the combined requirement.
-/

namespace Verif.Props
open Verif Verif.Aircraft Verif.Units

noncomputable section

/-! ### C46 -/

/-- Entry by entry: the feasible requirement is NaN where the lift coefficient is above the clean
maximum and the plain requirement elsewhere. -/
theorem C46_marking (X : Ext) (c : Concept) (b : Bool) (w : NumArg) (tw cl : NumArg) (fe : NanArg)
    (h : twrequired_trn X c w b = .ok (tw, cl, fe)) :
    (recastArray tw).length = (recastArray w).length ∧ (recastArray cl).length = (recastArray w).length ∧
    fe.toList.length = (recastArray w).length ∧
    ∀ (i : ℕ) (t x : ℝ), (recastArray tw)[i]? = some t → (recastArray cl)[i]? = some x →
      (x ≤ pyNum c.clmaxclean → fe.toList[i]? = some (some t)) ∧
      (pyNum c.clmaxclean < x → fe.toList[i]? = some none) := by
  rcases trn_point X c b with ⟨e, he⟩ | ⟨s, n, t, q, m, K, _, h'⟩
  · rw [he] at h; cases h
  · rw [h'] at h; cases h
    simp only [recast_revert, toList_revertNan, List.length_map, List.getElem?_map, true_and]
    intro i t' x h1 h2
    cases hi : (recastArray w)[i]? with
    | none => rw [hi] at h1; cases h1
    | some y =>
      rw [hi] at h1 h2
      cases h1; cases h2
      constructor
      · intro hle; simp only [turnFeas, Option.map_some, if_neg (not_lt.mpr hle)]
      · intro hlt; simp only [turnFeas, Option.map_some, if_pos hlt]

/-- Feasible at a wing loading, feasible at every smaller one. -/
theorem C46_downward (X : Ext) (c : Concept) (b : Bool) (w : NumArg) (tw cl : NumArg) (fe : NanArg) (d : ℝ)
    (h : twrequired_trn X c w b = .ok (tw, cl, fe))
    (hd : Atmos.dens1 c.designatm (pyNum c.turnalt_m) = .ok d) (hd0 : 0 ≤ d)
    (h1 : 0 ≤ pyNum c.turn_weight_fraction) (h2 : 0 ≤ pyNum c.climb_weight_fraction) (h3 : 0 ≤ pyNum c.stloadfactor)
    (i j : ℕ) (wi wj t : ℝ) (hi : (recastArray w)[i]? = some wi) (hj : (recastArray w)[j]? = some wj) (hij : wi ≤ wj)
    (hf : fe.toList[j]? = some (some t)) : ∃ t', fe.toList[i]? = some (some t') := by
  rcases trn_point X c b with ⟨e, he⟩ | ⟨s, n, t, q, m, K, hin, h'⟩
  · rw [he] at h; cases h
  · rw [h'] at h; cases h
    simp only [toList_revertNan, List.getElem?_map, hi, hj, Option.map_some, Option.some.injEq, turnFeas] at hf ⊢
    have hq : 0 ≤ q := by
      have := hin.press
      unfold Atmos.dynamicpressure_pa at this
      rw [hd] at this; cases this
      positivity
    have hn : 0 ≤ n := by have := hin.load; rw [this] at h3; exact h3
    have hmono : turnCl c n q wi ≤ turnCl c n q wj := by
      unfold turnCl
      gcongr
    split at hf
    · cases hf
    · rename_i hc
      rw [if_neg (by linarith)]
      exact ⟨_, rfl⟩

/-- Without a clean maximum lift coefficient every positive wing loading is marked infeasible. -/
theorem C46_unspecified (X : Ext) (c : Concept) (b : Bool) (w : NumArg) (tw cl : NumArg) (fe : NanArg) (d s : ℝ)
    (h : twrequired_trn X c w b = .ok (tw, cl, fe)) (hc : c.clmaxclean = none)
    (hd : Atmos.dens1 c.designatm (pyNum c.turnalt_m) = .ok d) (hd0 : 0 < d)
    (hs : c.turnspeed_ktas = some s) (hs0 : s ≠ 0)
    (h1 : 0 < pyNum c.turn_weight_fraction) (h2 : 0 < pyNum c.climb_weight_fraction) (h3 : 0 < pyNum c.stloadfactor)
    (i : ℕ) (wi : ℝ) (hi : (recastArray w)[i]? = some wi) (hw : 0 < wi) : fe.toList[i]? = some none := by
  rcases trn_point X c b with ⟨e, he⟩ | ⟨s, n, t, q, m, K, hin, h'⟩
  · rw [he] at h; cases h
  · rw [h'] at h; cases h
    have e1 := hs.symm.trans hin.speed
    cases e1
    simp only [toList_revertNan, List.getElem?_map, hi, Option.map_some, turnFeas]
    have hq : 0 < q := by
      have := hin.press
      unfold Atmos.dynamicpressure_pa at this
      rw [hd] at this; cases this
      have : kts2mps s ≠ 0 := by unfold kts2mps; positivity
      positivity
    have hn : 0 < n := by have := hin.load; rw [this] at h3; exact h3
    rw [if_pos]
    rw [hc]
    show 0 < turnCl c n q wi
    unfold turnCl
    positivity

/-- The hypotheses are met by the example concept: the turn at 2 g and 120 knots is feasible at 500 Pa and
not at 3000 Pa. -/
example (X : Ext) : ∃ tw cl fe t, twrequired_trn X exC (.array [500, 3000]) true = .ok (tw, cl, fe) ∧
    Atmos.dens1 exC.designatm (pyNum exC.turnalt_m) = .ok 1 ∧
    fe.toList[0]? = some (some t) ∧ fe.toList[1]? = some none := by
  obtain ⟨t, q, m, K, h⟩ := trn_given (X := X) exC_ready (s := 120) (n := 2) rfl rfl
  have hd : Atmos.dens1 exC.designatm (pyNum exC.turnalt_m) = .ok 1 := exAtm_dens 1000 (by norm_num) (by norm_num)
  have hq := h.press
  unfold Atmos.dynamicpressure_pa at hq
  rw [hd] at hq; cases hq
  have hcl : ∀ w, turnCl exC 2 (0.5 * 1 * kts2mps 120 ^ 2) w = 4 * w / kts2mps 120 ^ 2 := by
    intro w
    have : (0:ℝ) < kts2mps 120 := by norm_num [kts2mps]
    simp only [turnCl, exC, pyNum, Option.getD_some]
    field_simp
    ring
  refine ⟨_, _, _, turnReq exC true 2 t (0.5 * 1 * kts2mps 120 ^ 2) K 500, h.eval true _, hd, ?_, ?_⟩
  · rw [toList_revertNan]
    show some (turnFeas exC true 2 t (0.5 * 1 * kts2mps 120 ^ 2) K 500) = _
    unfold turnFeas
    rw [hcl, if_neg]
    show ¬ _ > (1.5 : ℝ)
    norm_num [kts2mps]
  · rw [toList_revertNan]
    show some (turnFeas exC true 2 t (0.5 * 1 * kts2mps 120 ^ 2) K 3000) = _
    unfold turnFeas
    rw [hcl, if_pos]
    show _ > (1.5 : ℝ)
    norm_num [kts2mps]

/-! ### C47 -/

/-- The entries of the dictionary at one position. -/
structure EntryAt (r : Req) (i : ℕ) (e : ReqAt) : Prop where
  takeoff : (recastArray r.takeoff)[i]? = some e.takeoff
  liftoffspeed : (recastArray r.liftoffspeed)[i]? = some e.liftoffspeed
  avspeed : (recastArray r.avspeed)[i]? = some e.avspeed
  turn : (recastArray r.turn)[i]? = some e.turn
  turnfeasible : r.turnfeasible.toList[i]? = some e.turnfeasible
  turncl : (recastArray r.turncl)[i]? = some e.turncl
  climb : (recastArray r.climb)[i]? = some e.climb
  cruise : (recastArray r.cruise)[i]? = some e.cruise
  servceil : (recastArray r.servceil)[i]? = some e.servceil
  combined : r.combined.toList[i]? = some e.combined

theorem entry_reqOf (ws : List ℝ) (R : ℝ → ReqAt) (i : ℕ) (hi : i < ws.length) : EntryAt (reqOf ws R) i (R ws[i]) := by
  constructor <;> simp [reqOf, recast_revert, toList_revertNan, hi]

theorem entry_preqOf (k : Bool) (ws : List ℝ) (R : ℝ → ReqAt) (i : ℕ) (hi : i < ws.length) :
    EntryAt (preqOf k ws R) i (R ws[i]) := by
  constructor <;> simp [preqOf, recast_revert, recast_shp, toList_shpNan, hi]

/-- The combined requirement among the five at one wing loading. -/
def Largest (fo : Bool) (e : ReqAt) : Prop :=
  (fo = false → ∃ y, e.combined = some y) ∧
  (fo = true → (e.combined = none ↔ e.turnfeasible = none)) ∧
  (∀ y, e.combined = some y → IsGreatest {e.takeoff, e.turn, e.climb, e.cruise, e.servceil} y)

theorem isGreatest_max5 (a b x y z : ℝ) :
    IsGreatest {a, b, x, y, z} (max (max (max (max a b) x) y) z) := by
  constructor
  · simp only [Set.mem_insert_iff, Set.mem_singleton_iff]
    rcases max_choice (max (max (max a b) x) y) z with h | h <;> rw [h]
    · rcases max_choice (max (max a b) x) y with h | h <;> rw [h]
      · rcases max_choice (max a b) x with h | h <;> rw [h]
        · rcases max_choice a b with h | h <;> rw [h] <;> simp
        · simp
      · simp
    · simp
  · intro t ht
    simp only [Set.mem_insert_iff, Set.mem_singleton_iff] at ht
    rcases ht with rfl | rfl | rfl | rfl | rfl <;> simp

theorem largest_of {fo : Bool} {e : ReqAt}
    (h : e.combined = max5 e.takeoff (if fo then e.turnfeasible else some e.turn) e.climb e.cruise e.servceil)
    (hf : e.turnfeasible = none ∨ e.turnfeasible = some e.turn) : Largest fo e := by
  cases fo with
  | false =>
    simp only [Bool.false_eq_true, if_false] at h
    refine ⟨fun _ => ⟨_, h⟩, fun h => absurd h (by decide), fun y hy => ?_⟩
    rw [h] at hy; cases hy
    exact isGreatest_max5 _ _ _ _ _
  | true =>
    simp only [if_true] at h
    refine ⟨fun h => absurd h (by decide), fun _ => ?_, fun y hy => ?_⟩
    · rw [h]; cases e.turnfeasible <;> simp [max5]
    · rcases hf with hf | hf
      · rw [h, hf] at hy; cases hy
      · rw [h, hf] at hy; cases hy
        exact isGreatest_max5 _ _ _ _ _

/-- Thrust: at each position the combined entry is the largest of the five; with feasible-only it is NaN
exactly where the turn is infeasible. -/
theorem C47_thrust (X : Ext) (c : Concept) (w : NumArg) (fo b : Bool) (r : Req)
    (h : twrequired X c w fo b = .ok r) (hw : recastArray w ≠ []) (i : ℕ) (hi : i < (recastArray w).length) :
    ∃ e, EntryAt r i e ∧ Largest fo e := by
  rcases tw_point X c fo b with ⟨e, he⟩ | ⟨R, hR, -, -, -, -, -, hc, hf⟩
  · rw [he w hw] at h; cases h
  · rw [hR] at h; cases h
    refine ⟨_, entry_reqOf _ R i hi, largest_of (hc _) ?_⟩
    rw [hf]
    split
    · left; rfl
    · right; rfl

/-- The same for power. -/
theorem C47_power (X : Ext) (c : Concept) (w : NumArg) (tow : ℝ) (fo b : Bool) (r : Req)
    (h : powerrequired X c w tow fo b = .ok r) (hw : recastArray w ≠ []) (i : ℕ) (hi : i < (recastArray w).length) :
    ∃ e, EntryAt r i e ∧ Largest fo e := by
  rcases power_point X c tow fo b with ⟨e, he⟩ | ⟨R, vc, vs, pto, ptrn, pclm, pcrs, psec, _, _, hf, h'⟩
  · rw [he w hw] at h; cases h
  · rw [h' w hw] at h; cases h
    refine ⟨_, entry_preqOf _ _ _ i hi, largest_of rfl ?_⟩
    simp only [powerAt, hf]
    split
    · left; rfl
    · right; rfl

/-- The individual entries are those of the single evaluations. -/
theorem C47_entries (X : Ext) (c : Concept) (w : NumArg) (fo b : Bool) (r : Req)
    (h : twrequired X c w fo b = .ok r) (hw : recastArray w ≠ []) :
    twrequired_to X c w b = .ok (r.takeoff, r.liftoffspeed, r.avspeed) ∧
    twrequired_trn X c w b = .ok (r.turn, r.turncl, r.turnfeasible) ∧
    twrequired_clm X c w b = .ok r.climb ∧ twrequired_crs X c w b = .ok r.cruise ∧
    twrequired_sec X c w b = .ok r.servceil := by
  rcases tw_point X c fo b with ⟨e, he⟩ | ⟨R, hR, h1, h2, h3, h4, h5, -, -⟩
  · rw [he w hw] at h; cases h
  · rw [hR] at h; cases h
    exact ⟨h1 w, h2 w, h3 w, h4 w, h5 w⟩

example (X : Ext) : ∃ r, twrequired X exI (.array [500, 1000, 1500]) false true = .ok r ∧
    recastArray (.array [500, 1000, 1500]) ≠ [] :=
  ⟨_, (C48_given X exI _ _ _ exI_ready exI_given).1.choose_spec, by simp [recastArray]⟩

example (X : Ext) : ∃ r, powerrequired X exI (.array [500, 1000, 1500]) 1000 true true = .ok r :=
  (C48_given X exI _ _ _ exI_ready exI_given).2 (by simp [recastArray]) 1000

example (X : Ext) : ∃ r, twrequired X exI (.array [500, 1000, 1500]) false true = .ok r ∧
    (∀ i, i < 3 → ∃ e, EntryAt r i e ∧ Largest false e) := by
  obtain ⟨r, h⟩ := (C48_given X exI (.array [500, 1000, 1500]) false true exI_ready exI_given).1
  exact ⟨r, h, fun i hi => C47_thrust X exI _ false true r h (by simp [recastArray]) i (by simpa [recastArray] using hi)⟩

example (X : Ext) : ∃ r, powerrequired X exI (.array [500, 1000, 1500]) 1000 true true = .ok r ∧
    (∀ i, i < 3 → ∃ e, EntryAt r i e ∧ Largest true e) := by
  obtain ⟨r, h⟩ := (C48_given X exI (.array [500, 1000, 1500]) true true exI_ready exI_given).2 (by simp [recastArray]) 1000
  exact ⟨r, h, fun i hi => C47_power X exI _ 1000 true true r h (by simp [recastArray]) i (by simpa [recastArray] using hi)⟩

end

end Verif.Props
