import Verif.Model.Propeller
import Verif.Props.Atmosphere
import Verif.Lemmas.Tac
import Verif.Lemmas.PyM

/-
The propeller efficiency solver: termination, history, arrays (C68, C78, C91, C94).
-/

namespace Verif.Propulsion

open Verif Verif.Atmos

noncomputable section

/-! ### The loop -/

/-- The estimates: start value 0.87, then the products of the rounds. `it` gives the induced efficiency. -/
def itSeq (rnd : ℝ → ℝ × ℝ) : ℕ → ℝ
  | 0 => 0.98
  | k + 1 => (rnd (itSeq rnd k)).1

/-- The `k`-th estimate of the efficiency. -/
def estimate (rnd : ℝ → ℝ × ℝ) : ℕ → ℝ
  | 0 => 0.87
  | k + 1 => (rnd (itSeq rnd k)).2

/-- Estimate `k` is the same as the one before, rounded. -/
def Settled (dp : ℤ) (rnd : ℝ → ℝ × ℝ) (k : ℕ) : Prop :=
  1 ≤ k ∧ roundDp dp (estimate rnd (k - 1)) = roundDp dp (estimate rnd k)

/-- Invariant of the loop. -/
def Inv (dp : ℤ) (rnd : ℝ → ℝ × ℝ) (N : ℕ) (s : Solver) : Prop :=
  s.count ≤ N ∧ s.eta1 = itSeq rnd s.count ∧ s.eta = estimate rnd s.count ∧
    (∀ j, j < s.count → ¬ Settled dp rnd j) ∧ (s.stopped = true ↔ Settled dp rnd s.count)

theorem inv_init (dp : ℤ) (rnd : ℝ → ℝ × ℝ) (N : ℕ) : Inv dp rnd N solverInit :=
  ⟨Nat.zero_le _, rfl, rfl, fun j hj => absurd hj (Nat.not_lt_zero _),
    ⟨fun h => (by cases h), fun h => absurd h.1 (by decide)⟩⟩

theorem lt_ceil {maxiter : ℝ} {n : ℕ} : (n : ℝ) < maxiter ↔ n < ⌈maxiter⌉.toNat := by
  rw [Int.lt_toNat, Int.lt_ceil]; simp

theorem inv_step {maxiter : ℝ} {dp : ℤ} {rnd : ℝ → ℝ × ℝ} {s s' : Solver} (hi : Inv dp rnd ⌈maxiter⌉.toNat s)
    (h : solverStep maxiter dp rnd s = some s') :
    Inv dp rnd ⌈maxiter⌉.toNat s' ∧ s'.count = s.count + 1 := by
  obtain ⟨h1, h2, h3, h4, h5⟩ := hi
  unfold solverStep at h
  simp only [] at h
  split_ifs at h with c1 c2 c3
  all_goals
    cases h
    have hs : ¬ Settled dp rnd s.count := fun hc => c1 (h5.mpr hc)
    have e1 : (rnd s.eta1).1 = itSeq rnd (s.count + 1) := by rw [h2]; rfl
    have e2 : (rnd s.eta1).2 = estimate rnd (s.count + 1) := by rw [h2]; rfl
    rw [h3, e2] at c3
    refine ⟨⟨lt_ceil.mp c2, e1, e2, ?_, ?_⟩, rfl⟩
    · intro j hj
      rcases Nat.lt_succ_iff_lt_or_eq.mp hj with hj | rfl
      · exact h4 j hj
      · exact hs
  · exact ⟨fun _ => ⟨by simp, c3⟩, fun _ => rfl⟩
  · exact ⟨fun h => (by cases h), fun h => absurd h.2 c3⟩

theorem inv_run {maxiter : ℝ} {dp : ℤ} {rnd : ℝ → ℝ × ℝ} : ∀ (fuel : ℕ) (s : Solver), Inv dp rnd ⌈maxiter⌉.toNat s →
    Inv dp rnd ⌈maxiter⌉.toNat (solverRun maxiter dp rnd fuel s) ∧
    (⌈maxiter⌉.toNat ≤ s.count + fuel → solverStep maxiter dp rnd (solverRun maxiter dp rnd fuel s) = none)
  | 0, s, hi => by
    refine ⟨hi, fun h => ?_⟩
    show solverStep maxiter dp rnd s = none
    unfold solverStep
    by_cases c1 : s.stopped = true
    · rw [if_pos c1]
    · rw [if_neg c1, if_neg]
      intro c2
      have := lt_ceil.mp c2
      omega
  | fuel + 1, s, hi => by
    unfold solverRun
    cases hs : solverStep maxiter dp rnd s with
    | none => exact ⟨hi, fun _ => hs⟩
    | some s' =>
      obtain ⟨i1, i2⟩ := inv_step hi hs
      obtain ⟨r1, r2⟩ := inv_run fuel s' i1
      exact ⟨r1, fun h => r2 (by omega)⟩

theorem run_fixed {maxiter : ℝ} {dp : ℤ} {rnd : ℝ → ℝ × ℝ} : ∀ (f g : ℕ) (s : Solver),
    solverStep maxiter dp rnd (solverRun maxiter dp rnd f s) = none →
    solverRun maxiter dp rnd (f + g) s = solverRun maxiter dp rnd f s
  | 0, g, s, h => by
    have h' : solverStep maxiter dp rnd s = none := h
    cases g with
    | zero => rfl
    | succ g => rw [Nat.zero_add]; show (match solverStep maxiter dp rnd s with | none => s | some s' => _) = s; rw [h']
  | f + 1, g, s, h => by
    rw [show f + 1 + g = (f + g) + 1 by omega]
    unfold solverRun at h ⊢
    cases hs : solverStep maxiter dp rnd s with
    | none => rfl
    | some s' =>
      rw [hs] at h
      exact run_fixed f g s' h

/-- The loop ends by itself within `⌈maxiter⌉` turns: after that many turns no further one is possible,
and any larger number of turns allowed makes no difference. -/
theorem C68_ends (maxiter : ℝ) (dp : ℤ) (rnd : ℝ → ℝ × ℝ) (fuel : ℕ) (h : ⌈maxiter⌉.toNat ≤ fuel) :
    solverStep maxiter dp rnd (solverRun maxiter dp rnd fuel solverInit) = none ∧
    (solverRun maxiter dp rnd fuel solverInit).count ≤ ⌈maxiter⌉.toNat ∧
    (solverRun maxiter dp rnd fuel solverInit).eta = solve maxiter dp rnd := by
  have e0 : solverInit.count = 0 := rfl
  have k0 := (inv_run (maxiter := maxiter) ⌈maxiter⌉.toNat solverInit (inv_init dp rnd _)).2 (by omega)
  have k1 := inv_run (maxiter := maxiter) fuel solverInit (inv_init dp rnd _)
  refine ⟨k1.2 (by omega), k1.1.1, ?_⟩
  obtain ⟨g, rfl⟩ := Nat.exists_eq_add_of_le h
  unfold solve
  rw [run_fixed _ g _ k0, run_fixed _ 1 _ k0]

example (rnd : ℝ → ℝ × ℝ) : (solverRun 30 6 rnd 100 solverInit).eta = solve 30 6 rnd :=
  (C68_ends 30 6 rnd 100 (by rw [show ⌈(30:ℝ)⌉ = 30 by norm_num]; norm_num)).2.2

/-- What the loop returns: the first estimate that equals its predecessor in rounded form, or that of the last
permitted turn. With no permitted turn it is the start value. -/
theorem C68_result (maxiter : ℝ) (dp : ℤ) (rnd : ℝ → ℝ × ℝ) :
    ∃ k : ℕ, (0 < maxiter → (k : ℝ) < maxiter + 1) ∧ solve maxiter dp rnd = estimate rnd k ∧ (∀ j, j < k → ¬ Settled dp rnd j) ∧
      (Settled dp rnd k ∨ maxiter ≤ k) ∧ (maxiter ≤ 0 → k = 0) := by
  obtain ⟨s, hs⟩ : ∃ s, s = solverRun maxiter dp rnd (⌈maxiter⌉.toNat + 1) solverInit := ⟨_, rfl⟩
  have k1 := inv_run (maxiter := maxiter) (⌈maxiter⌉.toNat + 1) solverInit (inv_init dp rnd _)
  rw [← hs] at k1
  have k2 := k1.2 (by omega)
  obtain ⟨⟨h1, h2, h3, h4, h5⟩, _⟩ := k1
  have hz : maxiter ≤ 0 → s.count = 0 := by
    intro hm
    have : ⌈maxiter⌉ ≤ 0 := by rw [Int.ceil_le]; exact_mod_cast hm
    omega
  refine ⟨s.count, ?_, ?_, h4, ?_, hz⟩
  · intro hm
    · have : (s.count : ℝ) ≤ (⌈maxiter⌉ : ℝ) := by
        have : (s.count : ℤ) ≤ ⌈maxiter⌉ := by
          have : 0 < ⌈maxiter⌉ := Int.ceil_pos.mpr hm
          omega
        exact_mod_cast this
      linarith [Int.ceil_lt_add_one maxiter]
  · unfold solve; rw [← hs]; exact h3
  · unfold solverStep at k2
    by_cases c1 : s.stopped = true
    · exact Or.inl (h5.mp c1)
    · by_cases c2 : (s.count : ℝ) < maxiter
      · rw [if_neg c1, if_pos c2] at k2
        simp only [] at k2
        split_ifs at k2
      · exact Or.inr (not_lt.mp c2)

theorem roundEven_near (x : ℝ) : |(roundEven x : ℝ) - x| ≤ 1 / 2 := by
  have h0 := Int.floor_le x
  have h1 := Int.lt_floor_add_one x
  unfold roundEven
  split_ifs with c1 c2 c3 <;> rw [abs_le] <;> push_cast <;> constructor <;> linarith

/-- The integer nearest to a number, the even one of two. -/
def Nearest (x : ℝ) (n : ℤ) : Prop := |(n : ℝ) - x| ≤ 1 / 2 ∧ (|(n : ℝ) - x| = 1 / 2 → Even n)

theorem roundEven_nearest (x : ℝ) : Nearest x (roundEven x) := by
  refine ⟨roundEven_near x, ?_⟩
  have h0 := Int.floor_le x
  have h1 := Int.lt_floor_add_one x
  unfold roundEven
  split_ifs with c1 c2 c3
  · intro h; rw [abs_of_nonpos (by linarith)] at h; linarith
  · intro h; push_cast at h; rw [abs_of_nonneg (by linarith)] at h; linarith
  · exact fun _ => c3
  · intro _; exact (Int.not_even_iff_odd.mp c3).add_one

/-- There is only one. -/
theorem Nearest.unique {x : ℝ} {m n : ℤ} (hm : Nearest x m) (hn : Nearest x n) : m = n := by
  obtain ⟨m1, m2⟩ := hm
  obtain ⟨n1, n2⟩ := hn
  have a1 := abs_le.mp m1
  have a2 := abs_le.mp n1
  rcases lt_trichotomy m n with h | h | h
  · have k : m + 1 ≤ n := h
    have k' : (m:ℝ) + 1 ≤ n := by exact_mod_cast k
    have e1 : (m:ℝ) - x = -(1 / 2) := by linarith
    have e2 : (n:ℝ) - x = 1 / 2 := by linarith
    have p1 := m2 (by rw [e1]; norm_num)
    have p2 := n2 (by rw [e2]; norm_num)
    have : (n:ℝ) = m + 1 := by linarith
    have : n = m + 1 := by exact_mod_cast this
    rw [this, Int.even_add_one] at p2
    exact absurd p1 p2
  · exact h
  · have k : n + 1 ≤ m := h
    have k' : (n:ℝ) + 1 ≤ m := by exact_mod_cast k
    have e1 : (n:ℝ) - x = -(1 / 2) := by linarith
    have e2 : (m:ℝ) - x = 1 / 2 := by linarith
    have p1 := n2 (by rw [e1]; norm_num)
    have p2 := m2 (by rw [e2]; norm_num)
    have : (m:ℝ) = n + 1 := by linarith
    have : m = n + 1 := by exact_mod_cast this
    rw [this, Int.even_add_one] at p2
    exact absurd p1 p2

/-- The solver compares its estimates rounded to the configured places, ties to even. -/
theorem C68_rounding (dp : ℤ) (x y : ℝ) :
    (∃ n, Nearest (x * (10:ℝ) ^ dp) n ∧ roundDp dp x = n / (10:ℝ) ^ dp) ∧
    (roundDp dp x = roundDp dp y ↔ ∃ n, Nearest (x * (10:ℝ) ^ dp) n ∧ Nearest (y * (10:ℝ) ^ dp) n) := by
  have hp : (0:ℝ) < (10:ℝ) ^ dp := by positivity
  refine ⟨⟨_, roundEven_nearest _, rfl⟩, fun h => ?_, fun ⟨n, h1, h2⟩ => ?_⟩
  · unfold roundDp at h
    rw [div_left_inj' hp.ne'] at h
    have h : roundEven (x * 10 ^ dp) = roundEven (y * 10 ^ dp) := by exact_mod_cast h
    exact ⟨_, roundEven_nearest _, h ▸ roundEven_nearest _⟩
  · unfold roundDp
    rw [(roundEven_nearest _).unique h1, (roundEven_nearest _).unique h2]

/-- 0.5 agrees with 0.4 and not with 0.6 at no places, 1.5 with 2.5. -/
example : roundDp 0 0.5 = roundDp 0 0.4 ∧ roundDp 0 0.5 ≠ roundDp 0 0.6 ∧ roundDp 0 1.5 = roundDp 0 2.5 := by
  have n0 : ∀ x n, Nearest x n → Nearest (x * (10:ℝ) ^ (0:ℤ)) n := by intro x n h; simpa using h
  have a : Nearest 0.5 0 := ⟨by norm_num, fun _ => ⟨0, rfl⟩⟩
  have b : Nearest 0.4 0 := ⟨by norm_num [abs_le], fun h => by norm_num [abs_of_neg] at h⟩
  have c : Nearest 0.6 1 := ⟨by norm_num [abs_le], fun h => by norm_num [abs_of_pos] at h⟩
  have d : Nearest 1.5 2 := ⟨by norm_num [abs_le], fun _ => ⟨1, rfl⟩⟩
  have e : Nearest 2.5 2 := ⟨by norm_num [abs_le], fun _ => ⟨1, rfl⟩⟩
  refine ⟨(C68_rounding 0 _ _).2.mpr ⟨0, n0 _ _ a, n0 _ _ b⟩, fun h => ?_, (C68_rounding 0 _ _).2.mpr ⟨2, n0 _ _ d, n0 _ _ e⟩⟩
  obtain ⟨n, h1, h2⟩ := (C68_rounding 0 _ _).2.mp h
  have e1 := h1.unique (n0 _ _ a)
  have e2 := h2.unique (n0 _ _ c)
  omega

/-- A propeller takes its geometry and the solver's settings from the dictionary. Without one it has no geometry; without
settings six decimals and thirty turns. Anything but a dictionary is a TypeError. -/
theorem C68_defaults :
    (∀ d p, mkPropeller (.dict d) = .ok p ↔ p.diameter_m = d.diameter_m ∧ p.bladecount = d.bladecount ∧
      p.bladeactivityfact = d.bladeactivityfact ∧ p.solidity = d.solidity ∧ p.idesign_cl = d.idesign_cl ∧
      (∀ n, d.solve_dp = some n → p.solve_dp = n) ∧ (d.solve_dp = none → p.solve_dp = 6) ∧
      (∀ n, d.solve_maxiter = some n → p.solve_maxiter = n) ∧ (d.solve_maxiter = none → p.solve_maxiter = 30)) ∧
    mkPropeller .pyNone = .ok ⟨none, none, none, none, none, 6, 30⟩ ∧ mkPropeller .other = .error .typeError := by
  refine ⟨fun d p => ?_, rfl, rfl⟩
  obtain ⟨d1, d2, d3, d4, d5, d6, d7⟩ := d
  obtain ⟨p1, p2, p3, p4, p5, p6, p7⟩ := p
  simp only [mkPropeller, ofDict, Except.ok.injEq, Propeller.mk.injEq]
  cases d6 <;> cases d7 <;> simp [eq_comm]

/-- A dictionary with the accuracy only. -/
example : mkPropeller (.dict { diameter_m := some 2, solve_dp := some 4 }) = .ok ⟨some 2, none, none, none, none, 4, 30⟩ :=
  (C68_defaults.1 _ _).mpr (by simp)

/-- Two numbers that agree when rounded to `dp` places differ by at most one unit in that place. -/
theorem roundDp_near {dp : ℤ} {x y : ℝ} (h : roundDp dp x = roundDp dp y) : |x - y| ≤ (10:ℝ) ^ (-dp) := by
  have hp : (0:ℝ) < (10:ℝ) ^ dp := by positivity
  unfold roundDp at h
  rw [div_left_inj' hp.ne'] at h
  have k1 := roundEven_near (x * 10 ^ dp)
  have k2 := roundEven_near (y * 10 ^ dp)
  rw [h] at k1
  rw [abs_le] at k1 k2
  rw [zpow_neg, abs_le]
  have e : (10:ℝ) ^ dp * ((10:ℝ) ^ dp)⁻¹ = 1 := mul_inv_cancel₀ hp.ne'
  constructor
  · by_contra hc
    rw [not_le] at hc
    have := mul_lt_mul_of_pos_right hc hp
    nlinarith
  · by_contra hc
    rw [not_le] at hc
    have := mul_lt_mul_of_pos_right hc hp
    nlinarith

/-- When the solver ends before the last permitted turn its last two estimates differ by at most one unit
in the configured decimal place. -/
theorem C68_accuracy (maxiter : ℝ) (dp : ℤ) (rnd : ℝ → ℝ × ℝ) :
    ∃ k : ℕ, solve maxiter dp rnd = estimate rnd k ∧ (maxiter ≤ k ∨
      ∃ j, k = j + 1 ∧ |estimate rnd j - solve maxiter dp rnd| ≤ (10:ℝ) ^ (-dp)) := by
  obtain ⟨k, _, h2, _, h4, _⟩ := C68_result maxiter dp rnd
  refine ⟨k, h2, ?_⟩
  rcases h4 with ⟨h4, h5⟩ | h4
  · right
    obtain ⟨j, rfl⟩ := Nat.exists_eq_add_of_le' h4
    exact ⟨j, rfl, by rw [h2]; exact roundDp_near h5⟩
  · exact Or.inl h4

/-- A round that halves the distance to 0.5 (and reports it), six places, 30 turns. -/
example : ∃ k : ℕ, (k:ℝ) < 31 ∧ solve 30 6 (fun x => (0.5 + (x - 0.5) / 2, 0.5 + (x - 0.5) / 2))
    = estimate (fun x => (0.5 + (x - 0.5) / 2, 0.5 + (x - 0.5) / 2)) k := by
  obtain ⟨k, h1, h2, _⟩ := C68_result 30 6 (fun x : ℝ => (0.5 + (x - 0.5) / 2, 0.5 + (x - 0.5) / 2))
  exact ⟨k, by have := h1 (by norm_num); linarith, h2⟩

/-- Nothing to iterate: the start value. -/
example (rnd : ℝ → ℝ × ℝ) : solve 0 6 rnd = 0.87 := by
  obtain ⟨k, _, h2, _, _, h5⟩ := C68_result 0 6 rnd
  rw [h2, h5 le_rfl]; rfl

/-! ### History -/

/-- One call of `efficiency`: Mach numbers, altitudes, powers, speed. -/
abbrev Call := NumArg × NumArg × Option (List (Option ℝ)) × ℝ

/-- The propeller after a series of calls. -/
def afterCalls (p : Propeller) (calls : List Call) : Propeller :=
  calls.foldl (fun p c => (efficiency p c.1 c.2.1 c.2.2.1 c.2.2.2).2) p

theorem efficiency_state (p : Propeller) (m h : NumArg) (P : Option (List (Option ℝ))) (rpm : ℝ) :
    (efficiency p m h P rpm).2 = p ∨ (efficiency p m h P rpm).2 = cacheSolidity p := by
  unfold efficiency
  split
  · exact Or.inl rfl
  · right; cases P <;> rfl

theorem cache_idem (p : Propeller) : cacheSolidity (cacheSolidity p) = cacheSolidity p := rfl

theorem efficiency_cached (p : Propeller) (m h : NumArg) (P : Option (List (Option ℝ))) (rpm : ℝ) :
    (efficiency (cacheSolidity p) m h P rpm).1 = (efficiency p m h P rpm).1 := by
  unfold efficiency
  rw [cache_idem]
  split
  · rfl
  · cases P <;> rfl

/-- After any series of calls the propeller is unchanged except that the solidity may have been filled in
by its formula, and a further call gives what it gives on the propeller as created. -/
theorem C68_history (p : Propeller) (calls : List Call) :
    (afterCalls p calls = p ∨ afterCalls p calls = { p with solidity := some (p.solidity.getD
        (128 * p.bladecount.getD 0 * p.bladeactivityfact.getD 0 / (100000 * Real.pi))) }) ∧
    ∀ m h P rpm, (efficiency (afterCalls p calls) m h P rpm).1 = (efficiency p m h P rpm).1 := by
  have key : ∀ calls : List Call, afterCalls p calls = p ∨ afterCalls p calls = cacheSolidity p := by
    intro calls
    induction calls using List.reverseRecOn with
    | nil => exact Or.inl rfl
    | append_singleton cs c ih =>
      have e : afterCalls p (cs ++ [c]) = (efficiency (afterCalls p cs) c.1 c.2.1 c.2.2.1 c.2.2.2).2 := by
        unfold afterCalls; rw [List.foldl_append]; rfl
      rw [e]
      rcases efficiency_state (afterCalls p cs) c.1 c.2.1 c.2.2.1 c.2.2.2 with h | h
      · rw [h]; exact ih
      · rw [h]
        rcases ih with ih | ih <;> rw [ih]
        · exact Or.inr rfl
        · exact Or.inr (cache_idem p)
  have doc : cacheSolidity p = { p with solidity := some (p.solidity.getD
        (128 * p.bladecount.getD 0 * p.bladeactivityfact.getD 0 / (100000 * Real.pi))) } := by
    unfold cacheSolidity
    cases p.solidity <;> rfl
  refine ⟨doc ▸ key calls, fun m h P rpm => ?_⟩
  rcases key calls with h' | h' <;> rw [h']
  exact efficiency_cached p m h P rpm

/-- A three-blade propeller without a given solidity. -/
def exProp : Propeller := ⟨some 2, some 3, some 120, none, some 0.5, 6, 30⟩

example : (efficiency exProp (.scalar 0.3) (.scalar 0) (some [some 100000]) 2400).2.solidity
    = some (128 * 3 * 120 / (100000 * Real.pi)) := by
  unfold efficiency
  have := (Props.isa_scalar 0 0 (by norm_num)).2.2
  rw [show airdens_kgpm3 isa0 (.array (recastArray (.scalar 0))) = airdens_kgpm3 (.isa 0) (.scalar 0) from rfl, this]
  rfl

/-! ### C94 -/

/-- The solidity is computed once: after a successful call the blade count and activity factor may be changed to
anything, the results stay those of the propeller as it was, though a propeller created with the new values
has another solidity. -/
theorem C94_stale_violated (p : Propeller) (hp : p.solidity = none) (B A B' A' : ℝ) (hB : p.bladecount = some B)
    (hA : p.bladeactivityfact = some A) (hne : B * A ≠ B' * A') (m h : NumArg) (P : Option (List (Option ℝ))) (rpm : ℝ)
    (es : List (Option ℝ)) (hok : (efficiency p m h P rpm).1 = .ok es) :
    let q := (efficiency p m h P rpm).2
    let changed : Propeller := { q with bladecount := some B', bladeactivityfact := some A' }
    (∀ m h P rpm, (efficiency changed m h P rpm).1 = (efficiency p m h P rpm).1) ∧
    changed.solidity ≠ some (128 * B' * A' / (100000 * Real.pi)) := by
  intro q changed
  have hq : q = cacheSolidity p := by
    show (efficiency p m h P rpm).2 = _
    unfold efficiency at hok ⊢
    split at hok
    · cases hok
    · cases P <;> rfl
  have hs : q.solidity = some (solidityOf B A) := by
    rw [hq]; unfold cacheSolidity; rw [hp, hB, hA]; rfl
  refine ⟨fun m h P rpm => ?_, ?_⟩
  · have e1 : ∀ ms hs rho rpm ps, etaLoop (cacheSolidity changed) (flagNum (cacheSolidity changed).solidity) ms hs rho rpm ps
        = etaLoop (cacheSolidity p) (flagNum (cacheSolidity p).solidity) ms hs rho rpm ps := by
      intro ms hs' rho rpm ps
      have s1 : (cacheSolidity changed).solidity = (cacheSolidity p).solidity := by
        have : changed.solidity = (cacheSolidity p).solidity := by
          show q.solidity = _; rw [hq]
        rw [← this]
        have h2 : changed.solidity = some (solidityOf B A) := hs
        unfold cacheSolidity; rw [h2]
      rw [s1]
      have e2 : ∀ sig r a m rpm P, etaAt (cacheSolidity changed) sig r a m rpm P = etaAt (cacheSolidity p) sig r a m rpm P := by
        intro sig r a m rpm P
        have d1 : (cacheSolidity changed).diameter_m = (cacheSolidity p).diameter_m := by
          show q.diameter_m = _; rw [hq]
        have d2 : (cacheSolidity changed).idesign_cl = (cacheSolidity p).idesign_cl := by
          show q.idesign_cl = _; rw [hq]
        have d3 : (cacheSolidity changed).solve_maxiter = (cacheSolidity p).solve_maxiter := by
          show q.solve_maxiter = _; rw [hq]
        have d4 : (cacheSolidity changed).solve_dp = (cacheSolidity p).solve_dp := by
          show q.solve_dp = _; rw [hq]
        unfold etaAt
        rw [d1, d2, d3, d4]
      unfold etaLoop
      simp only [e2]
    unfold efficiency
    split
    · rfl
    · cases P with
      | none => rfl
      | some ps => exact e1 _ _ _ _ _
  · show q.solidity ≠ _
    rw [hs]
    intro hc
    injection hc with hc
    unfold solidityOf at hc
    have hpi := Real.pi_pos
    rw [div_left_inj' (by positivity)] at hc
    exact hne (by linarith)

/-! ### Arrays -/

theorem isa_temp_pos (h : ℝ) : 0 < isatemp 0 h := by
  have := Props.C11_bounds 0 h
  linarith [this.1]

/-- Speed of sound of the standard atmosphere. -/
def sound (h : ℝ) : ℝ := √(1.4 * 287.05287 * isatemp 0 h)

theorem sound_pos (h : ℝ) : 0 < sound h := by
  have := isa_temp_pos h
  exact Real.sqrt_pos.mpr (by positivity)

theorem vsound1_isa (h : ℝ) (hh : h ≤ 50000) : vsound1 isa0 h = .ok (sound h) := by
  unfold vsound1
  rw [show isa0 = Atm.isa 0 from rfl, Props.isa_vsound 0 h hh (isa_temp_pos h).le]
  rfl

theorem dens_arr (hs : List ℝ) (hne : hs ≠ []) (hh : ∀ h ∈ hs, h ≤ 50000) :
    ∃ r, airdens_kgpm3 isa0 (.array hs) = .ok r ∧ recastArray r = hs.map (isadens 0) := by
  match hs, hne with
  | [h], _ => exact ⟨_, (Props.isa_scalar 0 h (hh h (by simp))).2.2, rfl⟩
  | a :: b :: t, _ => exact ⟨_, (Props.C17_isa_inside 0 (a :: b :: t) (by simp) hh).2.2.1, rfl⟩

theorem eff_eq (p : Propeller) (ms hs : List ℝ) (ps : List (Option ℝ)) (rpm : ℝ) (hne : hs ≠ [])
    (hh : ∀ h ∈ hs, h ≤ 50000) : (efficiency p (.array ms) (.array hs) (some ps) rpm).1 =
      etaLoop (cacheSolidity p) (flagNum (cacheSolidity p).solidity) ms hs (hs.map (isadens 0)) rpm ps := by
  obtain ⟨r, h1, h2⟩ := dens_arr hs hne hh
  unfold efficiency
  rw [show recastArray (.array hs) = hs from rfl, h1, ← h2]
  rfl

theorem mapM_zipIdx_ok {α β : Type} (f : α × ℕ → PyM β) (g : α → ℕ → β) : ∀ (l : List α) (n : ℕ),
    (∀ i a, l[i]? = some a → f (a, n + i) = .ok (g a (n + i))) →
    ∃ r, (l.zipIdx n).mapM f = .ok r ∧ r.length = l.length ∧ ∀ i a, l[i]? = some a → r[i]? = some (g a (n + i))
  | [], n, _ => ⟨[], rfl, rfl, by simp⟩
  | a :: l, n, h => by
    obtain ⟨r, h1, h2, h3⟩ := mapM_zipIdx_ok f g l (n + 1) (fun i b hb => by
      have := h (i + 1) b (by simpa using hb)
      rwa [show n + (i + 1) = n + 1 + i by omega] at this)
    have h0 := h 0 a rfl
    refine ⟨g a n :: r, ?_, by simp [h2], ?_⟩
    · rw [List.zipIdx_cons, List.mapM_cons, h1]
      show (f (a, n + 0) >>= _) = _
      rw [h0]; rfl
    · intro i b hb
      cases i with
      | zero => simp at hb; subst hb; rfl
      | succ i =>
        have := h3 i b (by simpa using hb)
        rw [show n + (i + 1) = n + 1 + i by omega]
        simpa using this

theorem mapM_zipIdx_error {α β : Type} (f : α × ℕ → PyM β) (e : PyErr) : ∀ (l : List α) (n : ℕ),
    (∀ i a, l[i]? = some a → (∃ b, f (a, n + i) = .ok b) ∨ f (a, n + i) = .error e) →
    (∃ i a, l[i]? = some a ∧ f (a, n + i) = .error e) → (l.zipIdx n).mapM f = .error e
  | [], n, _, h => by obtain ⟨i, a, h, _⟩ := h; simp at h
  | a :: l, n, h, hx => by
    rw [List.zipIdx_cons, List.mapM_cons]
    rcases h 0 a rfl with ⟨b, hb⟩ | hb
    · rw [Nat.add_zero] at hb
      rw [hb, bind_ok, mapM_zipIdx_error f e l (n + 1)]
      · rfl
      · intro i c hc
        have := h (i + 1) c (by simpa using hc)
        rwa [show n + (i + 1) = n + 1 + i by omega] at this
      · obtain ⟨i, c, h1, h2⟩ := hx
        cases i with
        | zero =>
          simp at h1; subst h1
          rw [Nat.add_zero, hb] at h2; cases h2
        | succ i => exact ⟨i, c, by simpa using h1, by rwa [show n + (i + 1) = n + 1 + i by omega] at h2⟩
    · rw [Nat.add_zero] at hb; rw [hb]; rfl

theorem getIdx_some {α : Type} {l : List α} {i : ℕ} {a : α} (h : l[i]? = some a) : getIdx l i = .ok a := by
  unfold getIdx; rw [h]

theorem getIdx_none {α : Type} {l : List α} {i : ℕ} (h : l[i]? = none) : getIdx l i = .error .indexError := by
  unfold getIdx; rw [h]

/-- An array of powers longer than the Mach numbers or than the altitudes raises IndexError, in
particular an array of two or more powers with a single Mach number and altitude. -/
theorem C78_longer_violated (p : Propeller) (ms hs : List ℝ) (ps : List (Option ℝ)) (rpm : ℝ) (hne : hs ≠ [])
    (hh : ∀ h ∈ hs, h ≤ 50000) (hlen : ms.length < ps.length ∨ hs.length < ps.length) :
    (efficiency p (.array ms) (.array hs) (some ps) rpm).1 = .error .indexError := by
  rw [eff_eq p ms hs ps rpm hne hh]
  unfold etaLoop
  have step : ∀ (i : ℕ) (P : Option ℝ), (i < ms.length → i < hs.length →
      ∃ b, (do
        let r ← getIdx (hs.map (isadens 0)) i
        let h ← getIdx hs i
        let a ← vsound1 isa0 h
        let m ← getIdx ms i
        pure (etaAt (cacheSolidity p) (flagNum (cacheSolidity p).solidity) r a m rpm P) : PyM (Option ℝ)) = .ok b) ∧
      (¬ (i < ms.length ∧ i < hs.length) → (do
        let r ← getIdx (hs.map (isadens 0)) i
        let h ← getIdx hs i
        let a ← vsound1 isa0 h
        let m ← getIdx ms i
        pure (etaAt (cacheSolidity p) (flagNum (cacheSolidity p).solidity) r a m rpm P) : PyM (Option ℝ))
          = .error .indexError) := by
    intro i P
    by_cases c : i < hs.length
    · have g1 : hs[i]? = some hs[i] := List.getElem?_eq_getElem c
      have g2 : (hs.map (isadens 0))[i]? = some (isadens 0 hs[i]) := by simp [g1]
      rw [getIdx_some g1, getIdx_some g2, bind_ok, bind_ok, vsound1_isa _ (hh _ (List.getElem_mem c)), bind_ok]
      constructor
      · intro h _
        rw [getIdx_some (List.getElem?_eq_getElem h)]
        exact ⟨_, rfl⟩
      · intro h
        rw [getIdx_none (List.getElem?_eq_none (by omega))]
        rfl
    · refine ⟨fun _ h => absurd h c, fun _ => ?_⟩
      rw [getIdx_none (by simp; omega : (hs.map (isadens 0))[i]? = none)]
      rfl
  refine mapM_zipIdx_error _ _ ps 0 ?_ ?_
  · intro i P _
    simp only [Nat.zero_add]
    by_cases c : i < ms.length ∧ i < hs.length
    · exact Or.inl ((step i P).1 c.1 c.2)
    · exact Or.inr ((step i P).2 c)
  · obtain ⟨i, hi⟩ : ∃ i, i = min ms.length hs.length := ⟨_, rfl⟩
    have hl : i < ps.length := by omega
    refine ⟨i, ps[i], List.getElem?_eq_getElem hl, ?_⟩
    simp only [Nat.zero_add]
    exact (step i _).2 (by omega)

/-- With arrays of the same length the result has that length, and each element is the result of the call at
this Mach number, altitude and power alone. -/
theorem C78_pointwise (p : Propeller) (ms hs : List ℝ) (ps : List (Option ℝ)) (rpm : ℝ) (hne : hs ≠ [])
    (hh : ∀ h ∈ hs, h ≤ 50000) (h1 : ms.length = ps.length) (h2 : hs.length = ps.length) :
    ∃ es, (efficiency p (.array ms) (.array hs) (some ps) rpm).1 = .ok es ∧ es.length = ps.length ∧
      ∀ (i : ℕ) m h P, ms[i]? = some m → hs[i]? = some h → ps[i]? = some P →
        ∃ e, es[i]? = some e ∧ (efficiency p (.scalar m) (.scalar h) (some [P]) rpm).1 = .ok [e] := by
  rw [eff_eq p ms hs ps rpm hne hh]
  obtain ⟨r, k1, k2, k3⟩ := mapM_zipIdx_ok (fun q : Option ℝ × ℕ => (do
        let r ← getIdx (hs.map (isadens 0)) q.2
        let h ← getIdx hs q.2
        let a ← vsound1 isa0 h
        let m ← getIdx ms q.2
        pure (etaAt (cacheSolidity p) (flagNum (cacheSolidity p).solidity) r a m rpm q.1) : PyM (Option ℝ)))
      (fun P i => etaAt (cacheSolidity p) (flagNum (cacheSolidity p).solidity) (isadens 0 (hs.getD i 0))
        (sound (hs.getD i 0)) (ms.getD i 0) rpm P) ps 0 (by
      intro i P hP
      have hi : i < ps.length := by
        by_contra hc; rw [List.getElem?_eq_none (by omega)] at hP; cases hP
      have g1 : hs[i]? = some hs[i] := List.getElem?_eq_getElem (by omega)
      have g2 : (hs.map (isadens 0))[i]? = some (isadens 0 hs[i]) := by simp [g1]
      have g3 : ms[i]? = some ms[i] := List.getElem?_eq_getElem (by omega)
      simp only [Nat.zero_add]
      rw [getIdx_some g1, getIdx_some g2, getIdx_some g3, bind_ok, bind_ok,
        vsound1_isa _ (hh _ (List.getElem_mem (by omega))), bind_ok, bind_ok]
      rw [List.getD_eq_getElem?_getD, List.getD_eq_getElem?_getD, g1, g3]
      rfl)
  refine ⟨r, k1, k2, fun i m h P hm hh' hP => ?_⟩
  have kk := k3 i P hP
  rw [Nat.zero_add, List.getD_eq_getElem?_getD, List.getD_eq_getElem?_getD, hh', hm] at kk
  refine ⟨_, kk, ?_⟩
  have hle := hh h (List.mem_of_getElem? hh')
  rw [show (efficiency p (.scalar m) (.scalar h) (some [P]) rpm).1
    = (efficiency p (.array [m]) (.array [h]) (some [P]) rpm).1 from rfl, eff_eq p [m] [h] [P] rpm (by simp) (by simpa using hle)]
  unfold etaLoop
  show ((do
        let r ← getIdx [isadens 0 h] 0
        let h ← getIdx [h] 0
        let a ← vsound1 isa0 h
        let m ← getIdx [m] 0
        pure (etaAt (cacheSolidity p) (flagNum (cacheSolidity p).solidity) r a m rpm P) : PyM (Option ℝ)) >>= fun b =>
          (do pure [b] : PyM (List (Option ℝ)))) = _
  show ((do
        let a ← vsound1 isa0 h
        pure (etaAt (cacheSolidity p) (flagNum (cacheSolidity p).solidity) (isadens 0 h) a m rpm P) : PyM (Option ℝ)) >>= fun b =>
          (do pure [b] : PyM (List (Option ℝ)))) = _
  rw [vsound1_isa h hle]
  rfl

example : (efficiency exProp (.array [0.3]) (.array [0]) (some [some 100000, some 120000]) 2400).1 = .error .indexError :=
  C78_longer_violated exProp [0.3] [0] [some 100000, some 120000] 2400 (by simp) (by simp) (by simp)

example : ∃ es, (efficiency exProp (.array [0.3, 0.4]) (.array [0, 3000]) (some [some 100000, none]) 2400).1 = .ok es ∧
    es.length = 2 := by
  obtain ⟨es, h1, h2, _⟩ := C78_pointwise exProp [0.3, 0.4] [0, 3000] [some 100000, none] 2400 (by simp)
    (by intro h hh; simp at hh; rcases hh with rfl | rfl <;> norm_num) rfl rfl
  exact ⟨es, h1, h2⟩

/-! ### C91 -/

/-- A power outside the data (NaN) makes the generic propeller, and with it every propeller thrust without a
given propeller, fail with ValueError. -/
theorem C91_generic_violated (p : Propeller) (ms hs : List ℝ) (rpm : ℝ) (ps : List (Option ℝ)) (hm : ms ≠ []) (hne : hs ≠ [])
    (hh : ∀ h ∈ hs, h ≤ 50000) (hn : none ∈ ps) :
    ansatzprop p (.array ms) (.array hs) rpm (some ps) = .error .valueError := by
  have hlen : ∀ l : List ℝ, l ≠ [] → average l = .ok (l.sum / l.length) := by
    intro l hl
    unfold average
    rw [if_neg (by simpa using hl)]
  have hP : averageNan ps = .ok none := by
    unfold averageNan
    rw [if_neg (by rintro hc; rw [List.length_eq_zero_iff] at hc; rw [hc] at hn; simp at hn)]
    have : ps.mapM id = none := by
      induction ps with
      | nil => simp at hn
      | cons x ps ih =>
        rw [List.mapM_cons]
        rcases List.mem_cons.mp hn with rfl | h
        · rfl
        · rw [ih h]; cases x <;> rfl
    rw [this]
  have have_le : hs.sum / hs.length ≤ 50000 := by
    have hl : (0:ℝ) < hs.length := by
      have := List.length_pos_iff.mpr hne
      exact_mod_cast this
    rw [div_le_iff₀ hl]
    have : ∀ l : List ℝ, (∀ h ∈ l, h ≤ 50000) → l.sum ≤ 50000 * l.length := by
      intro l
      induction l with
      | nil => simp
      | cons a l ih =>
        intro h
        have := ih (fun x hx => h x (by simp [hx]))
        have h2 := h a (by simp)
        rw [List.sum_cons, List.length_cons]; push_cast; linarith
    exact this hs hh
  unfold ansatzprop
  show (average ms >>= _) = _
  rw [hlen ms hm, bind_ok]
  show (average hs >>= _) = _
  rw [hlen hs hne, bind_ok]
  simp only [hP, bind_ok]
  unfold ansatzCore
  rw [vsound1_isa _ have_le, bind_ok, show isa0 = Atm.isa 0 from rfl, Props.isa_dens1 0 _ have_le, bind_ok]

/-- With a given propeller the efficiency is NaN exactly where the power is (for at least one solver turn). -/
theorem C91_given (p : Propeller) (hmax : 0 < p.solve_maxiter) (ms hs : List ℝ) (ps : List (Option ℝ)) (rpm : ℝ)
    (hne : hs ≠ []) (hh : ∀ h ∈ hs, h ≤ 50000) (h1 : ms.length = ps.length) (h2 : hs.length = ps.length) :
    ∃ es, (efficiency p (.array ms) (.array hs) (some ps) rpm).1 = .ok es ∧ es.length = ps.length ∧
      ∀ i : ℕ, es[i]? = some none ↔ ps[i]? = some none := by
  obtain ⟨es, k1, k2, k3⟩ := C78_pointwise p ms hs ps rpm hne hh h1 h2
  refine ⟨es, k1, k2, fun i => ?_⟩
  by_cases hi : i < ps.length
  · have g1 : hs[i]? = some hs[i] := List.getElem?_eq_getElem (by omega)
    have g2 : ps[i]? = some ps[i] := List.getElem?_eq_getElem hi
    have g3 : ms[i]? = some ms[i] := List.getElem?_eq_getElem (by omega)
    obtain ⟨e, e1, e2⟩ := k3 i _ _ _ g3 g1 g2
    rw [e1, g2]
    have hle := hh _ (List.getElem_mem (by omega : i < hs.length))
    obtain ⟨h, hh'⟩ : ∃ h, h = hs[i] := ⟨_, rfl⟩
    rw [← hh'] at e2 hle
    rw [show (efficiency p (.scalar ms[i]) (.scalar h) (some [ps[i]]) rpm).1
      = (efficiency p (.array [ms[i]]) (.array [h]) (some [ps[i]]) rpm).1 from rfl,
      eff_eq p _ [h] _ rpm (by simp) (by simpa using hle)] at e2
    unfold etaLoop at e2
    have e3 : ((do
        let a ← vsound1 isa0 h
        pure (etaAt (cacheSolidity p) (flagNum (cacheSolidity p).solidity) (isadens 0 h) a ms[i] rpm ps[i]) : PyM (Option ℝ)) >>= fun b =>
          (do pure [b] : PyM (List (Option ℝ)))) = .ok [e] := e2
    rw [vsound1_isa h hle] at e3
    injection e3 with e3
    injection e3 with e3
    rw [← e3]
    cases ps[i] with
    | none =>
      have : etaAt (cacheSolidity p) (flagNum (cacheSolidity p).solidity) (isadens 0 h) (sound h) ms[i] rpm none = none := by
        show (if 0 < p.solve_maxiter then none else some 0.87) = none
        rw [if_pos hmax]
      simp [this]
    | some P => simp [etaAt]
  · rw [List.getElem?_eq_none (by omega), List.getElem?_eq_none (by omega)]

example : ansatzprop exProp (.array [0.3, 0.9]) (.array [0, 0]) 2400 (some [some 100000, none]) = .error .valueError :=
  C91_generic_violated exProp [0.3, 0.9] [0, 0] 2400 _ (by simp) (by simp) (by simp) (by simp)

/-- A fourth blade is added to the propeller above after its first use. -/
example : (∃ es, (efficiency exProp (.array [0.3]) (.array [0]) (some [some 100000]) 2400).1 = .ok es) ∧
    exProp.solidity = none ∧ (3:ℝ) * 120 ≠ 4 * 120 := by
  obtain ⟨es, h1, _⟩ := C91_given exProp (by norm_num [exProp]) [0.3] [0] [some 100000] 2400 (by simp) (by simp) rfl rfl
  exact ⟨⟨es, h1⟩, rfl, by norm_num⟩

end

end Verif.Propulsion
