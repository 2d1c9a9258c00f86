import Verif.Props.Propeller

/-
The generic propeller (C67, C92) and the range of the efficiency (C93, C96).
-/

namespace Verif.Propulsion

open Verif Verif.Atmos

noncomputable section

/-! ### C67 -/

theorem average_ok {l : List ℝ} {x : ℝ} (h : average l = .ok x) : l ≠ [] ∧ x = l.sum / l.length := by
  unfold average at h
  split_ifs at h with c
  cases h
  exact ⟨by simpa using c, rfl⟩

theorem vsound1_ok {h a : ℝ} (k : vsound1 isa0 h = .ok a) : vsound_mps isa0 (.scalar h) = .ok (.scalar a) := by
  unfold vsound1 at k
  rw [bind_ok_iff] at k
  obtain ⟨v, h1, h2⟩ := k
  cases v with
  | scalar v => cases h2; exact h1
  | array v => cases h2

theorem dens1_ok {h d : ℝ} (k : dens1 isa0 h = .ok d) : airdens_kgpm3 isa0 (.scalar h) = .ok (.scalar d) := by
  unfold dens1 at k
  rw [bind_ok_iff] at k
  obtain ⟨v, h1, h2⟩ := k
  cases v with
  | scalar v => cases h2; exact h1
  | array v => cases h2

/-- The blade count recommended for a total activity factor: one for 133, from a total of 400 one for 120. -/
def recommended (AF : ℝ) : ℝ := if AF < 400 then AF / 133 else AF / 120

theorem bladesFor_spec (af : ℝ) : ∃ n : ℤ, bladesFor af = (max n 2 : ℤ) ∧ Nearest (recommended af) n := by
  unfold bladesFor recommended
  split_ifs with c
  · exact ⟨_, rfl, roundEven_nearest _⟩
  · exact ⟨_, rfl, roundEven_nearest _⟩

/-- The generic propeller of a Mach number `M`, altitude `h`, power `P` (the averages) and speed: an integer
blade count of at least two, nearest to the total activity factor over 133 (or 120 from 400), with blade
activity factors adding up to the total, the solidity of blades of constant chord, and the lift coefficient at which the
blade area carries the thrust. -/
structure Generic (M h P rpm : ℝ) (p p' : Propeller) : Prop where
  exists_ : ∃ (a rho D baf sig cl AF : ℝ) (N : ℤ),
    vsound_mps isa0 (.scalar h) = .ok (.scalar a) ∧ airdens_kgpm3 isa0 (.scalar h) = .ok (.scalar rho) ∧
    p' = ⟨some D, some N, some baf, some sig, some cl, p.solve_dp, p.solve_maxiter⟩ ∧
    AF = 1000 * (P / (rho * (rpm / 60) ^ 3 * D ^ 5) / 0.3) ^ (0.8:ℝ) ∧
    (∃ n, Nearest (recommended AF) n ∧ N = max n 2) ∧ N * baf = AF ∧
    sig = 128 * AF / (100000 * Real.pi) ∧
    cl * (1 / 2 * rho * (M * a) ^ 2 * (Real.pi * (D / 2) ^ 2 * sig)) = P / (M * a)

theorem ansatzCore_generic {p p' : Propeller} {M h rpm P : ℝ} (k : ansatzCore p M h rpm (some P) = .ok p') :
    Generic M h P rpm p p' := by
  unfold ansatzCore at k
  simp only [bind_ok_iff] at k
  obtain ⟨a, ha, rho, hr, k⟩ := k
  split_ifs at k with c1
  simp only [not_or] at c1
  cases hD : ansatzDiam M a P (M * a) rho (rpm / 60) with
  | none => rw [hD] at k; cases k
  | some D =>
    rw [hD] at k
    simp only [] at k
    split_ifs at k with c2
    cases hy : npPow (P / (rho * (rpm / 60) ^ 3 * D ^ 5) / 0.3) 0.8 with
    | none => rw [hy] at k; cases k
    | some y =>
      rw [hy] at k
      simp only [] at k
      have ey : y = (P / (rho * (rpm / 60) ^ 3 * D ^ 5) / 0.3) ^ (0.8:ℝ) := by
        unfold npPow at hy; split_ifs at hy; injection hy with hy; exact hy.symm
      obtain ⟨n, hN, h3⟩ := bladesFor_spec (1000 * y)
      obtain ⟨N, eN⟩ : ∃ N, N = max n 2 := ⟨_, rfl⟩
      have h2 : 2 ≤ N := eN ▸ le_max_right _ _
      rw [← eN] at hN
      rw [hN] at k
      split_ifs at k with c3
      cases k
      have hNp : (N:ℝ) ≠ 0 := by
        have : (2:ℝ) ≤ N := by exact_mod_cast h2
        linarith
      refine ⟨a, rho, D, _, _, _, 1000 * y, N, vsound1_ok ha, dens1_ok hr, rfl, by rw [ey], ⟨n, h3, eN⟩, by field_simp, ?_, ?_⟩
      · unfold solidityOf
        field_simp
      · have hpi := Real.pi_pos.ne'
        have hv := c1.1
        have hr := c1.2.2
        obtain ⟨V, hV⟩ : ∃ V, V = M * a := ⟨_, rfl⟩
        obtain ⟨S, hS⟩ : ∃ S, S = solidityOf (N:ℝ) (1000 * y / N) := ⟨_, rfl⟩
        rw [← hV] at hv ⊢
        rw [← hS] at c3 ⊢
        norm_num
        field_simp

/-- The generic propeller made from arrays depends on their averages only, and is as described above. -/
theorem C67_generic (p p' : Propeller) (mach alt : NumArg) (rpm : ℝ) (ps : List ℝ)
    (k : ansatzprop p mach alt rpm (some (ps.map some)) = .ok p') :
    Generic ((recastArray mach).sum / (recastArray mach).length) ((recastArray alt).sum / (recastArray alt).length)
      (ps.sum / ps.length) rpm p p' := by
  unfold ansatzprop at k
  simp only [bind_ok_iff] at k
  obtain ⟨M, hM, h, hh, P, hP, k⟩ := k
  rw [← (average_ok hM).2, ← (average_ok hh).2]
  have e : P = some (ps.sum / ps.length) := by
    unfold averageNan at hP
    have : (ps.map some).mapM id = some ps := by
      clear hP
      induction ps with
      | nil => rfl
      | cons a l ih => rw [List.map_cons, List.mapM_cons, ih]; rfl
    rw [this] at hP
    split_ifs at hP
    cases hP; rfl
  rw [e] at k
  exact ansatzCore_generic k

/-! ### C92 -/

theorem npPow_of_nonneg {x p : ℝ} (h : 0 ≤ x) : npPow x p = some (x ^ p) := if_neg (not_lt.mpr h)

theorem machlimDiam_eq {M a n : ℝ} (hM : 0 ≤ M) (hM' : M ≤ 0.8) (ha : 0 < a) :
    ∃ t, 0 ≤ t ∧ t ^ 2 = (0.64 - M ^ 2) * a ^ 2 ∧ machlimDiam M a n = some (t / (n * Real.pi / 2)) := by
  have h0 : 0 ≤ (0.8 * a) ^ 2 - (M * a) ^ 2 := by
    have : M ^ 2 ≤ 0.64 := by nlinarith
    have : 0 ≤ (0.64 - M ^ 2) * a ^ 2 := mul_nonneg (by linarith) (sq_nonneg _)
    nlinarith
  refine ⟨√((0.8 * a) ^ 2 - (M * a) ^ 2), Real.sqrt_nonneg _, ?_, ?_⟩
  · rw [Real.sq_sqrt h0]; ring
  · unfold machlimDiam
    rw [npPow_of_nonneg h0, Real.sqrt_eq_rpow]
    norm_num

/-- The generic propeller ignores its own limit of 0.8 on the helical tip Mach number: at every flight Mach
number below 0.8, altitude and engine speed, for all powers above some value, the tip Mach number squared is
4 * 0.64 - 3 * M ** 2, above 0.64. -/
theorem C92_limit_violated (p : Propeller) (M h rpm : ℝ) (hM : 0 < M) (hM' : M < 0.8) (hh : h ≤ 50000) (hr : 0 < rpm) :
    ∃ P0, ∀ P, P0 ≤ P → ∃ p' D, ansatzprop p (.scalar M) (.scalar h) rpm (some [some P]) = .ok p' ∧
      p'.diameter_m = some D ∧ 0 < D ∧
      M ^ 2 + (Real.pi * (rpm / 60) * D / sound h) ^ 2 = 4 * 0.64 - 3 * M ^ 2 ∧
      0.8 ^ 2 < M ^ 2 + (Real.pi * (rpm / 60) * D / sound h) ^ 2 := by
  have hpi := Real.pi_pos
  have ha := sound_pos h
  have hrho := Props.C13_positive 0 h (isa_temp_pos h)
  obtain ⟨a, hae⟩ : ∃ a, a = sound h := ⟨_, rfl⟩
  obtain ⟨rho, hre⟩ : ∃ rho, rho = isadens 0 h := ⟨_, rfl⟩
  obtain ⟨n, hn⟩ : ∃ n, n = rpm / 60 := ⟨_, rfl⟩
  rw [← hae] at ha ⊢
  rw [← hre] at hrho
  rw [← hn]
  have hn0 : 0 < n := by rw [hn]; positivity
  obtain ⟨t, ht0, ht, hlim⟩ := machlimDiam_eq (n := n) hM.le hM'.le ha
  have htp : 0 < t := by
    rcases ht0.lt_or_eq with h | h
    · exact h
    · exfalso
      rw [← h] at ht
      have : 0 < (0.64 - M ^ 2) * a ^ 2 := mul_pos (by norm_num at hM' ⊢; nlinarith) (by positivity)
      norm_num at ht this
      rcases ht with ht | ht <;> nlinarith
  obtain ⟨L, hL⟩ : ∃ L, L = t / (n * Real.pi / 2) := ⟨_, rfl⟩
  rw [← hL] at hlim
  have hLp : 0 < L := by rw [hL]; positivity
  refine ⟨L ^ 4 * (M * a * rho * n ^ 2), fun P hP => ?_⟩
  have hV : 0 < M * a := by positivity
  have hden : 0 < M * a * rho * n ^ 2 := by positivity
  have hPp : 0 < P := lt_of_lt_of_le (by positivity) hP
  have hx : L ^ 4 ≤ P / (M * a * rho * n ^ 2) := by rw [le_div_iff₀ hden]; exact hP
  obtain ⟨x, hxe⟩ : ∃ x, x = P / (M * a * rho * n ^ 2) := ⟨_, rfl⟩
  rw [← hxe] at hx
  have hxp : 0 < x := lt_of_lt_of_le (by positivity) hx
  have root : ∀ f : ℝ, 1 < f → L < (f ^ 3 * x) ^ (0.25:ℝ) := by
    intro f hf
    have h1 : L ^ 4 < f ^ 3 * x := by
      have : 1 < f ^ 3 := one_lt_pow₀ hf (by norm_num)
      nlinarith
    have h2 : L = (L ^ 4) ^ (0.25:ℝ) := by
      rw [← Real.rpow_natCast, ← Real.rpow_mul hLp.le]; norm_num
    rw [h2]
    exact Real.rpow_lt_rpow (by positivity) h1 (by norm_num)
  have hdiam : ansatzDiam M a P (M * a) rho n = some L := by
    have b : ∀ f : ℝ, 0 < f → bestDiam f P (M * a) rho n = some ((f ^ 3 * x) ^ (0.25:ℝ)) := by
      intro f hf
      unfold bestDiam
      rw [← hxe, npPow_of_nonneg (by positivity)]
    unfold ansatzDiam
    rw [b 3.2 (by norm_num), b 2.4 (by norm_num), hlim]
    show (if L < 0.2 * (3.2 ^ 3 * x) ^ (0.25:ℝ) + 0.8 * (2.4 ^ 3 * x) ^ (0.25:ℝ) then some L else _) = some L
    rw [if_pos]
    have r1 := root 3.2 (by norm_num)
    have r2 := root 2.4 (by norm_num)
    norm_num at r1 r2 ⊢
    linarith
  have hcp : 0 < P / (rho * n ^ 3 * L ^ 5) := by positivity
  obtain ⟨y, hy⟩ : ∃ y, y = (P / (rho * n ^ 3 * L ^ 5) / 0.3) ^ (0.8:ℝ) := ⟨_, rfl⟩
  have hyp : 0 < y := by rw [hy]; positivity
  obtain ⟨n', hN, _⟩ := bladesFor_spec (1000 * y)
  obtain ⟨N, eN⟩ : ∃ N, N = max n' 2 := ⟨_, rfl⟩
  have h2 : 2 ≤ N := eN ▸ le_max_right _ _
  rw [← eN] at hN
  have hNp : (0:ℝ) < N := by
    have : (2:ℝ) ≤ N := by exact_mod_cast h2
    linarith
  have hsol : solidityOf (N:ℝ) (1000 * y / N) ≠ 0 := by unfold solidityOf; positivity
  have hD : M ^ 2 + (Real.pi * n * L / a) ^ 2 = 4 * 0.64 - 3 * M ^ 2 := by
    have e1 : Real.pi * n * L = 2 * t := by rw [hL]; field_simp
    rw [e1, div_pow, mul_pow, ht]
    field_simp
    ring
  have hcore : ansatzCore p M h rpm (some P) = .ok { p with
            diameter_m := some L
            bladecount := some N
            bladeactivityfact := some (1000 * y / N)
            solidity := some (solidityOf N (1000 * y / N))
            idesign_cl := some (P / (M * a) / (0.5 * rho * (M * a) ^ 2 * (Real.pi * (L / 2) ^ 2 * solidityOf N (1000 * y / N)))) } := by
    unfold ansatzCore
    rw [vsound1_isa h hh, bind_ok, show isa0 = Atm.isa 0 from rfl, Props.isa_dens1 0 h hh, bind_ok]
    rw [← hae, ← hre, ← hn]
    simp only []
    rw [if_neg (by simp only [not_or]; exact ⟨hV.ne', hn0.ne', hrho.ne'⟩), hdiam]
    simp only []
    rw [if_neg hLp.ne', npPow_of_nonneg (by positivity), ← hy]
    simp only [hN]
    rw [if_neg hsol]
  have hok : ansatzprop p (.scalar M) (.scalar h) rpm (some [some P]) = ansatzCore p M h rpm (some P) := by
    unfold ansatzprop
    have e1 : average (recastArray (.scalar M)) = .ok M := by
      unfold average; simp [recastArray]
    have e2 : average (recastArray (.scalar h)) = .ok h := by
      unfold average; simp [recastArray]
    have e3 : averageNan [some P] = .ok (some P) := by
      unfold averageNan
      rw [if_neg (by simp)]
      show Except.ok (some ((P + 0) / ((0:ℕ) + 1 : ℕ))) = _
      simp
    rw [e1, bind_ok, e2, bind_ok]
    simp only [e3, bind_ok]
  exact ⟨_, L, hok.trans hcore, rfl, hLp, hD, by rw [hD]; norm_num at hM' ⊢; nlinarith⟩

/-- What does hold: for flight Mach numbers up to 0.8 the helical tip Mach number of the generic propeller does
not exceed 1.6. -/
theorem C92_bound (p p' : Propeller) (M h rpm P D : ℝ) (hM : 0 ≤ M) (hM' : M ≤ 0.8) (hh : h ≤ 50000) (hr : 0 < rpm)
    (k : ansatzprop p (.scalar M) (.scalar h) rpm (some [some P]) = .ok p') (hD : p'.diameter_m = some D) :
    M ^ 2 + (Real.pi * (rpm / 60) * D / sound h) ^ 2 ≤ 1.6 ^ 2 := by
  have hpi := Real.pi_pos
  have ha := sound_pos h
  have e1 : average (recastArray (.scalar M)) = .ok M := by
    unfold average; simp [recastArray]
  have e2 : average (recastArray (.scalar h)) = .ok h := by
    unfold average; simp [recastArray]
  have e3 : averageNan [some P] = .ok (some P) := by
    unfold averageNan
    rw [if_neg (by simp)]
    show Except.ok (some ((P + 0) / ((0:ℕ) + 1 : ℕ))) = _
    simp
  unfold ansatzprop at k
  rw [e1, bind_ok, e2, bind_ok] at k
  simp only [e3, bind_ok] at k
  unfold ansatzCore at k
  rw [vsound1_isa h hh, bind_ok, show isa0 = Atm.isa 0 from rfl, Props.isa_dens1 0 h hh, bind_ok] at k
  simp only [] at k
  obtain ⟨a, hae⟩ : ∃ a, a = sound h := ⟨_, rfl⟩
  obtain ⟨n, hn⟩ : ∃ n, n = rpm / 60 := ⟨_, rfl⟩
  rw [← hae, ← hn] at k
  rw [← hae] at ha ⊢
  rw [← hn]
  have hn0 : 0 < n := by rw [hn]; positivity
  split_ifs at k with c1
  obtain ⟨t, ht0, ht, hlim⟩ := machlimDiam_eq (n := n) hM hM' ha
  cases hDi : ansatzDiam M a P (M * a) (isadens 0 h) n with
  | none => rw [hDi] at k; cases k
  | some D' =>
    rw [hDi] at k
    simp only [] at k
    have hDD : D' = D := by
      split_ifs at k with c2
      split at k
      · cases k
      · split_ifs at k
        cases k
        injection hD
    subst hDD
    have b0 : ∀ f : ℝ, ∀ z, bestDiam f P (M * a) (isadens 0 h) n = some z → 0 ≤ z := by
      intro f z hz
      unfold bestDiam npPow at hz
      split_ifs at hz with c
      injection hz with hz
      rw [← hz]
      exact Real.rpow_nonneg (not_lt.mp c) _
    have hle : 0 ≤ D' ∧ D' ≤ t / (n * Real.pi / 2) := by
      unfold ansatzDiam at hDi
      rw [hlim] at hDi
      cases h1 : bestDiam 3.2 P (M * a) (isadens 0 h) n with
      | none => rw [h1] at hDi; cases hDi
      | some z1 =>
        cases h2 : bestDiam 2.4 P (M * a) (isadens 0 h) n with
        | none => rw [h1, h2] at hDi; cases hDi
        | some z2 =>
          rw [h1, h2] at hDi
          have hDi' : (if t / (n * Real.pi / 2) < 0.2 * z1 + 0.8 * z2 then some (t / (n * Real.pi / 2))
            else some (0.2 * z1 + 0.8 * z2)) = some D' := hDi
          have p1 := b0 _ _ h1
          have p2 := b0 _ _ h2
          split_ifs at hDi' with c
          · injection hDi' with e; rw [← e]; exact ⟨by positivity, le_rfl⟩
          · injection hDi' with e; rw [← e]; exact ⟨by positivity, not_lt.mp c⟩
    have h2t : Real.pi * n * D' ≤ 2 * t := by
      have := mul_le_mul_of_nonneg_left hle.2 (by positivity : 0 ≤ Real.pi * n)
      have e : Real.pi * n * (t / (n * Real.pi / 2)) = 2 * t := by field_simp
      linarith
    have hsq : (Real.pi * n * D') ^ 2 ≤ (2 * t) ^ 2 := by
      have : 0 ≤ Real.pi * n * D' := by have := hle.1; positivity
      exact pow_le_pow_left₀ this h2t 2
    have : (Real.pi * n * D' / a) ^ 2 ≤ 4 * (0.64 - M ^ 2) := by
      rw [div_pow, div_le_iff₀ (by positivity)]
      nlinarith
    norm_num at this ⊢
    nlinarith [sq_nonneg M]

example : (0:ℝ) < 0.3 ∧ (0.3:ℝ) < 0.8 ∧ (3000:ℝ) ≤ 50000 ∧ (0:ℝ) < 2400 := by norm_num

/-- A generic propeller does result, for the lift and blade properties (C67, C92). -/
example (p : Propeller) : ∃ P p', ansatzprop p (.scalar 0.3) (.scalar 3000) 2400 (some ([P].map some)) = .ok p' := by
  obtain ⟨P0, h⟩ := C92_limit_violated p 0.3 3000 2400 (by norm_num) (by norm_num) (by norm_num) (by norm_num)
  obtain ⟨p', D, h1, _⟩ := h P0 le_rfl
  exact ⟨P0, p', h1⟩

end

end Verif.Propulsion
