import Verif.Props.Atmosphere
import Verif.Lemmas.Interp

/-
Properties C25 and C26: observed profiles and their linear interpolation.
-/

namespace Verif.Props
open Verif.Atmos Verif.Units Verif.Spec

noncomputable section

/-! ### The interpolant -/

theorem linSeg_left (x0 y0 x1 y1 : ℝ) : linSeg x0 y0 x1 y1 x0 = y0 := by simp [linSeg]
theorem linSeg_right (x0 y0 x1 y1 : ℝ) (h : x0 < x1) : linSeg x0 y0 x1 y1 x1 = y1 := by
  have : x1 - x0 ≠ 0 := by linarith
  unfold linSeg; field_simp; ring

/-- Linear interpolation as a weighted mean (specification form). -/
theorem linSeg_weights (x0 y0 x1 y1 x : ℝ) (h : x0 < x1) :
    linSeg x0 y0 x1 y1 x = (1 - (x - x0) / (x1 - x0)) * y0 + (x - x0) / (x1 - x0) * y1 := by
  have : x1 - x0 ≠ 0 := by linarith
  unfold linSeg; field_simp; ring

theorem interpSeg_at (pts : List (ℝ × ℝ)) (hs : (pts.map Prod.fst).Pairwise (· < ·)) (i : ℕ)
    (hi : i + 1 < pts.length) (x : ℝ) (h0 : pts[i].1 ≤ x) (h1 : x ≤ pts[i + 1].1) :
    interpSeg pts x = some (linSeg pts[i].1 pts[i].2 pts[i + 1].1 pts[i + 1].2 x) := by
  induction pts generalizing i with
  | nil => simp at hi
  | cons p rest ih =>
    match rest, hi, h0, h1, hs, ih with
    | [], hi, _, _, _, _ => simp at hi
    | q :: rest, hi, h0, h1, hs, ih =>
      obtain ⟨x0, y0⟩ := p
      obtain ⟨x1, y1⟩ := q
      simp only [List.map_cons, List.pairwise_cons] at hs
      have h01 : x0 < x1 := hs.1 x1 (by simp)
      match i with
      | 0 =>
        simp only [List.getElem_cons_zero, List.getElem_cons_succ, zero_add] at h0 h1 ⊢
        unfold interpSeg
        rw [if_pos h1]
      | i + 1 =>
        simp only [List.getElem_cons_succ] at h0 h1 ⊢
        simp only [List.length_cons] at hi
        have hne : rest ≠ [] := by intro h; rw [h] at hi; simp at hi
        obtain ⟨r, rs, rfl⟩ := List.exists_cons_of_ne_nil hne
        have hx1 : x1 ≤ x := by
          refine le_trans ?_ h0
          match i with
          | 0 => simp
          | i + 1 =>
            simp only [List.getElem_cons_succ]
            have := hs.2.1 ((r :: rs)[i]'(by simp at hi ⊢; omega)).1
              (List.mem_map_of_mem (List.getElem_mem _))
            exact this.le
        by_cases hx : x ≤ x1
        · -- x is exactly the shared point
          have hxe : x = x1 := le_antisymm hx hx1
          have hi0 : i = 0 := by
            by_contra hne0
            obtain ⟨j, rfl⟩ := Nat.exists_eq_succ_of_ne_zero hne0
            simp only [List.getElem_cons_succ] at h0
            have := hs.2.1 ((r :: rs)[j]'(by simp at hi ⊢; omega)).1
              (List.mem_map_of_mem (List.getElem_mem _))
            linarith
          subst hi0
          unfold interpSeg
          rw [if_pos hx, hxe, linSeg_right _ _ _ _ h01]
          simp [linSeg_left]
        · have := ih (by simpa using hs.2) i (by simpa using hi) h0 h1
          have e : interpSeg ((x0, y0) :: (x1, y1) :: r :: rs) x = interpSeg ((x1, y1) :: r :: rs) x := by
            rw [interpSeg, if_neg hx]
            simp
          rw [e]
          exact this

theorem interp1d_at (xs ys : List ℝ) (hlen : xs.length = ys.length) (hs : xs.Pairwise (· < ·)) (i : ℕ)
    (hi : i + 1 < xs.length) (x : ℝ) (h0 : xs[i] ≤ x) (h1 : x ≤ xs[i + 1]) :
    interp1d xs ys x = .ok (linSeg xs[i] (ys[i]'(by omega)) xs[i + 1] (ys[i + 1]'(by omega)) x) := by
  have hne : xs ≠ [] := by intro h; rw [h] at hi; simp at hi
  unfold interp1d
  rw [if_neg (by simpa using hlen), sortTable_sorted hs]
  dsimp only
  have hz0 : (xs.zip ys).length = xs.length := by simp [hlen]
  have hzn : xs.zip ys ≠ [] := by intro h; rw [h] at hz0; simp at hz0; omega
  rw [List.head?_eq_some_head hzn, List.getLast?_eq_some_getLast hzn]
  have lo : xs.head hne ≤ x := by
    refine le_trans ?_ h0
    rw [List.head_eq_getElem]
    rcases Nat.eq_zero_or_pos i with h | h
    · subst h; exact le_rfl
    · exact ((List.pairwise_iff_getElem.mp hs) 0 i (by omega) (by omega) h).le
  have hi' : x ≤ xs.getLast hne := by
    refine le_trans h1 ?_
    rw [List.getLast_eq_getElem]
    rcases Nat.lt_or_ge (i + 1) (xs.length - 1) with h | h
    · exact ((List.pairwise_iff_getElem.mp hs) (i + 1) (xs.length - 1) (by omega) (by omega) h).le
    · have : i + 1 = xs.length - 1 := by omega
      simp only [this]; exact le_rfl
  simp only
  have e1 : ((xs.zip ys).head hzn).1 = xs.head hne := by
    rw [List.head_eq_getElem, List.head_eq_getElem, List.getElem_zip]
  have e2 : ((xs.zip ys).getLast hzn).1 = xs.getLast hne := by
    rw [List.getLast_eq_getElem, List.getLast_eq_getElem, List.getElem_zip]
    simp only [hz0]
  rw [if_neg (by rw [e1, e2]; push Not; exact ⟨lo, hi'⟩)]
  have hz : (xs.zip ys).map Prod.fst = xs := List.map_fst_zip (by omega)
  have := interpSeg_at (xs.zip ys) (by rw [hz]; exact hs) i (by simp; omega) x
    (by simpa using h0) (by simpa using h1)
  rw [this]
  simp

theorem interp1d_outside (xs ys : List ℝ) (hs : xs.Pairwise (· < ·)) (x : ℝ)
    (h : (∀ a ∈ xs, x < a) ∨ (∀ a ∈ xs, a < x)) : interp1d xs ys x = .error .valueError := by
  unfold interp1d
  split_ifs with hl
  · rfl
  rw [sortTable_sorted hs]
  dsimp only
  cases hz : (xs.zip ys).head? with
  | none => rfl
  | some lo =>
    cases hz' : (xs.zip ys).getLast? with
    | none => rfl
    | some hi =>
      simp only
      rw [if_pos]
      rcases h with h | h
      · left; exact h _ (List.of_mem_zip (List.mem_of_head? hz)).1
      · right; exact h _ (List.of_mem_zip (List.mem_of_getLast? hz')).1

/-- Where a query inside a sorted table lies. -/
theorem find_interval (xs : List ℝ) (hs : xs.Pairwise (· < ·)) (h2 : 2 ≤ xs.length) (x : ℝ)
    (h0 : ∃ a ∈ xs, a ≤ x) (h1 : ∃ a ∈ xs, x ≤ a) :
    ∃ (i : ℕ) (hi : i + 1 < xs.length), xs[i]'(by omega) ≤ x ∧ x ≤ xs[i + 1] := by
  induction xs with
  | nil => simp at h2
  | cons a as ih =>
    match as, h2, hs, ih, h0, h1 with
    | [], h2, _, _, _, _ => simp at h2
    | b :: bs, _, hs, ih, h0, h1 =>
      have hs' := List.pairwise_cons.mp hs
      have ha : a ≤ x := by
        obtain ⟨c, hc, hcx⟩ := h0
        rcases List.mem_cons.mp hc with rfl | hc
        · exact hcx
        · exact (hs'.1 c hc).le.trans hcx
      by_cases hb : x ≤ b
      · exact ⟨0, by simp, ha, hb⟩
      · have hb' := (not_le.mp hb).le
        match bs, hs, hs', ih, h1 with
        | [], _, _, _, h1 =>
          exfalso
          obtain ⟨c, hc, hcx⟩ := h1
          simp at hc
          have := hs'.1 b (by simp)
          rcases hc with rfl | rfl <;> linarith
        | c :: cs, _, hs', ih, h1 =>
          have h1' : ∃ d ∈ b :: c :: cs, x ≤ d := by
            obtain ⟨d, hd, hdx⟩ := h1
            rcases List.mem_cons.mp hd with rfl | hd
            · exact ⟨b, by simp, by have := hs'.1 b (by simp); linarith⟩
            · exact ⟨d, hd, hdx⟩
          obtain ⟨i, hi, g1, g2⟩ := ih hs'.2 (by simp) ⟨b, by simp, hb'⟩ h1'
          exact ⟨i + 1, by simpa using hi, by simpa using g1, by simpa using g2⟩

/-! ### C25 -/

/-- A profile from temperature and density columns satisfies the gas law at every tabulated point, and
keeps the given columns. -/
theorem C25_density_profile (alt temp rho : List ℝ) (p : Option (List ℝ)) (h1 : alt.length = temp.length)
    (h2 : alt.length = rho.length) (hT : ∀ t ∈ temp, 0 ≤ t) :
    ∃ o, obsprofile (some alt) (some temp) (some rho) p = .ok o ∧ o.alt_m = alt ∧ o.temp_k = temp ∧
      o.rho_kgpm3 = rho ∧ o.p_pa.length = alt.length ∧ o.vs_mps.length = alt.length ∧
      (∀ i (hi : i < alt.length) (hp : i < o.p_pa.length),
        o.p_pa[i] = 287.05287 * rho[i] * temp[i]) ∧
      (∀ i (hi : i < temp.length) (hp : i < o.vs_mps.length),
        o.vs_mps[i] = √(1.4 * 287.05287 * temp[i])) := by
  refine ⟨⟨alt, temp, rho, List.zipWith (fun r t => R_JPKGPK * r * t) rho temp, temp.map vsound⟩,
    ?_, rfl, rfl, rfl, ?_, ?_, ?_, ?_⟩
  · unfold obsprofile
    simp only [npSize, ← h1, ← h2, and_self, if_true, List.length_zipWith, min_self]
    rw [if_neg]
    simpa using hT
  · simp [← h1, ← h2]
  · simp [h1]
  · intro i hi hp
    simp [R_JPKGPK]
  · intro i hi hp
    simp [vsound, R_JPKGPK]

example : ∃ o, obsprofile (some [0, 1000]) (some [290, 280]) (some [1.2, 1.1]) none = .ok o ∧
    ∀ i (hi : i < [(0:ℝ), 1000].length) (hp : i < o.p_pa.length),
      o.p_pa[i] = 287.05287 * [(1.2:ℝ), 1.1][i] * [(290:ℝ), 280][i] := by
  obtain ⟨o, h, -, -, -, -, -, hp, -⟩ := C25_density_profile [0, 1000] [290, 280] [1.2, 1.1] none rfl rfl
    (by intro t h; simp at h; rcases h with rfl | rfl <;> norm_num)
  exact ⟨o, h, hp⟩

/-- A profile from temperature and pressure columns (no density column) likewise. -/
theorem C25_pressure_profile (alt temp p : List ℝ) (h1 : alt.length = temp.length)
    (h2 : alt.length = p.length) (hT : ∀ t ∈ temp, 0 < t) (hlen : alt.length ≠ 1) :
    ∃ o, obsprofile (some alt) (some temp) none (some p) = .ok o ∧ o.alt_m = alt ∧ o.temp_k = temp ∧
      o.p_pa = p ∧ o.rho_kgpm3.length = alt.length ∧
      (∀ i (hi : i < alt.length) (hp : i < o.rho_kgpm3.length),
        p[i] = 287.05287 * o.rho_kgpm3[i] * temp[i]) := by
  refine ⟨⟨alt, temp, List.zipWith idealgasdens_kgm3 p temp, p, temp.map vsound⟩,
    ?_, rfl, rfl, rfl, ?_, ?_⟩
  · unfold obsprofile
    simp only [npSize, ← h1, ← h2, and_self, if_true, true_and]
    rw [if_neg hlen]
    simp only [List.length_zipWith, ← h1, ← h2, min_self, and_self, if_true]
    rw [if_neg]
    simp only [List.any_eq_true, decide_eq_true_eq, not_exists, not_and, not_lt]
    intro t ht; exact (hT t ht).le
  · simp [← h1, ← h2]
  · intro i hi hp
    have := hT temp[i] (List.getElem_mem _)
    simp [R_JPKGPK, idealgasdens_kgm3]
    field_simp

/-- Nothing else makes a profile: the altitudes and temperatures must be given with as many densities or as many pressures, and
the completed profile satisfies the gas law at every point. -/
theorem C25_complete {alt temp rho p : Option (List ℝ)} {o : Obs} (h : obsprofile alt temp rho p = .ok o) :
    ∃ a t, alt = some a ∧ temp = some t ∧ a.length = t.length ∧ (∀ x ∈ t, 0 ≤ x) ∧ o.alt_m = a ∧ o.temp_k = t ∧
      o.rho_kgpm3.length = a.length ∧ o.p_pa.length = a.length ∧
      ((rho = some o.rho_kgpm3) ∨ (p = some o.p_pa)) ∧
      ∀ i (h1 : i < o.p_pa.length) (h2 : i < o.rho_kgpm3.length) (h3 : i < t.length), t[i] ≠ 0 →
        o.p_pa[i] = 287.05287 * o.rho_kgpm3[i] * t[i] := by
  cases temp with
  | none =>
    exfalso
    revert h
    unfold obsprofile
    split_ifs <;> cases rho <;> cases p <;> simp
  | some t =>
  cases alt with
  | none =>
    exfalso
    revert h
    unfold obsprofile
    simp only
    split_ifs <;> cases rho <;> cases p <;> simp
  | some a =>
  have fin : ∀ (r q : List ℝ), (rho = some r ∨ p = some q) →
      (∀ i (h1 : i < q.length) (h2 : i < r.length) (h3 : i < t.length), t[i] ≠ 0 → q[i] = 287.05287 * r[i] * t[i]) →
      (if t.any (fun x => decide (x < 0)) then (.error .valueError : PyM Obs)
        else if a.length = t.length ∧ a.length = q.length ∧ a.length = r.length then .ok ⟨a, t, r, q, t.map vsound⟩
          else .error .valueError) = .ok o →
      ∃ a' t', some a = some a' ∧ some t = some t' ∧ a'.length = t'.length ∧ (∀ x ∈ t', 0 ≤ x) ∧ o.alt_m = a' ∧ o.temp_k = t' ∧
        o.rho_kgpm3.length = a'.length ∧ o.p_pa.length = a'.length ∧ ((rho = some o.rho_kgpm3) ∨ (p = some o.p_pa)) ∧
        ∀ i (h1 : i < o.p_pa.length) (h2 : i < o.rho_kgpm3.length) (h3 : i < t'.length), t'[i] ≠ 0 →
          o.p_pa[i] = 287.05287 * o.rho_kgpm3[i] * t'[i] := by
    intro r q hrq hg h
    split_ifs at h with ha hl
    have := Except.ok.inj h
    subst this
    exact ⟨a, t, rfl, rfl, hl.1, by simpa using ha, rfl, rfl, hl.2.2.symm, hl.2.1.symm, hrq, hg⟩
  unfold obsprofile at h
  by_cases c1 : npSize (some a) = npSize (some t) ∧ npSize (some t) = npSize rho
  · rw [if_pos c1] at h
    cases rho with
    | none => cases h
    | some r =>
      refine fin r (List.zipWith (fun r t => R_JPKGPK * r * t) r t) (Or.inl rfl) ?_ h
      intro i h1 h2 h3 _
      simp [R_JPKGPK]
  · rw [if_neg c1] at h
    by_cases c2 : npSize (some a) = npSize (some t) ∧ npSize (some t) = npSize p
    · rw [if_pos c2] at h
      cases p with
      | none => cases h
      | some q =>
        refine fin (List.zipWith idealgasdens_kgm3 q t) q (Or.inr rfl) ?_ h
        intro i h1 h2 h3 h0
        simp [R_JPKGPK, idealgasdens_kgm3]
        field_simp
    · rw [if_neg c2] at h
      exfalso
      cases rho with
      | none => revert h; simp
      | some r =>
        cases p with
        | none => revert h; simp
        | some q =>
          simp only at h
          split_ifs at h with ha hl
          exact c1 ⟨hl.1, by simp only [npSize]; omega⟩

example : ∃ o, obsprofile (some [0, 1000]) (some [290, 280]) none (some [101000, 90000]) = .ok o := by
  obtain ⟨o, h, _⟩ := C25_pressure_profile [0, 1000] [290, 280] [101000, 90000] rfl rfl
    (by intro t h; simp at h; rcases h with rfl | rfl <;> norm_num) (by simp)
  exact ⟨o, h⟩

/-! Rows in another order -/

theorem foldl_min_mem (l : List ℝ) (a : ℝ) : (l.foldl min a = a ∨ l.foldl min a ∈ l) ∧ l.foldl min a ≤ a ∧ ∀ x ∈ l, l.foldl min a ≤ x := by
  induction l generalizing a with
  | nil => simp
  | cons b l ih =>
    obtain ⟨h1, h2, h3⟩ := ih (min a b)
    simp only [List.foldl_cons, List.mem_cons]
    refine ⟨?_, h2.trans (min_le_left _ _), ?_⟩
    · rcases h1 with h1 | h1
      · rcases min_choice a b with h | h
        · left; rw [h1, h]
        · right; left; rw [h1, h]
      · right; right; exact h1
    · rintro x (rfl | hx)
      · exact h2.trans (min_le_right _ _)
      · exact h3 x hx

theorem foldl_max_mem (l : List ℝ) (a : ℝ) : (l.foldl max a = a ∨ l.foldl max a ∈ l) ∧ a ≤ l.foldl max a ∧ ∀ x ∈ l, x ≤ l.foldl max a := by
  induction l generalizing a with
  | nil => simp
  | cons b l ih =>
    obtain ⟨h1, h2, h3⟩ := ih (max a b)
    simp only [List.foldl_cons, List.mem_cons]
    refine ⟨?_, (le_max_left _ _).trans h2, ?_⟩
    · rcases h1 with h1 | h1
      · rcases max_choice a b with h | h
        · left; rw [h1, h]
        · right; left; rw [h1, h]
      · right; right; exact h1
    · rintro x (rfl | hx)
      · exact (le_max_right _ _).trans h2
      · exact h3 x hx

theorem alttest_perm {o o' : Obs} (h : o.alt_m.Perm o'.alt_m) (req : NumArg) : alttest (.profile o) req = alttest (.profile o') req := by
  have e1 : loalt o = loalt o' := by
    unfold loalt
    cases ha : o.alt_m with
    | nil => rw [ha] at h; rw [List.nil_perm.mp h]
    | cons a as =>
      cases hb : o'.alt_m with
      | nil => rw [ha, hb] at h; exact absurd h.symm.nil_eq (by simp)
      | cons b bs =>
        rw [ha, hb] at h
        obtain ⟨a1, a2, a3⟩ := foldl_min_mem as a
        obtain ⟨b1, b2, b3⟩ := foldl_min_mem bs b
        simp only
        congr 1
        have ma : as.foldl min a ∈ a :: as := by simpa using a1
        have mb : bs.foldl min b ∈ b :: bs := by simpa using b1
        have la : ∀ x ∈ a :: as, as.foldl min a ≤ x := by rintro x hx; rcases List.mem_cons.mp hx with rfl | hx; exacts [a2, a3 _ hx]
        have lb : ∀ x ∈ b :: bs, bs.foldl min b ≤ x := by rintro x hx; rcases List.mem_cons.mp hx with rfl | hx; exacts [b2, b3 _ hx]
        exact le_antisymm (la _ (h.mem_iff.mpr mb)) (lb _ (h.mem_iff.mp ma))
  have e2 : hialt o = hialt o' := by
    unfold hialt
    cases ha : o.alt_m with
    | nil => rw [ha] at h; rw [List.nil_perm.mp h]
    | cons a as =>
      cases hb : o'.alt_m with
      | nil => rw [ha, hb] at h; exact absurd h.symm.nil_eq (by simp)
      | cons b bs =>
        rw [ha, hb] at h
        obtain ⟨a1, a2, a3⟩ := foldl_max_mem as a
        obtain ⟨b1, b2, b3⟩ := foldl_max_mem bs b
        simp only
        congr 1
        have ma : as.foldl max a ∈ a :: as := by simpa using a1
        have mb : bs.foldl max b ∈ b :: bs := by simpa using b1
        have la : ∀ x ∈ a :: as, x ≤ as.foldl max a := by rintro x hx; rcases List.mem_cons.mp hx with rfl | hx; exacts [a2, a3 _ hx]
        have lb : ∀ x ∈ b :: bs, x ≤ bs.foldl max b := by rintro x hx; rcases List.mem_cons.mp hx with rfl | hx; exacts [b2, b3 _ hx]
        exact le_antisymm (lb _ (h.mem_iff.mp ma)) (la _ (h.mem_iff.mpr mb))
  unfold alttest
  simp only [e1, e2]

theorem interp1d_perm {α : Type} {rows rows' : List α} (h : rows.Perm rows') (f g : α → ℝ) (hn : (rows.map f).Nodup) (x : ℝ) :
    interp1d (rows.map f) (rows.map g) x = interp1d (rows'.map f) (rows'.map g) x := by
  unfold interp1d
  simp only [List.length_map, ne_eq, not_true_eq_false, if_false]
  have z : ∀ l : List α, (l.map f).zip (l.map g) = l.map (fun a => (f a, g a)) := fun l => by
    induction l with
    | nil => rfl
    | cons a l ih => simp [ih]
  rw [z, z, sortTable_perm (h.map _) (by simpa [List.map_map, Function.comp_def] using hn)]

/-- The order in which the rows of the observations are given does not matter. -/
theorem C25_order {rows rows' : List (ℝ × ℝ × ℝ)} (h : rows.Perm rows') (hn : (rows.map (fun r => r.1)).Nodup)
    (hT : ∀ r ∈ rows, 0 ≤ r.2.1) :
    ∃ o o', obsprofile (some (rows.map (fun r => r.1))) (some (rows.map (fun r => r.2.1))) (some (rows.map (fun r => r.2.2))) none = .ok o ∧
      obsprofile (some (rows'.map (fun r => r.1))) (some (rows'.map (fun r => r.2.1))) (some (rows'.map (fun r => r.2.2))) none = .ok o' ∧
      ∀ req, airtemp_k (.profile o) req = airtemp_k (.profile o') req ∧ airpress_pa (.profile o) req = airpress_pa (.profile o') req ∧
        airdens_kgpm3 (.profile o) req = airdens_kgpm3 (.profile o') req := by
  have key : ∀ rows : List (ℝ × ℝ × ℝ), (∀ r ∈ rows, 0 ≤ r.2.1) → ∃ o, obsprofile (some (rows.map (fun r => r.1)))
      (some (rows.map (fun r => r.2.1))) (some (rows.map (fun r => r.2.2))) none = .ok o ∧ o.alt_m = rows.map (fun r => r.1) ∧
      o.temp_k = rows.map (fun r => r.2.1) ∧ o.rho_kgpm3 = rows.map (fun r => r.2.2) ∧
      o.p_pa = rows.map (fun r => 287.05287 * r.2.2 * r.2.1) := by
    intro rows hT
    obtain ⟨o, h1, h2, h3, h4, h5, -, h6, -⟩ := C25_density_profile (rows.map (fun r => r.1)) (rows.map (fun r => r.2.1))
      (rows.map (fun r => r.2.2)) none (by simp) (by simp) (by intro t ht; obtain ⟨r, hr, rfl⟩ := List.mem_map.mp ht; exact hT r hr)
    refine ⟨o, h1, h2, h3, h4, ?_⟩
    apply List.ext_getElem
    · simpa using h5
    · intro i a1 a2
      rw [h6 i (by simpa using a2) a1]
      simp
  obtain ⟨o, h1, h2, h3, h4, h5⟩ := key rows hT
  obtain ⟨o', k1, k2, k3, k4, k5⟩ := key rows' (fun r hr => hT r (h.mem_iff.mpr hr))
  have ha : ∀ req, alttest (.profile o) req = alttest (.profile o') req := alttest_perm (by rw [h2, k2]; exact h.map _)
  refine ⟨o, o', h1, k1, fun req => ⟨?_, ?_, ?_⟩⟩
  · unfold airtemp_k
    rw [ha]; simp only [h2, h3, k2, k3, funext (interp1d_perm h (fun r => r.1) (fun r => r.2.1) hn)]
  · unfold airpress_pa
    rw [ha]; simp only [h2, h5, k2, k5, funext (interp1d_perm h (fun r => r.1) (fun r => 287.05287 * r.2.2 * r.2.1) hn)]
  · unfold airdens_kgpm3
    rw [ha]; simp only [h2, h4, k2, k4, funext (interp1d_perm h (fun r => r.1) (fun r => r.2.2) hn)]

/-- A sounding listed from the top down. -/
example : [((1000:ℝ), (280:ℝ), (1.1:ℝ)), (0, 290, 1.2)].Perm [(0, 290, 1.2), (1000, 280, 1.1)] ∧
    ([((1000:ℝ), (280:ℝ), (1.1:ℝ)), (0, 290, 1.2)].map (fun r => r.1)).Nodup ∧
    ∀ r ∈ [((1000:ℝ), (280:ℝ), (1.1:ℝ)), (0, 290, 1.2)], 0 ≤ r.2.1 := by
  refine ⟨List.Perm.swap _ _ _, by simp, ?_⟩
  intro r hr
  simp only [List.mem_cons, List.not_mem_nil, or_false] at hr
  rcases hr with rfl | rfl <;> norm_num

/-- Interpolated queries on any sorted table with two or more points: exact at tabulated abscissae,
between the neighbouring values elsewhere, an error outside. -/
theorem C25_interpolation (xs ys : List ℝ) (hlen : xs.length = ys.length) (hs : xs.Pairwise (· < ·))
    (h2 : 2 ≤ xs.length) :
    (∀ i (hi : i < xs.length), interp1d xs ys xs[i] = .ok (ys[i]'(by omega))) ∧
    (∀ i (hi : i + 1 < xs.length) (x : ℝ), xs[i] ≤ x → x ≤ xs[i + 1] →
      ∃ y, interp1d xs ys x = .ok y ∧ Between (ys[i]'(by omega)) y (ys[i + 1]'(by omega)) ∧
        (y - ys[i]'(by omega)) * (xs[i + 1] - xs[i]) = (ys[i + 1]'(by omega) - ys[i]'(by omega)) * (x - xs[i])) ∧
    (∀ x, (∀ a ∈ xs, x < a) ∨ (∀ a ∈ xs, a < x) → interp1d xs ys x = .error .valueError) := by
  refine ⟨?_, ?_, fun x h => interp1d_outside xs ys hs x h⟩
  · intro i hi
    rcases Nat.lt_or_ge (i + 1) xs.length with h | h
    · have h01 := (List.pairwise_iff_getElem.mp hs) i (i + 1) (by omega) h (by omega)
      rw [interp1d_at xs ys hlen hs i h xs[i] le_rfl h01.le, linSeg_left]
    · obtain ⟨j, rfl⟩ : ∃ j, i = j + 1 := ⟨i - 1, by omega⟩
      have h01 := (List.pairwise_iff_getElem.mp hs) j (j + 1) (by omega) hi (by omega)
      rw [interp1d_at xs ys hlen hs j hi xs[j + 1] h01.le le_rfl, linSeg_right _ _ _ _ h01]
  · intro i hi x h0 h1
    have h01 := (List.pairwise_iff_getElem.mp hs) i (i + 1) (by omega) hi (by omega)
    refine ⟨_, interp1d_at xs ys hlen hs i hi x h0 h1, ?_, ?_⟩
    · rw [linSeg_weights _ _ _ _ _ h01]
      have w0 : 0 ≤ (x - xs[i]) / (xs[i + 1] - xs[i]) := div_nonneg (by linarith) (by linarith)
      have w1 : (x - xs[i]) / (xs[i + 1] - xs[i]) ≤ 1 := by
        rw [div_le_one (by linarith)]; linarith
      generalize (x - xs[i]) / (xs[i + 1] - xs[i]) = w at *
      unfold Between
      rcases le_total (ys[i]'(by omega)) (ys[i + 1]'(by omega)) with h | h
      · left; constructor <;> nlinarith
      · right; constructor <;> nlinarith
    · have : xs[i + 1] - xs[i] ≠ 0 := by linarith
      unfold linSeg; field_simp; ring

example : interp1d [0, 1000, 3000] [290, 280, 270] 1000 = .ok 280 :=
  (C25_interpolation [0, 1000, 3000] [290, 280, 270] rfl (by simp; norm_num) (by simp)).1 1 (by simp)

/-- The atmosphere built on such a profile answers queries in range with the interpolated columns. -/
theorem profile_scalar (o : Obs) (x : ℝ) (hs : o.alt_m.Pairwise (· < ·)) (h2 : 2 ≤ o.alt_m.length)
    (h0 : ∃ a ∈ o.alt_m, a ≤ x) (h1 : ∃ a ∈ o.alt_m, x ≤ a)
    (ht : o.alt_m.length = o.temp_k.length) (hp : o.alt_m.length = o.p_pa.length)
    (hr : o.alt_m.length = o.rho_kgpm3.length) :
    ∃ (i : ℕ) (hi : i + 1 < o.alt_m.length), o.alt_m[i] ≤ x ∧ x ≤ o.alt_m[i + 1] ∧
      airtemp_k (.profile o) (.scalar x) = .ok (.scalar (linSeg o.alt_m[i] (o.temp_k[i]'(by omega))
        o.alt_m[i + 1] (o.temp_k[i + 1]'(by omega)) x)) ∧
      airpress_pa (.profile o) (.scalar x) = .ok (.scalar (linSeg o.alt_m[i] (o.p_pa[i]'(by omega))
        o.alt_m[i + 1] (o.p_pa[i + 1]'(by omega)) x)) ∧
      airdens_kgpm3 (.profile o) (.scalar x) = .ok (.scalar (linSeg o.alt_m[i] (o.rho_kgpm3[i]'(by omega))
        o.alt_m[i + 1] (o.rho_kgpm3[i + 1]'(by omega)) x)) := by
  obtain ⟨i, hi, g0, g1⟩ := find_interval o.alt_m hs h2 x h0 h1
  have hne : o.alt_m ≠ [] := by intro h; rw [h] at h2; simp at h2
  have ha := (C17_profile o x hne).2 ⟨h0, h1⟩
  refine ⟨i, hi, g0, g1, ?_, ?_, ?_⟩
  · unfold airtemp_k; rw [ha]
    show (List.mapM (interp1d o.alt_m o.temp_k) [x] >>= _) = _
    rw [List.mapM_cons, interp1d_at _ _ ht hs i hi x g0 g1]; rfl
  · unfold airpress_pa; rw [ha]
    show (List.mapM (interp1d o.alt_m o.p_pa) [x] >>= _) = _
    rw [List.mapM_cons, interp1d_at _ _ hp hs i hi x g0 g1]; rfl
  · unfold airdens_kgpm3; rw [ha]
    show (List.mapM (interp1d o.alt_m o.rho_kgpm3) [x] >>= _) = _
    rw [List.mapM_cons, interp1d_at _ _ hr hs i hi x g0 g1]; rfl

/-- A query in range of a profile lies between the values tabulated at the neighbouring altitudes, for
temperature, pressure and density. -/
theorem C25_query (alt temp rho : List ℝ) (h1 : alt.length = temp.length) (h2 : alt.length = rho.length)
    (hT : ∀ t ∈ temp, 0 ≤ t) (hs : alt.Pairwise (· < ·)) (hl : 2 ≤ alt.length) (x : ℝ)
    (hx0 : ∃ a ∈ alt, a ≤ x) (hx1 : ∃ a ∈ alt, x ≤ a) :
    ∃ o t d p, obsprofile (some alt) (some temp) (some rho) none = .ok o ∧
      airtemp_k (.profile o) (.scalar x) = .ok (.scalar t) ∧
      airdens_kgpm3 (.profile o) (.scalar x) = .ok (.scalar d) ∧
      airpress_pa (.profile o) (.scalar x) = .ok (.scalar p) ∧
      ∃ (i : ℕ) (hi : i + 1 < alt.length), alt[i] ≤ x ∧ x ≤ alt[i + 1] ∧
        Between (temp[i]'(by omega)) t (temp[i + 1]'(by omega)) ∧
        Between (rho[i]'(by omega)) d (rho[i + 1]'(by omega)) ∧
        Between (287.05287 * rho[i]'(by omega) * temp[i]'(by omega)) p
          (287.05287 * rho[i + 1]'(by omega) * temp[i + 1]'(by omega)) := by
  obtain ⟨o, e, ea, et, er, lp, lv, gp, gv⟩ := C25_density_profile alt temp rho none h1 h2 hT
  subst ea et er
  obtain ⟨i, hi, g0, g1, q1, q2, q3⟩ := profile_scalar o x hs hl hx0 hx1 h1 lp.symm h2
  have bt := (C25_interpolation o.alt_m o.temp_k h1 hs hl).2.1 i hi x g0 g1
  have br := (C25_interpolation o.alt_m o.rho_kgpm3 h2 hs hl).2.1 i hi x g0 g1
  have bp := (C25_interpolation o.alt_m o.p_pa lp.symm hs hl).2.1 i hi x g0 g1
  rw [interp1d_at _ _ h1 hs i hi x g0 g1] at bt
  rw [interp1d_at _ _ h2 hs i hi x g0 g1] at br
  rw [interp1d_at _ _ lp.symm hs i hi x g0 g1] at bp
  obtain ⟨_, k1, b1, -⟩ := bt; cases k1
  obtain ⟨_, k2, b2, -⟩ := br; cases k2
  obtain ⟨_, k3, b3, -⟩ := bp; cases k3
  refine ⟨o, _, _, _, e, q1, q3, q2, i, hi, g0, g1, b1, b2, ?_⟩
  rw [← gp i (by omega) (by omega), ← gp (i + 1) (by omega) (by omega)]
  exact b3

example : ∃ alt temp rho : List ℝ, alt.length = temp.length ∧ alt.length = rho.length ∧
    (∀ t ∈ temp, 0 ≤ t) ∧ alt.Pairwise (· < ·) ∧ 2 ≤ alt.length ∧ (∃ a ∈ alt, a ≤ 500) ∧ (∃ a ∈ alt, 500 ≤ a) :=
  ⟨[0, 1000, 3000], [290, 280, 270], [1.2, 1.1, 0.9], rfl, rfl,
    by intro t h; simp at h; rcases h with rfl | rfl | rfl <;> norm_num, by simp; norm_num, by simp,
    ⟨0, by simp, by norm_num⟩, ⟨1000, by simp, by norm_num⟩⟩

/-! ### C26 -/

/-- On one interval, with the tabulated pressures obeying the gas law at both ends, the defect of the
interpolated pressure is R s(1-s) Δρ ΔT, where s is the relative position: so it has the sign of
Δρ ΔT. -/
theorem linSeg_defect (x0 x1 r0 r1 t0 t1 x R : ℝ) (h : x0 < x1) :
    linSeg x0 (R * r0 * t0) x1 (R * r1 * t1) x - R * linSeg x0 r0 x1 r1 x * linSeg x0 t0 x1 t1 x =
      R * ((x - x0) / (x1 - x0) * ((x1 - x) / (x1 - x0))) * (r1 - r0) * (t1 - t0) := by
  have : x1 - x0 ≠ 0 := by linarith
  unfold linSeg; field_simp; ring

theorem C26_defect_sign (alt temp rho : List ℝ) (h1 : alt.length = temp.length)
    (h2 : alt.length = rho.length) (hT : ∀ t ∈ temp, 0 ≤ t) (hs : alt.Pairwise (· < ·))
    (i : ℕ) (hi : i + 1 < alt.length) (x : ℝ) (hx0 : alt[i] < x) (hx1 : x < alt[i + 1]) :
    ∃ o t d p, obsprofile (some alt) (some temp) (some rho) none = .ok o ∧
      airtemp_k (.profile o) (.scalar x) = .ok (.scalar t) ∧
      airdens_kgpm3 (.profile o) (.scalar x) = .ok (.scalar d) ∧
      airpress_pa (.profile o) (.scalar x) = .ok (.scalar p) ∧
      (0 < (rho[i + 1]'(by omega) - rho[i]'(by omega)) * (temp[i + 1]'(by omega) - temp[i]'(by omega)) →
        287.05287 * d * t < p) ∧
      ((rho[i + 1]'(by omega) - rho[i]'(by omega)) * (temp[i + 1]'(by omega) - temp[i]'(by omega)) < 0 →
        p < 287.05287 * d * t) ∧
      ((rho[i + 1]'(by omega) - rho[i]'(by omega)) * (temp[i + 1]'(by omega) - temp[i]'(by omega)) = 0 →
        p = 287.05287 * d * t) ∧
      4 * |p - 287.05287 * d * t| ≤
        287.05287 * |rho[i + 1]'(by omega) - rho[i]'(by omega)| * |temp[i + 1]'(by omega) - temp[i]'(by omega)| := by
  obtain ⟨o, e, ea, et, er, lp, lv, gp, gv⟩ := C25_density_profile alt temp rho none h1 h2 hT
  subst ea et er
  have hl : 2 ≤ o.alt_m.length := by omega
  have hne : o.alt_m ≠ [] := by intro h; rw [h] at hl; simp at hl
  have ha := (C17_profile o x hne).2
    ⟨⟨o.alt_m[i], List.getElem_mem _, hx0.le⟩, ⟨o.alt_m[i + 1], List.getElem_mem _, hx1.le⟩⟩
  have q : ∀ ys (hy : o.alt_m.length = ys.length), List.mapM (interp1d o.alt_m ys) [x] =
      .ok [linSeg o.alt_m[i] (ys[i]'(by omega)) o.alt_m[i + 1] (ys[i + 1]'(by omega)) x] := by
    intro ys hy
    rw [List.mapM_cons, interp1d_at _ _ hy hs i hi x hx0.le hx1.le]; rfl
  have h01 := hx0.trans hx1
  have key := linSeg_defect o.alt_m[i] o.alt_m[i + 1] (o.rho_kgpm3[i]'(by omega)) (o.rho_kgpm3[i + 1]'(by omega))
    (o.temp_k[i]'(by omega)) (o.temp_k[i + 1]'(by omega)) x 287.05287 h01
  rw [← gp i (by omega) (by omega), ← gp (i + 1) (by omega) (by omega)] at key
  refine ⟨o, _, _, _, e, by unfold airtemp_k; rw [ha]; show (List.mapM (interp1d o.alt_m o.temp_k) [x] >>= _) = _; rw [q _ h1]; rfl,
    by unfold airdens_kgpm3; rw [ha]; show (List.mapM (interp1d o.alt_m o.rho_kgpm3) [x] >>= _) = _; rw [q _ h2]; rfl,
    by unfold airpress_pa; rw [ha]; show (List.mapM (interp1d o.alt_m o.p_pa) [x] >>= _) = _; rw [q _ lp.symm]; rfl, ?_⟩
  have s1 : 0 < (x - o.alt_m[i]) / (o.alt_m[i + 1] - o.alt_m[i]) := div_pos (by linarith) (by linarith)
  have s2 : 0 < (o.alt_m[i + 1] - x) / (o.alt_m[i + 1] - o.alt_m[i]) := div_pos (by linarith) (by linarith)
  have s3 : (x - o.alt_m[i]) / (o.alt_m[i + 1] - o.alt_m[i]) +
      (o.alt_m[i + 1] - x) / (o.alt_m[i + 1] - o.alt_m[i]) = 1 := by
    have : o.alt_m[i + 1] - o.alt_m[i] ≠ 0 := by linarith
    field_simp; ring
  generalize (x - o.alt_m[i]) / (o.alt_m[i + 1] - o.alt_m[i]) = u at key s1 s3
  generalize (o.alt_m[i + 1] - x) / (o.alt_m[i + 1] - o.alt_m[i]) = v at key s2 s3
  have w0 : 0 < u * v := mul_pos s1 s2
  have w1 : 4 * (u * v) ≤ 1 := by nlinarith [sq_nonneg (u - v)]
  generalize u * v = w at *
  rw [mul_assoc (287.05287 * w)] at key
  refine ⟨fun h => ?_, fun h => ?_, fun h => ?_, ?_⟩
  · have : 0 < 287.05287 * w := by positivity
    have := mul_pos this h
    linarith
  · have : 0 < 287.05287 * w := by positivity
    have := mul_neg_of_pos_of_neg this h
    linarith
  · rw [h, mul_zero] at key; linarith
  · rw [key, abs_mul, abs_mul, abs_mul, abs_of_pos w0, abs_of_pos (by norm_num : (0:ℝ) < 287.05287)]
    have hab := mul_nonneg (abs_nonneg (o.rho_kgpm3[i + 1] - o.rho_kgpm3[i])) (abs_nonneg (o.temp_k[i + 1] - o.temp_k[i]))
    generalize |o.rho_kgpm3[i + 1] - o.rho_kgpm3[i]| = a at *
    generalize |o.temp_k[i + 1] - o.temp_k[i]| = b at *
    nlinarith

example : ∃ o d t p, obsprofile (some [0, 1000]) (some [290, 280]) (some [1.2, 1.1]) none = .ok o ∧
    airtemp_k (.profile o) (.scalar 500) = .ok (.scalar t) ∧ airdens_kgpm3 (.profile o) (.scalar 500) = .ok (.scalar d) ∧
    airpress_pa (.profile o) (.scalar 500) = .ok (.scalar p) ∧ 287.05287 * d * t < p := by
  obtain ⟨o, t, d, p, h1, h2, h3, h4, h5, _⟩ := C26_defect_sign [0, 1000] [290, 280] [1.2, 1.1] rfl rfl
    (by intro t h; simp at h; rcases h with rfl | rfl <;> norm_num) (by simp) 0 (by simp) 500 (by simp) (by simp; norm_num)
  exact ⟨o, d, t, p, h1, h2, h3, h4, h5 (by norm_num)⟩

end

end Verif.Props
