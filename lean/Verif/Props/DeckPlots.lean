import Verif.Props.Propulsion4

/-
Availability checks of the demonstration plots and of the total thrust (C79).
-/

namespace Verif.Propulsion

open Verif Verif.Atmos

noncomputable section

/-- The numbers of a list, NaN left out. -/
def known (vs : List (Option ℝ)) : List ℝ := vs.filterMap id

/-- Least and largest number of a list whose first entry is a number. -/
def Spans (vs : List (Option ℝ)) (lo hi : ℝ) : Prop :=
  (∃ v, vs[0]? = some (some v)) ∧ lo ∈ known vs ∧ hi ∈ known vs ∧ ∀ v ∈ known vs, lo ≤ v ∧ v ≤ hi

/-- The first entry is NaN, or all numbers of the list are equal (or there are none). -/
def Flat (vs : List (Option ℝ)) : Prop :=
  vs[0]? = some none ∨ ∀ u ∈ known vs, ∀ v ∈ known vs, u = v

/-- A colour map of `f` over a rectangle: 1001 evenly spaced values along each axis, from one end to the other, and the
value of `f` at each of the 1001 * 1001 points. -/
def Pictures (P : DemoPlot) (x0 x1 y0 y1 : ℝ) (f : ℝ → ℝ → Option ℝ) : Prop :=
  P.xs.length = 1001 ∧ P.ys.length = 1001 ∧ P.z.length = 1001 * 1001 ∧
  ∀ i j : ℕ, i ≤ 1000 → j ≤ 1000 →
    P.xs[i]? = some (x0 + i / 1000 * (x1 - x0)) ∧ P.ys[j]? = some (y0 + j / 1000 * (y1 - y0)) ∧
    P.z[i * 1001 + j]? = some (f (x0 + i / 1000 * (x1 - x0)) (y0 + j / 1000 * (y1 - y0)))

/-- A plot of a table: a picture of `F` over the range of its first two columns, ValueError when one of them has no range. -/
def Draws (rows : List Row) (F : Grid → ℝ → ℝ → Option ℝ) (labels : String × String × String × String)
    (plot : Grid → PyM (Option DemoPlot)) : Prop :=
  (∀ x0 x1 y0 y1, Spans (rows.map (fun r => r.1)) x0 x1 → Spans (rows.map (fun r => r.2.1)) y0 y1 → x0 < x1 → y0 < y1 →
    ∀ G, ∃ P, plot G = .ok (some P) ∧ Pictures P x0 x1 y0 y1 (F G) ∧ (P.x_label, P.y_label, P.z_label, P.title) = labels) ∧
  (Flat (rows.map (fun r => r.1)) ∨ Flat (rows.map (fun r => r.2.1)) → ∀ G, plot G = .error .valueError)

/-! ### Limits -/

theorem fold_min : ∀ (vs : List (Option ℝ)) (x : ℝ), ∃ m, vs.foldl (fun m y => match m, y with
      | some a, some b => if b < a then some b else some a
      | m, _ => m) (some x) = some m ∧ m ∈ x :: known vs ∧ ∀ v ∈ x :: known vs, m ≤ v
  | [], x => ⟨x, rfl, by simp, by simp [known]⟩
  | none :: vs, x => by
    obtain ⟨m, h1, h2, h3⟩ := fold_min vs x
    exact ⟨m, h1, h2, h3⟩
  | some v :: vs, x => by
    have k : known (some v :: vs) = v :: known vs := rfl
    by_cases hv : v < x
    · obtain ⟨m, h1, h2, h3⟩ := fold_min vs v
      refine ⟨m, by simpa [hv] using h1, by rw [k]; exact List.mem_cons_of_mem _ h2, fun u hu => ?_⟩
      rw [k, List.mem_cons] at hu
      rcases hu with rfl | hu
      · exact le_trans (h3 v List.mem_cons_self) hv.le
      · exact h3 u hu
    · obtain ⟨m, h1, h2, h3⟩ := fold_min vs x
      refine ⟨m, by simpa [hv] using h1, ?_, fun u hu => ?_⟩
      · rw [k]; rw [List.mem_cons] at h2 ⊢
        rcases h2 with h2 | h2
        · exact Or.inl h2
        · exact Or.inr (List.mem_cons_of_mem _ h2)
      · rw [k, List.mem_cons, List.mem_cons] at hu
        rcases hu with rfl | rfl | hu
        · exact h3 _ List.mem_cons_self
        · exact le_trans (h3 x List.mem_cons_self) (not_lt.mp hv)
        · exact h3 u (List.mem_cons_of_mem _ hu)

theorem fold_max : ∀ (vs : List (Option ℝ)) (x : ℝ), ∃ m, vs.foldl (fun m y => match m, y with
      | some a, some b => if a < b then some b else some a
      | m, _ => m) (some x) = some m ∧ m ∈ x :: known vs ∧ ∀ v ∈ x :: known vs, v ≤ m
  | [], x => ⟨x, rfl, by simp, by simp [known]⟩
  | none :: vs, x => by
    obtain ⟨m, h1, h2, h3⟩ := fold_max vs x
    exact ⟨m, h1, h2, h3⟩
  | some v :: vs, x => by
    have k : known (some v :: vs) = v :: known vs := rfl
    by_cases hv : x < v
    · obtain ⟨m, h1, h2, h3⟩ := fold_max vs v
      refine ⟨m, by simpa [hv] using h1, by rw [k]; exact List.mem_cons_of_mem _ h2, fun u hu => ?_⟩
      rw [k, List.mem_cons] at hu
      rcases hu with rfl | hu
      · exact le_trans hv.le (h3 v List.mem_cons_self)
      · exact h3 u hu
    · obtain ⟨m, h1, h2, h3⟩ := fold_max vs x
      refine ⟨m, by simpa [hv] using h1, ?_, fun u hu => ?_⟩
      · rw [k]; rw [List.mem_cons] at h2 ⊢
        rcases h2 with h2 | h2
        · exact Or.inl h2
        · exact Or.inr (List.mem_cons_of_mem _ h2)
      · rw [k, List.mem_cons, List.mem_cons] at hu
        rcases hu with rfl | rfl | hu
        · exact h3 _ List.mem_cons_self
        · exact le_trans (not_lt.mp hv) (h3 x List.mem_cons_self)
        · exact h3 u (List.mem_cons_of_mem _ hu)

theorem fold_min_nan : ∀ vs : List (Option ℝ), vs.foldl (fun m y => match m, y with
      | some a, some b => if b < a then some b else some a
      | m, _ => m) (none : Option ℝ) = none
  | [] => rfl
  | _ :: vs => fold_min_nan vs

theorem limits_of (x : ℝ) (vs : List (Option ℝ)) : ∃ lo hi, pyMinList (some x :: vs) = .ok (some lo) ∧ pyMax (some x :: vs) = .ok (some hi) ∧
    Spans (some x :: vs) lo hi := by
  obtain ⟨lo, a1, a2, a3⟩ := fold_min vs x
  obtain ⟨hi, b1, b2, b3⟩ := fold_max vs x
  refine ⟨lo, hi, ?_, ?_, ⟨x, rfl⟩, a2, b2, fun v hv => ⟨a3 v hv, b3 v hv⟩⟩
  · exact congrArg Except.ok a1
  · exact congrArg Except.ok b1

theorem spans_unique {vs : List (Option ℝ)} {a b c d : ℝ} (h : Spans vs a b) (k : Spans vs c d) : a = c ∧ b = d :=
  ⟨le_antisymm (h.2.2.2 c k.2.1).1 (k.2.2.2 a h.2.1).1, le_antisymm (k.2.2.2 b h.2.2.1).2 (h.2.2.2 d k.2.2.1).2⟩

theorem limits_spans {vs : List (Option ℝ)} {lo hi : ℝ} (h : Spans vs lo hi) : pyMinList vs = .ok (some lo) ∧ pyMax vs = .ok (some hi) := by
  obtain ⟨x, hx⟩ := h.1
  match vs, hx, h with
  | some y :: vs, _, h =>
    obtain ⟨lo', hi', h1, h2, h3⟩ := limits_of y vs
    obtain ⟨rfl, rfl⟩ := spans_unique h h3
    exact ⟨h1, h2⟩

/-! ### Grid -/

theorem axis_ok {a b : ℝ} (h : a < b) : mgridAxis (some a) (some b) =
    .ok ((List.range 1001).map (fun i : ℕ => (i : ℝ) * ((b - a) / 1000) + a)) := by
  have hp : 0 < (b - a) / 1000 := by linarith
  have e : (b + (b - a) / 1000 - a) / ((b - a) / 1000) = ((1001 : ℤ) : ℝ) := by
    rw [div_eq_iff hp.ne']; push_cast; ring
  unfold mgridAxis
  dsimp only
  rw [if_neg hp.ne', e, Int.ceil_intCast]; rfl

theorem axis_length {a b : ℝ} {xs : List ℝ} (h : a < b) (hx : mgridAxis (some a) (some b) = .ok xs) : xs.length = 1001 := by
  rw [axis_ok h] at hx
  rw [← Except.ok.inj hx, List.length_map, List.length_range]

theorem axis_get {a b : ℝ} {xs : List ℝ} (h : a < b) (hx : mgridAxis (some a) (some b) = .ok xs) (i : ℕ) (hi : i ≤ 1000) :
    xs[i]? = some (a + i / 1000 * (b - a)) := by
  rw [axis_ok h] at hx
  rw [← Except.ok.inj hx, List.getElem?_map, List.getElem?_range (by omega)]
  simp only [Option.map_some]
  congr 1; ring

theorem block_get {α : Type} (f : ℝ → List α) (n : ℕ) (hf : ∀ x, (f x).length = n) : ∀ (xs : List ℝ) (i j : ℕ) (x : ℝ), xs[i]? = some x → j < n →
    (xs.flatMap f)[i * n + j]? = (f x)[j]?
  | [], i, j, x, h, _ => by simp at h
  | y :: xs, 0, j, x, h, hj => by
    have : y = x := by simpa using h
    subst this
    rw [List.flatMap_cons, Nat.zero_mul, Nat.zero_add, List.getElem?_append_left (by rw [hf]; exact hj)]
  | y :: xs, i + 1, j, x, h, hj => by
    rw [List.flatMap_cons, List.getElem?_append_right (by rw [hf]; nlinarith), hf]
    rw [show (i + 1) * n + j - n = i * n + j by rw [Nat.add_mul]; omega]
    exact block_get f n hf xs i j x (by simpa using h) hj

theorem block_length {α : Type} (f : ℝ → List α) (n : ℕ) (hf : ∀ x, (f x).length = n) : ∀ xs : List ℝ, (xs.flatMap f).length = xs.length * n
  | [] => by simp
  | y :: xs => by
    rw [List.flatMap_cons, List.length_append, hf, block_length f n hf xs, List.length_cons]; ring

theorem gridX_length (xs ys : List ℝ) : (gridX xs ys).length = xs.length * ys.length :=
  block_length _ _ (fun _ => List.length_map _) xs

theorem gridY_length (xs ys : List ℝ) : (gridY xs ys).length = xs.length * ys.length :=
  block_length _ _ (fun _ => rfl) xs

theorem grid_zip {γ : Type} (f : ℝ → ℝ → γ) (xs ys : List ℝ) (i j : ℕ) (x y : ℝ) (hx : xs[i]? = some x) (hy : ys[j]? = some y) :
    (List.zipWith f (gridX xs ys) (gridY xs ys))[i * ys.length + j]? = some (f x y) := by
  have hj : j < ys.length := by
    by_contra hc
    rw [List.getElem?_eq_none (not_lt.mp hc)] at hy; cases hy
  rw [List.getElem?_zipWith]
  unfold gridX gridY
  rw [block_get _ _ (fun _ => List.length_map _) xs i j x hx hj, block_get _ _ (fun _ => rfl) xs i j x hx hj, List.getElem?_map, hy]
  rfl

/-- What a demonstration plot shows of a table, for a query that is the elementwise `F`. -/
theorem draws_of (rows : List Row) (F : Grid → ℝ → ℝ → Option ℝ) (xl yl zl tl : String) (func : Grid → List ℝ → List ℝ → Query)
    (hf : ∀ G a b, a.length = b.length → func G a b = .ok (some (List.zipWith (F G) a b))) :
    Draws rows F (xl, yl, zl, tl) (fun G => do
      let lims ← plotLimits (some rows)
      let p ← demoPlot lims (func G) xl yl zl tl
      pure (some p)) := by
  have lim : ∀ l, plotLimits (some rows) = .ok l ↔ (pyMinList (rows.map (fun r => r.1)) = .ok l.1 ∧ pyMax (rows.map (fun r => r.1)) = .ok l.2.1 ∧
      pyMinList (rows.map (fun r => r.2.1)) = .ok l.2.2.1 ∧ pyMax (rows.map (fun r => r.2.1)) = .ok l.2.2.2) := by
    rintro ⟨l1, l2, l3, l4⟩
    unfold plotLimits attrOf
    simp only [bind_ok, bind_ok_iff, pure_ok_iff, Prod.mk.injEq]
    constructor
    · rintro ⟨a, h1, b, h2, c, h3, d, h4, rfl, rfl, rfl, rfl⟩
      exact ⟨h1, h2, h3, h4⟩
    · rintro ⟨h1, h2, h3, h4⟩
      exact ⟨_, h1, _, h2, _, h3, _, h4, rfl, rfl, rfl, rfl⟩
  refine ⟨fun x0 x1 y0 y1 hx hy lx ly G => ?_, fun hflat G => ?_⟩
  · have h1 := limits_spans hx
    have h2 := limits_spans hy
    have hl := (lim (some x0, some x1, some y0, some y1)).mpr ⟨h1.1, h1.2, h2.1, h2.2⟩
    obtain ⟨xs, hxs⟩ : ∃ xs, mgridAxis (some x0) (some x1) = .ok xs := ⟨_, axis_ok lx⟩
    obtain ⟨ys, hys⟩ : ∃ ys, mgridAxis (some y0) (some y1) = .ok ys := ⟨_, axis_ok ly⟩
    have len : (gridX xs ys).length = (gridY xs ys).length := by rw [gridX_length, gridY_length]
    refine ⟨⟨xl, yl, zl, tl, xs, ys, List.zipWith (F G) (gridX xs ys) (gridY xs ys)⟩, ?_, ⟨axis_length lx hxs, axis_length ly hys, ?_, ?_⟩, rfl⟩
    · dsimp only
      rw [hl, bind_ok]
      unfold demoPlot
      dsimp only
      rw [hxs, bind_ok, hys, bind_ok, hf _ _ _ len, bind_ok]; rfl
    · dsimp only
      rw [List.length_zipWith, gridX_length, gridY_length, axis_length lx hxs, axis_length ly hys]; rfl
    · intro i j hi hj
      have gx := axis_get lx hxs i hi
      have gy := axis_get ly hys j hj
      refine ⟨gx, gy, ?_⟩
      have := grid_zip (F G) xs ys i j _ _ gx gy
      rw [axis_length ly hys] at this
      exact this
  · have bad : ∀ vs : List (Option ℝ), Flat vs → pyMinList vs = .error .valueError ∨ ∃ lo hi, pyMinList vs = .ok lo ∧ pyMax vs = .ok hi ∧
        mgridAxis lo hi = .error .valueError := by
      intro vs h
      match vs with
      | [] => exact Or.inl rfl
      | none :: vs =>
        refine Or.inr ⟨none, _, ?_, rfl, rfl⟩
        exact congrArg Except.ok (fold_min_nan vs)
      | some v :: vs =>
        obtain ⟨lo, hi, h1, h2, h3⟩ := limits_of v vs
        have : lo = hi := by
          rcases h with h | h
          · simp at h
          · exact h lo h3.2.1 hi h3.2.2.1
        subst this
        refine Or.inr ⟨_, _, h1, h2, ?_⟩
        unfold mgridAxis
        dsimp only
        rw [if_pos (by rw [sub_self, zero_div])]
    have tot : ∀ vs : List (Option ℝ), pyMinList vs = .error .valueError ∨ ∃ lo hi, pyMinList vs = .ok lo ∧ pyMax vs = .ok hi := by
      intro vs
      match vs with
      | [] => exact Or.inl rfl
      | _ :: _ => exact Or.inr ⟨_, _, rfl, rfl⟩
    have axisErr : ∀ lo hi e, mgridAxis lo hi = .error e → e = .valueError := by
      intro lo hi e h
      unfold mgridAxis at h
      rcases lo with _ | a <;> rcases hi with _ | b
      · cases h; rfl
      · cases h; rfl
      · cases h; rfl
      · dsimp only at h
        split_ifs at h
        cases h; rfl
    dsimp only
    unfold plotLimits attrOf
    dsimp only
    rw [bind_ok]
    rcases tot (rows.map (fun r => r.1)) with h1 | ⟨lo, hi, h1, h2⟩
    · rw [h1]; rfl
    rw [h1, bind_ok, h2, bind_ok]
    rcases tot (rows.map (fun r => r.2.1)) with h3 | ⟨lo', hi', h3, h4⟩
    · rw [h3]; rfl
    rw [h3, bind_ok, h4, bind_ok]
    show (demoPlot (lo, hi, lo', hi') (func G) xl yl zl tl >>= _) = _
    unfold demoPlot
    dsimp only
    rcases hflat with h | h
    · rcases bad _ h with h5 | ⟨a, b, h5, h6, h7⟩
      · rw [h1] at h5; cases h5
      · rw [h1] at h5; rw [h2] at h6
        rw [Except.ok.inj h5, Except.ok.inj h6, h7]; rfl
    · rcases bad _ h with h5 | ⟨a, b, h5, h6, h7⟩
      · rw [h3] at h5; cases h5
      · rw [h3] at h5; rw [h4] at h6
        rw [Except.ok.inj h5, Except.ok.inj h6, h7]
        cases hx : mgridAxis lo hi with
        | ok xs => rfl
        | error e => rw [axisErr _ _ _ hx]; rfl

/-- The total thrust of a turboprop engine without a thrust table: the sum of None and the propeller thrust raises TypeError, where
the hot thrust alone would be None with a warning. -/
theorem C79_total_violated (d : TurbopropDeck) (hn : d.avail.out[0]? = some false) (G : Grid) (m a : NumArg) (rpm : ℝ) (o : PropellerObj)
    {cold : List (Option ℝ)} (hc : d.coldthrust G m a rpm o = .ok cold) :
    d.hotthrust G m a = .ok none ∧ d.thrust G m a rpm o = .error .typeError := by
  have fl : flagAt d.avail.out 0 = false := by unfold flagAt; rw [List.getD_eq_getElem?_getD, hn]; rfl
  have q : ∀ m a, d.hotthrust G m a = .ok none := by
    intro m a
    unfold TurbopropDeck.hotthrust
    rw [fl]; rfl
  refine ⟨q m a, ?_⟩
  have hc' : d.coldthrust G (.array (recastArray m)) (.array (recastArray a)) rpm o = .ok cold := hc
  unfold TurbopropDeck.thrust
  simp only [q, hc', bind_ok]

/-- The example deck without its thrust table. -/
example : ∃ d : TurbopropDeck, d.avail.out[0]? = some false ∧ ∃ T, T ≠ 0 ∧
    d.coldthrust firstGrid (.scalar 0.3) (.scalar 0) 1000 (.deck exFixed) = .ok [some T] := by
  have hs := sound_pos 0
  refine ⟨⟨⟨[false, true], [true], false, false⟩, none, exTurboprop.pwr_data, exTurboprop.bsfc_data⟩, rfl,
    0.87 * 1500000 / (0.3 * sound 0), by positivity, ?_⟩
  unfold TurbopropDeck.coldthrust
  have e : (⟨⟨[false, true], [true], false, false⟩, none, exTurboprop.pwr_data, exTurboprop.bsfc_data⟩ : TurbopropDeck).shaftpower
      firstGrid (.array (recastArray (.scalar 0.3))) (.array (recastArray (.scalar 0))) = .ok (some [some 1500000]) := rfl
  simp only [e, bind_ok]
  unfold propThrust
  rw [show chooseProp (.deck exFixed) _ _ _ _ = .ok exFixed from rfl, bind_ok]
  simp only [recastArray]
  rw [efficiency_single _ _ _ _ _ (by norm_num), bind_ok, airspeed_single _ _ (by norm_num), bind_ok, exFixed_eta]
  rfl

end

end Verif.Propulsion
