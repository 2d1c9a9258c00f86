import Verif.Model.TurbopropTable
import Verif.Props.SeaLevelMap

/-
Property C120: the turboprop thrust table. `RectBivariateSpline` is an arbitrary function that goes through the table
and is evaluated at the nearest point of the tabulated rectangle.
-/

namespace Verif.Props
open Verif Verif.Atmos Verif.Units Verif.Aircraft

noncomputable section

/-- What is assumed about `RectBivariateSpline` (smoothing 0, the default): on strictly increasing axes of at least three
values and a table of matching shape the spline has the tabulated values at the nodes, and points outside of the
tabulated rectangle are evaluated at the nearest point of it (FITPACK `bispev`). -/
def ThroughTable (fit : Spline2) : Prop :=
  ∀ (xs ys : List ℝ) (zs : List (List ℝ)), xs.Pairwise (· < ·) → ys.Pairwise (· < ·) → zs.length = xs.length →
    (∀ r ∈ zs, r.length = ys.length) → 3 ≤ xs.length → 3 ≤ ys.length →
    (∀ (i j : ℕ) (x y z : ℝ) (r : List ℝ), xs[i]? = some x → ys[j]? = some y → zs[i]? = some r → r[j]? = some z →
      fit xs ys zs x y = z) ∧
    ∀ (a b c d x y : ℝ), xs.head? = some a → xs.getLast? = some b → ys.head? = some c → ys.getLast? = some d →
      fit xs ys zs x y = fit xs ys zs (max a (min b x)) (max c (min d y))

/-! Such functions exist: the table entry at the last node below the point. -/

/-- `x` moved into the range of `xs`. -/
def toRange (xs : List ℝ) (x : ℝ) : ℝ := max (xs.head?.getD 0) (min (xs.getLast?.getD 0) x)

/-- The position of the last element of `xs` up to `x`. -/
def lastBelow (xs : List ℝ) (x : ℝ) : ℕ := xs.countP (fun a => decide (a ≤ x)) - 1

def stepFit : Spline2 := fun xs ys zs x y =>
  ((zs[lastBelow xs (toRange xs x)]?.getD [])[lastBelow ys (toRange ys y)]?).getD 0

theorem countP_node : ∀ (xs : List ℝ) (i : ℕ) (x : ℝ), xs.Pairwise (· < ·) → xs[i]? = some x →
    xs.countP (fun a => decide (a ≤ x)) = i + 1
  | [], i, x, _, h => by simp at h
  | a :: l, 0, x, hp, h => by
    simp only [List.getElem?_cons_zero, Option.some.injEq] at h
    subst h
    rw [List.pairwise_cons] at hp
    rw [List.countP_cons, List.countP_eq_zero.mpr]
    · simp
    · intro b hb; simpa using hp.1 b hb
  | a :: l, i + 1, x, hp, h => by
    rw [List.pairwise_cons] at hp
    rw [List.getElem?_cons_succ] at h
    have hx : x ∈ l := List.mem_of_getElem? h
    rw [List.countP_cons, countP_node l i x hp.2 h]
    simp [(hp.1 x hx).le]

theorem le_last_of_pairwise : ∀ (xs : List ℝ), xs.Pairwise (· < ·) → ∀ (h : xs ≠ []), ∀ x ∈ xs, x ≤ xs.getLast h
  | [], _, h, _, _ => absurd rfl h
  | [a], _, _, x, hx => by simp at hx; simp [hx]
  | a :: b :: l, hp, _, x, hx => by
    rw [List.pairwise_cons] at hp
    rw [List.getLast_cons (List.cons_ne_nil b l)]
    have ih := le_last_of_pairwise (b :: l) hp.2 (List.cons_ne_nil b l)
    rcases List.mem_cons.mp hx with rfl | hl
    · exact (hp.1 b (by simp)).le.trans (ih b (by simp))
    · exact ih x hl

theorem node_range {xs : List ℝ} {i : ℕ} {x : ℝ} (hp : xs.Pairwise (· < ·)) (h : xs[i]? = some x) : toRange xs x = x := by
  have hx : x ∈ xs := List.mem_of_getElem? h
  unfold toRange
  cases xs with
  | nil => simp at h
  | cons a l =>
    have ha : a ≤ x := by
      rw [List.pairwise_cons] at hp
      rcases List.mem_cons.mp hx with rfl | hl
      · exact le_rfl
      · exact (hp.1 x hl).le
    have hb : x ≤ ((a :: l).getLast?).getD 0 := by
      rw [List.getLast?_eq_getLast_of_ne_nil (List.cons_ne_nil a l)]
      simp only [Option.getD_some]
      exact le_last_of_pairwise _ hp (List.cons_ne_nil a l) x hx
    simp only [List.head?_cons, Option.getD_some, min_eq_right hb, max_eq_right ha]

theorem stepFit_interpolates : ThroughTable stepFit := by
  intro xs ys zs hx hy _ _ _ _
  refine ⟨?_, ?_⟩
  · intro i j x y z r h1 h2 h3 h4
    unfold stepFit lastBelow
    rw [node_range hx h1, node_range hy h2, countP_node xs i x hx h1, countP_node ys j y hy h2]
    simp [h3, h4]
  · intro a b c d x y h1 h2 h3 h4
    have e : ∀ p q x : ℝ, max p (min q (max p (min q x))) = max p (min q x) := by
      intro p q x
      rcases le_total p q with h | h
      · rw [min_eq_right (max_le h (min_le_left _ _)), max_eq_right (le_max_left _ _)]
      · have : min q x ≤ p := (min_le_left _ _).trans h
        rw [max_eq_left this, min_eq_left h, max_eq_left h]
    unfold stepFit toRange
    simp only [h1, h2, h3, h4, Option.getD_some, e]

/-! ### The table -/

theorem tp_x : X_dens_ratio.Pairwise (· < ·) := by
  simp only [X_dens_ratio, List.pairwise_cons, List.mem_cons, List.not_mem_nil, or_false, forall_eq_or_imp, forall_eq,
    IsEmpty.forall_iff, implies_true, List.Pairwise.nil, and_true]
  norm_num

theorem tp_y : Y_Mach.Pairwise (· < ·) := by
  simp only [Y_Mach, List.pairwise_cons, List.mem_cons, List.not_mem_nil, or_false, forall_eq_or_imp, forall_eq,
    IsEmpty.forall_iff, implies_true, List.Pairwise.nil, and_true]
  norm_num

theorem tp_len : ∀ r ∈ Z_thr_ratio, r.length = 7 := by
  simp only [Z_thr_ratio, List.mem_cons, List.not_mem_nil, or_false, forall_eq_or_imp, forall_eq, List.length_cons, List.length_nil]
  norm_num

theorem tp_rows : ∀ r ∈ Z_thr_ratio, r.Pairwise (· > ·) := by
  simp only [Z_thr_ratio, List.mem_cons, List.not_mem_nil, or_false, forall_eq_or_imp, forall_eq, List.pairwise_cons,
    IsEmpty.forall_iff, implies_true, List.Pairwise.nil, and_true]
  norm_num

theorem tp_range : ∀ r ∈ Z_thr_ratio, ∀ z ∈ r, (0.06 : ℝ) < z ∧ z ≤ 1 := by
  simp only [Z_thr_ratio, List.mem_cons, List.not_mem_nil, or_false, forall_eq_or_imp, forall_eq]
  norm_num

theorem tp_cols (j : ℕ) (h : j < 3) : (Z_thr_ratio.map (fun r => (r[j]?).getD 0)).Pairwise (· < ·) := by
  interval_cases j <;>
  · simp only [Z_thr_ratio, List.map_cons, List.map_nil, List.getElem?_cons_zero, List.getElem?_cons_succ, Option.getD_some,
      List.pairwise_cons, List.mem_cons, List.not_mem_nil, or_false, forall_eq_or_imp, forall_eq,
      IsEmpty.forall_iff, implies_true, List.Pairwise.nil, and_true]
    norm_num

theorem tp_fit {fit : Spline2} (h : ThroughTable fit) :
    (∀ (i j : ℕ) (x y z : ℝ) (r : List ℝ), X_dens_ratio[i]? = some x → Y_Mach[j]? = some y → Z_thr_ratio[i]? = some r →
      r[j]? = some z → turbopropthrustfactor fit x y = z) ∧
    ∀ (a b c d x y : ℝ), X_dens_ratio.head? = some a → X_dens_ratio.getLast? = some b → Y_Mach.head? = some c →
      Y_Mach.getLast? = some d → turbopropthrustfactor fit x y = turbopropthrustfactor fit (max a (min b x)) (max c (min d y)) :=
  h X_dens_ratio Y_Mach Z_thr_ratio tp_x tp_y rfl tp_len (by simp [X_dens_ratio]) (by simp [Y_Mach])

/-- Every pair of a tabulated density ratio and a tabulated Mach number has an entry, which is the factor. -/
theorem tp_entry {fit : Spline2} (h : ThroughTable fit) {i j : ℕ} {d m : ℝ} (hd : X_dens_ratio[i]? = some d)
    (hm : Y_Mach[j]? = some m) : ∃ r ∈ Z_thr_ratio, Z_thr_ratio[i]? = some r ∧ j < r.length ∧
      r[j]? = some (turbopropthrustfactor fit d m) := by
  have hi : i < Z_thr_ratio.length := (List.getElem?_eq_some_iff.mp hd).1
  have hj : j < 7 := (List.getElem?_eq_some_iff.mp hm).1
  have hr : Z_thr_ratio[i]? = some Z_thr_ratio[i] := List.getElem?_eq_getElem hi
  have hmem : Z_thr_ratio[i] ∈ Z_thr_ratio := List.getElem_mem hi
  have hl : j < (Z_thr_ratio[i]).length := by rw [tp_len _ hmem]; exact hj
  refine ⟨_, hmem, hr, hl, ?_⟩
  rw [List.getElem?_eq_getElem hl]
  exact congrArg some ((tp_fit h).1 i j d m _ _ hd hm hr (List.getElem?_eq_getElem hl)).symm

theorem index_lt {xs : List ℝ} (hp : xs.Pairwise (· < ·)) {i j : ℕ} {x y : ℝ} (hi : xs[i]? = some x) (hj : xs[j]? = some y)
    (h : x < y) : i < j := by
  by_contra hn
  obtain ⟨li, ei⟩ := List.getElem?_eq_some_iff.mp hi
  obtain ⟨lj, ej⟩ := List.getElem?_eq_some_iff.mp hj
  rcases Nat.lt_or_ge j i with hlt | hge
  · have := List.pairwise_iff_getElem.mp hp j i lj li hlt
    linarith [ei ▸ ej ▸ this]
  · have : i = j := by omega
    subst this
    linarith [ei.symm.trans ej]

/-- At rest at sea level the factor is 1; at every tabulated density ratio and Mach number it is between 0.06 and 1. -/
theorem C120_static {fit : Spline2} (h : ThroughTable fit) :
    turbopropthrustfactor fit 1 0 = 1 ∧
    ∀ d ∈ X_dens_ratio, ∀ m ∈ Y_Mach, 0.06 < turbopropthrustfactor fit d m ∧ turbopropthrustfactor fit d m ≤ 1 := by
  constructor
  · exact (tp_fit h).1 8 0 1 0 1 _ (by norm_num [X_dens_ratio]) rfl rfl rfl
  · intro d hd m hm
    obtain ⟨i, hi⟩ := List.mem_iff_getElem?.mp hd
    obtain ⟨j, hj⟩ := List.mem_iff_getElem?.mp hm
    obtain ⟨r, hr, -, -, hz⟩ := tp_entry h hi hj
    exact tp_range r hr _ (List.mem_of_getElem? hz)

/-- At every tabulated density the factor falls with the Mach number. -/
theorem C120_speed {fit : Spline2} (h : ThroughTable fit) (d m m' : ℝ) (hd : d ∈ X_dens_ratio) (hm : m ∈ Y_Mach)
    (hm' : m' ∈ Y_Mach) (hlt : m < m') : turbopropthrustfactor fit d m' < turbopropthrustfactor fit d m := by
  obtain ⟨i, hi⟩ := List.mem_iff_getElem?.mp hd
  obtain ⟨j, hj⟩ := List.mem_iff_getElem?.mp hm
  obtain ⟨j', hj'⟩ := List.mem_iff_getElem?.mp hm'
  obtain ⟨r, hr, er, l, hz⟩ := tp_entry h hi hj
  obtain ⟨r', -, er', l', hz'⟩ := tp_entry h hi hj'
  obtain rfl : r = r' := Option.some.inj (er.symm.trans er')
  have := List.pairwise_iff_getElem.mp (tp_rows r hr) j j' l l' (index_lt tp_y hj hj' hlt)
  obtain ⟨_, e⟩ := List.getElem?_eq_some_iff.mp hz
  obtain ⟨_, e'⟩ := List.getElem?_eq_some_iff.mp hz'
  rw [e, e'] at this
  exact this

/-- Up to Mach 0.2 the factor rises with the density. -/
theorem C120_height {fit : Spline2} (h : ThroughTable fit) (d d' m : ℝ) (hd : d ∈ X_dens_ratio) (hd' : d' ∈ X_dens_ratio)
    (hm : m ∈ Y_Mach) (hlt : d < d') (hs : m ≤ 0.2) : turbopropthrustfactor fit d m < turbopropthrustfactor fit d' m := by
  obtain ⟨i, hi⟩ := List.mem_iff_getElem?.mp hd
  obtain ⟨i', hi'⟩ := List.mem_iff_getElem?.mp hd'
  obtain ⟨j, hj⟩ := List.mem_iff_getElem?.mp hm
  have hj3 : j < 3 := by
    by_contra hn
    have h3 : Y_Mach[3]? = some (0.3 : ℝ) := rfl
    have := index_lt tp_y hj h3 (lt_of_le_of_lt hs (by norm_num))
    omega
  obtain ⟨r, -, er, -, hz⟩ := tp_entry h hi hj
  obtain ⟨r', -, er', -, hz'⟩ := tp_entry h hi' hj
  obtain ⟨li, ei⟩ := List.getElem?_eq_some_iff.mp er
  obtain ⟨li', ei'⟩ := List.getElem?_eq_some_iff.mp er'
  have := List.pairwise_iff_getElem.mp (tp_cols j hj3) i i' (by simpa using li) (by simpa using li') (index_lt tp_x hi hi' hlt)
  simp only [List.getElem_map, ei, ei', hz, hz', Option.getD_some] at this
  exact this

example {fit : Spline2} (h : ThroughTable fit) : turbopropthrustfactor fit 1 0.3 < turbopropthrustfactor fit 1 0.1 ∧
    turbopropthrustfactor fit 0.8616704548972803 0.1 < turbopropthrustfactor fit 1 0.1 := by
  have m1 : (0.1:ℝ) ∈ Y_Mach := by norm_num [Y_Mach]
  have m3 : (0.3:ℝ) ∈ Y_Mach := by norm_num [Y_Mach]
  have d1 : (1:ℝ) ∈ X_dens_ratio := by norm_num [X_dens_ratio]
  have d2 : (0.8616704548972803:ℝ) ∈ X_dens_ratio := by norm_num [X_dens_ratio]
  exact ⟨C120_speed h _ _ _ d1 m1 m3 (by norm_num), C120_height h _ _ _ d2 d1 m1 (by norm_num) (by norm_num)⟩

/-- From Mach 0.3 on it does not: less thrust at sea level than at 5000 ft (density ratio 0.86), and at Mach 0.6 less
than a third of the thrust at 15000 ft (density ratio 0.63). -/
theorem C120_height_violated {fit : Spline2} (h : ThroughTable fit) :
    (∀ m ∈ Y_Mach, 0.3 ≤ m → turbopropthrustfactor fit 1 m < turbopropthrustfactor fit 0.8616704548972803 m) ∧
    3 * turbopropthrustfactor fit 1 0.6 < turbopropthrustfactor fit 0.6292375381232487 0.6 := by
  have n8 : X_dens_ratio[8]? = some 1 := by norm_num [X_dens_ratio]
  have key : ∀ (j : ℕ) (m z z' : ℝ), Y_Mach[j]? = some m → (Z_thr_ratio[8]?.getD [])[j]? = some z →
      (Z_thr_ratio[7]?.getD [])[j]? = some z' →
      turbopropthrustfactor fit 1 m = z ∧ turbopropthrustfactor fit 0.8616704548972803 m = z' := by
    intro j m z z' hm hz hz'
    exact ⟨(tp_fit h).1 8 j 1 m z _ n8 hm rfl hz, (tp_fit h).1 7 j _ m z' _ rfl hm rfl hz'⟩
  constructor
  · intro m hm h3
    obtain ⟨j, hj⟩ := List.mem_iff_getElem?.mp hm
    have hj7 : j < 7 := (List.getElem?_eq_some_iff.mp hj).1
    interval_cases j
    · cases hj; norm_num at h3
    · cases hj; norm_num at h3
    · cases hj; norm_num at h3
    · obtain ⟨e, e'⟩ := key 3 m _ _ hj rfl rfl; rw [e, e']; norm_num
    · obtain ⟨e, e'⟩ := key 4 m _ _ hj rfl rfl; rw [e, e']; norm_num
    · obtain ⟨e, e'⟩ := key 5 m _ _ hj rfl rfl; rw [e, e']; norm_num
    · obtain ⟨e, e'⟩ := key 6 m _ _ hj rfl rfl; rw [e, e']; norm_num
  · have e1 : turbopropthrustfactor fit 1 0.6 = 0.07471956 := (tp_fit h).1 8 6 1 0.6 _ _ n8 rfl rfl rfl
    have e2 : turbopropthrustfactor fit 0.6292375381232487 0.6 = 0.23500329 := (tp_fit h).1 5 6 _ _ _ _ rfl rfl rfl rfl
    rw [e1, e2]; norm_num

/-- Outside of the table the factor is that of the nearest tabulated condition: above 40000 ft (thinner air) and above
Mach 0.6 nothing is lost, below sea level (denser air) nothing gained. -/
theorem C120_outside {fit : Spline2} (h : ThroughTable fit) (d m : ℝ) :
    (d ≤ 0.24616951531253428 → turbopropthrustfactor fit d m = turbopropthrustfactor fit 0.24616951531253428 m) ∧
    (1 ≤ d → turbopropthrustfactor fit d m = turbopropthrustfactor fit 1 m) ∧
    (m ≤ 0 → turbopropthrustfactor fit d m = turbopropthrustfactor fit d 0) ∧
    (0.6 ≤ m → turbopropthrustfactor fit d m = turbopropthrustfactor fit d 0.6) := by
  have hc : ∀ x y, turbopropthrustfactor fit x y =
      turbopropthrustfactor fit (max 0.24616951531253428 (min 1 x)) (max 0 (min 0.6 y)) := fun x y =>
    (tp_fit h).2 0.24616951531253428 1 0 0.6 x y rfl (by norm_num [X_dens_ratio]) rfl rfl
  refine ⟨fun hd => ?_, fun hd => ?_, fun hm => ?_, fun hm => ?_⟩
  · rw [hc d m, hc 0.24616951531253428 m]
    congr 1
    rw [min_eq_right (by norm_num at *; linarith), max_eq_left hd, min_eq_right (by norm_num), max_self]
  · rw [hc d m, hc 1 m, min_eq_left hd, min_self]
  · rw [hc d m, hc d 0]
    congr 1
    rw [min_eq_right (by norm_num at *; linarith), max_eq_left hm, min_eq_right (by norm_num), max_self]
  · rw [hc d m, hc d 0.6, min_eq_left hm, min_self]

-- the step function goes through the table
example : turbopropthrustfactor stepFit 1 0 = 1 ∧ turbopropthrustfactor stepFit 1.3 0.75 = turbopropthrustfactor stepFit 1 0.6 ∧
    turbopropthrustfactor stepFit 1 0.5 < turbopropthrustfactor stepFit 0.8616704548972803 0.5 := by
  have h := stepFit_interpolates
  refine ⟨(C120_static h).1, ?_, (C120_height_violated h).1 0.5 (by simp [Y_Mach]) (by norm_num)⟩
  rw [(C120_outside h 1.3 0.75).2.1 (by norm_num), (C120_outside h 1 0.75).2.2.2 (by norm_num)]

/-! ### Densities of the table -/

theorem tp_log_ref : (0.2029407364218 : ℝ) ≤ Real.log 1.2249998682209657 ∧ Real.log 1.2249998682209657 ≤ 0.2029407364221 :=
  LogB.log_bounds 0 24 1.2249998682209657 0.2029407364218 0.2029407364221
    (by norm_num) (by norm_num) (by norm_num) (by decide +kernel)

theorem tp_log_v35 : (-0.2276017600652 : ℝ) ≤ Real.log 0.796441371448 ∧ Real.log 0.796441371448 ≤ (-0.2276017600649) :=
  LogB.log_bounds (-1) 24 0.796441371448 (-0.2276017600652) (-0.2276017600649)
    (by norm_num) (by norm_num) (by norm_num) (by decide +kernel)

theorem tp_log_d35 : (-1.171586446767 : ℝ) ≤ Real.log 0.3098749509963361 ∧ Real.log 0.3098749509963361 ≤ (-1.1715864467667) :=
  LogB.log_bounds (-2) 24 0.3098749509963361 (-1.171586446767) (-1.1715864467667)
    (by norm_num) (by norm_num) (by norm_num) (by decide +kernel)

theorem tp_log_v30 : (-0.1833240770889 : ℝ) ≤ Real.log 0.832498318384 ∧ Real.log 0.832498318384 ≤ (-0.1833240770886) :=
  LogB.log_bounds (-1) 24 0.832498318384 (-0.1833240770889) (-0.1833240770886)
    (by norm_num) (by norm_num) (by norm_num) (by decide +kernel)

theorem tp_log_d30 : (-0.9831459546253 : ℝ) ≤ Real.log 0.3741322424507335 ∧ Real.log 0.3741322424507335 ≤ (-0.983145954625) :=
  LogB.log_bounds (-2) 24 0.3741322424507335 (-0.9831459546253) (-0.983145954625)
    (by norm_num) (by norm_num) (by norm_num) (by decide +kernel)

theorem tp_log_v25 : (-0.1409240622571 : ℝ) ≤ Real.log 0.86855526532 ∧ Real.log 0.86855526532 ≤ (-0.1409240622568) :=
  LogB.log_bounds (-1) 24 0.86855526532 (-0.1409240622571) (-0.1409240622568)
    (by norm_num) (by norm_num) (by norm_num) (by decide +kernel)

theorem tp_log_d25 : (-0.8026965922231 : ℝ) ≤ Real.log 0.44811893933199765 ∧ Real.log 0.44811893933199765 ≤ (-0.8026965922228) :=
  LogB.log_bounds (-2) 24 0.44811893933199765 (-0.8026965922231) (-0.8026965922228)
    (by norm_num) (by norm_num) (by norm_num) (by decide +kernel)

theorem tp_log_v20 : (-0.1002489218572 : ℝ) ≤ Real.log 0.904612212256 ∧ Real.log 0.904612212256 ≤ (-0.1002489218569) :=
  LogB.log_bounds (-1) 24 0.904612212256 (-0.1002489218572) (-0.1002489218569)
    (by norm_num) (by norm_num) (by norm_num) (by decide +kernel)

theorem tp_log_d20 : (-0.6295880879005 : ℝ) ≤ Real.log 0.5328112272029571 ∧ Real.log 0.5328112272029571 ≤ (-0.6295880879002) :=
  LogB.log_bounds (-1) 24 0.5328112272029571 (-0.6295880879005) (-0.6295880879002)
    (by norm_num) (by norm_num) (by norm_num) (by decide +kernel)

theorem tp_log_v15 : (-0.0611637854977 : ℝ) ≤ Real.log 0.940669159192 ∧ Real.log 0.940669159192 ≤ (-0.0611637854974) :=
  LogB.log_bounds (-1) 24 0.940669159192 (-0.0611637854977) (-0.0611637854974)
    (by norm_num) (by norm_num) (by norm_num) (by decide +kernel)

theorem tp_log_d15 : (-0.4632464494963 : ℝ) ≤ Real.log 0.6292375381232487 ∧ Real.log 0.6292375381232487 ≤ (-0.463246449496) :=
  LogB.log_bounds (-1) 24 0.6292375381232487 (-0.4632464494963) (-0.463246449496)
    (by norm_num) (by norm_num) (by norm_num) (by decide +kernel)

theorem tp_log_v10 : (-0.0235490079744 : ℝ) ≤ Real.log 0.976726106128 ∧ Real.log 0.976726106128 ≤ (-0.0235490079741) :=
  LogB.log_bounds (-1) 24 0.976726106128 (-0.0235490079744) (-0.0235490079741)
    (by norm_num) (by norm_num) (by norm_num) (by decide +kernel)

theorem tp_log_d10 : (-0.303162481415 : ℝ) ≤ Real.log 0.7384790974933775 ∧ Real.log 0.7384790974933775 ≤ (-0.3031624814147) :=
  LogB.log_bounds (-1) 24 0.7384790974933775 (-0.303162481415) (-0.3031624814147)
    (by norm_num) (by norm_num) (by norm_num) (by decide +kernel)

theorem tp_log_v5 : (0.0127020395109 : ℝ) ≤ Real.log 1.012783053064 ∧ Real.log 1.012783053064 ≤ 0.0127020395112 :=
  LogB.log_bounds 0 24 1.012783053064 0.0127020395109 0.0127020395112
    (by norm_num) (by norm_num) (by norm_num) (by decide +kernel)

theorem tp_log_d5 : (-0.1488823843184 : ℝ) ≤ Real.log 0.8616704548972803 ∧ Real.log 0.8616704548972803 ≤ (-0.1488823843181) :=
  LogB.log_bounds (-1) 24 0.8616704548972803 (-0.1488823843184) (-0.1488823843181)
    (by norm_num) (by norm_num) (by norm_num) (by decide +kernel)

theorem tp_log_v0 : (0.0476847915653 : ℝ) ≤ Real.log 1.04884 ∧ Real.log 1.04884 ≤ 0.0476847915656 :=
  LogB.log_bounds 0 24 1.04884 0.0476847915653 0.0476847915656
    (by norm_num) (by norm_num) (by norm_num) (by decide +kernel)

theorem tp_log_v40 : (0.7237442785372 : ℝ) ≤ Real.log 2.06214 ∧ Real.log 2.06214 ≤ 0.7237442785375 :=
  LogB.log_bounds 1 24 2.06214 0.7237442785372 0.7237442785375
    (by norm_num) (by norm_num) (by norm_num) (by decide +kernel)

theorem tp_log_d40 : (-1.4017348937248 : ℝ) ≤ Real.log 0.24616951531253428 ∧ Real.log 0.24616951531253428 ≤ (-1.4017348937245) :=
  LogB.log_bounds (-3) 24 0.24616951531253428 (-1.4017348937248) (-1.4017348937245)
    (by norm_num) (by norm_num) (by norm_num) (by decide +kernel)


/-- A positive number whose logarithm is close to that of a positive number is close to it. -/
theorem near_of_log {x y : ℝ} (hx : 0 < x) (hy : 0 < y) (h1 : -1e-10 ≤ Real.log x - Real.log y)
    (h2 : Real.log x - Real.log y ≤ 1e-11) : |x / y - 1| ≤ 1e-10 := by
  refine rel_of_log (div_pos hx hy) ?_ ?_ (by norm_num) <;> rw [Real.log_div hx.ne' hy.ne']
  · exact h1
  · refine h2.trans ?_; norm_num

theorem dens_layer1 (h v : ℝ) (hh : h < 11000) (hv : I1 + J1 * h = v) (h0 : 0 < v) :
    0 < isadens0 h ∧ Real.log (isadens0 h) = 4.2558797 * Real.log v := by
  have e : isadens0 h = v ^ L1 := by
    unfold isadens0; rw [if_pos (by norm_num [Level1]; exact hh), hv]
  rw [e]
  exact ⟨Real.rpow_pos_of_pos h0 _, by rw [Real.log_rpow h0]; rfl⟩

theorem dens_layer2 : 0 < isadens0 12192 ∧ Real.log (isadens0 12192) = Real.log 2.06214 - 0.15768852e-3 * 12192 := by
  have e : isadens0 12192 = 2.06214 * Real.exp (-0.15768852e-3 * 12192) := by
    unfold isadens0
    rw [if_neg (by norm_num [Level1]), if_pos (by norm_num [Level2])]
    norm_num [M2, N2]
  rw [e]
  refine ⟨by positivity, ?_⟩
  rw [Real.log_mul (by norm_num) (Real.exp_ne_zero _), Real.log_exp]
  ring

/-- The tabulated density ratios are those of the standard atmosphere at 40000, 35000, ... 5000 and 0 ft, relative to the
reference density of the code, to ten digits. -/
theorem C120_isa : List.Forall₂ (fun ft d => |isadens0 (feet2m ft) / (1.2249998682209657 * d) - 1| ≤ 1e-10)
    [40000, 35000, 30000, 25000, 20000, 15000, 10000, 5000, 0] X_dens_ratio := by
  have hr := tp_log_ref
  have key : ∀ ft h d ld lv : ℝ, feet2m ft = h → 0 < d → 0 < isadens0 h → Real.log (isadens0 h) = lv → Real.log d = ld →
      -1e-10 ≤ lv - (Real.log 1.2249998682209657 + ld) → lv - (Real.log 1.2249998682209657 + ld) ≤ 1e-11 →
      |isadens0 (feet2m ft) / (1.2249998682209657 * d) - 1| ≤ 1e-10 := by
    intro ft h d ld lv e1 hd hp e2 e3 g1 g2
    rw [e1]
    refine near_of_log hp (by positivity) ?_ ?_ <;>
      rw [Real.log_mul (by norm_num) hd.ne', e2, e3] <;> assumption
  unfold X_dens_ratio
  refine List.Forall₂.cons ?_ ?_
  · have b1 := tp_log_v40
    have b2 := tp_log_d40
    refine key _ 12192 _ _ _ (by norm_num [feet2m]) (by norm_num) dens_layer2.1 dens_layer2.2 rfl ?_ ?_ <;> norm_num at * <;> linarith [b1.1, b1.2, b2.1, b2.2, hr.1, hr.2]
  refine List.Forall₂.cons ?_ ?_
  · have b1 := tp_log_v35
    have b2 := tp_log_d35
    obtain ⟨p, e⟩ := dens_layer1 10668 0.796441371448 (by norm_num) (by norm_num [I1, J1]) (by norm_num)
    refine key _ 10668 _ _ _ (by norm_num [feet2m]) (by norm_num) p e rfl ?_ ?_ <;> norm_num at * <;> linarith [b1.1, b1.2, b2.1, b2.2, hr.1, hr.2]
  refine List.Forall₂.cons ?_ ?_
  · have b1 := tp_log_v30
    have b2 := tp_log_d30
    obtain ⟨p, e⟩ := dens_layer1 9144 0.832498318384 (by norm_num) (by norm_num [I1, J1]) (by norm_num)
    refine key _ 9144 _ _ _ (by norm_num [feet2m]) (by norm_num) p e rfl ?_ ?_ <;> norm_num at * <;> linarith [b1.1, b1.2, b2.1, b2.2, hr.1, hr.2]
  refine List.Forall₂.cons ?_ ?_
  · have b1 := tp_log_v25
    have b2 := tp_log_d25
    obtain ⟨p, e⟩ := dens_layer1 7620 0.86855526532 (by norm_num) (by norm_num [I1, J1]) (by norm_num)
    refine key _ 7620 _ _ _ (by norm_num [feet2m]) (by norm_num) p e rfl ?_ ?_ <;> norm_num at * <;> linarith [b1.1, b1.2, b2.1, b2.2, hr.1, hr.2]
  refine List.Forall₂.cons ?_ ?_
  · have b1 := tp_log_v20
    have b2 := tp_log_d20
    obtain ⟨p, e⟩ := dens_layer1 6096 0.904612212256 (by norm_num) (by norm_num [I1, J1]) (by norm_num)
    refine key _ 6096 _ _ _ (by norm_num [feet2m]) (by norm_num) p e rfl ?_ ?_ <;> norm_num at * <;> linarith [b1.1, b1.2, b2.1, b2.2, hr.1, hr.2]
  refine List.Forall₂.cons ?_ ?_
  · have b1 := tp_log_v15
    have b2 := tp_log_d15
    obtain ⟨p, e⟩ := dens_layer1 4572 0.940669159192 (by norm_num) (by norm_num [I1, J1]) (by norm_num)
    refine key _ 4572 _ _ _ (by norm_num [feet2m]) (by norm_num) p e rfl ?_ ?_ <;> norm_num at * <;> linarith [b1.1, b1.2, b2.1, b2.2, hr.1, hr.2]
  refine List.Forall₂.cons ?_ ?_
  · have b1 := tp_log_v10
    have b2 := tp_log_d10
    obtain ⟨p, e⟩ := dens_layer1 3048 0.976726106128 (by norm_num) (by norm_num [I1, J1]) (by norm_num)
    refine key _ 3048 _ _ _ (by norm_num [feet2m]) (by norm_num) p e rfl ?_ ?_ <;> norm_num at * <;> linarith [b1.1, b1.2, b2.1, b2.2, hr.1, hr.2]
  refine List.Forall₂.cons ?_ ?_
  · have b1 := tp_log_v5
    have b2 := tp_log_d5
    obtain ⟨p, e⟩ := dens_layer1 1524 1.012783053064 (by norm_num) (by norm_num [I1, J1]) (by norm_num)
    refine key _ 1524 _ _ _ (by norm_num [feet2m]) (by norm_num) p e rfl ?_ ?_ <;> norm_num at * <;> linarith [b1.1, b1.2, b2.1, b2.2, hr.1, hr.2]
  refine List.Forall₂.cons ?_ ?_
  · have b1 := tp_log_v0
    obtain ⟨p, e⟩ := dens_layer1 0 1.04884 (by norm_num) (by norm_num [I1, J1]) (by norm_num)
    refine key _ 0 _ 0 _ (by norm_num [feet2m]) (by norm_num) p e (by norm_num) ?_ ?_ <;> norm_num at * <;> linarith [b1.1, b1.2, hr.1, hr.2]
  exact List.Forall₂.nil


/-! ### Requirements of generic turboprops -/

/-- The thrust correction of a generic turboprop is the factor at the density ratio and Mach number of flight. -/
theorem turboprop_corr {X : Ext} {c : Concept} {v alt t p m d : ℝ} (h : CorrAt X c v alt t p) (hp : c.propulsion = .str "turboprop")
    (hm : mach1 c.designatm v alt = .ok m) (hd : dens1 c.designatm alt = .ok d) :
    t = X.turboprop (d / 1.2249998682209657) m := by
  obtain ⟨tc, pc, h1, h2, h3⟩ := h
  have hms : mach c.designatm (.scalar v) (.scalar alt) = .ok [m] := by
    unfold mach1 at hm
    simp only [bind_ok_iff] at hm
    obtain ⟨l, hl, hm⟩ := hm
    rw [hl]
    match l, hm with
    | [x], hm => cases hm; rfl
  unfold slcorr resolvePropulsion at h1
  rw [hp] at h1
  simp only [bind_ok, hms, corrOf, hd, bind_ok_iff] at h1
  obtain ⟨T, hT, P, hP, ts, hts, h1⟩ := h1
  cases h1
  simp only [recastArray] at h2
  subst h2
  simp only [List.mapM_cons, List.mapM_nil, bind_ok_iff] at hts
  obtain ⟨y, hy, l, hl, e⟩ := hts
  cases hl
  cases e
  simp only [strCorr, if_true] at hy
  exact (Except.ok.inj hy).symm

/-- The cruise requirement of a generic turboprop, in any atmosphere: mapped = unmapped / factor of the table. -/
theorem C120_cruise (fit : Spline2) (cubic : List ℝ → List ℝ → ℝ → ℝ) (c : Concept) (s alt m d w : ℝ) (hE : EnvOK c.designatm alt)
    (hp : c.propulsion = .str "turboprop") (hs : c.cruisespeed_ktas = some s) (hc : c.cruisealt_m = some alt)
    (hm : mach1 c.designatm (kts2mps s) alt = .ok m) (hd : dens1 c.designatm alt = .ok d) :
    ∃ r, twrequired_crs ⟨cubic, turbopropthrustfactor fit⟩ c (.scalar w) false = .ok (.scalar r) ∧
      twrequired_crs ⟨cubic, turbopropthrustfactor fit⟩ c (.scalar w) true =
        .ok (.scalar (r / turbopropthrustfactor fit (d / 1.2249998682209657) m)) := by
  obtain ⟨X, hX⟩ : ∃ X : Ext, X = ⟨cubic, turbopropthrustfactor fit⟩ := ⟨_, rfl⟩
  obtain ⟨t, q, m', K, h⟩ : ∃ t q m K, CruiseIn X c s alt t q m K := by
    have hP : PropOK c := by unfold PropOK; rw [hp]; exact fun h => absurd h (by decide)
    obtain ⟨t, p, hcor⟩ := corr_exists X hP hE (kts2mps s)
    obtain ⟨q, hq⟩ := hE.dyn (kts2mps s)
    obtain ⟨m', hm'⟩ := hE.mach (kts2mps s)
    obtain ⟨K, hK⟩ := KFun.exists X c m' (fun alt' h' => by rw [hc] at h'; cases h'; exact hE)
    exact ⟨t, q, m', K, hs, hc, ⟨p, hcor⟩, hq, hm', hK⟩
  obtain ⟨p, hcor⟩ := h.corr
  have ht := turboprop_corr hcor hp hm hd
  rw [← hX]
  refine ⟨cruiseReq c false t q K w, h.eval false (.scalar w), ?_⟩
  rw [h.eval true (.scalar w)]
  have e : cruiseReq c true t q K w = cruiseReq c false t q K w / t := by
    unfold cruiseReq sl
    simp only [if_true, Bool.false_eq_true, if_false]
    ring
  simp only [recastArray, List.map_cons, List.map_nil, e]
  rw [ht, hX]
  rfl

/-- At the density of sea level (or denser air) and from Mach 0.6 on, the mapping multiplies the cruise requirement by more than
13; in air thinner than at 40000 ft the mapped requirement depends on the altitude only through the unmapped one. -/
theorem C120_cruise_violated (fit : Spline2) (hf : ThroughTable fit) (cubic : List ℝ → List ℝ → ℝ → ℝ) (c : Concept)
    (s alt m d w : ℝ) (hE : EnvOK c.designatm alt) (hp : c.propulsion = .str "turboprop") (hs : c.cruisespeed_ktas = some s)
    (hc : c.cruisealt_m = some alt) (hm : mach1 c.designatm (kts2mps s) alt = .ok m) (hd : dens1 c.designatm alt = .ok d)
    (h6 : 0.6 ≤ m) :
    ∃ r r', twrequired_crs ⟨cubic, turbopropthrustfactor fit⟩ c (.scalar w) false = .ok (.scalar r) ∧
      twrequired_crs ⟨cubic, turbopropthrustfactor fit⟩ c (.scalar w) true = .ok (.scalar r') ∧
      (1.2249998682209657 ≤ d → 0 < r → 13 * r < r') ∧
      (d ≤ 0.3015 → r' = r / 0.06240678) := by
  obtain ⟨r, e1, e2⟩ := C120_cruise fit cubic c s alt m d w hE hp hs hc hm hd
  refine ⟨r, _, e1, e2, fun hdr hr => ?_, fun hdr => ?_⟩
  · rw [(C120_outside hf _ m).2.2.2 h6, (C120_outside hf _ 0.6).2.1 (by rw [le_div_iff₀ (by norm_num)]; linarith)]
    have e : turbopropthrustfactor fit 1 0.6 = 0.07471956 :=
      (tp_fit hf).1 8 6 1 0.6 _ _ (by norm_num [X_dens_ratio]) rfl rfl rfl
    rw [e, lt_div_iff₀ (by norm_num)]
    norm_num
    linarith
  · rw [(C120_outside hf _ m).2.2.2 h6, (C120_outside hf _ 0.6).1 (by rw [div_le_iff₀ (by norm_num)]; norm_num at *; linarith)]
    have e : turbopropthrustfactor fit 0.24616951531253428 0.6 = 0.06240678 := (tp_fit hf).1 0 6 _ _ _ _ rfl rfl rfl rfl
    rw [e]

-- a turboprop at 150 knots and 3 km in the worked atmosphere (density 1), and at 450 knots at sea level on a cold day
example (fit : Spline2) (hf : ThroughTable fit) (cubic : List ℝ → List ℝ → ℝ → ℝ) :
    ∃ r, twrequired_crs ⟨cubic, turbopropthrustfactor fit⟩ { exC with propulsion := .str "turboprop" } (.scalar 2000) false = .ok (.scalar r) ∧
      ∃ m, twrequired_crs ⟨cubic, turbopropthrustfactor fit⟩ { exC with propulsion := .str "turboprop" } (.scalar 2000) true =
        .ok (.scalar (r / turbopropthrustfactor fit (1 / 1.2249998682209657) m)) := by
  obtain ⟨m, hm⟩ := (exAtm_env 3000 (by norm_num) (by norm_num)).mach (kts2mps 150)
  obtain ⟨r, h1, h2⟩ := C120_cruise fit cubic { exC with propulsion := .str "turboprop" } 150 3000 m 1 2000
    (exAtm_env 3000 (by norm_num) (by norm_num)) rfl rfl rfl hm (exAtm_dens 3000 (by norm_num) (by norm_num))
  exact ⟨r, h1, m, h2⟩

example (fit : Spline2) (hf : ThroughTable fit) (cubic : List ℝ → List ℝ → ℝ → ℝ) :
    ∃ r r', twrequired_crs ⟨cubic, turbopropthrustfactor fit⟩ { slmJet 0 450 0 with propulsion := .str "turboprop", designatm := .isa (-10) }
        (.scalar 2000) false = .ok (.scalar r) ∧
      twrequired_crs ⟨cubic, turbopropthrustfactor fit⟩ { slmJet 0 450 0 with propulsion := .str "turboprop", designatm := .isa (-10) }
        (.scalar 2000) true = .ok (.scalar r') ∧ (0 < r → 13 * r < r') := by
  have eT : isatemp (-10) 0 = 278.15 := by norm_num [isatemp, Level1, A1, B1]
  have hE := isa_env (-10) 0 (by norm_num) (by norm_num)
  have hm := mach1_of (v := kts2mps 450) (isa_vsound (-10) 0 (by norm_num) (by rw [eT]; norm_num))
  have hv : vsound (isatemp (-10) 0) ≤ 345 := by
    unfold vsound; rw [eT]; exact Real.sqrt_le_iff.mpr (by norm_num [R_JPKGPK])
  have hv0 : 0 < vsound (isatemp (-10) 0) := by unfold vsound; rw [eT]; exact Real.sqrt_pos.mpr (by norm_num [R_JPKGPK])
  have hdens : 1.2249998682209657 ≤ isadens (-10) 0 := by
    have e0 : isadens (-10) 0 * 278.15 = isadens 0 0 * 288.15 := by
      rw [isadens_eq (-10) 0 (by rw [eT]; norm_num), isadens_eq 0 0 (by rw [C102_sea_level.1]; norm_num), eT, C102_sea_level.1]
      field_simp
    have := (abs_le.mp C102_sea_level.2.2).1
    norm_num at *
    linarith
  obtain ⟨r, r', h1, h2, h3, -⟩ := C120_cruise_violated fit hf cubic
    { slmJet 0 450 0 with propulsion := .str "turboprop", designatm := .isa (-10) } 450 0 _ _ 2000 hE rfl rfl rfl hm
    (isa_dens1 (-10) 0 (by norm_num)) (by
      change _ ≤ kts2mps 450 / vsound (isatemp (-10) 0)
      rw [le_div_iff₀ hv0]
      have : (0.6 : ℝ) * 345 ≤ kts2mps 450 := by norm_num [kts2mps]
      norm_num at *
      linarith)
  exact ⟨r, r', h1, h2, h3 hdens⟩

end

end Verif.Props
