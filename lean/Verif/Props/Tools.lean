import Verif.Model.Tools
import Verif.Lemmas.Tac
import Verif.Spec.Basic
import Mathlib.Topology.Algebra.Order.Field
import Mathlib.Topology.Order.Basic
import Mathlib.Topology.Instances.Real.Lemmas

/-
Properties C28 - C31, C81: helpers of mtools4acdc.py and weathertools.py.
-/

namespace Verif.Props
open Verif.Tools Verif.Spec

noncomputable section

/-! ### C28 -/

/-- Specification: value of the blend as a function of time (independent of the code's branches): the
cubic smoothstep of the clamped normalised time. -/
def smooth (tf a b t : ℝ) : ℝ :=
  a + (b - a) * (3 * (max 0 (min 1 (t / tf))) ^ 2 - 2 * (max 0 (min 1 (t / tf))) ^ 3)

theorem polyblend_smooth (t tf a b : ℝ) (hf : 0 < tf) : polyblend t tf a b = .ok (smooth tf a b t) := by
  unfold polyblend smooth
  rw [if_neg hf.ne']
  simp only
  by_cases h0 : t < 0
  · rw [if_pos h0]
    have : t / tf < 0 := div_neg_of_neg_of_pos h0 hf
    rw [max_eq_left ((min_le_right _ _).trans this.le)]; norm_num
  rw [if_neg h0]
  have hn : 0 ≤ t / tf := div_nonneg (not_lt.mp h0) hf.le
  by_cases h1 : t ≥ tf
  · rw [if_pos h1]
    have : 1 ≤ t / tf := by rw [le_div_iff₀ hf]; linarith
    rw [min_eq_left this, max_eq_right zero_le_one]; norm_num
  · rw [if_neg h1]
    have : t / tf ≤ 1 := by rw [div_le_iff₀ hf]; push Not at h1; linarith
    rw [min_eq_right this, max_eq_right hn]
    congr 1; ring

/-- End values: the initial signal up to time 0, the final signal from `tf` on. -/
theorem C28_ends (tf a b : ℝ) (hf : 0 < tf) :
    (∀ t, t ≤ 0 → polyblend t tf a b = .ok a) ∧ (∀ t, tf ≤ t → polyblend t tf a b = .ok b) := by
  constructor
  · intro t ht
    rw [polyblend_smooth _ _ _ _ hf]; unfold smooth
    have : t / tf ≤ 0 := div_nonpos_of_nonpos_of_nonneg ht hf.le
    rw [max_eq_left ((min_le_right _ _).trans this)]; norm_num
  · intro t ht
    rw [polyblend_smooth _ _ _ _ hf]; unfold smooth
    have : 1 ≤ t / tf := by rw [le_div_iff₀ hf]; linarith
    rw [min_eq_left this, max_eq_right zero_le_one]; norm_num

example : polyblend (-1) 4 10 20 = .ok 10 ∧ polyblend 5 4 10 20 = .ok 20 :=
  ⟨(C28_ends 4 10 20 (by norm_num)).1 _ (by norm_num), (C28_ends 4 10 20 (by norm_num)).2 _ (by norm_num)⟩

/-- The blended value always lies between the two signals. -/
theorem C28_between (t tf a b : ℝ) (hf : 0 < tf) : ∃ y, polyblend t tf a b = .ok y ∧ Between a y b := by
  refine ⟨_, polyblend_smooth _ _ _ _ hf, ?_⟩
  unfold smooth
  have h0 : 0 ≤ max 0 (min 1 (t / tf)) := le_max_left _ _
  have h1 : max 0 (min 1 (t / tf)) ≤ 1 := max_le zero_le_one (min_le_left _ _)
  generalize max 0 (min 1 (t / tf)) = n at *
  have w0 : 0 ≤ 3 * n ^ 2 - 2 * n ^ 3 := by nlinarith [mul_nonneg (sq_nonneg n) (show 0 ≤ 3 - 2 * n by linarith)]
  have w1 : 3 * n ^ 2 - 2 * n ^ 3 ≤ 1 := by
    nlinarith [mul_nonneg (sq_nonneg (n - 1)) (show 0 ≤ 1 + 2 * n by linarith)]
  generalize 3 * n ^ 2 - 2 * n ^ 3 = w at *
  rcases le_total a b with h | h
  · left; constructor <;> nlinarith
  · right; constructor <;> nlinarith

-- a falling signal
example : ∃ y, polyblend 1 4 20 10 = .ok y ∧ Between 20 y 10 := C28_between 1 4 20 10 (by norm_num)

/-- Monotone in time, in the direction from the initial to the final signal, and strictly inside the
blending interval. -/
theorem C28_monotone (s t tf a b : ℝ) (hf : 0 < tf) (hst : s ≤ t) :
    ∃ x y, polyblend s tf a b = .ok x ∧ polyblend t tf a b = .ok y ∧
      (a ≤ b → x ≤ y) ∧ (b ≤ a → y ≤ x) ∧ (a < b → 0 ≤ s → s < t → t ≤ tf → x < y) := by
  refine ⟨_, _, polyblend_smooth _ _ _ _ hf, polyblend_smooth _ _ _ _ hf, ?_⟩
  unfold smooth
  have hn : max 0 (min 1 (s / tf)) ≤ max 0 (min 1 (t / tf)) :=
    max_le_max le_rfl (min_le_min le_rfl (by gcongr))
  have hs : 0 ≤ s → s < t → t ≤ tf → max 0 (min 1 (s / tf)) < max 0 (min 1 (t / tf)) := by
    intro h0 h1 h2
    have a1 : t / tf ≤ 1 := by rw [div_le_iff₀ hf]; linarith
    have a2 : s / tf < t / tf := by gcongr
    have a3 : 0 ≤ s / tf := by positivity
    rw [min_eq_right a1, min_eq_right (by linarith), max_eq_right a3, max_eq_right (by linarith)]
    exact a2
  have p0 : 0 ≤ max 0 (min 1 (s / tf)) := le_max_left _ _
  have q1 : max 0 (min 1 (t / tf)) ≤ 1 := max_le zero_le_one (min_le_left _ _)
  generalize max 0 (min 1 (s / tf)) = m at *
  generalize max 0 (min 1 (t / tf)) = n at *
  have fac : (3 * n ^ 2 - 2 * n ^ 3) - (3 * m ^ 2 - 2 * m ^ 3) =
      (n - m) * (3 * (n + m) - 2 * (n ^ 2 + n * m + m ^ 2)) := by ring
  have g : 0 ≤ 3 * (n + m) - 2 * (n ^ 2 + n * m + m ^ 2) := by nlinarith
  have w : 3 * m ^ 2 - 2 * m ^ 3 ≤ 3 * n ^ 2 - 2 * n ^ 3 := by
    nlinarith [mul_nonneg (sub_nonneg.mpr hn) g]
  refine ⟨fun h => by nlinarith, fun h => by nlinarith, fun h h0 h1 h2 => ?_⟩
  have hmn := hs h0 h1 h2
  have g' : 0 < 3 * (n + m) - 2 * (n ^ 2 + n * m + m ^ 2) := by nlinarith
  have : 0 < (n - m) * (3 * (n + m) - 2 * (n ^ 2 + n * m + m ^ 2)) :=
    mul_pos (by linarith) g'
  nlinarith

example : ∃ x y, polyblend 1 4 10 20 = .ok x ∧ polyblend 2 4 10 20 = .ok y ∧ x < y := by
  obtain ⟨x, y, hx, hy, -, -, h⟩ := C28_monotone 1 2 4 10 20 (by norm_num) (by norm_num)
  exact ⟨x, y, hx, hy, h (by norm_num) (by norm_num) (by norm_num) (by norm_num)⟩

/-- The blend is one continuous function of time. -/
theorem C28_continuous (tf a b : ℝ) (hf : 0 < tf) :
    ∃ f : ℝ → ℝ, Continuous f ∧ ∀ t, polyblend t tf a b = .ok (f t) := by
  refine ⟨smooth tf a b, ?_, fun t => polyblend_smooth t tf a b hf⟩
  unfold smooth
  have : Continuous fun t : ℝ => max 0 (min 1 (t / tf)) :=
    continuous_const.max (continuous_const.min (continuous_id.div_const _))
  exact continuous_const.add (continuous_const.mul
    ((continuous_const.mul (this.pow 2)).sub (continuous_const.mul (this.pow 3))))

example : ∃ f : ℝ → ℝ, Continuous f ∧ ∀ t, polyblend t 4 10 20 = .ok (f t) := C28_continuous 4 10 20 (by norm_num)

/-- A zero duration raises whatever the time. -/
theorem C28_zero_duration (t a b : ℝ) : polyblend t 0 a b = .error .zeroDivisionError := by
  simp [polyblend]

example : ∃ y, polyblend 1 4 10 20 = .ok y ∧ y = 11.5625 :=
  ⟨_, polyblend_smooth _ _ _ _ (by norm_num), by norm_num [smooth]⟩

/-! ### C29 -/

/-- Lengths and inner products are preserved, elementwise. -/
theorem C29_isometry (θ x z u w : ℝ) :
    (rot1 θ x z).1 ^ 2 + (rot1 θ x z).2 ^ 2 = x ^ 2 + z ^ 2 ∧
    (rot1 θ x z).1 * (rot1 θ u w).1 + (rot1 θ x z).2 * (rot1 θ u w).2 = x * u + z * w := by
  have h := Real.sin_sq_add_cos_sq θ
  unfold rot1
  constructor
  · linear_combination (x ^ 2 + z ^ 2) * h
  · linear_combination (x * u + z * w) * h

/-- The whole-list function returns one rotated point per element of `x`. -/
theorem C29_list (xs zs : List ℝ) (θ : ℝ) (h : xs.length ≤ zs.length) :
    ∃ xt zt, coordtrans xs zs θ = .ok (xt, zt) ∧ xt.length = xs.length ∧ zt.length = xs.length ∧
      ∀ i (hx : i < xs.length) (hz : i < zs.length) (h1 : i < xt.length) (h2 : i < zt.length),
        xt[i] = xs[i] * Real.cos θ + zs[i] * Real.sin θ ∧
        zt[i] = zs[i] * Real.cos θ - xs[i] * Real.sin θ := by
  induction xs generalizing zs with
  | nil => exact ⟨[], [], rfl, rfl, rfl, by simp⟩
  | cons x xs ih =>
    match zs, h with
    | [], h => simp at h
    | z :: zs, h =>
      obtain ⟨xt, zt, h1, h2, h3, h4⟩ := ih zs (by simpa using h)
      refine ⟨(rot1 θ x z).1 :: xt, (rot1 θ x z).2 :: zt, by simp [coordtrans, h1], by simp [h2],
        by simp [h3], ?_⟩
      intro i hx hz i1 i2
      match i with
      | 0 => simp [rot1]; ring
      | i + 1 => simpa using h4 i (by simpa using hx) (by simpa using hz) (by simpa using i1) (by simpa using i2)

example : ∃ xt zt, coordtrans [1, 2] [3, 4, 5] 0.1 = .ok (xt, zt) ∧ xt.length = 2 := by
  obtain ⟨xt, zt, h, h1, -⟩ := C29_list [1, 2] [3, 4, 5] 0.1 (by simp)
  exact ⟨xt, zt, h, h1⟩

/-- A `z` list shorter than the `x` list raises. -/
theorem C29_short (xs zs : List ℝ) (θ : ℝ) (h : zs.length < xs.length) :
    coordtrans xs zs θ = .error .indexError := by
  induction xs generalizing zs with
  | nil => simp at h
  | cons x xs ih =>
    match zs with
    | [] => rfl
    | z :: zs => simp [coordtrans, ih zs (by simpa using h)]

example : coordtrans [1, 2] [3] 0.1 = .error .indexError := C29_short _ _ _ (by simp)

/-- Rotations compose by adding angles; on lists of any length. -/
theorem C29_compose (xs zs : List ℝ) (θ φ : ℝ) (h : xs.length = zs.length) :
    (coordtrans xs zs θ >>= fun p => coordtrans p.1 p.2 φ) = coordtrans xs zs (θ + φ) := by
  induction xs generalizing zs with
  | nil => rfl
  | cons x xs ih =>
    match zs, h with
    | z :: zs, h =>
      have ih' := ih zs (by simpa using h)
      obtain ⟨xt, zt, h1, h2, h3, -⟩ := C29_list xs zs θ (by simp at h; omega)
      rw [h1] at ih'
      have ih2 : coordtrans xt zt φ = coordtrans xs zs (θ + φ) := ih'
      have e : rot1 φ (rot1 θ x z).1 (rot1 θ x z).2 = rot1 (θ + φ) x z := by
        unfold rot1
        rw [Real.cos_add, Real.sin_add]
        ext <;> simp <;> ring
      have e1 := congrArg Prod.fst e
      have e2 := congrArg Prod.snd e
      have lhs : (coordtrans (x :: xs) (z :: zs) θ >>= fun p => coordtrans p.1 p.2 φ) =
          coordtrans ((rot1 θ x z).1 :: xt) ((rot1 θ x z).2 :: zt) φ := by
        simp only [coordtrans, h1]; rfl
      rw [lhs]
      simp only [coordtrans, ih2, e1, e2]

example : (coordtrans [1, 2] [3, 4] 0.1 >>= fun p => coordtrans p.1 p.2 0.2) = coordtrans [1, 2] [3, 4] (0.1 + 0.2) :=
  C29_compose _ _ _ _ rfl

/-- Rotating by the opposite angle gives the original lists back. -/
theorem C29_inverse (xs zs : List ℝ) (θ : ℝ) (h : xs.length = zs.length) :
    (coordtrans xs zs θ >>= fun p => coordtrans p.1 p.2 (-θ)) = .ok (xs, zs) := by
  rw [C29_compose _ _ _ _ h, add_neg_cancel]
  induction xs generalizing zs with
  | nil => simp at h; rw [List.eq_nil_of_length_eq_zero h.symm]; rfl
  | cons x xs ih =>
    match zs, h with
    | z :: zs, h => simp [coordtrans, ih zs (by simpa using h), rot1]

example : ([1, 2] : List ℝ).length = ([3, 4] : List ℝ).length := rfl

/-! ### C30 -/

/-- A row is selected exactly when it is in the recording and its time lies in the closed window;
selection keeps the recording's order (it is a sublist), and every channel is read from the same
selected rows. -/
theorem C30_window {Row : Type} (time : Row → Option ℝ) (ti tf : ℝ) (rows : List Row) :
    (∀ r, r ∈ fdrWindow time ti tf rows ↔ r ∈ rows ∧ ∃ t, time r = some t ∧ ti ≤ t ∧ t ≤ tf) ∧
    (fdrWindow time ti tf rows).Sublist rows ∧
    (∀ signal, (fdrChannel time ti tf rows signal).length = (fdrWindow time ti tf rows).length) ∧
    (∀ (signal : Row → Option ℝ) (i : ℕ) (r : Row), (fdrWindow time ti tf rows)[i]? = some r →
      (fdrChannel time ti tf rows signal)[i]? = some (signal r)) := by
  refine ⟨?_, List.filter_sublist, fun s => by simp [fdrChannel], ?_⟩
  · intro r
    unfold fdrWindow
    rw [List.mem_filter]
    cases time r with
    | none => simp
    | some t => simp
  · intro s i r h
    simp [fdrChannel, h]

/-- No selected row is lost or duplicated: the number of selected rows is the number of rows in the
window, and splitting the recording splits the selection. -/
theorem C30_split {Row : Type} (time : Row → Option ℝ) (ti tf : ℝ) (a b : List Row) :
    fdrWindow time ti tf (a ++ b) = fdrWindow time ti tf a ++ fdrWindow time ti tf b := by
  simp [fdrWindow]

example : (0.5:ℝ) ∈ fdrWindow some 0 1 [-1, 0.5, 1, 2] := by
  rw [(C30_window some 0 1 _).1]; exact ⟨by simp, 0.5, rfl, by norm_num, by norm_num⟩

/-! ### C31 -/

/-- Specification: the text made of the given lines, each followed by `term` and a newline. -/
def textOf (term : List Char) (ls : List (List Char)) : List Char :=
  ls.flatMap (fun l => l ++ term ++ ['\n'])

theorem pyLines_line (l rest : List Char) (h : '\n' ∉ l) :
    pyLines (l ++ '\n' :: rest) = (l ++ ['\n']) :: pyLines rest := by
  induction l with
  | nil => simp [pyLines]
  | cons c l ih =>
    simp only [List.mem_cons, not_or] at h
    rw [List.cons_append, pyLines, if_neg (Ne.symm h.1), ih h.2]
    rfl

theorem pyLines_last (l : List Char) (h : '\n' ∉ l) (hne : l ≠ []) : pyLines l = [l] := by
  induction l with
  | nil => exact absurd rfl hne
  | cons c l ih =>
    simp only [List.mem_cons, not_or] at h
    rw [pyLines, if_neg (Ne.symm h.1)]
    cases l with
    | nil => rfl
    | cons d l => rw [ih h.2 (by simp)]

theorem pyLines_text (term : List Char) (ls : List (List Char)) (tail : List Char) (ht : '\n' ∉ term)
    (h : ∀ l ∈ ls, '\n' ∉ l) :
    pyLines (textOf term ls ++ tail) = ls.map (fun l => l ++ term ++ ['\n']) ++ pyLines tail := by
  induction ls with
  | nil => rfl
  | cons l ls ih =>
    have h1 : '\n' ∉ l ++ term := by
      simp only [List.mem_append, not_or]; exact ⟨h l (by simp), ht⟩
    have : textOf term (l :: ls) ++ tail = (l ++ term) ++ '\n' :: (textOf term ls ++ tail) := by
      simp [textOf]
    rw [this, pyLines_line _ _ h1, ih (fun x hx => h x (by simp [hx]))]
    rfl

theorem pyIndex_m2 {α : Type} (l : List α) (a b : α) : pyIndex (l ++ [a, b]) (-2) = .ok a := by
  unfold pyIndex
  rw [if_neg (by norm_num), if_pos (by simp)]
  have : ((((l ++ [a, b]).length : ℕ) : ℤ) + (-2 : ℤ)).toNat = l.length := by simp
  rw [this]
  simp

theorem dropEnd_append (l t : List Char) : dropEnd t.length (l ++ t) = l := by
  unfold dropEnd; simp

/-- A file all of whose lines end in '=' and newline is returned without both, line by line. -/
theorem C31_equals (ls : List (List Char)) (hne : ls ≠ []) (h : ∀ l ∈ ls, '\n' ∉ l) :
    readmethistfile (some (textOf ['='] ls)) = .ok (some ls) := by
  have hp := pyLines_text ['='] ls [] (by simp) h
  rw [List.append_nil] at hp
  obtain ⟨l, t, rfl⟩ := List.exists_cons_of_ne_nil hne
  unfold readmethistfile
  simp only [hp, List.map_cons, pyLines, List.append_nil, List.append_assoc, List.cons_append, List.nil_append]
  rw [pyIndex_m2]
  simp only [if_true]
  congr 2
  refine List.cons_eq_cons.mpr ⟨dropEnd_append l ['=', '\n'], ?_⟩
  rw [List.map_map]
  conv_rhs => rw [← List.map_id t]
  apply List.map_congr_left
  intro x _
  exact dropEnd_append x ['=', '\n']

example : readmethistfile (some "EGDY 211350Z=\nEGDY 211450Z=\n".toList) =
    .ok (some ["EGDY 211350Z".toList, "EGDY 211450Z".toList]) :=
  C31_equals ["EGDY 211350Z".toList, "EGDY 211450Z".toList] (by simp) (by decide)

/-- A file whose first line does not end in '=' loses only the newlines, line by line. -/
theorem C31_plain (ls : List (List Char)) (h : ∀ l ∈ ls, '\n' ∉ l) (l : List Char) (c : Char)
    (hc : c ≠ '=') (hl : '\n' ∉ l ++ [c]) :
    readmethistfile (some (textOf [] ((l ++ [c]) :: ls))) = .ok (some ((l ++ [c]) :: ls)) := by
  have hp := pyLines_text [] ((l ++ [c]) :: ls) [] (by simp)
    (by intro x hx; rcases List.mem_cons.mp hx with rfl | hx; exacts [hl, h x hx])
  rw [List.append_nil] at hp
  unfold readmethistfile
  simp only [hp, List.map_cons, pyLines, List.append_nil, List.append_assoc, List.cons_append, List.nil_append]
  rw [pyIndex_m2]
  simp only [if_neg hc]
  congr 2
  refine List.cons_eq_cons.mpr ⟨?_, ?_⟩
  · have := dropEnd_append (l ++ [c]) ['\n']
    simpa using this
  rw [List.map_map]
  conv_rhs => rw [← List.map_id ls]
  apply List.map_congr_left
  intro x _
  exact dropEnd_append x ['\n']

example : readmethistfile (some "EGDY 211350Z\nEGDY 211450Z\n".toList) =
    .ok (some ["EGDY 211350Z".toList, "EGDY 211450Z".toList]) :=
  C31_plain ["EGDY 211450Z".toList] (by decide) "EGDY 211350".toList 'Z' (by decide) (by decide)

/-- The first line decides for all: after a first line ending in '=', a later line without '=' loses
its last character, and a last line without newline loses its last two. -/
theorem C31_mixed_violated (l m : List Char) (a b : Char) (hl : '\n' ∉ l) (hm : '\n' ∉ m ++ [a, b]) :
    readmethistfile (some ((l ++ ['=', '\n']) ++ (m ++ [a, b, '\n']))) = .ok (some [l, m ++ [a]]) ∧
    readmethistfile (some ((l ++ ['=', '\n']) ++ (m ++ [a, b]))) = .ok (some [l, m]) := by
  have h1 : '\n' ∉ l ++ ['='] := by simp [hl]
  have e1 : pyLines ((l ++ ['=', '\n']) ++ (m ++ [a, b, '\n'])) =
      [l ++ ['=', '\n'], m ++ [a, b, '\n']] := by
    have := pyLines_line (l ++ ['=']) (m ++ [a, b, '\n']) h1
    have h2 := pyLines_line (m ++ [a, b]) [] hm
    simp only [List.append_assoc, List.cons_append, List.nil_append] at *
    rw [this, h2]; rfl
  have e2 : pyLines ((l ++ ['=', '\n']) ++ (m ++ [a, b])) = [l ++ ['=', '\n'], m ++ [a, b]] := by
    have := pyLines_line (l ++ ['=']) (m ++ [a, b]) h1
    have h2 := pyLines_last (m ++ [a, b]) hm (by simp)
    simp only [List.append_assoc, List.cons_append, List.nil_append] at *
    rw [this, h2]
  constructor
  · unfold readmethistfile
    simp only [e1]
    rw [pyIndex_m2]
    have d1 := dropEnd_append l ['=', '\n']
    have d2 := dropEnd_append (m ++ [a]) [b, '\n']
    simp only [List.append_assoc, List.cons_append, List.nil_append, List.length_cons, List.length_nil] at d1 d2
    simp [d1, d2]
  · unfold readmethistfile
    simp only [e2]
    rw [pyIndex_m2]
    have d1 := dropEnd_append l ['=', '\n']
    have d2 := dropEnd_append m [a, b]
    simp only [List.length_cons, List.length_nil] at d1 d2
    simp [d1, d2]

example : readmethistfile (some "EGDY 211350Z=\nEGDY 211450Z\n".toList) =
    .ok (some ["EGDY 211350Z".toList, "EGDY 211450".toList]) :=
  (C31_mixed_violated "EGDY 211350Z".toList "EGDY 21145".toList '0' 'Z' (by decide) (by decide)).1

/-- No file gives None, an empty file raises IndexError. -/
theorem C31_none_empty :
    readmethistfile none = .ok none ∧ readmethistfile (some []) = .error .indexError := ⟨rfl, rfl⟩

example : '\n' ∉ "EGDY 211350Z".toList ∧ 'Z' ≠ '=' := by decide

/-! ### C81 -/

/-- A report the decoder accepts is decoded as it is; otherwise the repaired text is decoded, which
has the same station code (first four characters), " 28" in positions 4 to 6 and the same characters
from position 7 on; its length does not change for reports of at least 7 characters. -/
theorem C81_repair {Obs Err : Type} (decode : List Char → Except Err Obs) (s : List Char)
    (hs : 7 ≤ s.length) :
    (∀ o, decode s = .ok o → decodemetar decode s = .ok o) ∧
    (∀ e, decode s = .error e → ∃ r, decodemetar decode s = decode r ∧ r.length = s.length ∧
      (∀ i, i < 4 → r[i]? = s[i]?) ∧ r[4]? = some ' ' ∧ r[5]? = some '2' ∧ r[6]? = some '8' ∧
      (∀ i, 7 ≤ i → r[i]? = s[i]?)) := by
  constructor
  · intro o h; simp [decodemetar, h]
  · intro e h
    refine ⟨s.take 4 ++ [' ', '2', '8'] ++ s.drop 7, by simp [decodemetar, h], ?_, ?_, ?_, ?_, ?_, ?_⟩
    · simp; omega
    · intro i hi
      rw [List.append_assoc, List.getElem?_append_left (by simp; omega), List.getElem?_take, if_pos hi]
    · rw [List.append_assoc, List.getElem?_append_right (by simp)]; simp [show min 4 s.length = 4 by omega]
    · rw [List.append_assoc, List.getElem?_append_right (by simp)]; simp [show min 4 s.length = 4 by omega]
    · rw [List.append_assoc, List.getElem?_append_right (by simp)]; simp [show min 4 s.length = 4 by omega]
    · intro i hi
      rw [List.getElem?_append_right (by simp; omega), List.getElem?_drop]
      congr 1; simp; omega

-- a decoder that rejects day 31 gets day 28
example : decodemetar (fun s => if s.drop 5 |>.take 2 |> (· == ['3', '1']) then .error () else .ok s) "EGDY 311350Z".toList =
    .ok "EGDY 281350Z".toList := by
  decide

/-- The decoder is called at most on the report and on its repair: if both fail the second failure is
reported. -/
theorem C81_failure {Obs Err : Type} (decode : List Char → Except Err Obs) (s : List Char) (e : Err)
    (h : decodemetar decode s = .error e) :
    decode (s.take 4 ++ [' ', '2', '8'] ++ s.drop 7) = .error e ∧ ∃ e', decode s = .error e' := by
  unfold decodemetar at h
  cases hd : decode s with
  | ok o => rw [hd] at h; cases h
  | error e' => rw [hd] at h; exact ⟨h, e', rfl⟩

example : 7 ≤ "EGDY 311350Z".toList.length := by decide

end

end Verif.Props
