import Verif.Lemmas.Tac
import Mathlib.Data.Real.Basic
import Mathlib.Order.Monotone.Basic
import Mathlib.Order.Interval.Set.Basic

/-
Five-layer piecewise functions with the ISA layer boundaries: order across layers and inversion,
from facts at the boundaries. Used for pressure and for density.
-/

namespace Verif.Layers
open Set

/-- Piecewise function on the ISA layers. -/
noncomputable def pw (f1 f2 f3 f4 f5 : ℝ → ℝ) (h : ℝ) : ℝ :=
  if h < 11000 then f1 h else if h < 20000 then f2 h else if h < 32000 then f3 h
  else if h < 47000 then f4 h else f5 h

/-- Boundary facts shared by ISA pressure and density. -/
structure Lay (f1 f2 f3 f4 f5 : ℝ → ℝ) : Prop where
  a1 : StrictAntiOn f1 (Iic 12000)
  a2 : StrictAnti f2
  a3 : StrictAntiOn f3 (Ici 0)
  a4 : StrictAntiOn f4 (Ici 0)
  a5 : StrictAnti f5
  p1 : ∀ h ≤ 12000, 0 < f1 h
  p2 : ∀ h, 0 < f2 h
  p3 : ∀ h ≥ 0, 0 < f3 h
  p4 : ∀ h ≥ 0, 0 < f4 h
  p5 : ∀ h, 0 < f5 h
  c11 : f2 11000 < f1 11000
  c20a : f3 20000 < f2 19999.95
  c20b : f3 20000.05 < f2 20000
  c32 : f4 32000 < f3 32000
  c47a : f5 47000 < f4 46999.95
  c47b : f5 47000.05 < f4 47000
  j20 : f2 19999.999 < f3 20000
  j47 : f4 46999.99 < f5 47000

variable {f1 f2 f3 f4 f5 : ℝ → ℝ}

theorem pw_pos (L : Lay f1 f2 f3 f4 f5) (h : ℝ) : 0 < pw f1 f2 f3 f4 f5 h := by
  unfold pw
  split_ifs with h1 h2 h3 h4
  · exact L.p1 h (by linarith)
  · exact L.p2 h
  · exact L.p3 h (by linarith)
  · exact L.p4 h (by linarith)
  · exact L.p5 h

/-- Of two altitudes at least 0.1 m apart the higher one has the lower value. -/
theorem pw_gap (L : Lay f1 f2 f3 f4 f5) (h k : ℝ) (hk : h + 0.1 ≤ k) :
    pw f1 f2 f3 f4 f5 k < pw f1 f2 f3 f4 f5 h := by
  have hlt : h < k := by linarith
  have m1 : ∀ x y, x ≤ 12000 → y ≤ 12000 → x < y → f1 y < f1 x := fun x y hx hy hxy => L.a1 hx hy hxy
  have m3 : ∀ x y, 0 ≤ x → 0 ≤ y → x < y → f3 y < f3 x := fun x y hx hy hxy => L.a3 hx hy hxy
  have m4 : ∀ x y, 0 ≤ x → 0 ≤ y → x < y → f4 y < f4 x := fun x y hx hy hxy => L.a4 hx hy hxy
  have w1 : ∀ x y, x ≤ 12000 → y ≤ 12000 → x ≤ y → f1 y ≤ f1 x := fun x y hx hy hxy =>
    L.a1.antitoneOn hx hy hxy
  have w2 : ∀ x y, x ≤ y → f2 y ≤ f2 x := fun x y hxy => L.a2.antitone hxy
  have w3 : ∀ x y, 0 ≤ x → 0 ≤ y → x ≤ y → f3 y ≤ f3 x := fun x y hx hy hxy =>
    L.a3.antitoneOn hx hy hxy
  have w4 : ∀ x y, 0 ≤ x → 0 ≤ y → x ≤ y → f4 y ≤ f4 x := fun x y hx hy hxy =>
    L.a4.antitoneOn hx hy hxy
  have w5 : ∀ x y, x ≤ y → f5 y ≤ f5 x := fun x y hxy => L.a5.antitone hxy
  -- chain across whole layers
  have k2 : f2 20000 < f2 11000 := L.a2 (by norm_num)
  have k3 : f3 32000 < f3 20000.05 := m3 _ _ (by norm_num) (by norm_num) (by norm_num)
  have k4 : f4 47000 < f4 32000 := m4 _ _ (by norm_num) (by norm_num) (by norm_num)
  have k4' : f4 46999.95 < f4 32000 := m4 _ _ (by norm_num) (by norm_num) (by norm_num)
  have k2' : f2 19999.95 < f2 11000 := L.a2 (by norm_num)
  have c11 := L.c11
  have c20a := L.c20a
  have c20b := L.c20b
  have c32 := L.c32
  have c47a := L.c47a
  have c47b := L.c47b
  unfold pw
  by_cases h1 : h < 11000
  · have e := w1 h 11000 (by linarith) (by norm_num) h1.le
    rw [if_pos h1]
    split_ifs with q1 q2 q3 q4
    · exact m1 _ _ (by linarith) (by linarith) hlt
    · have := w2 11000 k (by linarith); linarith
    · have := w3 20000 k (by linarith) (by linarith) (by linarith); linarith
    · have := w4 32000 k (by linarith) (by linarith) (by linarith); linarith
    · have := w5 47000 k (by linarith); linarith
  rw [if_neg h1]
  by_cases h2 : h < 20000
  · have e := w2 h 20000 h2.le
    rw [if_pos h2]
    split_ifs with q1 q2 q3 q4
    · linarith
    · exact L.a2 hlt
    · by_cases hc : h ≤ 19999.95
      · have := w3 20000 k (by linarith) (by linarith) (by linarith)
        have := w2 h 19999.95 hc; linarith
      · have := w3 20000.05 k (by linarith) (by linarith) (by linarith); linarith
    · have := w4 32000 k (by linarith) (by linarith) (by linarith); linarith
    · have := w5 47000 k (by linarith); linarith
  rw [if_neg h2]
  by_cases h3 : h < 32000
  · have e := w3 h 32000 (by linarith) (by linarith) h3.le
    rw [if_pos h3]
    split_ifs with q1 q2 q3 q4
    · linarith
    · linarith
    · exact m3 _ _ (by linarith) (by linarith) hlt
    · have := w4 32000 k (by linarith) (by linarith) (by linarith); linarith
    · have := w5 47000 k (by linarith); linarith
  rw [if_neg h3]
  by_cases h4 : h < 47000
  · have e := w4 h 47000 (by linarith) (by linarith) h4.le
    rw [if_pos h4]
    split_ifs with q1 q2 q3 q4
    · linarith
    · linarith
    · linarith
    · exact m4 _ _ (by linarith) (by linarith) hlt
    · by_cases hc : h ≤ 46999.95
      · have := w5 47000 k (by linarith)
        have := w4 h 46999.95 (by linarith) (by linarith) hc; linarith
      · have := w5 47000.05 k (by linarith); linarith
  rw [if_neg h4]
  split_ifs with q1 q2 q3 q4
  · linarith
  · linarith
  · linarith
  · linarith
  · exact L.a5 hlt

/-- Strict order without a minimum distance, unless a boundary at 20 km or 47 km lies within 0.1 m:
the two altitudes lie in the same one of the three blocks below 20 km, 20-47 km, from 47 km. -/
theorem pw_block (L : Lay f1 f2 f3 f4 f5) (h k : ℝ) (hk : h < k)
    (hb : k < 20000 ∨ (20000 ≤ h ∧ k < 47000) ∨ 47000 ≤ h) :
    pw f1 f2 f3 f4 f5 k < pw f1 f2 f3 f4 f5 h := by
  have m1 : ∀ x y, x ≤ 12000 → y ≤ 12000 → x < y → f1 y < f1 x := fun x y hx hy hxy => L.a1 hx hy hxy
  have m3 : ∀ x y, 0 ≤ x → 0 ≤ y → x < y → f3 y < f3 x := fun x y hx hy hxy => L.a3 hx hy hxy
  have m4 : ∀ x y, 0 ≤ x → 0 ≤ y → x < y → f4 y < f4 x := fun x y hx hy hxy => L.a4 hx hy hxy
  have c11 := L.c11
  have c32 := L.c32
  unfold pw
  rcases hb with hb | ⟨hb1, hb2⟩ | hb
  · rw [if_pos (show h < 20000 by linarith), if_pos hb]
    split_ifs with q1 q2 q3
    · exact m1 _ _ (by linarith) (by linarith) hk
    · linarith
    · have := m1 h 11000 (by linarith) (by linarith) q3
      have := L.a2.antitone (show 11000 ≤ k by linarith); linarith
    · exact L.a2 hk
  · rw [if_neg (show ¬ h < 11000 by linarith), if_neg (show ¬ k < 11000 by linarith),
      if_neg (show ¬ h < 20000 by linarith), if_neg (show ¬ k < 20000 by linarith),
      if_pos (show h < 47000 by linarith), if_pos hb2]
    split_ifs with q1 q2 q3
    · exact m3 _ _ (by linarith) (by linarith) hk
    · linarith
    · have := m3 h 32000 (by linarith) (by linarith) q3
      have := L.a4.antitoneOn (show (0:ℝ) ≤ 32000 by norm_num) (show 0 ≤ k by linarith)
        (show 32000 ≤ k by linarith)
      linarith
    · exact m4 _ _ (by linarith) (by linarith) hk
  · rw [if_neg (show ¬ h < 11000 by linarith), if_neg (show ¬ k < 11000 by linarith),
      if_neg (show ¬ h < 20000 by linarith), if_neg (show ¬ k < 20000 by linarith),
      if_neg (show ¬ h < 32000 by linarith), if_neg (show ¬ k < 32000 by linarith),
      if_neg (show ¬ h < 47000 by linarith), if_neg (show ¬ k < 47000 by linarith)]
    exact L.a5 hk

/-- Up-jumps at 20 km and 47 km. -/
theorem pw_jumps (L : Lay f1 f2 f3 f4 f5) :
    (∀ h, 19999.999 ≤ h → h < 20000 → pw f1 f2 f3 f4 f5 h < pw f1 f2 f3 f4 f5 20000) ∧
    (∀ h, 46999.99 ≤ h → h < 47000 → pw f1 f2 f3 f4 f5 h < pw f1 f2 f3 f4 f5 47000) := by
  constructor
  · intro h h1 h2
    have e1 : pw f1 f2 f3 f4 f5 h = f2 h := by
      unfold pw; rw [if_neg (by linarith), if_pos h2]
    have e2 : pw f1 f2 f3 f4 f5 20000 = f3 20000 := by
      unfold pw; norm_num
    rw [e1, e2]
    have := L.a2.antitone h1; have := L.j20; linarith
  · intro h h1 h2
    have e1 : pw f1 f2 f3 f4 f5 h = f4 h := by
      unfold pw
      rw [if_neg (by linarith), if_neg (by linarith), if_neg (by linarith), if_pos h2]
    have e2 : pw f1 f2 f3 f4 f5 47000 = f5 47000 := by
      unfold pw; norm_num
    rw [e1, e2]
    have := L.a4.antitoneOn (show (0:ℝ) ≤ 46999.99 by norm_num) (show 0 ≤ h by linarith) h1
    have := L.j47; linarith

/-- Piecewise inverse with thresholds. -/
noncomputable def pwinv (t1 t2 t3 t4 : ℝ) (g1 g2 g3 g4 g5 : ℝ → ℝ) (p : ℝ) : ℝ :=
  if p > t1 then g1 p else if p > t2 then g2 p else if p > t3 then g3 p
  else if p > t4 then g4 p else g5 p

/-- Inverse and threshold facts. -/
structure Inv (f1 f2 f3 f4 f5 g1 g2 g3 g4 g5 : ℝ → ℝ) (t1 t2 t3 t4 : ℝ) : Prop where
  i1 : ∀ h ≤ 12000, g1 (f1 h) = h
  i2 : ∀ h, g2 (f2 h) = h
  i3 : ∀ h ≥ 0, g3 (f3 h) = h
  i4 : ∀ h ≥ 0, g4 (f4 h) = h
  i5 : ∀ h, g5 (f5 h) = h
  ga1 : AntitoneOn g1 (Ioi 0)
  ga3 : AntitoneOn g3 (Ioi 0)
  ga5 : AntitoneOn g5 (Ioi 0)
  t1lt : t1 < f1 11000
  t1gt : f2 (11000 + 1e-9) ≤ t1
  t2lt : t2 < f2 19999.95
  t2gt : f3 20000 ≤ t2
  t3lt : t3 < f3 32000
  t3gt : f4 (32000 + 1e-9) ≤ t3
  t4lt : t4 < f4 46999.95
  t4gt : f5 47000 ≤ t4
  b1 : f1 11000.05 < t1
  b2 : t2 ≤ f3 19999.95
  b3 : f3 32000.05 < t3
  b4 : t4 ≤ f5 46999.95
  t12 : t2 < t1
  t23 : t3 < t2
  t34 : t4 < t3
  t4p : 0 < t4

variable {g1 g2 g3 g4 g5 : ℝ → ℝ} {t1 t2 t3 t4 : ℝ}

/-- Outside the bands the inverse returns the altitude exactly. -/
theorem pwinv_exact (L : Lay f1 f2 f3 f4 f5) (I : Inv f1 f2 f3 f4 f5 g1 g2 g3 g4 g5 t1 t2 t3 t4) (h : ℝ)
    (hb : h < 11000 ∨ (11000 + 1e-9 ≤ h ∧ h ≤ 19999.95) ∨ (20000 ≤ h ∧ h < 32000) ∨
      (32000 + 1e-9 ≤ h ∧ h ≤ 46999.95) ∨ 47000 ≤ h) :
    pwinv t1 t2 t3 t4 g1 g2 g3 g4 g5 (pw f1 f2 f3 f4 f5 h) = h := by
  have t12 := I.t12
  have t23 := I.t23
  have t34 := I.t34
  rcases hb with hb | ⟨hb1, hb2⟩ | ⟨hb1, hb2⟩ | ⟨hb1, hb2⟩ | hb
  · have e : pw f1 f2 f3 f4 f5 h = f1 h := by unfold pw; rw [if_pos hb]
    have : f1 11000 < f1 h := L.a1 (show h ≤ 12000 by linarith) (show (11000:ℝ) ≤ 12000 by norm_num) hb
    have := I.t1lt
    rw [e, pwinv, if_pos (by linarith), I.i1 h (by linarith)]
  · have e : pw f1 f2 f3 f4 f5 h = f2 h := by
      unfold pw; rw [if_neg (by norm_num at hb1; linarith), if_pos (by linarith)]
    have := L.a2.antitone hb1
    have := L.a2.antitone hb2
    have := I.t1gt
    have := I.t2lt
    rw [e, pwinv, if_neg (by linarith), if_pos (by linarith), I.i2]
  · have e : pw f1 f2 f3 f4 f5 h = f3 h := by
      unfold pw; rw [if_neg (by linarith), if_neg (by linarith), if_pos hb2]
    have := L.a3.antitoneOn (show (0:ℝ) ≤ 20000 by norm_num) (show 0 ≤ h by linarith) hb1
    have := L.a3 (show 0 ≤ h by linarith) (show (0:ℝ) ≤ 32000 by norm_num) hb2
    have := I.t2gt
    have := I.t3lt
    rw [e, pwinv, if_neg (by linarith), if_neg (by linarith), if_pos (by linarith), I.i3 h (by linarith)]
  · have h0 : (32000:ℝ) ≤ h := by norm_num at hb1; linarith
    have e : pw f1 f2 f3 f4 f5 h = f4 h := by
      unfold pw; rw [if_neg (by linarith), if_neg (by linarith), if_neg (by linarith), if_pos (by linarith)]
    have := L.a4.antitoneOn (show (0:ℝ) ≤ 32000 + 1e-9 by norm_num) (show 0 ≤ h by linarith) hb1
    have := L.a4.antitoneOn (show 0 ≤ h by linarith) (show (0:ℝ) ≤ 46999.95 by norm_num) hb2
    have := I.t3gt
    have := I.t4lt
    rw [e, pwinv, if_neg (by linarith), if_neg (by linarith), if_neg (by linarith), if_pos (by linarith),
      I.i4 h (by linarith)]
  · have e : pw f1 f2 f3 f4 f5 h = f5 h := by
      unfold pw; rw [if_neg (by linarith), if_neg (by linarith), if_neg (by linarith), if_neg (by linarith)]
    have := L.a5.antitone hb
    have := I.t4gt
    rw [e, pwinv, if_neg (by linarith), if_neg (by linarith), if_neg (by linarith), if_neg (by linarith), I.i5]

/-- Everywhere the inverse is within 0.1 m of the altitude. -/
theorem pwinv_close (L : Lay f1 f2 f3 f4 f5) (I : Inv f1 f2 f3 f4 f5 g1 g2 g3 g4 g5 t1 t2 t3 t4) (h : ℝ) :
    |pwinv t1 t2 t3 t4 g1 g2 g3 g4 g5 (pw f1 f2 f3 f4 f5 h) - h| ≤ 0.1 := by
  have t12 := I.t12
  have t23 := I.t23
  have t34 := I.t34
  have t4p := I.t4p
  have exact' : pwinv t1 t2 t3 t4 g1 g2 g3 g4 g5 (pw f1 f2 f3 f4 f5 h) = h →
      |pwinv t1 t2 t3 t4 g1 g2 g3 g4 g5 (pw f1 f2 f3 f4 f5 h) - h| ≤ 0.1 := by
    intro e; rw [e, sub_self, abs_zero]; norm_num
  by_cases q1 : h < 11000
  · exact exact' (pwinv_exact L I h (Or.inl q1))
  by_cases q2 : h < 11000 + 1e-9
  · norm_num at q2
    have e : pw f1 f2 f3 f4 f5 h = f2 h := by
      unfold pw; rw [if_neg q1, if_pos (by linarith)]
    rw [e]
    have hp := L.p2 h
    have m2 : f2 19999.95 < f2 h := L.a2 (by linarith)
    have := I.t2lt
    unfold pwinv
    by_cases hc : f2 h > t1
    · rw [if_pos hc]
      have hle : f2 h ≤ f1 11000 := by
        have := L.a2.antitone (not_lt.mp q1); have := L.c11; linarith
      have hpos := L.p1 11000.05 (by norm_num)
      have l1 := I.ga1 (show f2 h ∈ Ioi 0 from hp) (show f1 11000 ∈ Ioi 0 from L.p1 _ (by norm_num)) hle
      have l2 := I.ga1 (show f1 11000.05 ∈ Ioi 0 from hpos) (show f2 h ∈ Ioi 0 from hp)
        (by have := I.b1; linarith)
      rw [I.i1 _ (by norm_num)] at l1 l2
      rw [abs_le]; constructor <;> linarith
    · rw [if_neg hc, if_pos (by linarith), I.i2, sub_self, abs_zero]; norm_num
  by_cases q3 : h ≤ 19999.95
  · exact exact' (pwinv_exact L I h (Or.inr (Or.inl ⟨not_lt.mp q2, q3⟩)))
  by_cases q4 : h < 20000
  · have e : pw f1 f2 f3 f4 f5 h = f2 h := by
      unfold pw; rw [if_neg q1, if_pos (by linarith)]
    rw [e]
    have hp := L.p2 h
    have m1 : f2 h ≤ t1 := by
      have := L.a2 (show (11000 + 1e-9 : ℝ) < h by norm_num; linarith); have := I.t1gt; linarith
    unfold pwinv
    rw [if_neg (by linarith)]
    by_cases hc : f2 h > t2
    · rw [if_pos hc, I.i2, sub_self, abs_zero]; norm_num
    · have m2 : f2 20000 < f2 h := L.a2 q4
      have c20b := L.c20b
      have m3 : f3 32000 < f3 20000.05 := L.a3 (show (0:ℝ) ≤ 20000.05 by norm_num)
        (show (0:ℝ) ≤ 32000 by norm_num) (by norm_num)
      have := I.t3lt
      rw [if_neg hc, if_pos (by linarith)]
      have b2 := I.b2
      have l1 := I.ga3 (show f2 h ∈ Ioi 0 from hp) (show f3 19999.95 ∈ Ioi 0 from L.p3 _ (by norm_num))
        (by linarith)
      have l2 := I.ga3 (show f3 20000.05 ∈ Ioi 0 from L.p3 _ (by norm_num)) (show f2 h ∈ Ioi 0 from hp)
        (by linarith)
      rw [I.i3 _ (by norm_num)] at l1 l2
      rw [abs_le]; constructor <;> linarith
  by_cases q5 : h < 32000
  · exact exact' (pwinv_exact L I h (Or.inr (Or.inr (Or.inl ⟨not_lt.mp q4, q5⟩))))
  by_cases q6 : h < 32000 + 1e-9
  · norm_num at q6
    have e : pw f1 f2 f3 f4 f5 h = f4 h := by
      unfold pw; rw [if_neg q1, if_neg q4, if_neg q5, if_pos (by linarith)]
    rw [e]
    have hp := L.p4 h (by linarith)
    have m4 : f4 h ≤ f4 32000 := L.a4.antitoneOn (show (0:ℝ) ≤ 32000 by norm_num) (show 0 ≤ h by linarith)
      (not_lt.mp q5)
    have m4' : f4 46999.95 < f4 h := L.a4 (show 0 ≤ h by linarith) (show (0:ℝ) ≤ 46999.95 by norm_num)
      (by linarith)
    have c32 := L.c32
    have m3 : f3 32000 < f3 20000 := L.a3 (show (0:ℝ) ≤ 20000 by norm_num)
        (show (0:ℝ) ≤ 32000 by norm_num) (by norm_num)
    have := I.t2gt
    have := I.t4lt
    unfold pwinv
    rw [if_neg (by linarith), if_neg (by linarith)]
    by_cases hc : f4 h > t3
    · rw [if_pos hc]
      have l1 := I.ga3 (show f4 h ∈ Ioi 0 from hp) (show f3 32000 ∈ Ioi 0 from L.p3 _ (by norm_num))
        (by linarith)
      have l2 := I.ga3 (show f3 32000.05 ∈ Ioi 0 from L.p3 _ (by norm_num)) (show f4 h ∈ Ioi 0 from hp)
        (by have := I.b3; linarith)
      rw [I.i3 _ (by norm_num)] at l1 l2
      rw [abs_le]; constructor <;> linarith
    · rw [if_neg hc, if_pos (by linarith), I.i4 _ (by linarith), sub_self, abs_zero]; norm_num
  by_cases q7 : h ≤ 46999.95
  · exact exact' (pwinv_exact L I h (Or.inr (Or.inr (Or.inr (Or.inl ⟨not_lt.mp q6, q7⟩)))))
  by_cases q8 : h < 47000
  · have e : pw f1 f2 f3 f4 f5 h = f4 h := by
      unfold pw; rw [if_neg q1, if_neg q4, if_neg q5, if_pos (by linarith)]
    rw [e]
    have hp := L.p4 h (by linarith)
    have m1 : f4 h ≤ t3 := by
      have := L.a4 (show (0:ℝ) ≤ 32000 + 1e-9 by norm_num) (show 0 ≤ h by linarith)
        (show (32000 + 1e-9 : ℝ) < h by norm_num; linarith)
      have := I.t3gt; linarith
    unfold pwinv
    rw [if_neg (by linarith), if_neg (by linarith), if_neg (by linarith)]
    by_cases hc : f4 h > t4
    · rw [if_pos hc, I.i4 _ (by linarith), sub_self, abs_zero]; norm_num
    · rw [if_neg hc]
      have m2 : f4 47000 < f4 h := L.a4 (show 0 ≤ h by linarith) (show (0:ℝ) ≤ 47000 by norm_num) q8
      have c47b := L.c47b
      have b4 := I.b4
      have l1 := I.ga5 (show f4 h ∈ Ioi 0 from hp) (show f5 46999.95 ∈ Ioi 0 from L.p5 _) (by linarith)
      have l2 := I.ga5 (show f5 47000.05 ∈ Ioi 0 from L.p5 _) (show f4 h ∈ Ioi 0 from hp) (by linarith)
      rw [I.i5] at l1 l2
      rw [abs_le]; constructor <;> linarith
  · exact exact' (pwinv_exact L I h (Or.inr (Or.inr (Or.inr (Or.inr (not_lt.mp q8))))))

/-- In the bands just below 20 km and 47 km the result is on the wrong side of the boundary. -/
theorem pwinv_wrong (L : Lay f1 f2 f3 f4 f5) (I : Inv f1 f2 f3 f4 f5 g1 g2 g3 g4 g5 t1 t2 t3 t4) (h : ℝ) :
    (19999.999 ≤ h → h < 20000 → 20000 ≤ pwinv t1 t2 t3 t4 g1 g2 g3 g4 g5 (pw f1 f2 f3 f4 f5 h)) ∧
    (46999.99 ≤ h → h < 47000 → 47000 ≤ pwinv t1 t2 t3 t4 g1 g2 g3 g4 g5 (pw f1 f2 f3 f4 f5 h)) := by
  have t12 := I.t12
  have t23 := I.t23
  have t34 := I.t34
  constructor
  · intro h1 h2
    have e : pw f1 f2 f3 f4 f5 h = f2 h := by
      unfold pw; rw [if_neg (by linarith), if_pos h2]
    have := L.a2.antitone h1
    have j := L.j20
    have := I.t2gt
    have m2 : f2 20000 < f2 h := L.a2 h2
    have c20b := L.c20b
    have m3 : f3 32000 < f3 20000.05 := L.a3 (show (0:ℝ) ≤ 20000.05 by norm_num)
        (show (0:ℝ) ≤ 32000 by norm_num) (by norm_num)
    have := I.t3lt
    rw [e, pwinv, if_neg (by linarith), if_neg (by linarith), if_pos (by linarith)]
    have l1 := I.ga3 (show f2 h ∈ Ioi 0 from L.p2 h) (show f3 20000 ∈ Ioi 0 from L.p3 _ (by norm_num))
        (by linarith)
    rwa [I.i3 _ (by norm_num)] at l1
  · intro h1 h2
    have e : pw f1 f2 f3 f4 f5 h = f4 h := by
      unfold pw; rw [if_neg (by linarith), if_neg (by linarith), if_neg (by linarith), if_pos h2]
    have := L.a4.antitoneOn (show (0:ℝ) ≤ 46999.99 by norm_num) (show 0 ≤ h by linarith) h1
    have j := L.j47
    have := I.t4gt
    rw [e, pwinv, if_neg (by linarith), if_neg (by linarith), if_neg (by linarith), if_neg (by linarith)]
    have l1 := I.ga5 (show f4 h ∈ Ioi 0 from L.p4 h (by linarith)) (show f5 47000 ∈ Ioi 0 from L.p5 _)
        (by linarith)
    rwa [I.i5] at l1

end Verif.Layers
