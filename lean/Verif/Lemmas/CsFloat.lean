import Verif.Model.CsFloat
import Verif.Lemmas.ConstraintFloat

/-
Accuracy of differences, of the smaller and the larger of two numbers, and of `np.interp` between two points.
-/

namespace Verif.Fl

variable {F : Rounding}

/-- From a bound of the relative error. -/
theorem Acc.of_rel_err {xh x : ℝ} (K : ℕ) (hK : K ≤ 900) (h : |xh - x| ≤ K * F.u * |x|) : Acc F (K + 1) xh x := by
  have hu := F.u_nonneg
  have hul := F.u_lt
  have hK' : (K : ℝ) ≤ 900 := by exact_mod_cast hK
  have hK0 : (0 : ℝ) ≤ K := by positivity
  have b1 : 1 + ((K + 1 : ℕ) : ℝ) * F.u ≤ ((1 - F.u) ^ (K + 1))⁻¹ := by
    have h1 : (1 - F.u) * (1 + F.u) ≤ 1 := by nlinarith
    have h2 : (1 - F.u) ^ (K + 1) * (1 + F.u) ^ (K + 1) ≤ 1 := by
      rw [← mul_pow]
      exact pow_le_one₀ (by have := u_sub_pos F; positivity) h1
    have h3 := one_add_mul_le_pow (a := F.u) (by linarith) (K + 1)
    rw [← one_div, le_div_iff₀ (pow_pos_u F _)]
    calc (1 + ((K + 1 : ℕ) : ℝ) * F.u) * (1 - F.u) ^ (K + 1) ≤ (1 + F.u) ^ (K + 1) * (1 - F.u) ^ (K + 1) :=
          mul_le_mul_of_nonneg_right h3 (pow_pos_u F _).le
      _ ≤ 1 := by linarith
  push_cast at b1
  have b2 : (1 - F.u) ^ (K + 1) ≤ 1 - K * F.u := by
    have hp := pow_pos_u F (K + 1)
    have h1 : (1 + ((K : ℝ) + 1) * F.u) * (1 - F.u) ^ (K + 1) ≤ 1 := by
      have := mul_le_mul_of_nonneg_right b1 hp.le
      rwa [inv_mul_cancel₀ hp.ne'] at this
    have h2 : 1 ≤ (1 - K * F.u) * (1 + ((K : ℝ) + 1) * F.u) := by
      have h5 : (K : ℝ) * (K + 1) ≤ 900 * 901 := by nlinarith
      have h6 : 0 ≤ (K : ℝ) * (K + 1) := by positivity
      have : (K : ℝ) * (K + 1) * F.u ≤ 1 := by
        calc (K : ℝ) * (K + 1) * F.u ≤ (900 * 901) * F.u := mul_le_mul_of_nonneg_right h5 hu
          _ ≤ 1 := by linarith
      nlinarith [mul_nonneg hu (by linarith : 0 ≤ 1 - (K : ℝ) * (K + 1) * F.u)]
    have h3 : 0 < 1 + ((K : ℝ) + 1) * F.u := by positivity
    by_contra hc
    push Not at hc
    have := mul_lt_mul_of_pos_left hc h3
    linarith
  by_cases hx : x = 0
  · refine ⟨1, pow_le_u F _, one_le_inv_u F _, ?_⟩
    rw [hx] at h ⊢
    simpa using h
  · have : |xh / x - 1| ≤ K * F.u := by
      rw [show xh / x - 1 = (xh - x) / x by field_simp, abs_div, div_le_iff₀ (abs_pos.2 hx)]; exact h
    rw [abs_le] at this
    refine ⟨xh / x, by linarith, by linarith, by field_simp⟩

theorem Acc.min {m : ℕ} {ah a bh b : ℝ} (h : Acc F m ah a) (k : Acc F m bh b) (ha : 0 ≤ a) (hb : 0 ≤ b) :
    Acc F m (min ah bh) (min a b) := by
  obtain ⟨h1, h2⟩ := h.bounds ha
  obtain ⟨k1, k2⟩ := k.bounds hb
  have p := pow_pos_u F m
  have q := inv_pos.2 p
  refine Acc.of_bounds (le_min ha hb) ?_ ?_
  · exact le_min ((mul_le_mul_of_nonneg_right (min_le_left a b) p.le).trans h1)
      ((mul_le_mul_of_nonneg_right (min_le_right a b) p.le).trans k1)
  · rcases le_total a b with c | c
    · rw [min_eq_left c]; exact (min_le_left _ _).trans h2
    · rw [min_eq_right c]; exact (min_le_right _ _).trans k2

theorem Acc.max {m : ℕ} {ah a bh b : ℝ} (h : Acc F m ah a) (k : Acc F m bh b) (ha : 0 ≤ a) (hb : 0 ≤ b) :
    Acc F m (max ah bh) (max a b) := by
  obtain ⟨h1, h2⟩ := h.bounds ha
  obtain ⟨k1, k2⟩ := k.bounds hb
  have p := pow_pos_u F m
  have q := inv_pos.2 p
  refine Acc.of_bounds (ha.trans (le_max_left _ _)) ?_ ?_
  · rcases le_total a b with c | c
    · rw [max_eq_right c]; exact k1.trans (le_max_right _ _)
    · rw [max_eq_left c]; exact h1.trans (le_max_left _ _)
  · exact max_le (h2.trans (mul_le_mul_of_nonneg_right (le_max_left a b) q.le))
      (k2.trans (mul_le_mul_of_nonneg_right (le_max_right a b) q.le))

theorem Acc.neg {m : ℕ} {ah a : ℝ} (h : Acc F m ah a) : Acc F m (-ah) (-a) := by
  obtain ⟨θ, h1, h2, h3⟩ := h
  exact ⟨θ, h1, h2, by rw [h3]; ring⟩

theorem Acc.trans {m n : ℕ} {a b c : ℝ} (h : Acc F m a b) (k : Acc F n b c) : Acc F (m + n) a c := by
  obtain ⟨θ, h1, h2, h3⟩ := h
  obtain ⟨φ, k1, k2, k3⟩ := k
  refine ⟨θ * φ, ?_, ?_, by rw [h3, k3]; ring⟩
  · rw [pow_add]; exact mul_le_mul h1 k1 (pow_pos_u F n).le ((pow_pos_u F _).le.trans h1)
  · rw [pow_add, mul_inv]
    exact mul_le_mul h2 k2 ((pow_pos_u F n).le.trans k1) (inv_nonneg.2 (pow_pos_u F _).le)

/-- Taking away a part of at most three fifths. -/
theorem Acc.sub_part {n : ℕ} {a bh b : ℝ} (h : Acc F n bh b) (ha : 0 < a) (hb0 : 0 ≤ b) (hb : b ≤ 0.6 * a) (hn : n ≤ 400) :
    Acc F (2 * n + 3) (a - bh) (a - b) := by
  have hu := F.u_nonneg
  have e := h.le (by omega)
  rw [abs_of_nonneg hb0] at e
  have hn0 : (0 : ℝ) ≤ n := by positivity
  have := Acc.of_rel_err (F := F) (xh := a - bh) (x := a - b) (2 * n + 2) (by omega) (by
    rw [show a - bh - (a - b) = -(bh - b) by ring, abs_neg, abs_of_nonneg (by linarith : 0 ≤ a - b)]
    refine e.trans ?_
    push_cast
    have : b ≤ 2 * (a - b) := by linarith
    have h2 : ((n : ℝ) + 1) * F.u * b ≤ ((n : ℝ) + 1) * F.u * (2 * (a - b)) := mul_le_mul_of_nonneg_left this (by positivity)
    linarith)
  exact this.weaken (by omega)

/-! ### np.interp -/

/-- The position of `x` in the interval, 0 before it and 1 after it. -/
noncomputable def place (x a b : ℝ) : ℝ := (Max.max a (Min.min x b) - a) / (b - a)

theorem place_mem {x a b : ℝ} (hab : a < b) : 0 ≤ place x a b ∧ place x a b ≤ 1 := by
  unfold place
  have h := sub_pos.2 hab
  constructor
  · exact div_nonneg (by linarith [le_max_left a (Min.min x b)]) h.le
  · rw [div_le_one h]
    have : Max.max a (Min.min x b) ≤ b := max_le hab.le (min_le_right _ _)
    linarith

theorem npInterp2_eq {x a b : ℝ} (ya yb : ℝ) (hab : a < b) :
    npInterp2 x a b ya yb = (1 - place x a b) * ya + place x a b * yb := by
  unfold npInterp2 place
  have h := sub_pos.2 hab
  split_ifs with h1 h2
  · rw [max_eq_left ((min_le_left x b).trans h1)]; simp
  · rw [min_eq_right h2, max_eq_right hab.le, div_self h.ne']; ring
  · push Not at h1 h2
    rw [min_eq_left h2.le, max_eq_right h1.le]
    field_simp
    ring

/-- Rounded interpolation against exact interpolation of the same data. -/
theorem acc_interp2 (x a b ya yb : ℝ) (hab : a < b) (h0 : 0 < yb) (h1 : yb ≤ ya) (h2 : ya ≤ 2.4 * yb) :
    Acc F 14 (interp2 F x a b ya yb) (npInterp2 x a b ya yb) := by
  unfold interp2 npInterp2
  split_ifs with c1 c2
  · exact (Acc.refl _).weaken (by norm_num)
  · exact (Acc.refl _).weaken (by norm_num)
  · push Not at c1 c2
    have hba := sub_pos.2 hab
    have s := (((Acc.rd F (yb - ya)).div (Acc.rd F (b - a))).round.mul (Acc.rd F (x - a))).round
    have s' := s.neg
    have e : -((yb - ya) / (b - a) * (x - a)) = (ya - yb) * ((x - a) / (b - a)) := by ring
    rw [e] at s'
    have l0 : 0 ≤ (x - a) / (b - a) := div_nonneg (by linarith) hba.le
    have l1 : (x - a) / (b - a) ≤ 1 := by rw [div_le_one hba]; linarith
    have t := Acc.sub_part s' (by linarith : 0 < ya) (mul_nonneg (by linarith) l0) (by
      have := mul_le_mul_of_nonneg_left l1 (by linarith : 0 ≤ ya - yb)
      linarith) (by norm_num)
    have := t.round
    have e1 : F.rd (F.rd (F.rd (yb - ya) / F.rd (b - a)) * F.rd (x - a)) + ya =
        ya - -F.rd (F.rd (F.rd (yb - ya) / F.rd (b - a)) * F.rd (x - a)) := by ring
    have e2 : ya + (yb - ya) / (b - a) * (x - a) = ya - (ya - yb) * ((x - a) / (b - a)) := by ring
    rw [e1, e2]
    exact this.weaken (by norm_num)

/-- Interpolation between accurate values is accurate. -/
theorem acc_values {n : ℕ} {x a b yah ya ybh yb : ℝ} (hab : a < b) (h1 : Acc F n yah ya) (h2 : Acc F n ybh yb) (ha : 0 ≤ ya) (hb : 0 ≤ yb) :
    Acc F n (npInterp2 x a b yah ybh) (npInterp2 x a b ya yb) := by
  obtain ⟨p0, p1⟩ := place_mem (x := x) hab
  rw [npInterp2_eq _ _ hab, npInterp2_eq _ _ hab]
  have := ((Acc.refl (F := F) (1 - place x a b)).mul h1).add ((Acc.refl (F := F) (place x a b)).mul h2)
    (mul_nonneg (by linarith) ha) (mul_nonneg p0 hb)
  exact this.weaken (by simp)

theorem place_diff {ch c ah a bh b κ : ℝ} (hκ0 : 0 ≤ κ) (hκ1 : κ ≤ 0.000021) (hb0 : 0 < b) (hab : 2.5 * a ≤ b) (hac : a ≤ c) (hcb : c ≤ b)
    (ec : |ch - c| ≤ κ * b) (ea : |ah - a| ≤ κ * b) (eb : |bh - b| ≤ κ * b) :
    ah < bh ∧ |(ch - ah) / (bh - ah) - (c - a) / (b - a)| ≤ 8 * κ := by
  have hkb : κ * b ≤ 0.000021 * b := mul_le_mul_of_nonneg_right hκ1 hb0.le
  have m5 : 0 ≤ κ * b := mul_nonneg hκ0 hb0.le
  have ea' := abs_le.1 ea
  have eb' := abs_le.1 eb
  have ec' := abs_le.1 ec
  have hd : 0.6 * b ≤ b - a := by linarith
  have hD : 0.59 * b ≤ bh - ah := by linarith
  have hD0 : 0 < bh - ah := by linarith
  have hd0 : 0 < b - a := by linarith
  refine ⟨by linarith, ?_⟩
  obtain ⟨l, hl⟩ : ∃ l, l = (c - a) / (b - a) := ⟨_, rfl⟩
  have l0 : 0 ≤ l := by rw [hl]; exact div_nonneg (by linarith) hd0.le
  have l1 : l ≤ 1 := by rw [hl, div_le_one hd0]; linarith
  have hlc : c = a + l * (b - a) := by rw [hl]; field_simp; ring
  rw [← hl]
  have e : (ch - ah) / (bh - ah) - l = ((ch - c) - (1 - l) * (ah - a) - l * (bh - b)) / (bh - ah) := by
    rw [eq_div_iff hD0.ne', sub_mul, div_mul_cancel₀ _ hD0.ne', hlc]; ring
  rw [e, abs_div, abs_of_pos hD0, div_le_iff₀ hD0]
  have m1 : |(1 - l) * (ah - a)| ≤ κ * b := by
    rw [abs_mul, abs_of_nonneg (by linarith : 0 ≤ 1 - l)]
    nlinarith [abs_nonneg (ah - a)]
  have m2 : |l * (bh - b)| ≤ κ * b := by
    rw [abs_mul, abs_of_nonneg l0]
    nlinarith [abs_nonneg (bh - b)]
  have m3 : |ch - c - (1 - l) * (ah - a) - l * (bh - b)| ≤ 3 * (κ * b) := by
    rw [abs_le] at m1 m2 ⊢
    constructor <;> linarith [ec'.1, ec'.2, m1.1, m1.2, m2.1, m2.2]
  have m4 : 8 * κ * (0.59 * b) ≤ 8 * κ * (bh - ah) := mul_le_mul_of_nonneg_left hD (by linarith)
  linarith

/-- Rounded places: the position moves by a few units. -/
theorem place_close {n : ℕ} (hn : n ≤ 20) {xh x ah a bh b : ℝ} (hx : Acc F n xh x) (ha : Acc F n ah a) (hb : Acc F n bh b) (hx0 : 0 ≤ x)
    (ha0 : 0 < a) (hab : 2.5 * a ≤ b) : ah < bh ∧ |place xh ah bh - place x a b| ≤ 8 * ((n + 1) * F.u) := by
  have hu := F.u_nonneg
  have hul := F.u_lt
  have hn' : (n : ℝ) ≤ 20 := by exact_mod_cast hn
  have hn0 : (0 : ℝ) ≤ n := by positivity
  have hb0 : 0 < b := by linarith
  have hκ0 : 0 ≤ ((n : ℝ) + 1) * F.u := by positivity
  have hκ1 : ((n : ℝ) + 1) * F.u ≤ 0.000021 := by
    calc ((n : ℝ) + 1) * F.u ≤ 21 * F.u := mul_le_mul_of_nonneg_right (by linarith) hu
      _ ≤ 0.000021 := by linarith
  have ea := ha.le (by omega)
  have eb := hb.le (by omega)
  have hc := ha.max (hx.min hb hx0 hb0.le) ha0.le (le_min hx0 hb0.le)
  have ec := hc.le (by omega)
  have hcb : Max.max a (Min.min x b) ≤ b := max_le (by linarith) (min_le_right _ _)
  have hca : a ≤ Max.max a (Min.min x b) := le_max_left _ _
  rw [abs_of_pos ha0] at ea
  rw [abs_of_pos hb0] at eb
  rw [abs_of_nonneg (by linarith : 0 ≤ Max.max a (Min.min x b))] at ec
  exact place_diff hκ0 hκ1 hb0 hab hca hcb (ec.trans (mul_le_mul_of_nonneg_left hcb hκ0))
    (ea.trans (mul_le_mul_of_nonneg_left (by linarith) hκ0)) eb

/-- Rounded places and values. -/
theorem acc_places {n : ℕ} (hn : n ≤ 20) {xh x ah a bh b yah ya ybh yb : ℝ} (hx : Acc F n xh x) (ha : Acc F n ah a) (hb : Acc F n bh b)
    (hx0 : 0 ≤ x) (ha0 : 0 < a) (hab : 2.5 * a ≤ b) (h1 : Acc F n yah ya) (h2 : Acc F n ybh yb) (hy0 : 0 < yb) (hy1 : 1.03 * yb ≤ ya)
    (hy2 : ya ≤ 2 * yb) :
    Acc F (9 * n + 24) (interp2 F xh ah bh yah ybh) (npInterp2 x a b ya yb) := by
  have hu := F.u_nonneg
  have hul := F.u_lt
  obtain ⟨q1, q2⟩ := place_close hn hx ha hb hx0 ha0 hab
  have hab' : a < b := by linarith
  obtain ⟨p0, p1⟩ := place_mem (x := x) hab'
  obtain ⟨r0, r1⟩ := place_mem (x := xh) q1
  have s1 : Acc F n (npInterp2 xh ah bh yah ybh) (npInterp2 xh ah bh ya yb) := acc_values q1 h1 h2 (by linarith) hy0.le
  have s2 : Acc F (8 * n + 9) (npInterp2 xh ah bh ya yb) (npInterp2 x a b ya yb) := by
    refine (Acc.of_rel_err (8 * n + 8) (by omega) ?_).weaken (by omega)
    rw [npInterp2_eq _ _ q1, npInterp2_eq _ _ hab']
    have e : (1 - place xh ah bh) * ya + place xh ah bh * yb - ((1 - place x a b) * ya + place x a b * yb) =
        -((place xh ah bh - place x a b) * (ya - yb)) := by ring
    have hv : yb ≤ (1 - place x a b) * ya + place x a b * yb := by
      have := mul_nonneg (by linarith : 0 ≤ 1 - place x a b) (by linarith : 0 ≤ ya - yb)
      linarith
    rw [e, abs_neg, abs_mul, abs_of_nonneg (by linarith : 0 ≤ ya - yb),
      abs_of_nonneg (by linarith : 0 ≤ (1 - place x a b) * ya + place x a b * yb)]
    push_cast
    have hk : (0 : ℝ) ≤ 8 * ((n + 1) * F.u) := by positivity
    have t1 := mul_le_mul_of_nonneg_right q2 (by linarith : 0 ≤ ya - yb)
    have t2 : 8 * (((n : ℝ) + 1) * F.u) * (ya - yb) ≤ 8 * ((n + 1) * F.u) * ((1 - place x a b) * ya + place x a b * yb) :=
      mul_le_mul_of_nonneg_left (by linarith) hk
    linarith
  -- the rounded values
  have y1 := h1.le (by omega)
  have y2 := h2.le (by omega)
  rw [abs_of_pos (by linarith : 0 < ya), abs_le] at y1
  rw [abs_of_pos hy0, abs_le] at y2
  have hn' : (n : ℝ) ≤ 20 := by exact_mod_cast hn
  have hn0 : (0 : ℝ) ≤ n := by positivity
  have hk1 : ((n : ℝ) + 1) * F.u ≤ 0.000021 := by
    calc ((n : ℝ) + 1) * F.u ≤ 21 * F.u := mul_le_mul_of_nonneg_right (by linarith) hu
      _ ≤ 0.000021 := by linarith
  have z1 := mul_le_mul_of_nonneg_right hk1 (by linarith : 0 ≤ ya)
  have z2 := mul_le_mul_of_nonneg_right hk1 hy0.le
  have s3 : Acc F 14 (interp2 F xh ah bh yah ybh) (npInterp2 xh ah bh yah ybh) :=
    acc_interp2 xh ah bh yah ybh q1 (h2.pos hy0) (by linarith) (by linarith)
  exact ((s3.trans s1).trans s2).weaken (by omega)

end Verif.Fl
