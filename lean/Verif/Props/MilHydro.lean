import Verif.Props.MilHdbk
import Mathlib.Algebra.BigOperators.Intervals
import Mathlib.Algebra.Order.BigOperators.Group.Finset

/-
Property C140: the weight of the air in the MIL-HDBK-310 profiles that come with the code.
-/

namespace Verif.Props
open Verif.Atmos Verif.Units Verif.Spec

noncomputable section

/-! ### Specification -/

/-- Weight per square metre of the air between two altitudes, with the mean of the densities at the ends and the
gravity (inverse square law, mean radius 6356766 m) in the middle. -/
def airWeight (z0 z1 d0 d1 : ℝ) : ℝ := 9.80665 * (6356766 / (6356766 + (z0 + z1) / 2)) ^ 2 * (z1 - z0) * ((d0 + d1) / 2)

/-- The pressure lost between the altitudes is the weight of the air between them, with a margin from -3.1 to
1 percent (the density is not linear in between, and the tables have four digits). -/
def Carries (z0 z1 p0 p1 d0 d1 : ℝ) : Prop :=
  0.969 * airWeight z0 z1 d0 d1 ≤ p0 - p1 ∧ p0 - p1 ≤ 1.01 * airWeight z0 z1 d0 d1

/-- What the profile answers at the `i`-th tabulated altitude (every 2 km) and at the next one agrees. -/
def HydroAt (o : Obs) (i : ℕ) : Prop :=
  ∃ p0 p1 d0 d1, press1 (.profile o) (2000 * i) = .ok p0 ∧ press1 (.profile o) (2000 * (i + 1)) = .ok p1 ∧
    dens1 (.profile o) (2000 * i) = .ok d0 ∧ dens1 (.profile o) (2000 * (i + 1)) = .ok d1 ∧
    Carries (2000 * i) (2000 * (i + 1)) p0 p1 d0 d1

/-- The layers (file, 10 percent profile or not, number of the layer) next to misprinted entries. -/
def misprints : List (String × String × String × Bool × ℕ) := [
  ("high", "dens", "10", false, 2), ("high", "dens", "10", false, 3), ("high", "dens", "10", false, 4),
  ("high", "dens", "10", true, 24), ("high", "dens", "10", true, 25),
  ("high", "dens", "5", false, 18), ("high", "dens", "5", false, 19), ("high", "dens", "5", false, 27),
  ("high", "dens", "5", false, 28), ("high", "dens", "5", false, 37), ("high", "dens", "5", false, 38),
  ("high", "temp", "20", true, 10), ("high", "temp", "20", true, 11), ("high", "temp", "20", true, 22),
  ("high", "temp", "20", true, 23), ("high", "temp", "20", true, 24), ("high", "temp", "20", true, 30),
  ("high", "temp", "20", true, 31), ("high", "temp", "20", true, 39),
  ("low", "dens", "10", false, 39), ("low", "dens", "20", false, 26), ("low", "dens", "20", false, 27),
  ("low", "dens", "5", false, 14), ("low", "dens", "5", false, 15),
  ("low", "dens", "5", true, 18), ("low", "dens", "5", true, 19), ("low", "dens", "5", true, 34)]

/-! ### The tables in rational arithmetic -/

/-- `airWeight` between neighbouring rows, in rationals. -/
def rowWeight (r0 r1 : ℚ × ℚ × ℚ) : ℚ :=
  980665 / 100000 * (6356766 / (6356766 + (1000 * r0.1 + 1000 * r1.1) / 2)) ^ 2 * (1000 * r1.1 - 1000 * r0.1) * ((r0.2.2 + r1.2.2) / 2)

/-- Pressure lost between neighbouring rows, in rationals. -/
def rowLoss (r0 r1 : ℚ × ℚ × ℚ) : ℚ := 28705287 / 100000 * r0.2.2 * r0.2.1 - 28705287 / 100000 * r1.2.2 * r1.2.1

theorem row_facts : ∀ hl ∈ ["high", "low"], ∀ td ∈ ["temp", "dens"], ∀ alt ∈ ["5", "10", "20"], ∀ ten ∈ [false, true],
    ∀ i ∈ List.range 40,
      ((969 / 1000 * rowWeight ((tableRows hl td alt ten).getD i 0) ((tableRows hl td alt ten).getD (i + 1) 0) ≤
          rowLoss ((tableRows hl td alt ten).getD i 0) ((tableRows hl td alt ten).getD (i + 1) 0) ∧
        rowLoss ((tableRows hl td alt ten).getD i 0) ((tableRows hl td alt ten).getD (i + 1) 0) ≤
          101 / 100 * rowWeight ((tableRows hl td alt ten).getD i 0) ((tableRows hl td alt ten).getD (i + 1) 0)) ↔
        (hl, td, alt, ten, i) ∉ misprints) ∧
      (rowLoss ((tableRows hl td alt ten).getD i 0) ((tableRows hl td alt ten).getD (i + 1) 0) < 0 ↔
        (hl, td, alt, ten, i) ∈ [("high", "dens", "10", true, 25), ("high", "dens", "5", false, 19),
          ("high", "dens", "5", false, 28), ("high", "dens", "5", false, 38), ("high", "temp", "20", true, 10),
          ("low", "dens", "5", false, 15)]) := by
  decide +kernel

/-! ### Queries at tabulated altitudes -/

theorem physical_rising {o : Obs} (ho : Physical o) : o.alt_m.Pairwise (· < ·) := by
  rw [ho.alts, List.pairwise_map]
  refine List.pairwise_lt_range.imp ?_
  intro a b hab
  have : (a:ℝ) < b := by exact_mod_cast hab
  linarith

theorem physical_len {o : Obs} (ho : Physical o) : o.alt_m.length = 41 := by rw [ho.alts]; simp

theorem physical_at {o : Obs} (ho : Physical o) (i : ℕ) (hi : i < 41) :
    press1 (.profile o) (2000 * i) = .ok (o.p_pa[i]'(by rw [ho.p_len]; exact hi)) ∧
    dens1 (.profile o) (2000 * i) = .ok (o.rho_kgpm3[i]'(by rw [ho.rho_len]; exact hi)) := by
  have hl := physical_len ho
  have hs := physical_rising ho
  have ex : o.alt_m[i]'(by omega) = 2000 * (i : ℝ) := by simp [ho.alts]
  have hm : (2000 * (i : ℝ)) ∈ o.alt_m := by rw [← ex]; exact List.getElem_mem _
  have ha := (C17_profile o (2000 * i) (List.ne_nil_of_mem hm)).2 ⟨⟨_, hm, le_refl _⟩, ⟨_, hm, le_refl _⟩⟩
  have hP := (C25_interpolation o.alt_m o.p_pa (by rw [hl, ho.p_len]) hs (by omega)).1 i (by omega)
  have hD := (C25_interpolation o.alt_m o.rho_kgpm3 (by rw [hl, ho.rho_len]) hs (by omega)).1 i (by omega)
  rw [ex] at hP hD
  constructor
  · have : airpress_pa (.profile o) (.scalar (2000 * i)) = .ok (.scalar (o.p_pa[i]'(by rw [ho.p_len]; exact hi))) := by
      unfold airpress_pa
      rw [ha]
      simp only [bind_ok, List.mapM_cons, List.mapM_nil, hP]
      rfl
    unfold press1; rw [this]; rfl
  · have : airdens_kgpm3 (.profile o) (.scalar (2000 * i)) = .ok (.scalar (o.rho_kgpm3[i]'(by rw [ho.rho_len]; exact hi))) := by
      unfold airdens_kgpm3
      rw [ha]
      simp only [bind_ok, List.mapM_cons, List.mapM_nil, hD]
      rfl
    unfold dens1; rw [this]; rfl

theorem hydro_iff {o : Obs} (ho : Physical o) (i : ℕ) (hi : i < 40) :
    HydroAt o i ↔ Carries (2000 * i) (2000 * (i + 1)) (o.p_pa[i]'(by rw [ho.p_len]; omega))
      (o.p_pa[i + 1]'(by rw [ho.p_len]; omega)) (o.rho_kgpm3[i]'(by rw [ho.rho_len]; omega))
      (o.rho_kgpm3[i + 1]'(by rw [ho.rho_len]; omega)) := by
  obtain ⟨e1, e2⟩ := physical_at ho i (by omega)
  obtain ⟨e3, e4⟩ := physical_at ho (i + 1) (by omega)
  push_cast at e3 e4
  constructor
  · rintro ⟨p0, p1, d0, d1, h1, h2, h3, h4, h5⟩
    rw [e1] at h1; rw [e3] at h2; rw [e2] at h3; rw [e4] at h4
    cases h1; cases h2; cases h3; cases h4
    exact h5
  · intro h
    exact ⟨_, _, _, _, e1, e3, e2, e4, h⟩

/-- A profile of the tables, with what its rows say. -/
theorem profile_of_rows (hl td alt : String) (ten : Bool) (h1 : hl ∈ ["high", "low"]) (h2 : td ∈ ["temp", "dens"])
    (h3 : alt ∈ ["5", "10", "20"]) :
    ∃ o, milProfile (tableRows hl td alt ten) = .ok o ∧ Physical o ∧
      ∀ i, i < 40 → (HydroAt o i ↔ (hl, td, alt, ten, i) ∉ misprints) ∧
        ((∃ p0 p1, press1 (.profile o) (2000 * i) = .ok p0 ∧ press1 (.profile o) (2000 * (i + 1)) = .ok p1 ∧ p0 < p1) ↔
          (hl, td, alt, ten, i) ∈ [("high", "dens", "10", true, 25), ("high", "dens", "5", false, 19),
          ("high", "dens", "5", false, 28), ("high", "dens", "5", false, 38), ("high", "temp", "20", true, 10),
          ("low", "dens", "5", false, 15)]) := by
  obtain ⟨hs, ht⟩ := table_facts hl h1 td h2 alt h3
  obtain ⟨a1, a2, -, -⟩ := ht ten (by cases ten <;> simp)
  obtain ⟨o, eo, po, tto, ro⟩ := milProfile_physical _ a1 a2
  refine ⟨o, eo, po, fun i hi => ?_⟩
  have R := row_facts hl h1 td h2 alt h3 ten (by cases ten <;> simp) i (by simpa using hi)
  have hlen : (tableRows hl td alt ten).length = 41 := by simpa using congrArg List.length a1
  obtain ⟨rows, hrows⟩ : ∃ rows, rows = tableRows hl td alt ten := ⟨_, rfl⟩
  rw [← hrows] at R hlen a1 tto ro
  have g : ∀ k, (hk : k < 41) → (rows.getD k 0).1 = 2 * (k : ℚ) ∧
      o.p_pa[k]'(by rw [po.p_len]; exact hk) = ((28705287 / 100000 * (rows.getD k 0).2.2 * (rows.getD k 0).2.1 : ℚ) : ℝ) ∧
      o.rho_kgpm3[k]'(by rw [po.rho_len]; exact hk) = (((rows.getD k 0).2.2 : ℚ) : ℝ) := by
    intro k hk
    have ek : rows.getD k 0 = rows[k]'(by omega) := by
      rw [List.getD_eq_getElem?_getD, List.getElem?_eq_getElem (by omega)]; rfl
    have e1 : (rows[k]'(by omega)).1 = 2 * (k : ℚ) := by
      have : (rows.map (·.1))[k]'(by simp; omega) = ((List.range 41).map (fun k : ℕ => 2 * (k : ℚ)))[k]'(by simp; omega) := by
        simp only [a1]
      simpa using this
    have e2 : o.rho_kgpm3[k]'(by rw [po.rho_len]; exact hk) = (((rows[k]'(by omega)).2.2 : ℚ) : ℝ) := by simp [ro]
    have e3 : o.temp_k[k]'(by rw [po.temp_len]; exact hk) = (((rows[k]'(by omega)).2.1 : ℚ) : ℝ) := by simp [tto]
    rw [ek]
    refine ⟨e1, ?_, e2⟩
    rw [po.gas k hk, e2, e3]
    push_cast
    norm_num
  obtain ⟨z0, p0, d0⟩ := g i (by omega)
  obtain ⟨z1, p1, d1⟩ := g (i + 1) (by omega)
  have hW : airWeight (2000 * i) (2000 * (i + 1)) (o.rho_kgpm3[i]'(by rw [po.rho_len]; omega))
      (o.rho_kgpm3[i + 1]'(by rw [po.rho_len]; omega)) = ((rowWeight (rows.getD i 0) (rows.getD (i + 1) 0) : ℚ) : ℝ) := by
    unfold airWeight rowWeight
    rw [d0, d1, z0, z1]
    push_cast
    norm_num
    left
    ring_nf
  have hL : o.p_pa[i]'(by rw [po.p_len]; omega) - o.p_pa[i + 1]'(by rw [po.p_len]; omega) =
      ((rowLoss (rows.getD i 0) (rows.getD (i + 1) 0) : ℚ) : ℝ) := by
    unfold rowLoss
    rw [p0, p1]
    push_cast
    ring
  constructor
  · rw [hydro_iff po i hi, ← R.1]
    unfold Carries
    rw [hW, hL]
    rw [show (0.969 : ℝ) = ((969 / 1000 : ℚ) : ℝ) by norm_num, show (1.01 : ℝ) = ((101 / 100 : ℚ) : ℝ) by norm_num]
    norm_cast
  · rw [← R.2]
    obtain ⟨e1, -⟩ := physical_at po i (by omega)
    obtain ⟨e3, -⟩ := physical_at po (i + 1) (by omega)
    push_cast at e3
    have k : (rowLoss (rows.getD i 0) (rows.getD (i + 1) 0) < 0) ↔
        o.p_pa[i]'(by rw [po.p_len]; omega) < o.p_pa[i + 1]'(by rw [po.p_len]; omega) := by
      rw [← sub_neg (a := o.p_pa[i]'(by rw [po.p_len]; omega)), hL]; norm_cast
    rw [k]
    constructor
    · rintro ⟨q0, q1, h1, h2, h3⟩
      rw [e1] at h1; rw [e3] at h2
      cases h1; cases h2
      exact h3
    · intro h
      exact ⟨_, _, e1, e3, h⟩

/-! ### C140 -/

/-- In all 24 profiles, the pressure lost over each layer of 2 km is the weight of the air in it, except in the 27 layers
next to misprinted entries. -/
theorem C140_layers (hl td alt : String) (h1 : hl ∈ ["high", "low"]) (h2 : td ∈ ["temp", "dens"])
    (h3 : alt ∈ ["5", "10", "20"]) :
    ∃ a b, mil_hdbk_310 hl td alt = .ok (some (a, b)) ∧ ∀ i, i < 40 →
      ((hl, td, alt, false, i) ∉ misprints → HydroAt a i) ∧ ((hl, td, alt, true, i) ∉ misprints → HydroAt b i) := by
  obtain ⟨hs, -⟩ := table_facts hl h1 td h2 alt h3
  obtain ⟨a, ea, -, Ha⟩ := profile_of_rows hl td alt false h1 h2 h3
  obtain ⟨b, eb, -, Hb⟩ := profile_of_rows hl td alt true h1 h2 h3
  exact ⟨a, b, mil_eq hl td alt a b hs ea eb, fun i hi => ⟨(Ha i hi).1.mpr, (Hb i hi).1.mpr⟩⟩

/-- In those 27 layers it is not. -/
theorem C140_layers_violated (hl td alt : String) (ten : Bool) (i : ℕ) (h : (hl, td, alt, ten, i) ∈ misprints) :
    ∃ a b, mil_hdbk_310 hl td alt = .ok (some (a, b)) ∧ ¬ HydroAt (if ten then b else a) i := by
  have hm : hl ∈ ["high", "low"] ∧ td ∈ ["temp", "dens"] ∧ alt ∈ ["5", "10", "20"] ∧ i < 40 := by
    have : ∀ x ∈ misprints, x.1 ∈ ["high", "low"] ∧ x.2.1 ∈ ["temp", "dens"] ∧ x.2.2.1 ∈ ["5", "10", "20"] ∧ x.2.2.2.2 < 40 := by
      decide
    exact this _ h
  obtain ⟨h1, h2, h3, hi⟩ := hm
  obtain ⟨hs, -⟩ := table_facts hl h1 td h2 alt h3
  obtain ⟨a, ea, -, Ha⟩ := profile_of_rows hl td alt false h1 h2 h3
  obtain ⟨b, eb, -, Hb⟩ := profile_of_rows hl td alt true h1 h2 h3
  refine ⟨a, b, mil_eq hl td alt a b hs ea eb, ?_⟩
  cases ten with
  | false => exact fun hh => ((Ha i hi).1.mp hh) h
  | true => exact fun hh => ((Hb i hi).1.mp hh) h

/-- Pressure rises with altitude in six of them. -/
theorem C140_pressure_violated (hl td alt : String) (ten : Bool) (i : ℕ)
    (h : (hl, td, alt, ten, i) ∈ [("high", "dens", "10", true, 25), ("high", "dens", "5", false, 19),
      ("high", "dens", "5", false, 28), ("high", "dens", "5", false, 38), ("high", "temp", "20", true, 10),
      ("low", "dens", "5", false, 15)]) :
    ∃ a b, mil_hdbk_310 hl td alt = .ok (some (a, b)) ∧ ∃ p0 p1, press1 (.profile (if ten then b else a)) (2000 * i) = .ok p0 ∧
      press1 (.profile (if ten then b else a)) (2000 * (i + 1)) = .ok p1 ∧ p0 < p1 := by
  have hm : hl ∈ ["high", "low"] ∧ td ∈ ["temp", "dens"] ∧ alt ∈ ["5", "10", "20"] ∧ i < 40 := by
    have : ∀ x ∈ [("high", "dens", "10", true, 25), ("high", "dens", "5", false, 19),
      ("high", "dens", "5", false, 28), ("high", "dens", "5", false, 38), ("high", "temp", "20", true, 10),
      ("low", "dens", "5", false, 15)], x.1 ∈ ["high", "low"] ∧ x.2.1 ∈ ["temp", "dens"] ∧ x.2.2.1 ∈ ["5", "10", "20"] ∧ x.2.2.2.2 < 40 := by
      decide
    exact this _ h
  obtain ⟨h1, h2, h3, hi⟩ := hm
  obtain ⟨hs, -⟩ := table_facts hl h1 td h2 alt h3
  obtain ⟨a, ea, -, Ha⟩ := profile_of_rows hl td alt false h1 h2 h3
  obtain ⟨b, eb, -, Hb⟩ := profile_of_rows hl td alt true h1 h2 h3
  refine ⟨a, b, mil_eq hl td alt a b hs ea eb, ?_⟩
  cases ten with
  | false => exact (Ha i hi).2.mpr h
  | true => exact (Hb i hi).2.mpr h

/-- A column of such layers carries its own weight within the same margin. -/
theorem C140_column (o : Obs) (d : ℕ → ℝ) (i j : ℕ) (hij : i < j)
    (hd : ∀ k, i ≤ k → k ≤ j → dens1 (.profile o) (2000 * k) = .ok (d k)) (h : ∀ k, i ≤ k → k < j → HydroAt o k) :
    ∃ p0 p1, press1 (.profile o) (2000 * i) = .ok p0 ∧ press1 (.profile o) (2000 * j) = .ok p1 ∧
      0.969 * ∑ k ∈ Finset.Ico i j, airWeight (2000 * k) (2000 * (k + 1)) (d k) (d (k + 1)) ≤ p0 - p1 ∧
      p0 - p1 ≤ 1.01 * ∑ k ∈ Finset.Ico i j, airWeight (2000 * k) (2000 * (k + 1)) (d k) (d (k + 1)) := by
  have step : ∀ k, i ≤ k → k < j → ∃ p0 p1, press1 (.profile o) (2000 * k) = .ok p0 ∧
      press1 (.profile o) (2000 * ((k + 1 : ℕ) : ℝ)) = .ok p1 ∧
      Carries (2000 * k) (2000 * (k + 1)) p0 p1 (d k) (d (k + 1)) := by
    intro k h1 h2
    obtain ⟨p0, p1, d0, d1, e1, e2, e3, e4, e5⟩ := h k h1 h2
    have f1 := hd k h1 (by omega)
    have f2 := hd (k + 1) (by omega) (by omega)
    rw [e3] at f1
    push_cast at f2 ⊢
    rw [e4] at f2
    cases f1; cases f2
    exact ⟨p0, p1, e1, e2, e5⟩
  induction j, hij using Nat.le_induction with
  | base =>
    obtain ⟨p0, p1, e1, e2, e3⟩ := step i le_rfl (by omega)
    refine ⟨p0, p1, e1, e2, ?_⟩
    simpa [Carries] using e3
  | succ j hj ih =>
    obtain ⟨p0, p1, e1, e2, e3, e4⟩ := ih (fun k a b => hd k a (by omega)) (fun k a b => h k a (by omega))
      (fun k a b => step k a (by omega))
    obtain ⟨q0, q1, g1, g2, g3, g4⟩ := step j (by omega) (by omega)
    rw [e2] at g1
    cases g1
    refine ⟨p0, q1, e1, g2, ?_, ?_⟩ <;> rw [Finset.sum_Ico_succ_top (by omega)] <;> push_cast at * <;> linarith

/-- Between the tabulated altitudes of such a layer, pressure falls in proportion to the altitude, by the mean weight of
the layer. -/
theorem C140_inside (o : Obs) (ho : Physical o) (i : ℕ) (hi : i < 40) (h : HydroAt o i) (x y : ℝ)
    (hx : 2000 * (i : ℝ) ≤ x) (hxy : x ≤ y) (hy : y ≤ 2000 * ((i : ℝ) + 1)) :
    ∃ p q d0 d1, press1 (.profile o) x = .ok p ∧ press1 (.profile o) y = .ok q ∧
      dens1 (.profile o) (2000 * i) = .ok d0 ∧ dens1 (.profile o) (2000 * (i + 1)) = .ok d1 ∧
      0.969 * ((y - x) / 2000 * airWeight (2000 * i) (2000 * (i + 1)) d0 d1) ≤ p - q ∧
      p - q ≤ 1.01 * ((y - x) / 2000 * airWeight (2000 * i) (2000 * (i + 1)) d0 d1) := by
  have hc := (hydro_iff ho i hi).mp h
  obtain ⟨-, e2⟩ := physical_at ho i (by omega)
  obtain ⟨-, e4⟩ := physical_at ho (i + 1) (by omega)
  push_cast at e4
  have hl := physical_len ho
  have hs := physical_rising ho
  have ex : o.alt_m[i]'(by omega) = 2000 * (i : ℝ) := by simp [ho.alts]
  have ey : o.alt_m[i + 1]'(by omega) = 2000 * ((i : ℝ) + 1) := by simp [ho.alts]
  have hm0 : (2000 * (i : ℝ)) ∈ o.alt_m := by rw [← ex]; exact List.getElem_mem _
  have hm1 : (2000 * ((i : ℝ) + 1)) ∈ o.alt_m := by rw [← ey]; exact List.getElem_mem _
  obtain ⟨p0, hp0⟩ : ∃ p0, p0 = o.p_pa[i]'(by rw [ho.p_len]; omega) := ⟨_, rfl⟩
  obtain ⟨p1, hp1⟩ : ∃ p1, p1 = o.p_pa[i + 1]'(by rw [ho.p_len]; omega) := ⟨_, rfl⟩
  have at_ : ∀ u, 2000 * (i : ℝ) ≤ u → u ≤ 2000 * ((i : ℝ) + 1) →
      press1 (.profile o) u = .ok (p0 + (p1 - p0) / 2000 * (u - 2000 * i)) := by
    intro u h0 h1
    have ha := (C17_profile o u (List.ne_nil_of_mem hm0)).2 ⟨⟨_, hm0, h0⟩, ⟨_, hm1, h1⟩⟩
    have hP := interp1d_at o.alt_m o.p_pa (by rw [hl, ho.p_len]) hs i (by omega) u (by rw [ex]; exact h0) (by rw [ey]; exact h1)
    rw [ex, ey, ← hp0, ← hp1] at hP
    have : airpress_pa (.profile o) (.scalar u) = .ok (.scalar (linSeg (2000 * i) p0 (2000 * (i + 1)) p1 u)) := by
      unfold airpress_pa
      rw [ha]
      simp only [bind_ok, List.mapM_cons, List.mapM_nil, hP]
      rfl
    unfold press1; rw [this]
    show Except.ok _ = _
    congr 1
    unfold linSeg
    have : 2000 * ((i : ℝ) + 1) - 2000 * i = 2000 := by ring
    rw [this]
    ring
  refine ⟨_, _, _, _, at_ x hx (hxy.trans hy), at_ y (hx.trans hxy) hy, e2, e4, ?_⟩
  rw [← hp0, ← hp1] at hc
  obtain ⟨c1, c2⟩ := hc
  have hk : 0 ≤ (y - x) / 2000 := by linarith
  have m1 := mul_le_mul_of_nonneg_left c1 hk
  have m2 := mul_le_mul_of_nonneg_left c2 hk
  have e : p0 + (p1 - p0) / 2000 * (x - 2000 * i) - (p0 + (p1 - p0) / 2000 * (y - 2000 * i)) = (y - x) / 2000 * (p0 - p1) := by ring
  rw [e]
  constructor <;> linarith

/-- The cold profile of 10 percent at 20 km: the whole column. -/
example : ∃ a b, mil_hdbk_310 "low" "temp" "20" = .ok (some (a, b)) ∧ ∀ i, i < 40 → HydroAt b i := by
  obtain ⟨a, b, h, H⟩ := C140_layers "low" "temp" "20" (by simp) (by simp) (by simp)
  refine ⟨a, b, h, fun i hi => (H i hi).2 ?_⟩
  simp [misprints]

/-- The 1 percent profile of low density at 20 km: the layers below and above 54 km. -/
example : ∃ a b, mil_hdbk_310 "low" "dens" "20" = .ok (some (a, b)) ∧ ¬ HydroAt a 26 :=
  C140_layers_violated "low" "dens" "20" false 26 (by simp [misprints])

example : ∃ a b, mil_hdbk_310 "low" "dens" "5" = .ok (some (a, b)) ∧ ∃ p0 p1, press1 (.profile a) (2000 * (15 : ℕ)) = .ok p0 ∧
    press1 (.profile a) (2000 * ((15 : ℕ) + 1)) = .ok p1 ∧ p0 < p1 :=
  C140_pressure_violated "low" "dens" "5" false 15 (by simp)

/-- From the ground to 80 km. -/
example (o : Obs) (ho : Physical o) (h : ∀ i, i < 40 → HydroAt o i) :
    ∃ (d : ℕ → ℝ) (p0 p1 : ℝ), press1 (.profile o) (2000 * (0 : ℕ)) = .ok p0 ∧ press1 (.profile o) (2000 * (40 : ℕ)) = .ok p1 ∧
      0.969 * ∑ k ∈ Finset.Ico (0 : ℕ) 40, airWeight (2000 * k) (2000 * (k + 1)) (d k) (d (k + 1)) ≤ p0 - p1 := by
  obtain ⟨p0, p1, e1, e2, e3, -⟩ := C140_column o (fun k => o.rho_kgpm3.getD k 0) 0 40 (by norm_num)
    (fun k _ hk => by
      rw [(physical_at ho k (by omega)).2, List.getD_eq_getElem?_getD, List.getElem?_eq_getElem (by rw [ho.rho_len]; omega)]; rfl)
    (fun k _ hk => h k hk)
  exact ⟨_, p0, p1, e1, e2, e3⟩

end

end Verif.Props
