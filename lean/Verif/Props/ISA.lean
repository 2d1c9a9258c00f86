import Verif.Lemmas.ISALayers
import Verif.Lemmas.ISABands
import Verif.Lemmas.ISAOffset
import Verif.Model.Atmosphere
import Verif.Spec.Basic

/-
Properties C11 - C16: the International Standard Atmosphere.
-/

namespace Verif.Props
open Verif.Atmos Verif.ISAL Verif.Layers

noncomputable section

/-! ### C11 -/

/-- The ISA temperature profile by its defining points (altitude in m, temperature in K): specification
as the piecewise linear function through them, constant above the last. -/
def isaTempSpec (h : ℝ) : ℝ :=
  288.15 - 0.0065 * min h 11000 + 0.001 * (min (max h 20000) 32000 - 20000) +
    0.0028 * (min (max h 32000) 47000 - 32000)

theorem isatemp_eq_spec (off h : ℝ) : isatemp off h = isaTempSpec h + off := by
  unfold isatemp isaTempSpec
  congr 1
  by_cases h1 : h < 11000
  · rw [if_pos (show h < Level1 from h1), min_eq_left h1.le, max_eq_right (by linarith),
      max_eq_right (by linarith)]
    norm_num [A1, B1]; ring
  rw [if_neg (show ¬ h < Level1 from h1), min_eq_right (not_lt.mp h1)]
  by_cases h2 : h < 20000
  · rw [if_pos (show h < Level2 from h2), max_eq_right (by linarith), max_eq_right (by linarith)]
    norm_num [A2, B2]
  rw [if_neg (show ¬ h < Level2 from h2), max_eq_left (not_lt.mp h2)]
  by_cases h3 : h < 32000
  · rw [if_pos (show h < Level3 from h3), max_eq_right (by linarith), min_eq_left (by linarith)]
    norm_num [A3, B3]; ring
  rw [if_neg (show ¬ h < Level3 from h3), max_eq_left (not_lt.mp h3), min_eq_right (not_lt.mp h3)]
  by_cases h4 : h < 47000
  · rw [if_pos (show h < Level4 from h4), min_eq_left (by linarith)]
    norm_num [A4, B4]; ring
  rw [if_neg (show ¬ h < Level4 from h4), min_eq_right (not_lt.mp h4)]
  norm_num [A5, B5]

/-- Splitting an altitude into its parts in the five layers. -/
theorem layer_split (x : ℝ) : min x 11000 + (min (max x 11000) 20000 - 11000)
    + (min (max x 20000) 32000 - 20000) + (min (max x 32000) 47000 - 32000) + (max x 47000 - 47000) = x := by
  rcases lt_or_ge x 11000 with h1 | h1
  · rw [min_eq_left h1.le, max_eq_right h1.le, max_eq_right (by linarith), max_eq_right (by linarith),
      max_eq_right (by linarith)]
    norm_num
  rw [min_eq_right h1, max_eq_left h1]
  rcases lt_or_ge x 20000 with h2 | h2
  · rw [min_eq_left h2.le, max_eq_right (by linarith), max_eq_right (by linarith),
      max_eq_right (by linarith)]
    norm_num
  rw [min_eq_right h2, max_eq_left h2]
  rcases lt_or_ge x 32000 with h3 | h3
  · rw [min_eq_left h3.le, max_eq_right (by linarith), max_eq_right (by linarith)]
    norm_num
  rw [min_eq_right h3, max_eq_left h3]
  rcases lt_or_ge x 47000 with h4 | h4
  · rw [min_eq_left h4.le, max_eq_right (by linarith)]
    norm_num
  rw [min_eq_right h4, max_eq_left h4]
  norm_num

/-- The temperature follows the defining points, shifted by the offset. -/
theorem C11_temperature_profile (off h : ℝ) :
    isatemp off h = isaTempSpec h + off := isatemp_eq_spec off h

/-- No jumps and at most 6.5 K per km between any two altitudes; continuity follows. -/
theorem C11_lipschitz (off h k : ℝ) : |isatemp off h - isatemp off k| ≤ 0.0065 * |h - k| := by
  wlog hk : h ≤ k generalizing h k
  · rw [abs_sub_comm, abs_sub_comm h k]; exact this k h (le_of_not_ge hk)
  rw [isatemp_eq_spec, isatemp_eq_spec, abs_sub_comm h k, abs_of_nonneg (sub_nonneg.mpr hk)]
  unfold isaTempSpec
  have a1 : min h 11000 ≤ min k 11000 := min_le_min hk le_rfl
  have a2 : min (max h 20000) 32000 ≤ min (max k 20000) 32000 :=
    min_le_min (max_le_max hk le_rfl) le_rfl
  have a3 : min (max h 32000) 47000 ≤ min (max k 32000) 47000 :=
    min_le_min (max_le_max hk le_rfl) le_rfl
  have a4 : min (max h 11000) 20000 ≤ min (max k 11000) 20000 :=
    min_le_min (max_le_max hk le_rfl) le_rfl
  have a5 : max h 47000 ≤ max k 47000 := max_le_max hk le_rfl
  have s1 := layer_split h
  have s2 := layer_split k
  rw [abs_le]
  constructor <;> linarith

theorem C11_continuous (off : ℝ) : Continuous (isatemp off) := by
  have : isatemp off = fun h => isaTempSpec h + off := funext (isatemp_eq_spec off)
  rw [this]; unfold isaTempSpec; fun_prop

theorem C11_bounds (off h : ℝ) :
    216.65 + off ≤ isatemp off h ∧ (0 ≤ h → isatemp off h ≤ 288.15 + off) := by
  rw [isatemp_eq_spec]
  unfold isaTempSpec
  have a1 : min h 11000 ≤ 11000 := min_le_right _ _
  have a2 : (20000:ℝ) ≤ min (max h 20000) 32000 := le_min (le_max_right _ _) (by norm_num)
  have a2' : min (max h 20000) 32000 ≤ 32000 := min_le_right _ _
  have a3 : (32000:ℝ) ≤ min (max h 32000) 47000 := le_min (le_max_right _ _) (by norm_num)
  have a3' : min (max h 32000) 47000 ≤ 47000 := min_le_right _ _
  constructor
  · linarith
  · intro h0
    rcases le_total h 11000 with q | q
    · rw [min_eq_left q, max_eq_right (by linarith), max_eq_right (by linarith)]
      norm_num; linarith
    · rw [min_eq_right q]; linarith

theorem C11_offset (off h : ℝ) : isatemp off h = isatemp 0 h + off := by
  rw [isatemp_eq_spec, isatemp_eq_spec]; ring

-- tropopause temperature on a day 10 K above standard
example : isatemp 10 15000 = 226.65 := by
  norm_num [isatemp, Level1, Level2, A2, B2]

/-! ### C12 -/

theorem C12_positive (h : ℝ) : 0 < isapress h := pw_pos lay_fp h

example : 0 < isapress 47000 := C12_positive 47000

/-- Of two altitudes at least 0.1 m apart the higher one has the lower pressure (all altitudes). -/
theorem C12_decreasing_apart (h k : ℝ) (hk : h + 0.1 ≤ k) : isapress k < isapress h :=
  pw_gap lay_fp h k hk

/-- Without a minimum distance: strictly decreasing on each of the blocks below 20 km, 20 to 47 km,
from 47 km, hence also across the boundaries at 11 km and 32 km. -/
theorem C12_decreasing_block (h k : ℝ) (hk : h < k)
    (hb : k < 20000 ∨ (20000 ≤ h ∧ k < 47000) ∨ 47000 ≤ h) : isapress k < isapress h :=
  pw_block lay_fp h k hk hb

example : isapress 31000.05 < isapress 31000 := C12_decreasing_block _ _ (by norm_num) (Or.inr (Or.inl (by norm_num)))

/-- The full claim is false: the pressure jumps up at 20 km and at 47 km. Every altitude in the last
millimetre below 20 km (centimetre below 47 km) has a lower pressure than the boundary itself. -/
theorem C12_decreasing_violated :
    (∀ h, 19999.999 ≤ h → h < 20000 → isapress h < isapress 20000) ∧
    (∀ h, 46999.99 ≤ h → h < 47000 → isapress h < isapress 47000) := pw_jumps lay_fp

/-- The pressure query of an atmosphere object does not depend on the temperature offset. -/
theorem C12_offset (off off' : ℝ) (q : NumArg) :
    airpress_pa (.isa off) q = airpress_pa (.isa off') q := rfl

/-- Queries answer element by element: any list of altitudes up to 50 km gives the list of their
pressures. -/
theorem C12_query (off : ℝ) (hs : List ℝ) (hne : 2 ≤ hs.length) (h : ∀ x ∈ hs, x ≤ 50000) :
    airpress_pa (.isa off) (.array hs) = .ok (.array (hs.map isapress)) ∧
    ∀ x, x ≤ 50000 → airpress_pa (.isa off) (.scalar x) = .ok (.scalar (isapress x)) := by
  constructor
  · have h1 : ¬ ∃ x ∈ hs, Level5 < x := by
      rintro ⟨x, hx, hlt⟩; have := h x hx; simp only [Level5] at hlt; linarith
    match hs, hne with
    | a :: b :: t, _ =>
      have h1' : (a :: b :: t).any (fun x => decide (x > Level5)) = false := by
        simp only [List.any_eq_false, decide_eq_true_eq]
        intro x hx hlt; exact h1 ⟨x, hx, hlt⟩
      simp only [airpress_pa, alttest, recastArray, h1', nditer]
      rfl
  · intro x hx
    have : ¬ (x > Level5) := by simp only [Level5]; linarith
    simp [airpress_pa, alttest, recastArray, this, nditer]
    rfl

example : ∃ h k : ℝ, h < k ∧ isapress h < isapress k :=
  ⟨19999.9995, 20000, by norm_num, C12_decreasing_violated.1 _ (by norm_num) (by norm_num)⟩
example : isapress 5000 < isapress 4999 := C12_decreasing_apart _ _ (by norm_num)

/-! ### C13 -/

theorem isadens_eq (off h : ℝ) (hT : 0 < isatemp off h) :
    isadens off h = isadens0 h * isatemp 0 h / isatemp off h := by
  have e : isatemp off h - off = isatemp 0 h := by rw [C11_offset off h]; ring
  have h0 : 0 < isatemp 0 h := by have := (C11_bounds 0 h).1; linarith
  have e2 : 1 + off / isatemp 0 h = isatemp off h / isatemp 0 h := by
    rw [C11_offset off h]; field_simp
  rw [isadens, e, e2]; field_simp

theorem C13_positive (off h : ℝ) (hT : 0 < isatemp off h) : 0 < isadens off h := by
  rw [isadens_eq off h hT]
  have h0 : 0 < isatemp 0 h := by have := (C11_bounds 0 h).1; linarith
  have := pw_pos lay_fd h
  rw [← isadens0_eq_pw] at this
  positivity

/-- Density times temperature does not depend on the offset (same pressure, ideal gas). -/
theorem C13_offset_law (off off' h : ℝ) (hT : 0 < isatemp off h) (hT' : 0 < isatemp off' h) :
    isadens off h * isatemp off h = isadens off' h * isatemp off' h := by
  rw [isadens_eq off h hT, isadens_eq off' h hT']
  field_simp

example : isadens 20 1000 * isatemp 20 1000 = isadens (-20) 1000 * isatemp (-20) 1000 :=
  C13_offset_law 20 (-20) 1000 (by norm_num [isatemp, Level1, A1, B1]) (by norm_num [isatemp, Level1, A1, B1])

theorem isadens_zero (h : ℝ) : isadens 0 h = isadens0 h := by
  simp [isadens]

/-- Standard day: of two altitudes at least 0.1 m apart the higher one has the lower density. -/
theorem C13_decreasing_apart (h k : ℝ) (hk : h + 0.1 ≤ k) : isadens 0 k < isadens 0 h := by
  rw [isadens_zero, isadens_zero]; exact pw_gap lay_fd h k hk

example : isadens 0 20000 < isadens 0 19999 := C13_decreasing_apart _ _ (by norm_num)

theorem isadens_layers (off h : ℝ) (hT : 0 < isatemp off h) : isadens off h =
    if h < 11000 then fd1 h * (A1 + B1 * h) / (A1 + B1 * h + off)
    else if h < 20000 then fd2 h * 216.65 / (216.65 + off)
    else if h < 32000 then fd3 h * (A3 + B3 * h) / (A3 + B3 * h + off)
    else if h < 47000 then fd4 h * (A4 + B4 * h) / (A4 + B4 * h + off)
    else fd5 h * 270.65 / (270.65 + off) := by
  rw [isadens_eq off h hT, isadens0, isatemp, isatemp]
  simp only [add_zero]
  have e2 : A2 + B2 * h = 216.65 := by simp [A2, B2]
  have e5 : A5 + B5 * h = 270.65 := by simp [A5, B5]
  rw [e2, e5]
  simp only [fd1, fd2, fd3, fd4, fd5]
  by_cases h1 : h < 11000
  · have g1 : h < Level1 := h1
    simp only [if_pos h1, if_pos g1]
  have g1 : ¬ h < Level1 := h1
  by_cases h2 : h < 20000
  · have g2 : h < Level2 := h2
    simp only [if_neg h1, if_neg g1, if_pos h2, if_pos g2]
  have g2 : ¬ h < Level2 := h2
  by_cases h3 : h < 32000
  · have g3 : h < Level3 := h3
    simp only [if_neg h1, if_neg g1, if_neg h2, if_neg g2, if_pos h3, if_pos g3]
  have g3 : ¬ h < Level3 := h3
  by_cases h4 : h < 47000
  · have g4 : h < Level4 := h4
    simp only [if_neg h1, if_neg g1, if_neg h2, if_neg g2, if_neg h3, if_neg g3, if_pos h4, if_pos g4]
  · have g4 : ¬ h < Level4 := h4
    simp only [if_neg h1, if_neg g1, if_neg h2, if_neg g2, if_neg h3, if_neg g3, if_neg h4, if_neg g4]

/-- On every day with an offset of at least -100 K the density is strictly decreasing on each of the
blocks below 20 km, 20 to 47 km, from 47 km, hence also across the boundaries at 11 km and 32 km. -/
theorem C13_decreasing_block (off h k : ℝ) (ho : -100 ≤ off) (hk : h < k)
    (hb : k < 20000 ∨ (20000 ≤ h ∧ k < 47000) ∨ 47000 ≤ h) : isadens off k < isadens off h := by
  have hT : ∀ x, 0 < isatemp off x := fun x => by have := (C11_bounds off x).1; linarith
  rw [isadens_layers off k (hT k), isadens_layers off h (hT h)]
  have c2 : 0 < 216.65 + off := by linarith
  have c5 : 0 < 270.65 + off := by linarith
  have m2 : ∀ {x y : ℝ}, x < y → fd2 y * 216.65 / (216.65 + off) < fd2 x * 216.65 / (216.65 + off) := fun hxy => by
    have := lay_fd.a2 hxy
    apply div_lt_div_of_pos_right _ c2; linarith
  have m5 : ∀ {x y : ℝ}, x < y → fd5 y * 270.65 / (270.65 + off) < fd5 x * 270.65 / (270.65 + off) := fun hxy => by
    have := lay_fd.a5 hxy
    apply div_lt_div_of_pos_right _ c5; linarith
  have e11 : A1 + B1 * 11000 = 216.65 := by norm_num [A1, B1]
  have e32 : A3 + B3 * 32000 = A4 + B4 * 32000 := by norm_num [A3, B3, A4, B4]
  have p32 : 0 < A4 + B4 * 32000 := by norm_num [A4, B4]
  have q32 : 0 < A4 + B4 * 32000 + off := by norm_num [A4, B4]; linarith
  rcases hb with hb | ⟨hb1, hb2⟩ | hb
  · by_cases k1 : k < 11000
    · rw [if_pos k1, if_pos (hk.trans k1)]; exact off1 ho hk k1.le
    rw [if_neg k1, if_pos hb]
    by_cases h1 : h < 11000
    · rw [if_pos h1]
      have x1 := off1 ho h1 le_rfl
      rw [e11] at x1
      have x2 : fd2 k * 216.65 / (216.65 + off) ≤ fd2 11000 * 216.65 / (216.65 + off) := by
        rcases (not_lt.mp k1).eq_or_lt with e | e
        · rw [e]
        · exact (m2 e).le
      have x3 : fd2 11000 * 216.65 / (216.65 + off) < fd1 11000 * 216.65 / (216.65 + off) := by
        have := fd_c11
        apply div_lt_div_of_pos_right _ c2; linarith
      linarith
    · rw [if_neg h1, if_pos (by linarith)]; exact m2 hk
  · have hh : ¬ h < 20000 := not_lt.mpr hb1
    have hh1 : ¬ h < 11000 := by linarith
    have kk : ¬ k < 20000 := by linarith
    have kk1 : ¬ k < 11000 := by linarith
    rw [if_neg kk1, if_neg kk, if_neg hh1, if_neg hh, if_pos hb2, if_pos (show h < 47000 by linarith)]
    by_cases k3 : k < 32000
    · rw [if_pos k3, if_pos (hk.trans k3)]; exact off3 (by linarith) hb1 hk k3.le
    rw [if_neg k3]
    by_cases h3 : h < 32000
    · rw [if_pos h3]
      have x1 := off3 (off := off) (by linarith) hb1 h3 le_rfl
      rw [e32] at x1
      have x2 : fd4 k * (A4 + B4 * k) / (A4 + B4 * k + off) ≤
          fd4 32000 * (A4 + B4 * 32000) / (A4 + B4 * 32000 + off) := by
        rcases (not_lt.mp k3).eq_or_lt with e | e
        · rw [e]
        · exact (off4 (by linarith) le_rfl e hb2.le).le
      have x3 : fd4 32000 * (A4 + B4 * 32000) / (A4 + B4 * 32000 + off) <
          fd3 32000 * (A4 + B4 * 32000) / (A4 + B4 * 32000 + off) := by
        apply div_lt_div_of_pos_right _ q32
        exact mul_lt_mul_of_pos_right fd_c32 p32
      linarith
    · rw [if_neg h3]; exact off4 (by linarith) (not_lt.mp h3) hk hb2.le
  · rw [if_neg (by linarith), if_neg (by linarith), if_neg (by linarith), if_neg (by linarith),
      if_neg (by linarith), if_neg (by linarith), if_neg (by linarith), if_neg (by linarith)]
    exact m5 hk

/-- The full claim is false on every day: the density jumps up at 20 km whatever the offset, and on the
standard day also at 47 km. -/
theorem C13_decreasing_violated :
    (∀ off h, 0 < 216.65 + off → 19999.999 ≤ h → h < 20000 → isadens off h < isadens off 20000) ∧
    (∀ h, 46999.99 ≤ h → h < 47000 → isadens 0 h < isadens 0 47000) := by
  constructor
  · intro off h ho h1 h2
    have hT : ∀ x, 0 < isatemp off x := fun x => by have := (C11_bounds off x).1; linarith
    rw [isadens_layers off h (hT h), isadens_layers off 20000 (hT _), if_neg (by linarith), if_pos h2,
      if_neg (by norm_num), if_neg (by norm_num), if_pos (by norm_num)]
    have e : A3 + B3 * 20000 = 216.65 := by norm_num [A3, B3]
    rw [e]
    apply div_lt_div_of_pos_right _ ho
    have := lay_fd.a2.antitone h1
    have := fd_j20
    linarith
  · simp only [isadens_zero]
    exact (pw_jumps lay_fd).2

example : isadens 20 19999.9995 < isadens 20 20000 := C13_decreasing_violated.1 _ _ (by norm_num) (by norm_num) (by norm_num)

/-- Far enough below the standard temperature the density rises with altitude even inside the first
layer: at an offset of -200 K the air at 10 km is denser than at 9 km. -/
theorem C13_decreasing_cold_violated : isadens (-200) 9000 < isadens (-200) 10000 := by
  have t9 : 0 < isatemp (-200) 9000 := by norm_num [isatemp, Level1, A1, B1]
  have t10 : 0 < isatemp (-200) 10000 := by norm_num [isatemp, Level1, A1, B1]
  rw [isadens_layers _ _ t9, isadens_layers _ _ t10, if_pos (by norm_num), if_pos (by norm_num)]
  have h1 := p_fd1 (h := 9000) (by norm_num)
  have hr : fd1 9000 * (0.85 : ℝ) ≤ fd1 10000 := by
    have v9 : I1 + J1 * 9000 = 0.835905274 := by norm_num [I1, J1]
    have v10 : I1 + J1 * 10000 = 0.81224586 := by norm_num [I1, J1]
    have hb : fd1 10000 = fd1 9000 * (0.81224586 / 0.835905274 : ℝ) ^ L1 := by
      unfold fd1
      rw [v9, v10, Real.div_rpow (by norm_num) (by norm_num),
        mul_div_cancel₀ _ (Real.rpow_pos_of_pos (by norm_num) _).ne']
    have hc : (0.85:ℝ) ≤ (0.81224586 / 0.835905274 : ℝ) ^ L1 := by
      have h5 : (0.81224586 / 0.835905274 : ℝ) ^ (5:ℝ) ≤ (0.81224586 / 0.835905274 : ℝ) ^ L1 :=
        Real.rpow_le_rpow_of_exponent_ge (by norm_num) (by norm_num) (by norm_num [L1])
      have h6 : (0.81224586 / 0.835905274 : ℝ) ^ (5:ℝ) = (0.81224586 / 0.835905274 : ℝ) ^ 5 := by
        rw [show (5:ℝ) = ((5:ℕ):ℝ) by norm_num, Real.rpow_natCast]
      rw [h6] at h5
      refine le_trans ?_ h5
      norm_num
    rw [hb]
    exact mul_le_mul_of_nonneg_left hc h1.le
  have e9 : A1 + B1 * 9000 = 229.65 := by norm_num [A1, B1]
  have e10 : A1 + B1 * 10000 = 223.15 := by norm_num [A1, B1]
  rw [e9, e10, div_lt_div_iff₀ (by norm_num) (by norm_num)]
  norm_num at hr ⊢
  linarith

example : isadens 35 12000 < isadens 35 10999.99 :=
  C13_decreasing_block _ _ _ (by norm_num) (by norm_num) (Or.inl (by norm_num))

/-- A warmer day gives thinner air at the same altitude. -/
theorem C13_offset_order (off off' h : ℝ) (hT : 0 < isatemp off h) (ho : off < off') :
    isadens off' h < isadens off h := by
  have hT' : 0 < isatemp off' h := by
    rw [C11_offset] at hT ⊢; linarith
  have hp := C13_positive off h hT
  have hp' := C13_positive off' h hT'
  have := C13_offset_law off off' h hT hT'
  have hlt : isatemp off h < isatemp off' h := by
    rw [C11_offset off, C11_offset off']; linarith
  by_contra hc
  have := not_lt.mp hc
  nlinarith

example : (0:ℝ) < isatemp (-50) 15000 := by
  norm_num [isatemp, Level1, Level2, A2, B2]

/-! ### C14 -/

theorem rel_of_log {x ε : ℝ} (hx : 0 < x) (h1 : -ε ≤ Real.log x) (h2 : Real.log x ≤ ε / (1 + ε))
    (hε : 0 < ε) : |x - 1| ≤ ε := by
  have e : x = Real.exp (Real.log x) := (Real.exp_log hx).symm
  have lo := Real.add_one_le_exp (Real.log x)
  have hi := Real.add_one_le_exp (-Real.log x)
  rw [← e] at lo
  rw [Real.exp_neg, ← e] at hi
  have hd : ε / (1 + ε) = 1 - 1 / (1 + ε) := by field_simp; ring
  have : 1 / (1 + ε) ≤ x⁻¹ := by linarith
  have : x ≤ 1 + ε := by
    rw [one_div] at this
    exact (inv_le_inv₀ (by linarith) hx).mp this
  rw [abs_le]; constructor <;> linarith

/-- Logarithm of a quotient of positive linear functions is bracketed once the quotient is. -/
theorem log_quot_bounds {u v q1 q2 a b : ℝ} (hv : 0 < v) (hq : 0 < q1) (h1 : q1 * v ≤ u) (h2 : u ≤ q2 * v)
    (ha : a ≤ Real.log q1) (hb : Real.log q2 ≤ b) :
    a ≤ Real.log u - Real.log v ∧ Real.log u - Real.log v ≤ b := by
  have hu : 0 < u := lt_of_lt_of_le (by positivity) h1
  rw [← Real.log_div hu.ne' hv.ne']
  constructor
  · exact ha.trans (Real.log_le_log hq (by rwa [le_div_iff₀ hv]))
  · refine le_trans (Real.log_le_log (by positivity) ?_) hb
    rwa [div_le_iff₀ hv]

theorem gas_log1 (h : ℝ) (h1 : -5000 ≤ h) (h2 : h ≤ 11000) :
    -2.9e-7 ≤ Real.log (fp1 h) - Real.log (fd1 h) - Real.log (A1 + B1 * h) - Real.log R_JPKGPK ∧
    Real.log (fp1 h) - Real.log (fd1 h) - Real.log (A1 + B1 * h) - Real.log R_JPKGPK ≤ 2.9e-7 := by
  rw [log_fp1 (by linarith), log_fd1 (by linarith)]
  have hV := pos_V1 (h := h) (by linarith)
  have hT : 0 < A1 + B1 * h := by norm_num [A1, B1]; linarith
  have b1 := log_quot_bounds (u := C1 + D1 * h) (v := I1 + J1 * h) (q1 := 8.544643389) (q2 := 8.5446435) hV
    (by norm_num) (by simp only [C1, D1, I1, J1]; norm_num; linarith)
    (by simp only [C1, D1, I1, J1]; norm_num; linarith) ISANum.log_q11.1 ISANum.log_q12.2
  have b2 := log_quot_bounds (u := I1 + J1 * h) (v := A1 + B1 * h) (q1 := 0.00363990974382) (q2 := 0.00363990977702) hT
    (by norm_num) (by simp only [A1, B1, I1, J1]; norm_num; linarith)
    (by simp only [A1, B1, I1, J1]; norm_num; linarith) ISANum.log_r11.1 ISANum.log_r12.2
  have b3 := ISANum.log_R
  have e : E1 * Real.log (C1 + D1 * h) - L1 * Real.log (I1 + J1 * h) =
      E1 * (Real.log (C1 + D1 * h) - Real.log (I1 + J1 * h)) + Real.log (I1 + J1 * h) := by
    simp only [E1, L1]; ring
  rw [e]
  generalize Real.log (C1 + D1 * h) - Real.log (I1 + J1 * h) = x at *
  simp only [E1, R_JPKGPK]
  constructor
  · have := b1.1; have := b1.2; have := b2.1; have := b3.2; norm_num at *; linarith
  · have := b1.1; have := b1.2; have := b2.2; have := b3.1; norm_num at *; linarith

theorem gas_log3 (h : ℝ) (h1 : 20000 ≤ h) (h2 : h ≤ 32000) :
    -2.9e-7 ≤ Real.log (fp3 h) - Real.log (fd3 h) - Real.log (A3 + B3 * h) - Real.log R_JPKGPK ∧
    Real.log (fp3 h) - Real.log (fd3 h) - Real.log (A3 + B3 * h) - Real.log R_JPKGPK ≤ 2.9e-7 := by
  rw [log_fp3 (by linarith), log_fd3 (by linarith)]
  have hV := pos_V3 (h := h) (by linarith)
  have hT : 0 < A3 + B3 * h := by norm_num [A3, B3]; linarith
  have b1 := log_quot_bounds (u := C3 + D3 * h) (v := I3 + J3 * h) (q1 := 0.7253712367) (q2 := 0.7253712372) hV
    (by norm_num) (by simp only [C3, D3, I3, J3]; norm_num; linarith)
    (by simp only [C3, D3, I3, J3]; norm_num; linarith) ISANum.log_q31.1 ISANum.log_q32.2
  have b2 := log_quot_bounds (u := I3 + J3 * h) (v := A3 + B3 * h) (q1 := 0.004946) (q2 := 0.004946) hT
    (by norm_num) (by simp only [A3, B3, I3, J3]; norm_num; linarith)
    (by simp only [A3, B3, I3, J3]; norm_num; linarith) ISANum.log_r3.1 ISANum.log_r3.2
  have b3 := ISANum.log_R
  have e : E3 * Real.log (C3 + D3 * h) - L3 * Real.log (I3 + J3 * h) =
      E3 * (Real.log (C3 + D3 * h) - Real.log (I3 + J3 * h)) + Real.log (I3 + J3 * h) := by
    simp only [E3, L3]; ring
  rw [e]
  generalize Real.log (C3 + D3 * h) - Real.log (I3 + J3 * h) = x at *
  simp only [E3, R_JPKGPK]
  constructor
  · have := b1.1; have := b1.2; have := b2.1; have := b3.2; norm_num at *; linarith
  · have := b1.1; have := b1.2; have := b2.2; have := b3.1; norm_num at *; linarith

theorem gas_log4 (h : ℝ) (h1 : 32000 ≤ h) (h2 : h ≤ 47000) :
    -2.9e-7 ≤ Real.log (fp4 h) - Real.log (fd4 h) - Real.log (A4 + B4 * h) - Real.log R_JPKGPK ∧
    Real.log (fp4 h) - Real.log (fd4 h) - Real.log (A4 + B4 * h) - Real.log R_JPKGPK ≤ 2.9e-7 := by
  rw [log_fp4 (by linarith), log_fd4 (by linarith)]
  have hV := pos_V4 (h := h) (by linarith)
  have hT : 0 < A4 + B4 * h := by norm_num [A4, B4]; linarith
  have b1 := log_quot_bounds (u := C4 + D4 * h) (v := I4 + J4 * h) (q1 := 0.4138601064) (q2 := 0.4138601074) hV
    (by norm_num) (by simp only [C4, D4, I4, J4]; norm_num; linarith)
    (by simp only [C4, D4, I4, J4]; norm_num; linarith) ISANum.log_q41.1 ISANum.log_q42.2
  have b2 := log_quot_bounds (u := I4 + J4 * h) (v := A4 + B4 * h) (q1 := 0.00606925061884) (q2 := 0.00606925063366) hT
    (by norm_num) (by simp only [A4, B4, I4, J4]; norm_num; linarith)
    (by simp only [A4, B4, I4, J4]; norm_num; linarith) ISANum.log_r41.1 ISANum.log_r42.2
  have b3 := ISANum.log_R
  have e : E4 * Real.log (C4 + D4 * h) - L4 * Real.log (I4 + J4 * h) =
      E4 * (Real.log (C4 + D4 * h) - Real.log (I4 + J4 * h)) + Real.log (I4 + J4 * h) := by
    simp only [E4, L4]; ring
  rw [e]
  generalize Real.log (C4 + D4 * h) - Real.log (I4 + J4 * h) = x at *
  simp only [E4, R_JPKGPK]
  constructor
  · have := b1.1; have := b1.2; have := b2.1; have := b3.2; norm_num at *; linarith
  · have := b1.1; have := b1.2; have := b2.2; have := b3.1; norm_num at *; linarith

theorem gas_log2 (h : ℝ) :
    -2.9e-7 ≤ Real.log (fp2 h) - Real.log (fd2 h) - Real.log (A2 + B2 * h) - Real.log R_JPKGPK ∧
    Real.log (fp2 h) - Real.log (fd2 h) - Real.log (A2 + B2 * h) - Real.log R_JPKGPK ≤ 2.9e-7 := by
  rw [log_fp2, log_fd2]
  have b1 := ISANum.log_F2
  have b2 := ISANum.log_M2
  have b3 := ISANum.log_T2
  have b4 := ISANum.log_R
  have e : A2 + B2 * h = 216.65 := by simp [A2, B2]
  rw [e]
  simp only [F2, M2, G2, N2, R_JPKGPK]
  norm_num at *
  constructor <;> linarith [b1.1, b1.2, b2.1, b2.2, b3.1, b3.2, b4.1, b4.2]

theorem gas_log5 (h : ℝ) :
    -2.9e-7 ≤ Real.log (fp5 h) - Real.log (fd5 h) - Real.log (A5 + B5 * h) - Real.log R_JPKGPK ∧
    Real.log (fp5 h) - Real.log (fd5 h) - Real.log (A5 + B5 * h) - Real.log R_JPKGPK ≤ 2.9e-7 := by
  rw [log_fp5, log_fd5]
  have b1 := ISANum.log_F5
  have b2 := ISANum.log_M5
  have b3 := ISANum.log_T5
  have b4 := ISANum.log_R
  have e : A5 + B5 * h = 270.65 := by simp [A5, B5]
  rw [e]
  simp only [F5, M5, G5, N5, R_JPKGPK]
  norm_num at *
  constructor <;> linarith [b1.1, b1.2, b2.1, b2.2, b3.1, b3.2, b4.1, b4.2]

/-- Pressure, density and temperature of the ISA satisfy the ideal gas law to 3e-7, for every altitude
from -5 km (there is no upper limit in the formulas) and every offset with positive temperature. -/
theorem C14_ideal_gas (off h : ℝ) (hh : -5000 ≤ h) (hT : 0 < isatemp off h) :
    |isapress h - 287.05287 * isadens off h * isatemp off h| ≤
      3e-7 * (287.05287 * isadens off h * isatemp off h) := by
  have h0 : 0 < isatemp 0 h := by have := (C11_bounds 0 h).1; linarith
  have hd0 : 0 < isadens0 h := pw_pos lay_fd h
  have hp : 0 < isapress h := C12_positive h
  have e : isadens off h * isatemp off h = isadens0 h * isatemp 0 h := by
    rw [isadens_eq off h hT]; field_simp
  rw [mul_assoc, e]
  have hR : (0:ℝ) < R_JPKGPK := by norm_num [R_JPKGPK]
  have key : -2.9e-7 ≤ Real.log (isapress h) - Real.log (isadens0 h) - Real.log (isatemp 0 h)
        - Real.log R_JPKGPK ∧
      Real.log (isapress h) - Real.log (isadens0 h) - Real.log (isatemp 0 h)
        - Real.log R_JPKGPK ≤ 2.9e-7 := by
    unfold isapress isadens0 isatemp
    rw [add_zero]
    by_cases h1 : h < Level1
    · simp only [if_pos h1]; exact gas_log1 h hh (le_of_lt h1)
    simp only [if_neg h1]
    by_cases h2 : h < Level2
    · simp only [if_pos h2]; exact gas_log2 h
    simp only [if_neg h2]
    by_cases h3 : h < Level3
    · simp only [if_pos h3]; exact gas_log3 h (not_lt.mp h2) (le_of_lt h3)
    simp only [if_neg h3]
    by_cases h4 : h < Level4
    · simp only [if_pos h4]; exact gas_log4 h (not_lt.mp h3) (le_of_lt h4)
    simp only [if_neg h4]
    exact gas_log5 h
  set q := isapress h / (R_JPKGPK * (isadens0 h * isatemp 0 h)) with hq
  have hq0 : 0 < q := by positivity
  have hlog : Real.log q = Real.log (isapress h) - Real.log (isadens0 h) - Real.log (isatemp 0 h)
        - Real.log R_JPKGPK := by
    rw [hq, Real.log_div hp.ne' (by positivity), Real.log_mul hR.ne' (by positivity),
      Real.log_mul hd0.ne' h0.ne']
    ring
  have := rel_of_log (x := q) (ε := 3e-7) hq0 (by rw [hlog]; linarith [key.1])
    (by rw [hlog]; refine key.2.trans ?_; norm_num) (by norm_num)
  have e2 : isapress h - 287.05287 * (isadens0 h * isatemp 0 h) =
      (q - 1) * (R_JPKGPK * (isadens0 h * isatemp 0 h)) := by
    rw [hq]; field_simp; simp only [R_JPKGPK]; ring
  rw [e2, abs_mul, abs_of_pos (show 0 < R_JPKGPK * (isadens0 h * isatemp 0 h) by positivity)]
  exact mul_le_mul_of_nonneg_right this (by positivity)

example : (-5000:ℝ) ≤ 25000 ∧ (0:ℝ) < isatemp (-20) 25000 := by
  norm_num [isatemp, Level1, Level2, Level3, A3, B3]

/-! ### C15 -/

theorem isapressalt_eq (p : ℝ) : isapressalt p = pwinv pLevel1 pLevel2 pLevel3 pLevel4
    (fun p => (p ^ (1 / E1) - C1) / D1) (fun p => (1 / G2) * Real.log (1 + (p / F2 - 1)))
    (fun p => (p ^ (1 / E3) - C3) / D3) (fun p => (p ^ (1 / E4) - C4) / D4)
    (fun p => (1 / G5) * Real.log (1 + (p / F5 - 1))) p := rfl

/-- Exact inversion outside four narrow bands: a nanometre above 11 km and above 32 km, five
centimetres below 20 km and below 47 km. -/
theorem C15_exact_outside (h : ℝ)
    (hb : h < 11000 ∨ (11000 + 1e-9 ≤ h ∧ h ≤ 19999.95) ∨ (20000 ≤ h ∧ h < 32000) ∨
      (32000 + 1e-9 ≤ h ∧ h ≤ 46999.95) ∨ 47000 ≤ h) :
    isapressalt (isapress h) = h := by
  rw [isapressalt_eq, isapress_eq_pw]; exact pwinv_exact lay_fp inv_fp h hb

/-- The exact set of failures. Four altitudes `b1` to `b4` mark the ends of the bands: the pressure
altitude of the pressure at `h` is `h` if and only if `h` lies in none of `[11000, b1)`, `[b2, 20000)`,
`[32000, b3)`, `[b4, 47000)`, and all four bands are non-empty. -/
theorem C15_exact_iff : ∃ b1 b2 b3 b4 : ℝ,
    (11000 < b1 ∧ b1 ≤ 11000 + 1e-9) ∧ (19999.95 < b2 ∧ b2 < 19999.999) ∧
    (32000 < b3 ∧ b3 ≤ 32000 + 1e-9) ∧ (46999.95 < b4 ∧ b4 < 46999.99) ∧
    ∀ h, isapressalt (isapress h) = h ↔
      ¬ ((11000 ≤ h ∧ h < b1) ∨ (b2 ≤ h ∧ h < 20000) ∨ (32000 ≤ h ∧ h < b3) ∨ (b4 ≤ h ∧ h < 47000)) := by
  obtain ⟨b1, b2, b3, b4, B⟩ := band_fp
  obtain ⟨u1, u2, u3, u4⟩ := band_bounds lay_fp inv_fp B
  refine ⟨b1, b2, b3, b4, ⟨?_, u1⟩, u2, ⟨?_, u3⟩, u4, fun h => ?_⟩
  · by_contra hc
    have := lay_fp.a2.antitone (not_lt.mp hc); have := B.e1; have := fp_v11; linarith
  · by_contra hc
    have := lay_fp.a4.antitoneOn (show b3 ∈ Set.Ici 0 from B.n3) (show (32000:ℝ) ∈ Set.Ici 0 by simp) (not_lt.mp hc)
    have := B.e3; have := fp_v32; linarith
  · rw [isapressalt_eq, isapress_eq_pw]; exact pwinv_iff lay_fp inv_fp B h

/-- Everywhere, including the bands, the returned altitude is within 0.1 m. -/
theorem C15_close (h : ℝ) : |isapressalt (isapress h) - h| ≤ 0.1 := by
  rw [isapressalt_eq, isapress_eq_pw]; exact pwinv_close lay_fp inv_fp h

/-- A millimetre below 20 km, where the result is not exact. -/
example : |isapressalt (isapress 19999.999) - 19999.999| ≤ 0.1 := C15_close _

/-- Inside the bands the altitude is wrong: below 20 km and 47 km the result is on the other side of
the boundary; at exactly 11 km and exactly 32 km it is above the boundary. -/
theorem C15_exact_violated :
    (∀ h, 19999.999 ≤ h → h < 20000 → 20000 ≤ isapressalt (isapress h)) ∧
    (∀ h, 46999.99 ≤ h → h < 47000 → 47000 ≤ isapressalt (isapress h)) ∧
    isapressalt (isapress 11000) ≠ 11000 ∧ isapressalt (isapress 32000) ≠ 32000 := by
  refine ⟨fun h => ?_, fun h => ?_, ?_, ?_⟩
  · rw [isapressalt_eq, isapress_eq_pw]; exact (pwinv_wrong lay_fp inv_fp h).1
  · rw [isapressalt_eq, isapress_eq_pw]; exact (pwinv_wrong lay_fp inv_fp h).2
  · intro hc
    have e : isapress 11000 = fp2 11000 := by
      rw [isapress_eq_pw]; unfold pw; norm_num
    have e1 : isapressalt (fp2 11000) = ((fp2 11000) ^ (1 / E1) - C1) / D1 := by
      unfold isapressalt; rw [if_pos fp_v11]
    rw [e, e1] at hc
    have hD : D1 ≠ 0 := by norm_num [D1]
    have h2 : (fp2 11000) ^ (1 / E1) = C1 + D1 * 11000 := by field_simp at hc; linarith
    have h3 : fp1 11000 = fp2 11000 := by
      unfold fp1
      rw [← h2, ← Real.rpow_mul (p_fp2 _).le, one_div_mul_cancel (by norm_num [E1]), Real.rpow_one]
    have := fp_c11
    linarith
  · intro hc
    have e : isapress 32000 = fp4 32000 := by
      rw [isapress_eq_pw]; unfold pw; norm_num
    have n1 : fp4 32000 < fp3 32000 := fp_c32
    have n2 : fp3 32000 < fp3 20000 := lay_fp.a3 (by simp) (by simp) (by norm_num)
    have n3 := fp_t2gt
    have n4 : pLevel2 < pLevel1 := by norm_num [pLevel2, pLevel1]
    have e1 : isapressalt (fp4 32000) = ((fp4 32000) ^ (1 / E3) - C3) / D3 := by
      unfold isapressalt
      rw [if_neg (by linarith), if_neg (by linarith), if_pos fp_v32]
    rw [e, e1] at hc
    have hD : D3 ≠ 0 := by norm_num [D3]
    have h2 : (fp4 32000) ^ (1 / E3) = C3 + D3 * 32000 := by field_simp at hc; linarith
    have h3 : fp3 32000 = fp4 32000 := by
      unfold fp3
      rw [← h2, ← Real.rpow_mul (p_fp4 (by norm_num)).le, one_div_mul_cancel (by norm_num [E3]),
        Real.rpow_one]
    linarith

example : isapressalt (isapress 35000) = 35000 :=
  C15_exact_outside _ (Or.inr (Or.inr (Or.inr (Or.inl ⟨by norm_num, by norm_num⟩))))

/-! ### C16 -/

theorem isadensalt_single (d : ℝ) : isadensalt [d] = .ok [pwinv dLevel1 dLevel2 dLevel3 dLevel4
    (fun p => (p ^ (1 / L1) - I1) / J1) (fun p => (1 / N2) * Real.log (1 + (p / M2 - 1)))
    (fun p => (p ^ (1 / L3) - I3) / J3) (fun p => (p ^ (1 / L4) - I4) / J4)
    (fun p => (1 / N5) * Real.log (1 + (p / M5 - 1))) d] := by
  have : isadensalt1 [d] d = .ok (pwinv dLevel1 dLevel2 dLevel3 dLevel4
    (fun p => (p ^ (1 / L1) - I1) / J1) (fun p => (1 / N2) * Real.log (1 + (p / M2 - 1)))
    (fun p => (p ^ (1 / L3) - I3) / J3) (fun p => (p ^ (1 / L4) - I4) / J4)
    (fun p => (1 / N5) * Real.log (1 + (p / M5 - 1))) d) := by
    unfold isadensalt1 pwinv
    split_ifs <;> first | rfl | (simp only [*, if_true, if_false])
  simp only [isadensalt, List.mapM_cons, List.mapM_nil, this]
  rfl

/-- Exact inversion of the standard-day density outside the bands. -/
theorem C16_exact_outside (h : ℝ)
    (hb : h < 11000 ∨ (11000 + 1e-9 ≤ h ∧ h ≤ 19999.95) ∨ (20000 ≤ h ∧ h < 32000) ∨
      (32000 + 1e-9 ≤ h ∧ h ≤ 46999.95) ∨ 47000 ≤ h) :
    isadensalt [isadens 0 h] = .ok [h] := by
  rw [isadensalt_single, isadens_zero, isadens0_eq_pw, pwinv_exact lay_fd inv_fd h hb]

example : isadensalt [isadens 0 25000] = .ok [25000] :=
  C16_exact_outside _ (Or.inr (Or.inr (Or.inl ⟨by norm_num, by norm_num⟩)))

/-- The exact set of failures for density: three bands, at 11 km, 20 km and 47 km. At 32 km there is none. -/
theorem C16_exact_iff : ∃ b1 b2 b4 : ℝ,
    (11000 < b1 ∧ b1 ≤ 11000 + 1e-9) ∧ (19999.95 < b2 ∧ b2 < 19999.999) ∧ (46999.95 < b4 ∧ b4 < 46999.99) ∧
    ∀ h, isadensalt [isadens 0 h] = .ok [h] ↔
      ¬ ((11000 ≤ h ∧ h < b1) ∨ (b2 ≤ h ∧ h < 20000) ∨ (b4 ≤ h ∧ h < 47000)) := by
  obtain ⟨b1, b2, b3, b4, B⟩ := band_fd
  obtain ⟨u1, u2, u3, u4⟩ := band_bounds lay_fd inv_fd B
  have hb3 : b3 ≤ 32000 := by
    by_contra hc
    have := lay_fd.a4 (show (32000:ℝ) ∈ Set.Ici 0 by simp) (show b3 ∈ Set.Ici 0 from B.n3) (not_le.mp hc)
    have := B.e3; have := fd_v32; linarith
  refine ⟨b1, b2, b4, ⟨?_, u1⟩, u2, u4, fun h => ?_⟩
  · by_contra hc
    have := lay_fd.a2.antitone (not_lt.mp hc); have := B.e1; have := fd_v11; linarith
  · rw [isadensalt_single, isadens_zero, isadens0_eq_pw]
    have := pwinv_iff lay_fd inv_fd B h
    simp only [Except.ok.injEq, List.cons.injEq, and_true]
    rw [this]
    constructor
    · rintro hn (q | q | q)
      · exact hn (Or.inl q)
      · exact hn (Or.inr (Or.inl q))
      · exact hn (Or.inr (Or.inr (Or.inr q)))
    · rintro hn (q | q | q | q)
      · exact hn (Or.inl q)
      · exact hn (Or.inr (Or.inl q))
      · linarith
      · exact hn (Or.inr (Or.inr q))

/-- Everywhere the returned density altitude of a single density is within 0.1 m. -/
theorem C16_close (h : ℝ) : ∃ k, isadensalt [isadens 0 h] = .ok [k] ∧ |k - h| ≤ 0.1 := by
  rw [isadensalt_single, isadens_zero, isadens0_eq_pw]
  exact ⟨_, rfl, pwinv_close lay_fd inv_fd h⟩

example : ∃ k, isadensalt [isadens 0 19999.999] = .ok [k] ∧ |k - 19999.999| ≤ 0.1 := C16_close _

theorem C16_exact_violated :
    (∀ h, 19999.999 ≤ h → h < 20000 → ∃ k, isadensalt [isadens 0 h] = .ok [k] ∧ 20000 ≤ k) ∧
    (∀ h, 46999.99 ≤ h → h < 47000 → ∃ k, isadensalt [isadens 0 h] = .ok [k] ∧ 47000 ≤ k) := by
  refine ⟨fun h h1 h2 => ?_, fun h h1 h2 => ?_⟩
  · rw [isadensalt_single, isadens_zero, isadens0_eq_pw]
    exact ⟨_, rfl, (pwinv_wrong lay_fd inv_fd h).1 h1 h2⟩
  · rw [isadensalt_single, isadens_zero, isadens0_eq_pw]
    exact ⟨_, rfl, (pwinv_wrong lay_fd inv_fd h).2 h1 h2⟩

example : ∃ k, isadensalt [isadens 0 19999.9995] = .ok [k] ∧ 20000 ≤ k := C16_exact_violated.1 _ (by norm_num) (by norm_num)

theorem mapM_error_mem {α β : Type} (f : α → PyM β) (l : List α) (x : α) (hx : x ∈ l)
    (h : ∃ e, f x = .error e) : ∃ e, l.mapM f = .error e ∧ ∃ y ∈ l, f y = .error e := by
  induction l with
  | nil => simp at hx
  | cons a l ih =>
    rw [List.mapM_cons]
    cases ha : f a with
    | error e => exact ⟨e, rfl, a, by simp, ha⟩
    | ok b =>
      rcases List.mem_cons.mp hx with rfl | hx'
      · obtain ⟨e, he⟩ := h; rw [he] at ha; cases ha
      · obtain ⟨e, he, y, hy, hfy⟩ := ih hx'
        refine ⟨e, ?_, y, by simp [hy], hfy⟩
        rw [he]; rfl

/-- Lists of several densities: as soon as one element lies in the isothermal layer 11-20 km or above
32 km (density thresholds of the code) the call raises, although each density alone is answered. -/
theorem C16_list_raises (ds : List ℝ) (hl : ds.length ≠ 1) (d : ℝ) (hd : d ∈ ds)
    (hr : (0.088034556579455497 < d ∧ d ≤ 0.36391700650017816) ∨ d ≤ 0.013224937668421609) :
    ∃ e, isadensalt ds = .error e ∧ (e = .typeError ∨ e = .valueError) := by
  have h1 : ∃ e, isadensalt1 ds d = .error e := by
    unfold isadensalt1
    rcases hr with ⟨ha, hb⟩ | hc
    · rw [if_neg (show ¬ d > dLevel1 from not_lt.mpr hb), if_pos (show d > dLevel2 from ha)]
      split
      · simp at hl
      · exact ⟨_, rfl⟩
    · have n1 : ¬ d > dLevel1 := by simp only [dLevel1]; norm_num at hc ⊢; linarith
      have n2 : ¬ d > dLevel2 := by simp only [dLevel2]; norm_num at hc ⊢; linarith
      have n3 : ¬ d > dLevel3 := by simp only [dLevel3]; norm_num at hc ⊢; linarith
      rw [if_neg n1, if_neg n2, if_neg n3]
      split
      · simp at hl
      · exact ⟨_, rfl⟩
  obtain ⟨e, he, y, hy, hfy⟩ := mapM_error_mem _ ds d hd h1
  refine ⟨e, he, ?_⟩
  unfold isadensalt1 at hfy
  split_ifs at hfy
  · split at hfy
    · cases hfy
    · cases hfy; simp
  · split at hfy
    · split_ifs at hfy
    · cases hfy; simp

example : ∃ e, isadensalt [1.0, 0.2] = .error e ∧ (e = .typeError ∨ e = .valueError) :=
  C16_list_raises [1.0, 0.2] (by simp) 0.2 (by simp) (Or.inl ⟨by norm_num, by norm_num⟩)

/-- Lists that stay in the troposphere and the 20-32 km layer are inverted element by element. -/
theorem C16_list_ok (hs : List ℝ) (hh : ∀ h ∈ hs, h < 11000 ∨ (20000 ≤ h ∧ h < 32000)) :
    isadensalt (hs.map (isadens 0)) = .ok hs := by
  have key : ∀ w : List ℝ, ∀ h, (h < 11000 ∨ (20000 ≤ h ∧ h < 32000)) →
      isadensalt1 w (isadens 0 h) = .ok h := by
    intro w h hb
    rw [isadens_zero, isadens0_eq_pw]
    have t12 := inv_fd.t12
    unfold isadensalt1
    rcases hb with hb | ⟨hb1, hb2⟩
    · have e : pw fd1 fd2 fd3 fd4 fd5 h = fd1 h := by unfold pw; rw [if_pos hb]
      have : fd1 11000 < fd1 h := lay_fd.a1 (show h ≤ 12000 by linarith)
        (show (11000:ℝ) ≤ 12000 by norm_num) hb
      have := inv_fd.t1lt
      have i := inv_fd.i1 h (by linarith)
      rw [e, if_pos (by linarith)]
      exact congrArg Except.ok i
    · have e : pw fd1 fd2 fd3 fd4 fd5 h = fd3 h := by
        unfold pw; rw [if_neg (by linarith), if_neg (by linarith), if_pos hb2]
      have := lay_fd.a3.antitoneOn (show (0:ℝ) ≤ 20000 by norm_num) (show 0 ≤ h by linarith) hb1
      have := lay_fd.a3 (show 0 ≤ h by linarith) (show (0:ℝ) ≤ 32000 by norm_num) hb2
      have := inv_fd.t2gt
      have := inv_fd.t3lt
      have i := inv_fd.i3 h (by linarith)
      rw [e, if_neg (by linarith), if_neg (by linarith), if_pos (by linarith)]
      exact congrArg Except.ok i
  have gen : ∀ (w l : List ℝ), (∀ h ∈ l, h < 11000 ∨ (20000 ≤ h ∧ h < 32000)) →
      (l.map (isadens 0)).mapM (isadensalt1 w) = .ok l := by
    intro w l
    induction l with
    | nil => intro _; rfl
    | cons a l ih =>
      intro h
      rw [List.map_cons, List.mapM_cons, key w a (h a (by simp)), ih (fun x hx => h x (by simp [hx]))]
      rfl
  exact gen _ hs hh

example : ([0.2, 1.0] : List ℝ).length ≠ 1 ∧ (0.2 : ℝ) ∈ ([0.2, 1.0] : List ℝ) ∧
    ((0.088034556579455497 : ℝ) < 0.2 ∧ (0.2 : ℝ) ≤ 0.36391700650017816) := by
  refine ⟨by simp, by simp, by norm_num, by norm_num⟩
example : ∀ h ∈ ([1000, 25000] : List ℝ), h < 11000 ∨ (20000 ≤ h ∧ h < 32000) := by
  intro h hh; simp at hh; rcases hh with rfl | rfl <;> norm_num

end

end Verif.Props
