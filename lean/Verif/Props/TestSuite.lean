import Verif.Props.Documented2
import Verif.Props.IsaFloat
import Verif.Props.RunwayData
import Verif.Props.MilHdbk
import Verif.Lemmas.TestNum

/-
C130: the numbers recorded in the unit tests of the project (tests/t_atmospheres.py, tests/t_constraintanalysis.py).
-/

namespace Verif.Props
open Verif Verif.Atmos Verif.Units Verif.Aircraft Verif.RunwayScan

noncomputable section

/-- `n` is what Python's `round` makes of `x`: the nearest integer, of two equally near ones the even one. -/
def RoundsTo (x : ℝ) (n : ℤ) : Prop := |x - n| < 1 / 2 ∨ |x - n| = 1 / 2 ∧ Even n

theorem rounds_of {x lo hi : ℝ} {n : ℤ} (h : lo ≤ x ∧ x ≤ hi) (h1 : n - 1 / 2 < lo) (h2 : hi < n + 1 / 2) : RoundsTo x n := by
  left; rw [abs_lt]; constructor <;> linarith [h.1, h.2]

/-- A number rounds to one integer only. -/
theorem RoundsTo.unique {x : ℝ} {m n : ℤ} (hm : RoundsTo x m) (hn : RoundsTo x n) : m = n := by
  have key : ∀ {m n : ℤ}, RoundsTo x m → RoundsTo x n → m < n → False := by
    intro m n hm hn h
    have h' : (m : ℝ) + 1 ≤ n := by exact_mod_cast h
    rcases hm with hm | ⟨hm, em⟩ <;> rcases hn with hn | ⟨hn, en⟩
    · rw [abs_lt] at hm hn; linarith [hm.2, hn.1]
    · rw [abs_lt] at hm; have := abs_le.mp hn.le; linarith [hm.2, this.1]
    · rw [abs_lt] at hn; have := abs_le.mp hm.le; linarith [hn.1, this.2]
    · have a := abs_le.mp hm.le; have b := abs_le.mp hn.le
      have e : (n : ℝ) = m + 1 := by linarith [a.2, b.1]
      have e : n = m + 1 := by exact_mod_cast e
      rw [e] at en
      exact (Int.even_add_one.mp en) em
  rcases lt_trichotomy m n with h | h | h
  · exact (key hm hn h).elim
  · exact h
  · exact (key hn hm h).elim

/-! ### tests/t_atmospheres.py -/

/-- tests/t_atmospheres.py:23-33: the conversions between geometric and geopotential altitude. -/
theorem C130_geopotential : RoundsTo (10 * geom2geop45m 10000) 99843 ∧ RoundsTo (10 * geop2geom45m 9984.3) 100000 := by
  constructor <;> left <;> rw [abs_lt] <;> norm_num [geom2geop45m, geop2geom45m, R_EARTH_M]

/-- What the tests ask of the standard atmosphere at one altitude; `pt`, `pp`, `pd`, `pa` are the powers of ten with which temperature
(Celsius), pressure (millibar), density and speed of sound are multiplied before rounding. -/
def TestRow (h pt pp pd pa : ℝ) (t p d a : ℤ) : Prop :=
  ∃ T P D A, airtemp_c (.isa 0) (.scalar h) = .ok (.scalar T) ∧ airpress_mbar (.isa 0) (.scalar h) = .ok (.scalar P) ∧
    airdens_kgpm3 (.isa 0) (.scalar h) = .ok (.scalar D) ∧ vsound_mps (.isa 0) (.scalar h) = .ok (.scalar A) ∧
    RoundsTo (pt * T) t ∧ RoundsTo (pp * P) p ∧ RoundsTo (pd * D) d ∧ RoundsTo (pa * A) a

theorem isa_airtemp_c (off h : ℝ) (hh : h ≤ 50000) : airtemp_c (.isa off) (.scalar h) = .ok (.scalar (k2c (isatemp off h))) := by
  unfold airtemp_c; rw [(isa_scalar off h hh).1]; rfl

theorem isa_airpress_mbar (off h : ℝ) (hh : h ≤ 50000) : airpress_mbar (.isa off) (.scalar h) = .ok (.scalar (pa2mbar (isapress h))) := by
  unfold airpress_mbar; rw [(isa_scalar off h hh).2.1]; rfl

theorem test_row {h T pt pp pd pa x y pl ph dl dh al ah : ℝ} {t p d a : ℤ} (hh : h < 11000) (hT : T = 288.15 + -6.5e-3 * h) (T0 : 0 ≤ T)
    (hx : x = 1.048840 + -23.659414e-6 * h) (hy : y = 8.9619638 + -0.20216125e-3 * h)
    (hd : dl ≤ x ^ (4.2558797 : ℝ) ∧ x ^ (4.2558797 : ℝ) ≤ dh) (hp : pl ≤ y ^ (5.2558797 : ℝ) ∧ y ^ (5.2558797 : ℝ) ≤ ph)
    (ha1 : al ^ 2 ≤ 1.4 * 287.05287 * T) (ha0 : 0 ≤ ah) (ha2 : 1.4 * 287.05287 * T ≤ ah ^ 2) (p0 : 0 ≤ pp) (d0 : 0 ≤ pd) (a0 : 0 ≤ pa)
    (ht : RoundsTo (pt * (T - 273.15)) t)
    (p1 : p - 1 / 2 < pp * (pl * 0.01)) (p2 : pp * (ph * 0.01) < p + 1 / 2)
    (d1 : d - 1 / 2 < pd * dl) (d2 : pd * dh < d + 1 / 2) (a1 : a - 1 / 2 < pa * al) (a2 : pa * ah < a + 1 / 2) :
    TestRow h pt pp pd pa t p d a := by
  have eT : isatemp 0 h = T := by
    rw [isatemp, if_pos (by rw [Level1]; exact hh), add_zero, hT]; rfl
  have h5 : h ≤ 50000 := by linarith
  refine ⟨_, _, _, _, isa_airtemp_c 0 h h5, isa_airpress_mbar 0 h h5, dens1_scalar (isa_dens1 0 h h5),
    isa_vsound 0 h h5 (by rw [eT]; exact T0), ?_, ?_, ?_, ?_⟩
  · rw [eT, k2c]; exact ht
  · rw [doc_press hh hy, pa2mbar]
    exact rounds_of ⟨mul_le_mul_of_nonneg_left (mul_le_mul_of_nonneg_right hp.1 (by norm_num : (0:ℝ) ≤ 0.01)) p0,
      mul_le_mul_of_nonneg_left (mul_le_mul_of_nonneg_right hp.2 (by norm_num : (0:ℝ) ≤ 0.01)) p0⟩ p1 p2
  · rw [doc_dens hh hx]
    exact rounds_of ⟨mul_le_mul_of_nonneg_left hd.1 d0, mul_le_mul_of_nonneg_left hd.2 d0⟩ d1 d2
  · rw [eT]
    have := sqrt_of ha1 ha0 ha2
    exact rounds_of ⟨mul_le_mul_of_nonneg_left this.1 a0, mul_le_mul_of_nonneg_left this.2 a0⟩ a1 a2

/-- tests/t_atmospheres.py:35-56, 70-81: the standard atmosphere at sea level, at 10000 m and at -5000 m. -/
theorem C130_isa : TestRow 0 1 100 1000 100 15 101325 1225 34029 ∧
    TestRow 10000 1 100 100000 1000 (-50) 26436 41271 299463 ∧
    TestRow (-5000) 1000 10 10000 1000 47500 17769 19305 358972 := by
  refine ⟨?_, ?_, ?_⟩
  · exact test_row (T := 288.15) (x := 1.04884) (y := 8.9619638) (al := 340.2939) (ah := 340.294) (by norm_num) (by norm_num) (by norm_num) (by norm_num)
      (by norm_num) DocNum.dens_0 DocNum.press_0 (by norm_num) (by norm_num) (by norm_num) (by norm_num) (by norm_num) (by norm_num)
      (by left; rw [abs_lt]; norm_num) (by norm_num) (by norm_num) (by norm_num) (by norm_num) (by norm_num) (by norm_num)
  · exact test_row (T := 223.15) (x := 0.81224586) (y := 6.9403513) (al := 299.4631) (ah := 299.4632) (by norm_num) (by norm_num) (by norm_num) (by norm_num)
      (by norm_num) DocNum.dens_10000 DocNum.press_10000 (by norm_num) (by norm_num) (by norm_num) (by norm_num) (by norm_num) (by norm_num)
      (by left; rw [abs_lt]; norm_num) (by norm_num) (by norm_num) (by norm_num) (by norm_num) (by norm_num) (by norm_num)
  · exact test_row (T := 320.65) (x := 1.16713707) (y := 9.97277005) (al := 358.972) (ah := 358.9721) (by norm_num) (by norm_num) (by norm_num) (by norm_num)
      (by norm_num) DocNum.dens_m5000 DocNum.press_m5000 (by norm_num) (by norm_num) (by norm_num) (by norm_num) (by norm_num) (by norm_num)
      (by left; rw [abs_lt]; norm_num) (by norm_num) (by norm_num) (by norm_num) (by norm_num) (by norm_num) (by norm_num)

/-- tests/t_atmospheres.py:58-68: at 9984.3 m pressure, density and speed of sound round to the expected numbers, but the temperature in
units of 0.0001 °C is exactly half way between two integers, and goes to the even one, -498980, where -498979 is expected. -/
theorem C130_tie_violated : TestRow 9984.3 10000 100 100000 1000 (-498980) 26500 41351 299532 ∧
    (∃ T, airtemp_c (.isa 0) (.scalar 9984.3) = .ok (.scalar T) ∧ 10000 * T = -498979.5) ∧
    ∀ p d a, ¬ TestRow 9984.3 10000 100 100000 1000 (-498979) p d a := by
  have e : k2c (isatemp 0 9984.3) = -49.89795 := by norm_num [isatemp, Level1, A1, B1, k2c]
  have ht := isa_airtemp_c 0 9984.3 (by norm_num)
  rw [e] at ht
  refine ⟨?_, ⟨_, ht, by norm_num⟩, ?_⟩
  · refine test_row (T := 223.25205) (x := 0.8126173127998) (y := 6.943525231625) (al := 299.5316) (ah := 299.5317) (by norm_num) (by norm_num) (by norm_num) (by norm_num)
      (by norm_num) TestNum.dens_9984 TestNum.press_9984 (by norm_num) (by norm_num) (by norm_num) (by norm_num) (by norm_num) (by norm_num)
      ?_ (by norm_num) (by norm_num) (by norm_num) (by norm_num) (by norm_num) (by norm_num)
    right
    refine ⟨?_, by decide⟩
    rw [show (10000 * (223.25205 - 273.15) - ((-498980 : ℤ) : ℝ) : ℝ) = 1 / 2 by norm_num]
    norm_num
  · rintro p d a ⟨T, P, D, A, h1, -, -, -, h2, -⟩
    rw [ht] at h1
    have : T = -49.89795 := by cases h1; rfl
    rw [this] at h2
    rcases h2 with h | ⟨-, h⟩
    · rw [show (10000 * -49.89795 - ((-498979 : ℤ) : ℝ) : ℝ) = -(1 / 2) by norm_num, abs_neg] at h
      norm_num at h
    · exact absurd h (by decide)

open Verif.Fl in
/-- tests/t_atmospheres.py:40, 51, 65: with the rounding of binary64 arithmetic the temperatures at sea level and 10000 m are exactly 15 and
-50 °C, as the tests demand, and the one at 9984.3 m rounds to the expected number: it is the error of the arithmetic that lets the test
pass. -/
theorem C130_temperature64 : Fl.k2c binary64 (Fl.isatemp binary64 0 0) = 15 ∧ Fl.k2c binary64 (Fl.isatemp binary64 0 10000) = -50 ∧
    RoundsTo (rd64 (10000 * Fl.k2c binary64 (Fl.isatemp binary64 0 (rd64 9984.3)))) (-498979) := by
  have ht : rd64 273.15 = (4805305618032230 : ℤ) * (2 : ℝ) ^ (-44 : ℤ) := rd64_eval _ _ _ (by norm_num) (by norm_num) (by norm_num [abs_lt])
  have hA : rd64 288.15 = (5069188408698470 : ℤ) * (2 : ℝ) ^ (-44 : ℤ) := rd64_eval _ _ _ (by norm_num) (by norm_num) (by norm_num [abs_lt])
  have hB : rd64 (-6.5e-3) = -((7493989779944505 : ℤ) * (2 : ℝ) ^ (-60 : ℤ)) := by
    rw [rd64_neg]; congr 1; exact rd64_eval _ _ _ (by norm_num) (by norm_num) (by norm_num [abs_lt])
  have ev : ∀ x, x < 11000 → Fl.k2c binary64 (Fl.isatemp binary64 0 x) = rd64 (rd64 (rd64 (rd64 288.15 + rd64 (rd64 (-6.5e-3) * x)) + 0) - rd64 273.15) := by
    intro x hx
    show rd64 (rd64 (isatemp0 binary64 x + 0) - rd64 273.15) = _
    rw [isatemp0, if_pos (by rw [Level1]; exact hx)]
    rfl
  refine ⟨?_, ?_, ?_⟩
  · rw [ev 0 (by norm_num), mul_zero, show rd64 0 = 0 by simp [rd64], add_zero, add_zero, hA]
    have e1 : rd64 ((5069188408698470 : ℤ) * (2 : ℝ) ^ (-44 : ℤ)) = (5069188408698470 : ℤ) * (2 : ℝ) ^ (-44 : ℤ) :=
      rd64_exact _ _ _ rfl (by norm_num)
    rw [e1, e1, ht]
    have e2 : rd64 (((5069188408698470 : ℤ) * (2 : ℝ) ^ (-44 : ℤ)) - (4805305618032230 : ℤ) * (2 : ℝ) ^ (-44 : ℤ)) = (8444249301319680 : ℤ) * (2 : ℝ) ^ (-49 : ℤ) :=
      rd64_eval _ _ _ (by norm_num) (by norm_num) (by norm_num [abs_lt])
    rw [e2]; norm_num
  · rw [ev 10000 (by norm_num), hB]
    have e0 : rd64 (-((7493989779944505 : ℤ) * (2 : ℝ) ^ (-60 : ℤ)) * 10000) = -((4573968371548160 : ℤ) * (2 : ℝ) ^ (-46 : ℤ)) := by
      rw [neg_mul, rd64_neg]; congr 1; exact rd64_eval _ _ _ (by norm_num) (by norm_num) (by norm_num [abs_lt])
    have e1 : rd64 ((5069188408698470 : ℤ) * (2 : ℝ) ^ (-44 : ℤ) + -((4573968371548160 : ℤ) * (2 : ℝ) ^ (-46 : ℤ))) = (7851392631622860 : ℤ) * (2 : ℝ) ^ (-45 : ℤ) :=
      rd64_eval _ _ _ (by norm_num) (by norm_num) (by norm_num [abs_lt])
    have e2 : rd64 ((7851392631622860 : ℤ) * (2 : ℝ) ^ (-45 : ℤ)) = (7851392631622860 : ℤ) * (2 : ℝ) ^ (-45 : ℤ) := rd64_exact _ _ _ rfl (by norm_num)
    rw [e0, hA, e1, add_zero, e2, ht]
    have e3 : rd64 ((7851392631622860 : ℤ) * (2 : ℝ) ^ (-45 : ℤ) - (4805305618032230 : ℤ) * (2 : ℝ) ^ (-44 : ℤ)) = -((7036874417766400 : ℤ) * (2 : ℝ) ^ (-47 : ℤ)) := by
      rw [← neg_sub, rd64_neg]; congr 1; exact rd64_eval _ _ _ (by norm_num) (by norm_num) (by norm_num [abs_lt])
    rw [e3]; norm_num
  · have hh : rd64 9984.3 = (5488926972601958 : ℤ) * (2 : ℝ) ^ (-39 : ℤ) := rd64_eval _ _ _ (by norm_num) (by norm_num) (by norm_num [abs_lt])
    rw [ev (rd64 9984.3) (by rw [hh]; norm_num), hB, hh]
    have e0 : rd64 (-((7493989779944505 : ℤ) * (2 : ℝ) ^ (-60 : ℤ)) * ((5488926972601958 : ℤ) * (2 : ℝ) ^ (-39 : ℤ))) = -((4566787241204829 : ℤ) * (2 : ℝ) ^ (-46 : ℤ)) := by
      rw [neg_mul, rd64_neg]; congr 1; exact rd64_eval _ _ _ (by norm_num) (by norm_num) (by norm_num [abs_lt])
    have e1 : rd64 ((5069188408698470 : ℤ) * (2 : ℝ) ^ (-44 : ℤ) + -((4566787241204829 : ℤ) * (2 : ℝ) ^ (-46 : ℤ))) = (7854983196794526 : ℤ) * (2 : ℝ) ^ (-45 : ℤ) := by
      refine rd64_tie _ _ _ (by norm_num) (by norm_num) ?_ (by decide)
      push_cast
      norm_num [abs_of_pos, abs_of_neg]
    have e2 : rd64 ((7854983196794526 : ℤ) * (2 : ℝ) ^ (-45 : ℤ)) = (7854983196794526 : ℤ) * (2 : ℝ) ^ (-45 : ℤ) := rd64_exact _ _ _ rfl (by norm_num)
    rw [e0, hA, e1, add_zero, e2, ht]
    have e3 : rd64 ((7854983196794526 : ℤ) * (2 : ℝ) ^ (-45 : ℤ) - (4805305618032230 : ℤ) * (2 : ℝ) ^ (-44 : ℤ)) = -((7022512157079736 : ℤ) * (2 : ℝ) ^ (-47 : ℤ)) := by
      rw [← neg_sub, rd64_neg]; congr 1; exact rd64_eval _ _ _ (by norm_num) (by norm_num) (by norm_num [abs_lt])
    have e4 : rd64 (10000 * -((7022512157079736 : ℤ) * (2 : ℝ) ^ (-47 : ℤ))) = -((8572402535497725 : ℤ) * (2 : ℝ) ^ (-34 : ℤ)) := by
      rw [mul_neg, rd64_neg]; congr 1; exact rd64_eval _ _ _ (by norm_num) (by norm_num) (by norm_num [abs_lt])
    rw [e3, e4]
    left; rw [abs_lt]; norm_num

/-! ### Runway and wind -/

set_option maxRecDepth 100000 in
theorem tally_heathrow : tallyAll 145876556 runwayBlocks 0 = 2 := by decide +kernel

/-- tests/t_atmospheres.py:91: in the file of the project Heathrow has two runways. -/
theorem C130_heathrow (parse : String → Option ℝ) (db : List (List String)) (hs : Shipped db) (n : ℕ) (r : Runway)
    (h : runwayDb parse db "EGLL" n = .ok r) : r.nrways = some 2 ∧ n < 2 := by
  have e : rowIdent (64 * 145876556) = "EGLL" := by
    unfold rowIdent
    rw [Nat.mul_div_cancel_left _ (by norm_num)]
    norm_num
    rfl
  have hc : count db "EGLL" = 2 := by
    have k : runwayRows.countP (fun x => decide (x / 64 = 145876556)) = 2 := by
      unfold runwayRows
      exact (Nat.zero_add _).symm.trans ((tallyAll_eq 145876556 runwayBlocks 0).symm.trans tally_heathrow)
    rw [hs.count_eq (by decide), ← k]
    apply List.countP_congr
    intro x _
    rw [decide_eq_true_eq, decide_eq_true_eq, ← e, rowIdent_eq_iff, Nat.mul_div_cancel_left _ (by norm_num)]
  obtain ⟨h0, h1, -⟩ := C126_lookup parse db "EGLL" n r hs (by decide) h
  rw [hc] at h0 h1
  exact ⟨h1, h0⟩

set_option maxRecDepth 100000 in
/-- The runway of the test can be looked up. -/
example : ∃ n r, runwayDb readsOne shippedDb "EGLL" n = .ok r ∧ r.nrways = some 2 := by
  have hx : runwayRows[14686]? = some (64 * 145876556) := by decide +kernel
  have e : rowIdent (64 * 145876556) = "EGLL" := by
    unfold rowIdent
    rw [Nat.mul_div_cancel_left _ (by norm_num)]
    norm_num
    rfl
  obtain ⟨row, -, h1, -⟩ := C126_usable readsOne shippedDb shippedDb_ok readsOne_ok _ _ hx
  obtain ⟨r, hr, -⟩ := h1 (rowEmpty_none.mpr (by norm_num))
  rw [e] at hr
  exact ⟨_, r, hr, (C130_heathrow readsOne shippedDb shippedDb_ok _ r hr).1⟩

/-- tests/t_atmospheres.py:95-117: wind components on a runway with heading 89.6° (ADRpy/data/runways.csv:14688), one by one and as a list. -/
theorem C130_wind : ∃ h₁ c₁ h₂ c₂ h₃ c₃,
    windcomponents 89.6 (.scalar 89.6) (.scalar 10) = .ok (.scalars h₁ c₁) ∧
    windcomponents 89.6 (.scalar (89.6 + 90)) (.scalar 10) = .ok (.scalars h₂ c₂) ∧
    windcomponents 89.6 (.array [89.6, 89.6 + 90, 300]) (.array [10, 10, 10]) = .ok (.arrays [h₁, h₂, h₃] [c₁, c₂, c₃]) ∧
    (RoundsTo (h₁ * 100) 1000 ∧ RoundsTo (h₂ * 100) 0 ∧ RoundsTo (h₃ * 100) (-863)) ∧
    RoundsTo (c₁ * 100) 0 ∧ RoundsTo (c₂ * 100) 1000 ∧ RoundsTo (c₃ * 100) (-506) := by
  have p0 := Real.pi_pos
  have p1 := Real.pi_gt_d4
  have p2 := Real.pi_lt_d4
  have q1 : 0 ≤ Real.pi / 450 := by positivity
  have q2 : Real.pi / 450 ≤ 0.0069814 := by rw [div_le_iff₀ (by norm_num)]; norm_num at p2 ⊢; linarith
  have q3 : 0.00698 ≤ Real.pi / 450 := by rw [le_div_iff₀ (by norm_num)]; norm_num at p1 ⊢; linarith
  have s1 : Real.sin (Real.pi / 450) ≤ 0.0069814 := (Real.sin_le q1).trans q2
  have s0 : 0 ≤ Real.sin (Real.pi / 450) := Real.sin_nonneg_of_nonneg_of_le_pi q1 (by linarith)
  have c1 := Real.cos_le_one (Real.pi / 450)
  have c0 : 0.999975 ≤ Real.cos (Real.pi / 450) := by
    refine le_trans ?_ (Real.one_sub_sq_div_two_le_cos)
    have : (Real.pi / 450) ^ 2 ≤ 0.0069814 ^ 2 := by gcongr
    norm_num at this ⊢; linarith
  have r1 : 1.73205 ≤ √3 := Real.le_sqrt_of_sq_le (by norm_num)
  have r2 : √3 ≤ 1.73206 := Real.sqrt_le_iff.mpr ⟨by norm_num, by norm_num⟩
  have ea : deg2rad (89.6 - 89.6) = 0 := by simp [deg2rad]
  have eb : deg2rad (89.6 + 90 - 89.6) = Real.pi / 2 := by rw [deg2rad]; ring
  have ec : deg2rad (300 - 89.6) = (Real.pi / 6 + Real.pi / 450) + Real.pi := by rw [deg2rad]; ring
  have cc : Real.cos (deg2rad (300 - 89.6)) = -(√3 / 2 * Real.cos (Real.pi / 450) - 1 / 2 * Real.sin (Real.pi / 450)) := by
    rw [ec, Real.cos_add_pi, Real.cos_add, Real.cos_pi_div_six, Real.sin_pi_div_six]
  have cs : Real.sin (deg2rad (300 - 89.6)) = -(1 / 2 * Real.cos (Real.pi / 450) + √3 / 2 * Real.sin (Real.pi / 450)) := by
    rw [ec, Real.sin_add_pi, Real.sin_add, Real.cos_pi_div_six, Real.sin_pi_div_six]
  have s2 : 0.00697 ≤ Real.sin (Real.pi / 450) := by
    have := Real.sin_gt_sub_cube (x := Real.pi / 450) (by positivity)
    have k : (Real.pi / 450) ^ 3 ≤ 0.0069814 ^ 3 := by gcongr
    norm_num at this k q3 ⊢; linarith
  have e10 : |(10 : ℝ)| = 10 := abs_of_pos (by norm_num)
  refine ⟨headwind1 89.6 89.6 10, crosswind1 89.6 89.6 10, headwind1 89.6 (89.6 + 90) 10, crosswind1 89.6 (89.6 + 90) 10,
    headwind1 89.6 300 10, crosswind1 89.6 300 10, rfl, rfl, rfl, ⟨?_, ?_, ?_⟩, ?_, ?_, ?_⟩
  · rw [headwind1, ea, Real.cos_zero, e10]; left; rw [abs_lt]; norm_num
  · rw [headwind1, eb, Real.cos_pi_div_two, e10]; left; rw [abs_lt]; norm_num
  · rw [headwind1, cc, e10]
    generalize Real.cos (Real.pi / 450) = x at *
    generalize Real.sin (Real.pi / 450) = y at *
    have a := mul_bounds (a := √3) (b := x) (by norm_num) r1 r2 (by norm_num) c0 c1
    rw [show (10 * -(√3 / 2 * x - 1 / 2 * y) * 100 : ℝ) = -500 * (√3 * x) + 500 * y by ring]
    generalize √3 * x = z at a ⊢
    left; rw [abs_lt]; norm_num at a s0 s1 ⊢; constructor <;> linarith [a.1, a.2]
  · rw [crosswind1, ea, Real.sin_zero, e10]; left; rw [abs_lt]; norm_num
  · rw [crosswind1, eb, Real.sin_pi_div_two, e10]; left; rw [abs_lt]; norm_num
  · rw [crosswind1, cs, e10]
    generalize Real.cos (Real.pi / 450) = x at *
    generalize Real.sin (Real.pi / 450) = y at *
    have a := mul_bounds (a := √3) (b := y) (by norm_num) r1 r2 (by norm_num) s2 s1
    rw [show (10 * -(1 / 2 * x + √3 / 2 * y) * 100 : ℝ) = -500 * x - 500 * (√3 * y) by ring]
    generalize √3 * y = z at a ⊢
    left; rw [abs_lt]; norm_num at a c0 c1 ⊢; constructor <;> linarith [a.1, a.2]

/-! ### MIL-HDBK-310 -/

theorem mil_rows : ((tableRows "high" "temp" "10" false).map (·.2.1))[0]? = some (299.15 : ℚ) ∧
    ((tableRows "high" "temp" "10" false).map (·.2.1))[1]? = some (289.177 : ℚ) := by decide +kernel

/-- tests/t_atmospheres.py:119-126: the temperature 100 m above the ground of the one per cent profile with high temperature at 10 km. -/
theorem C130_mil : ∃ a b T, mil_hdbk_310 "high" "temp" "10" = .ok (some (a, b)) ∧
    airtemp_c (.profile a) (.scalar 100) = .ok (.scalar T) ∧ RoundsTo (1000 * T) 25501 := by
  obtain ⟨hs, ht⟩ := table_facts "high" (by simp) "temp" (by simp) "10" (by simp)
  obtain ⟨a1, a2, -⟩ := ht false (by simp)
  obtain ⟨b1, b2, -⟩ := ht true (by simp)
  obtain ⟨a, ea, pa, ta, ra⟩ := milProfile_physical _ a1 a2
  obtain ⟨b, eb, -⟩ := milProfile_physical _ b1 b2
  have hl : a.alt_m.length = 41 := by rw [pa.alts]; simp
  have hp : a.alt_m.Pairwise (· < ·) := by
    rw [pa.alts, List.pairwise_map]
    refine List.pairwise_lt_range.imp ?_
    intro a b hab
    have : (a:ℝ) < b := by exact_mod_cast hab
    linarith
  have hm : ∀ (k : ℕ) (hk : k < a.alt_m.length), a.alt_m[k] = 2000 * (k:ℝ) := by intro k hk; simp [pa.alts]
  have m0 : (0:ℝ) ∈ a.alt_m := by rw [pa.alts]; exact List.mem_map.mpr ⟨0, by simp, by simp⟩
  have m1 : (80000:ℝ) ∈ a.alt_m := by rw [pa.alts]; exact List.mem_map.mpr ⟨40, by simp, by norm_num⟩
  obtain ⟨i, hi, g0, g1, q1, -⟩ := profile_scalar a 100 hp (by omega) ⟨0, m0, by norm_num⟩ ⟨80000, m1, by norm_num⟩
    (by rw [hl, pa.temp_len]) (by rw [hl, pa.p_len]) (by rw [hl, pa.rho_len])
  rw [hm i (by omega)] at g0
  have hi0 : i = 0 := by
    by_contra h
    have : (1:ℝ) ≤ i := by exact_mod_cast Nat.one_le_iff_ne_zero.mpr h
    linarith
  subst hi0
  have val : ∀ (k : ℕ) (q : ℚ) (hk : k < a.temp_k.length), ((tableRows "high" "temp" "10" false).map (·.2.1))[k]? = some q → a.temp_k[k] = (q : ℝ) := by
    intro k q hk hq
    simp only [ta, List.getElem_map]
    rw [List.getElem?_map, List.getElem?_eq_getElem (by rw [ta] at hk; simpa using hk)] at hq
    simp only [Option.map_some, Option.some.injEq] at hq
    rw [hq]
  rw [hm 0 (by omega), hm 1 (by omega), val 0 _ (by rw [pa.temp_len]; norm_num) mil_rows.1, val 1 _ (by rw [pa.temp_len]; norm_num) mil_rows.2] at q1
  have q2 : airtemp_k (.profile a) (.scalar 100) = .ok (.scalar 298.65135) := by
    rw [q1]; norm_num [linSeg]
  refine ⟨a, b, k2c 298.65135, mil_eq _ _ _ a b hs ea eb, ?_, ?_⟩
  · unfold airtemp_c; rw [q2]; rfl
  · left; rw [abs_lt]; norm_num [k2c]

end

end Verif.Props
