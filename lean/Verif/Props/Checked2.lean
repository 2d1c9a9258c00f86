import Verif.Lemmas.Checked
import Verif.Props.Aero3
import Verif.Props.Constraint

/-
Property C135, second part: the wing formulas.
-/

namespace Verif.Props
open Verif Verif.Aircraft Verif.Checked

noncomputable section

theorem C135_oswald1 (c : Concept) :
    Exactly (oswald1 (some (pyNum c.aspectratio))) (0 ≤ pyNum c.aspectratio) (oswaldspaneff1 c) := by
  unfold oswald1 oswaldspaneff1
  apply Exactly.of
  · walk
  · simp only [true_and, and_true, not_or, not_lt]
    constructor
    · exact fun h => h.1
    · exact fun h => ⟨h, fun h2 => by norm_num at h2⟩

example : oswald1 (some (pyNum exC.aspectratio)) = some (oswaldspaneff1 exC) := (C135_oswald1 exC).1 exC_isWing.ar.le

theorem C135_oswald2 (c : Concept) (h : 0 < pyNum c.aspectratio) (hs : Real.cos c.sweep_mt_rad ≠ 0) :
    oswald2 (some (pyNum c.aspectratio)) (some c.sweep_mt_rad) = some (oswaldspaneff2 c) := by
  have h2 := (C40_second c h).1
  unfold oswald2
  unfold oswaldspaneff2 at h2 ⊢
  apply Exactly.suff
  · walk
  · simp only [true_and, and_true]
    refine ⟨⟨hs, by positivity⟩, ?_⟩
    intro h0
    simp only [h0, div_zero, lt_irrefl] at h2

example : oswald2 (some (pyNum exC.aspectratio)) (some exC.sweep_mt_rad) = some (oswaldspaneff2 exC) :=
  C135_oswald2 exC exC_isWing.ar (by norm_num [exC, pyNum, Concept.sweep_mt_rad, Atmos.deg2rad])

theorem C135_oswald3 (c : Concept) (h : 0 < pyNum c.aspectratio) (hs : |c.sweep_le_rad| < Real.pi / 2) :
    oswald3 (some (pyNum c.aspectratio)) (some c.sweep_le_rad) = some (oswaldspaneff3 c) := by
  have hc := cos_pos_of_abs hs
  unfold oswald3 oswaldspaneff3
  apply Exactly.suff
  · walk
  · simp only [true_and, and_true, not_or, not_lt]
    exact ⟨⟨h.le, fun h2 => absurd h2.1 h.ne'⟩, hc.le, fun h2 => absurd h2.1 hc.ne'⟩

example : oswald3 (some (pyNum exC.aspectratio)) (some exC.sweep_le_rad) = some (oswaldspaneff3 exC) := C135_oswald3 exC exC_isWing.ar exC_isWing.le

theorem C135_sub0 {c : Concept} (w : Wing c) {m : ℝ} (h0 : 0 ≤ m) (h1 : m < 1) :
    sub0 (some (pyNum c.aspectratio)) (some (pyNum c.a_0i)) (some c.sweep_25_rad) (some m) = some (aSub0 c m) := by
  have hc := cos_pos_of_abs w.qc
  have ha := w.a0
  unfold sub0 aSub0
  apply Exactly.suff
  · walk
  · simp only [true_and, and_true]
    refine ⟨by nlinarith, ⟨⟨ha.ne', hc.ne'⟩, by positivity⟩, by positivity⟩

example : sub0 (some (pyNum exC.aspectratio)) (some (pyNum exC.a_0i)) (some exC.sweep_25_rad) (some 0.5) = some (aSub0 exC 0.5) :=
  C135_sub0 exC_isWing (by norm_num) (by norm_num)

theorem C135_sub3 {c : Concept} (w : Wing c) {m : ℝ} (h0 : 0 ≤ m) (h1 : m < 1) :
    sub3 (some (pyNum c.aspectratio)) (some (pyNum c.a_0i)) (some (oswaldspaneff2 c)) (some m) = some (aSub3 c m) := by
  have hb := beta_pos h0 h1
  have har := w.ar
  have ha := w.a0
  have he := (C40_second c har).1
  have hp := Real.pi_pos
  unfold sub3 aSub3
  apply Exactly.suff
  · walk
  · simp only [true_and, and_true]
    refine ⟨⟨by nlinarith, by positivity, by positivity⟩, by positivity⟩

example : sub3 (some (pyNum exC.aspectratio)) (some (pyNum exC.a_0i)) (some (oswaldspaneff2 exC)) (some 0.5) = some (aSub3 exC 0.5) :=
  C135_sub3 exC_isWing (by norm_num) (by norm_num)

theorem C135_sub4 {c : Concept} (w : Wing c) {m : ℝ} (h0 : 0 ≤ m) (h1 : m < 1) :
    sub4 (some (pyNum c.aspectratio)) (some (pyNum c.a_0i)) (some m) = some (aSub4 c m) := by
  have hb := beta_pos h0 h1
  have har := w.ar
  have ha := w.a0
  have hp := Real.pi_pos
  unfold sub4 aSub4
  apply Exactly.suff
  · walk
  · simp only [true_and, and_true]
    refine ⟨⟨⟨⟨by nlinarith, by positivity⟩, by positivity⟩, by positivity⟩, by positivity⟩

example : sub4 (some (pyNum exC.aspectratio)) (some (pyNum exC.a_0i)) (some 0.5) = some (aSub4 exC 0.5) :=
  C135_sub4 exC_isWing (by norm_num) (by norm_num)

theorem C135_sub5 {c : Concept} (w : Wing c) {m : ℝ} (h0 : 0 ≤ m) (h1 : m < 1) :
    sub5 (some (pyNum c.aspectratio)) (some (pyNum c.a_0i)) (some c.sweep_le_rad) (some m) = some (aSub5 c m) := by
  have hc := cos_pos_of_abs w.le
  have hc1 := Real.cos_le_one c.sweep_le_rad
  have har := w.ar
  have ha := w.a0
  have hp := Real.pi_pos
  have hm : 0 ≤ 1 - (m * Real.cos c.sweep_le_rad) ^ 2 := by
    have h2 : m * Real.cos c.sweep_le_rad ≤ m := by nlinarith
    have h3 : 0 ≤ m * Real.cos c.sweep_le_rad := by positivity
    nlinarith
  unfold sub5 aSub5
  apply Exactly.suff
  · walk
  · simp only [true_and, and_true]
    refine ⟨hm, ⟨⟨by positivity, by positivity⟩, by positivity⟩, by positivity⟩

example : sub5 (some (pyNum exC.aspectratio)) (some (pyNum exC.a_0i)) (some exC.sweep_le_rad) (some 0.5) = some (aSub5 exC 0.5) :=
  C135_sub5 exC_isWing (by norm_num) (by norm_num)

theorem C135_sub6 {c : Concept} (w : Wing c) {m s : ℝ} (h0 : 0 ≤ m) (h1 : m < 1) (hs : |s| < Real.pi / 2) :
    sub6 (some (pyNum c.aspectratio)) (some (pyNum c.a_0i)) (some s) (some m) = some (aSub6 c m s) := by
  have hc := cos_pos_of_abs hs
  have hb := beta_pos h0 h1
  have har := w.ar
  have ha := w.a0
  have hp := Real.pi_pos
  unfold sub6 aSub6
  apply Exactly.suff
  · walk
  · simp only [true_and, and_true]
    refine ⟨by nlinarith, by positivity, ⟨⟨by positivity, hc.ne', hb.ne'⟩, by positivity⟩, by positivity⟩

example : sub6 (some (pyNum exC.aspectratio)) (some (pyNum exC.a_0i)) (some 0.1) (some 0.5) = some (aSub6 exC 0.5 0.1) :=
  C135_sub6 exC_isWing (by norm_num) (by norm_num) (by rw [abs_of_pos (by norm_num)]; linarith [Real.pi_gt_three])

theorem C135_sub8 {c : Concept} (w : Wing c) {m : ℝ} (h0 : 0 ≤ m) (h1 : m < 1) :
    sub8 (some (pyNum c.aspectratio)) (some (pyNum c.a_0i)) (some m) = some (aSub8 c m) := by
  have hb := beta_pos h0 h1
  have har := w.ar
  have ha := w.a0
  have hp := Real.pi_pos
  unfold sub8 aSub8
  apply Exactly.suff
  · walk
  · simp only [true_and, and_true]
    refine ⟨⟨by nlinarith, hb.ne'⟩, ⟨⟨hp.ne', by positivity⟩, hp.ne'⟩, by positivity⟩

example : sub8 (some (pyNum exC.aspectratio)) (some (pyNum exC.a_0i)) (some 0.5) = some (aSub8 exC 0.5) :=
  C135_sub8 exC_isWing (by norm_num) (by norm_num)

theorem tan_pi_ne {n : ℝ} (h0 : 1 / 2 < n) (h1 : n < 1) : Real.cos (Real.pi * n) ≠ 0 ∧ Real.tan (Real.pi * n) ≠ 0 := by
  have hp := Real.pi_pos
  have hc : Real.cos (Real.pi * n) < 0 := Real.cos_neg_of_pi_div_two_lt_of_lt (by nlinarith) (by nlinarith)
  have hs : 0 < Real.sin (Real.pi * n) := Real.sin_pos_of_pos_of_lt_pi (by nlinarith) (by nlinarith)
  refine ⟨hc.ne, ?_⟩
  rw [Real.tan_eq_sin_div_cos]
  exact div_ne_zero hs.ne' hc.ne

theorem C135_sub7 {c : Concept} (w : Wing c) {m s : ℝ} (h0 : 0 ≤ m) (h1 : m < 1) (hs : |s| < Real.pi / 2) :
    sub7 (some (pyNum c.aspectratio)) (some (pyNum c.a_0i)) (some s) (some m) = some (aSub7 c m s) := by
  have hb := beta_pos h0 h1
  have har := w.ar
  have ha := w.a0
  have hp := Real.pi_pos
  have h72 := (C72_sub7 w h0 h1 hs).1
  unfold sub7
  unfold aSub7 at h72 ⊢
  obtain ⟨a, hae⟩ : ∃ b, b = pyNum c.a_0i / √(1 - m ^ 2) := ⟨_, rfl⟩
  have ha0 : 0 < a := by rw [hae]; positivity
  obtain ⟨r, hre⟩ : ∃ b, b = Real.pi * pyNum c.aspectratio := ⟨_, rfl⟩
  have hr0 : 0 < r := by rw [hre]; positivity
  obtain ⟨d, hd⟩ : ∃ d, d = (1 + (a * Real.cos s / r) ^ 2) ^ (0.25 : ℝ) := ⟨_, rfl⟩
  have hd1 : 1 ≤ d := by
    rw [hd]
    apply Real.one_le_rpow _ (by norm_num)
    nlinarith [sq_nonneg (a * Real.cos s / r)]
  obtain ⟨e, he⟩ : ∃ e, e = s / d := ⟨_, rfl⟩
  have hes : |e| ≤ |s| := by
    rw [he, abs_div, abs_of_pos (by linarith : 0 < d)]
    exact div_le_self (abs_nonneg _) hd1
  have hce := cos_pos_of_abs (lt_of_le_of_lt hes hs)
  obtain ⟨f, hf⟩ : ∃ f, f = a * Real.cos e := ⟨_, rfl⟩
  have hf0 : 0 < f := by rw [hf]; positivity
  obtain ⟨p, hpe⟩ : ∃ p, p = 1 / (4 * (1 + (|e| / (0.5 * Real.pi)))) := ⟨_, rfl⟩
  have hp0 : 0 < p := by rw [hpe]; positivity
  obtain ⟨x, hx⟩ : ∃ x, x = (1 + (f / r) ^ 2) ^ p := ⟨_, rfl⟩
  have hx1 : 1 < x := by
    rw [hx]
    apply Real.one_lt_rpow _ hp0
    have : 0 < (f / r) ^ 2 := by positivity
    linarith
  obtain ⟨n, hn⟩ : ∃ n, n = 1 - 1 / (2 * x) := ⟨_, rfl⟩
  have hq : 0 < 1 / (2 * x) := by positivity
  have hq2 : 1 / (2 * x) < 1 / 2 := by
    apply one_div_lt_one_div_of_lt <;> linarith
  have hn0 : 1 / 2 < n := by rw [hn]; linarith
  have hn1 : n < 1 := by rw [hn]; linarith
  obtain ⟨ht1, ht2⟩ := tan_pi_ne hn0 hn1
  apply Exactly.suff
  · walk
  · simp only [true_and, and_true]
    simp only [← hae, ← hre, ← hd, ← he, ← hf, ← hpe, ← hx, ← hn] at h72 ⊢
    refine ⟨⟨by nlinarith, hb.ne'⟩, ⟨⟨hr0.ne', ?_⟩, by linarith⟩, ⟨by positivity, by positivity⟩, ⟨⟨hr0.ne', ?_⟩, by positivity⟩, ⟨⟨ht1, ht2⟩, hr0.ne'⟩, ?_⟩
    · rintro (h | h)
      · nlinarith [sq_nonneg (a * Real.cos s / r)]
      · nlinarith [sq_nonneg (a * Real.cos s / r), h.1]
    · rintro (h | h)
      · nlinarith [sq_nonneg (f / r)]
      · nlinarith [sq_nonneg (f / r), h.1]
    · intro h
      rw [h, div_zero] at h72
      exact lt_irrefl _ h72

example : sub7 (some (pyNum exC.aspectratio)) (some (pyNum exC.a_0i)) (some 0.1) (some 0.5) = some (aSub7 exC 0.5 0.1) :=
  C135_sub7 exC_isWing (by norm_num) (by norm_num) (by rw [abs_of_pos (by norm_num)]; linarith [Real.pi_gt_three])

theorem C135_sup3 (m : ℝ) : Exactly (sup3 (some m)) (1 < |m|) (aSup3 m) := by
  unfold sup3 aSup3
  apply Exactly.of
  · walk
  · simp only [true_and]
    have h1 : 1 < |m| ↔ 0 < m ^ 2 - 1 := by
      rw [sub_pos, ← sq_abs m]
      exact (one_lt_sq_iff₀ (abs_nonneg m)).symm
    rw [h1]
    constructor
    · rintro ⟨h, h2⟩
      rcases h.lt_or_eq with h | h
      · exact h
      · exact absurd (by rw [← h]; exact Real.sqrt_zero) h2
    · intro h
      exact ⟨h.le, (Real.sqrt_pos.2 h).ne'⟩

example : sup3 (some 2) = some (aSup3 2) ∧ sup3 (some 1) = none ∧ sup3 (some 0.9) = none :=
  ⟨(C135_sup3 2).1 (by norm_num), (C135_sup3 1).2 (by norm_num), (C135_sup3 0.9).2 (by rw [abs_of_pos (by norm_num)]; norm_num)⟩

theorem C135_sup4 (c : Concept) (m : ℝ) :
    Exactly (sup4 (some (pyNum c.aspectratio)) (some m)) (1 < |m| ∧ pyNum c.aspectratio ≠ 0) (aSup4 c m) := by
  have h1 : 1 < |m| ↔ 0 < m ^ 2 - 1 := by
    rw [sub_pos, ← sq_abs m]
    exact (one_lt_sq_iff₀ (abs_nonneg m)).symm
  unfold sup4 aSup4
  apply Exactly.of
  · walk
  · simp only [true_and]
    rw [h1]
    constructor
    · rintro ⟨⟨h, h2⟩, h3, -⟩
      refine ⟨?_, h3.2⟩
      rcases h.lt_or_eq with h | h
      · exact h
      · exact absurd (by rw [← h]; exact Real.sqrt_zero) h2
    · rintro ⟨h, ha⟩
      exact ⟨⟨h.le, (Real.sqrt_pos.2 h).ne'⟩, ⟨by norm_num, ha⟩, h.le, (Real.sqrt_pos.2 h).ne'⟩

example : sup4 (some (pyNum exC.aspectratio)) (some 2) = some (aSup4 exC 2) ∧ sup4 (some (pyNum exC.aspectratio)) (some 1) = none :=
  ⟨(C135_sup4 exC 2).1 ⟨by norm_num, exC_isWing.ar.ne'⟩, (C135_sup4 exC 1).2 (by norm_num)⟩

/-- All estimates the subsonic lift slope averages. -/
theorem C135_subsonic {c : Concept} (w : Wing c) {m : ℝ} (h0 : 0 ≤ m) (h1 : m < 1) (hs : Real.cos c.sweep_mt_rad ≠ 0) :
    ∃ s a x0 x3 x4 x5 x6 x7 x8 e : ℝ, a_subsonic c m = .ok a ∧ a = (x0 + x3 + x4 + x5 + x6 + x7 + x8) / 7 ∧
      oswald2 (some (pyNum c.aspectratio)) (some c.sweep_mt_rad) = some e ∧
      sub0 (some (pyNum c.aspectratio)) (some (pyNum c.a_0i)) (some c.sweep_25_rad) (some m) = some x0 ∧
      sub3 (some (pyNum c.aspectratio)) (some (pyNum c.a_0i)) (some e) (some m) = some x3 ∧
      sub4 (some (pyNum c.aspectratio)) (some (pyNum c.a_0i)) (some m) = some x4 ∧
      sub5 (some (pyNum c.aspectratio)) (some (pyNum c.a_0i)) (some c.sweep_le_rad) (some m) = some x5 ∧
      sub6 (some (pyNum c.aspectratio)) (some (pyNum c.a_0i)) (some s) (some m) = some x6 ∧
      sub7 (some (pyNum c.aspectratio)) (some (pyNum c.a_0i)) (some s) (some m) = some x7 ∧
      sub8 (some (pyNum c.aspectratio)) (some (pyNum c.a_0i)) (some m) = some x8 := by
  obtain ⟨s, hs1, he⟩ := C41_line c 0.5 (by norm_num) (by norm_num)
  have hs2 : s = 2 * c.sweep_25_rad - c.sweep_le_rad := by norm_num at he; linarith
  have hsa : |s| < Real.pi / 2 := by rw [hs2]; exact w.hc
  refine ⟨s, _, _, _, _, _, _, _, _, _, ?_, rfl, C135_oswald2 c w.ar hs, C135_sub0 w h0 h1, C135_sub3 w h0 h1, C135_sub4 w h0 h1, C135_sub5 w h0 h1,
    C135_sub6 w h0 h1 hsa, C135_sub7 w h0 h1 hsa, C135_sub8 w h0 h1⟩
  unfold a_subsonic
  simp only [hs1, bind_ok, List.sum_cons, List.sum_nil, List.length_cons, List.length_nil]
  norm_num
  ring_nf
  rfl

example : ∃ s a x0 x3 x4 x5 x6 x7 x8 e : ℝ, a_subsonic exC 0.5 = .ok a ∧ a = (x0 + x3 + x4 + x5 + x6 + x7 + x8) / 7 ∧
    oswald2 (some (pyNum exC.aspectratio)) (some exC.sweep_mt_rad) = some e ∧
    sub7 (some (pyNum exC.aspectratio)) (some (pyNum exC.a_0i)) (some s) (some 0.5) = some x7 := by
  obtain ⟨s, a, x0, x3, x4, x5, x6, x7, x8, e, h1, h2, h3, -, -, -, -, -, h4, -⟩ := C135_subsonic exC_isWing (m := 0.5) (by norm_num) (by norm_num)
    (by norm_num [exC, pyNum, Concept.sweep_mt_rad, Atmos.deg2rad])
  exact ⟨s, a, x0, x3, x4, x5, x6, x7, x8, e, h1, h2, h3, h4⟩

theorem C135_oswald4 (c : Concept) (h : 0 < pyNum c.aspectratio) :
    ∃ e, oswald4theo (some (hoernerfactor (pyNum c.roottaperratio) (pyNum c.sweep_25_deg))) (some (pyNum c.aspectratio)) = some e ∧
      e = 1 / (1 + hoernerfactor (pyNum c.roottaperratio) (pyNum c.sweep_25_deg) * pyNum c.aspectratio) := by
  have hh := hoerner_pos (pyNum c.roottaperratio) (pyNum c.sweep_25_deg)
  refine ⟨_, ?_, rfl⟩
  unfold oswald4theo
  apply Exactly.suff
  · walk
  · simp only [true_and]
    positivity

example : ∃ e, oswald4theo (some (hoernerfactor (pyNum exC.roottaperratio) (pyNum exC.sweep_25_deg))) (some (pyNum exC.aspectratio)) = some e ∧
    e = 1 / (1 + hoernerfactor (pyNum exC.roottaperratio) (pyNum exC.sweep_25_deg) * pyNum exC.aspectratio) := C135_oswald4 exC exC_isWing.ar

/-- The default induced drag factor. -/
theorem C135_induced (c : Concept) (m : Option ℝ) (h : 0 < pyNum c.aspectratio) :
    ∃ k, induceddragfact c none m = .ok k ∧
      induced (some (pyNum c.aspectratio)) (some (0.5 * (oswaldspaneff2 c + oswaldspaneff4 c (some 0.3)))) = some k := by
  have h2 := (C40_second c h).1
  have h4 : 0 < oswaldspaneff4 c (some 0.3) := lt_of_lt_of_le (by norm_num) (C40_fourth c (some 0.3) h).1
  have hp := Real.pi_pos
  refine ⟨1 / (Real.pi * pyNum c.aspectratio * (0.5 * (oswaldspaneff2 c + oswaldspaneff4 c (some 0.3)))), ?_, ?_⟩
  · unfold induceddragfact oswaldlist
    simp only [bind_ok, List.length_nil, lt_irrefl, if_false, gt_iff_lt]
    rfl
  · unfold induced
    apply Exactly.suff
    · walk
    · simp only [true_and]
      positivity

example : ∃ k, induceddragfact exC none none = .ok k ∧
    induced (some (pyNum exC.aspectratio)) (some (0.5 * (oswaldspaneff2 exC + oswaldspaneff4 exC (some 0.3)))) = some k := C135_induced exC none exC_isWing.ar

theorem C135_bestclimb (c : Concept) (alt d w : ℝ) (h : 0 < pyNum c.aspectratio) (hcd : 0 < pyNum c.cdminclean)
    (hd : Atmos.dens1 c.designatm alt = .ok d) (hd0 : 0 < d) (hw : 0 ≤ w) :
    ∃ k v, induceddragfact c none none = .ok k ∧ bestclimbspeedprop c (.scalar w) alt = .ok (.scalar v) ∧
      bestclimb (some k) (some (pyNum c.cdminclean)) (some d) (some w) = some v := by
  obtain ⟨k, hk, hk0, -⟩ := C40_factor c none h
  refine ⟨k, √(2 / d * w * √(k / (3 * pyNum c.cdminclean))), hk, ?_, ?_⟩
  · unfold bestclimbspeedprop
    simp only [hk, hd, bind_ok, recastArray]
    rfl
  · unfold bestclimb
    apply Exactly.suff
    · walk
    · simp only [true_and, and_true]
      exact ⟨⟨hd0.ne', by positivity, by positivity⟩, by positivity⟩

example : ∃ k v, induceddragfact exC none none = .ok k ∧ bestclimbspeedprop exC (.scalar 900) 3000 = .ok (.scalar v) ∧
    bestclimb (some k) (some (pyNum exC.cdminclean)) (some 1) (some 900) = some v :=
  C135_bestclimb exC 3000 1 900 exC_isWing.ar (by norm_num [exC, pyNum]) (exAtm_dens 3000 (by norm_num) (by norm_num)) (by norm_num) (by norm_num)

/-- The suction factors of the induced drag, up to a lift coefficient 10 away from the design value; the two parameter sets of the code. -/
theorem C135_suction {x cl a k r : ℝ} (h : |x| ≤ 10) (hk : 0 ≤ cl) (hk1 : cl ≤ 1) :
    suction (some x) (some cl) (some a) (some k) (some r) = some (y_suction x cl a k r) := by
  have e : -0.5 * cl ^ 2 = -(0.5 * cl ^ 2) := by ring
  unfold suction y_suction
  rw [e]
  apply Exactly.suff
  · walk
  · simp only [true_and]
    apply (cos_pos_of_abs _).ne'
    have := Real.pi_gt_three
    obtain ⟨h1, h2⟩ := abs_le.1 h
    have h3 : cl ^ 2 ≤ 1 := by nlinarith
    have h4 : 0 ≤ cl ^ 2 := sq_nonneg _
    rw [abs_lt]
    constructor <;> norm_num <;> linarith

example : suction (some 0.4) (some 0.3) (some 22.5) (some 1.95) (some 0) = some (y_suction 0.4 0.3 22.5 1.95 0) :=
  C135_suction (by norm_num) (by norm_num) (by norm_num)

end

end Verif.Props
