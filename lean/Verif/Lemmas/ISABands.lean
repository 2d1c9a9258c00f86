import Verif.Lemmas.ISALayers

/-
The exact extent of the bands at the ISA layer boundaries in which the inversion of pressure and of
density is wrong.
-/

namespace Verif.Layers
open Set

/-- Further boundary facts. -/
structure Band (f1 f2 f3 f4 f5 : ℝ → ℝ) (t1 t2 t3 t4 b1 b2 b3 b4 : ℝ) : Prop where
  w1 : f2 11000 < f1 11000.003
  w2 : t2 ≤ f3 19999.999
  w3 : f4 32000 < f3 32000.003
  w4 : t4 ≤ f5 46999.99
  e1 : f2 b1 = t1
  e2 : f2 b2 = t2
  e3 : f4 b3 = t3
  e4 : f4 b4 = t4
  n3 : 0 ≤ b3
  n4 : 0 ≤ b4

variable {f1 f2 f3 f4 f5 g1 g2 g3 g4 g5 : ℝ → ℝ} {t1 t2 t3 t4 b1 b2 b3 b4 : ℝ}

theorem band_bounds (L : Lay f1 f2 f3 f4 f5) (I : Inv f1 f2 f3 f4 f5 g1 g2 g3 g4 g5 t1 t2 t3 t4)
    (B : Band f1 f2 f3 f4 f5 t1 t2 t3 t4 b1 b2 b3 b4) :
    b1 ≤ 11000 + 1e-9 ∧ (19999.95 < b2 ∧ b2 < 19999.999) ∧ b3 ≤ 32000 + 1e-9 ∧ (46999.95 < b4 ∧ b4 < 46999.99) := by
  have w2 : StrictAnti f2 := L.a2
  refine ⟨?_, ⟨?_, ?_⟩, ?_, ⟨?_, ?_⟩⟩
  · by_contra hc
    have := w2 (not_le.mp hc); have := I.t1gt; have := B.e1; linarith
  · by_contra hc
    have := w2.antitone (not_lt.mp hc); have := I.t2lt; have := B.e2; linarith
  · by_contra hc
    have := w2.antitone (not_lt.mp hc); have := I.t2gt; have := B.e2; have := L.j20; linarith
  · by_contra hc
    have := L.a4 (show (0:ℝ) ≤ 32000 + 1e-9 by norm_num) (show 0 ≤ b3 from B.n3) (not_le.mp hc)
    have := I.t3gt; have := B.e3; linarith
  · by_contra hc
    have := L.a4.antitoneOn (show 0 ≤ b4 from B.n4) (show (0:ℝ) ≤ 46999.95 by norm_num) (not_lt.mp hc)
    have := I.t4lt; have := B.e4; linarith
  · by_contra hc
    have := L.a4.antitoneOn (show (0:ℝ) ≤ 46999.99 by norm_num) (show 0 ≤ b4 from B.n4) (not_lt.mp hc)
    have := I.t4gt; have := B.e4; have := L.j47; linarith

theorem pwinv_iff (L : Lay f1 f2 f3 f4 f5) (I : Inv f1 f2 f3 f4 f5 g1 g2 g3 g4 g5 t1 t2 t3 t4)
    (B : Band f1 f2 f3 f4 f5 t1 t2 t3 t4 b1 b2 b3 b4) (h : ℝ) :
    pwinv t1 t2 t3 t4 g1 g2 g3 g4 g5 (pw f1 f2 f3 f4 f5 h) = h ↔
      ¬ ((11000 ≤ h ∧ h < b1) ∨ (b2 ≤ h ∧ h < 20000) ∨ (32000 ≤ h ∧ h < b3) ∨ (b4 ≤ h ∧ h < 47000)) := by
  have t12 := I.t12
  have t23 := I.t23
  have t34 := I.t34
  obtain ⟨u1, ⟨u2, u2'⟩, u3, u4, u4'⟩ := band_bounds L I B
  norm_num at u1 u2 u2' u3 u4 u4'
  have m3 : f3 32000 < f3 20000.05 := L.a3 (show (0:ℝ) ≤ 20000.05 by norm_num)
      (show (0:ℝ) ≤ 32000 by norm_num) (by norm_num)
  have hw := pwinv_wrong L I h
  constructor
  · intro he hb
    rcases hb with ⟨h1, h2⟩ | ⟨h1, h2⟩ | ⟨h1, h2⟩ | ⟨h1, h2⟩
    · have e : pw f1 f2 f3 f4 f5 h = f2 h := by
        unfold pw; rw [if_neg (by linarith), if_pos (by linarith)]
      have := L.a2 h2; have := B.e1
      have l0 := L.a2.antitone h1
      have w1 := B.w1
      rw [e, pwinv, if_pos (by linarith)] at he
      have l1 := I.ga1 (show f2 h ∈ Ioi 0 from L.p2 h) (show f1 11000.003 ∈ Ioi 0 from L.p1 _ (by norm_num))
        (by linarith)
      rw [I.i1 _ (by norm_num), he] at l1
      norm_num at l1; linarith
    · by_cases h3 : 19999.999 ≤ h
      · have := hw.1 h3 h2; linarith
      · have e : pw f1 f2 f3 f4 f5 h = f2 h := by
          unfold pw; rw [if_neg (by linarith), if_pos h2]
        have := L.a2.antitone h1; have := B.e2
        have := L.a2 h2
        have := L.c20b; have := I.t3lt
        rw [e, pwinv, if_neg (by linarith), if_neg (by linarith), if_pos (by linarith)] at he
        have l1 := I.ga3 (show f2 h ∈ Ioi 0 from L.p2 h) (show f3 19999.999 ∈ Ioi 0 from L.p3 _ (by norm_num))
          (by have := B.w2; linarith)
        rw [I.i3 _ (by norm_num), he] at l1
        exact h3 l1
    · have e : pw f1 f2 f3 f4 f5 h = f4 h := by
        unfold pw; rw [if_neg (by linarith), if_neg (by linarith), if_neg (by linarith), if_pos (by linarith)]
      have := L.a4 (show 0 ≤ h by linarith) (show 0 ≤ b3 from B.n3) h2
      have := B.e3
      have l0 := L.a4.antitoneOn (show (0:ℝ) ≤ 32000 by norm_num) (show 0 ≤ h by linarith) h1
      have w3 := B.w3
      have k1 : f3 32000.003 < f3 20000 := L.a3 (show (0:ℝ) ≤ 20000 by norm_num) (show (0:ℝ) ≤ 32000.003 by norm_num)
        (by norm_num)
      have := I.t2gt
      rw [e, pwinv, if_neg (by linarith), if_neg (by linarith), if_pos (by linarith)] at he
      have l1 := I.ga3 (show f4 h ∈ Ioi 0 from L.p4 h (by linarith)) (show f3 32000.003 ∈ Ioi 0 from L.p3 _ (by norm_num))
        (by linarith)
      rw [I.i3 _ (by norm_num), he] at l1
      norm_num at l1; linarith
    · by_cases h3 : 46999.99 ≤ h
      · have := hw.2 h3 h2; linarith
      · have e : pw f1 f2 f3 f4 f5 h = f4 h := by
          unfold pw; rw [if_neg (by linarith), if_neg (by linarith), if_neg (by linarith), if_pos h2]
        have := L.a4.antitoneOn (show 0 ≤ b4 from B.n4) (show 0 ≤ h by linarith) h1; have := B.e4
        rw [e, pwinv, if_neg (by linarith), if_neg (by linarith), if_neg (by linarith), if_neg (by linarith)] at he
        have l1 := I.ga5 (show f4 h ∈ Ioi 0 from L.p4 h (by linarith)) (show f5 46999.99 ∈ Ioi 0 from L.p5 _)
          (by have := B.w4; linarith)
        rw [I.i5, he] at l1
        exact h3 l1
  · intro hb
    simp only [not_or, not_and, not_lt] at hb
    obtain ⟨c1, c2, c3, c4⟩ := hb
    by_cases q1 : h < 11000
    · exact pwinv_exact L I h (Or.inl q1)
    by_cases q2 : h < 20000
    · have e : pw f1 f2 f3 f4 f5 h = f2 h := by unfold pw; rw [if_neg q1, if_pos q2]
      have k1 := L.a2.antitone (c1 (not_lt.mp q1))
      have k2 : h < b2 := by
        by_contra hc
        have := c2 (not_lt.mp hc); linarith
      have k3 := L.a2 k2
      have := B.e1; have := B.e2
      rw [e, pwinv, if_neg (by linarith), if_pos (by linarith), I.i2]
    by_cases q3 : h < 32000
    · exact pwinv_exact L I h (Or.inr (Or.inr (Or.inl ⟨not_lt.mp q2, q3⟩)))
    by_cases q4 : h < 47000
    · have e : pw f1 f2 f3 f4 f5 h = f4 h := by unfold pw; rw [if_neg q1, if_neg q2, if_neg q3, if_pos q4]
      have k1 := L.a4.antitoneOn (show 0 ≤ b3 from B.n3) (show 0 ≤ h by linarith) (c3 (not_lt.mp q3))
      have k2 : h < b4 := by
        by_contra hc
        have := c4 (not_lt.mp hc); linarith
      have k3 := L.a4 (show 0 ≤ h by linarith) (show 0 ≤ b4 from B.n4) k2
      have := B.e3; have := B.e4
      rw [e, pwinv, if_neg (by linarith), if_neg (by linarith), if_neg (by linarith), if_pos (by linarith),
        I.i4 h (by linarith)]
    · exact pwinv_exact L I h (Or.inr (Or.inr (Or.inr (Or.inr (not_lt.mp q4)))))

end Verif.Layers

namespace Verif.ISAL
open Verif.Atmos Verif.ISANum Verif.Layers

theorem log_lower {u v : ℝ} (hu : 0 < u) (hv : 0 < v) : Real.log u + (1 - u / v) ≤ Real.log v := by
  have h := Real.one_sub_inv_le_log_of_pos (show 0 < v / u by positivity)
  rw [Real.log_div hv.ne' hu.ne', inv_div] at h
  linarith

theorem log_upper {u v : ℝ} (hu : 0 < u) (hv : 0 < v) : Real.log v ≤ Real.log u + (v / u - 1) := by
  have h := Real.log_le_sub_one_of_pos (show 0 < v / u by positivity)
  rw [Real.log_div hv.ne' hu.ne'] at h
  linarith

theorem exp_surj {F G t : ℝ} (hF : 0 < F) (hG : G ≠ 0) (ht : 0 < t) : ∃ b, F * Real.exp (G * b) = t := by
  refine ⟨Real.log (t / F) / G, ?_⟩
  rw [mul_div_cancel₀ _ hG, Real.exp_log (by positivity)]
  field_simp

theorem pow_surj {c d e t : ℝ} (hd : d ≠ 0) (he : e ≠ 0) (ht : 0 < t) :
    (c + d * ((t ^ (1 / e) - c) / d)) ^ e = t := by
  rw [mul_div_cancel₀ _ hd, add_sub_cancel, ← Real.rpow_mul ht.le, one_div_mul_cancel he, Real.rpow_one]

theorem fp_w1 : fp2 11000 < fp1 11000.003 := by
  apply lt_of_log (p_fp2 _) (p_fp1 (by norm_num))
  rw [log_fp2, log_fp1 (by norm_num)]
  have h1 := log_F2
  have h2 := log_U1_11
  have h3 := log_lower (u := 6.73819005) (v := C1 + D1 * 11000.003) (by norm_num) (pos_U1 (by norm_num))
  simp only [F2, G2, E1, C1, D1] at *
  norm_num at h1 h2 h3 ⊢
  linarith
theorem fp_w2 : pLevel2 ≤ fp3 19999.999 := by
  apply le_of_log (by norm_num [pLevel2]) (p_fp3 (by norm_num))
  rw [log_fp3 (by norm_num)]
  have h1 := log_p2
  have h2 := log_U3_20
  have h3 := log_upper (u := 0.777272202) (v := C3 + D3 * 19999.999) (by norm_num) (pos_U3 (by norm_num))
  simp only [pLevel2, E3, C3, D3] at *
  norm_num at h1 h2 h3 ⊢
  linarith
theorem fp_w3 : fp4 32000 < fp3 32000.003 := by
  apply lt_of_log (p_fp4 (by norm_num)) (p_fp3 (by norm_num))
  rw [at_fp4_32, log_fp3 (by norm_num)]
  have h1 := log_U4_32
  have h2 := log_U3_32
  have h3 := log_upper (u := 0.8203244352) (v := C3 + D3 * 32000.003) (by norm_num) (pos_U3 (by norm_num))
  simp only [E4, E3, C3, D3] at *
  norm_num at h1 h2 h3 ⊢
  linarith
theorem fp_w4 : pLevel4 ≤ fp5 46999.99 := by
  apply le_of_log (by norm_num [pLevel4]) (p_fp5 _)
  rw [log_fp5]
  have h1 := log_p4
  have h2 := log_F5
  simp only [pLevel4, F5, G5]
  norm_num at h1 h2 ⊢
  linarith

theorem fd_w1 : fd2 11000 < fd1 11000.003 := by
  apply lt_of_log (p_fd2 _) (p_fd1 (by norm_num))
  rw [log_fd2, log_fd1 (by norm_num)]
  have h1 := log_M2
  have h2 := log_V1_11
  have h3 := log_lower (u := 0.788586446) (v := I1 + J1 * 11000.003) (by norm_num) (pos_V1 (by norm_num))
  simp only [M2, N2, L1, I1, J1] at *
  norm_num at h1 h2 h3 ⊢
  linarith
theorem fd_w2 : dLevel2 ≤ fd3 19999.999 := by
  apply le_of_log (by norm_num [dLevel2]) (p_fd3 (by norm_num))
  rw [log_fd3 (by norm_num)]
  have h1 := log_d2
  have h2 := log_V3_20
  have h3 := log_upper (u := 1.0715509) (v := I3 + J3 * 19999.999) (by norm_num) (pos_V3 (by norm_num))
  simp only [dLevel2, L3, I3, J3] at *
  norm_num at h1 h2 h3 ⊢
  linarith
theorem fd_w3 : fd4 32000 < fd3 32000.003 := by
  apply lt_of_log (p_fd4 (by norm_num)) (p_fd3 (by norm_num))
  rw [at_fd4_32, log_fd3 (by norm_num)]
  have h1 := log_V4_32
  have h2 := log_V3_32
  have h3 := log_upper (u := 1.1309029) (v := I3 + J3 * 32000.003) (by norm_num) (pos_V3 (by norm_num))
  simp only [L4, L3, I3, J3] at *
  norm_num at h1 h2 h3 ⊢
  linarith
theorem fd_w4 : dLevel4 ≤ fd5 46999.99 := by
  apply le_of_log (by norm_num [dLevel4]) (p_fd5 _)
  rw [log_fd5]
  have h1 := log_d4
  have h2 := log_M5
  simp only [dLevel4, M5, N5]
  norm_num at h1 h2 ⊢
  linarith

/-- A right inverse of a decreasing power law takes a value below the one at 0 to an altitude above 0. -/
theorem pow_surj_nonneg {c d e t : ℝ} (hd : 0 < d) (he : e < 0) (hc : 0 < c) (ht : 0 < t) (hle : t ≤ c ^ e) :
    0 ≤ (t ^ (1 / e) - c) / d := by
  apply div_nonneg _ hd.le
  have h := Real.rpow_le_rpow_of_nonpos ht hle (show 1 / e ≤ 0 from (one_div_neg.mpr he).le)
  rw [← Real.rpow_mul hc.le, mul_one_div_cancel he.ne, Real.rpow_one] at h
  linarith

theorem band_fp : ∃ b1 b2 b3 b4, Band fp1 fp2 fp3 fp4 fp5 pLevel1 pLevel2 pLevel3 pLevel4 b1 b2 b3 b4 := by
  obtain ⟨b1, e1⟩ := exp_surj (F := F2) (G := G2) (t := pLevel1) pos_F2 (by norm_num [G2]) (by norm_num [pLevel1])
  obtain ⟨b2, e2⟩ := exp_surj (F := F2) (G := G2) (t := pLevel2) pos_F2 (by norm_num [G2]) (by norm_num [pLevel2])
  have q0 : fp4 46999.95 ≤ fp4 0 := lay_fp.a4.antitoneOn (show (0:ℝ) ≤ 0 by norm_num) (show (0:ℝ) ≤ 46999.95 by norm_num)
    (by norm_num)
  have q3 : pLevel3 ≤ fp4 0 := by
    have := lay_fp.a4.antitoneOn (show (0:ℝ) ≤ 0 by norm_num) (show (0:ℝ) ≤ 32000 by norm_num) (by norm_num)
    have := fp_v32; linarith
  have q4 : pLevel4 ≤ fp4 0 := by have := fp_t4lt; linarith
  have f0 : fp4 0 = C4 ^ E4 := by simp [fp4]
  rw [f0] at q3 q4
  exact ⟨b1, b2, _, _, ⟨fp_w1, fp_w2, fp_w3, fp_w4, e1, e2,
    pow_surj (c := C4) (d := D4) (e := E4) (t := pLevel3) (by norm_num [D4]) (by norm_num [E4]) (by norm_num [pLevel3]),
    pow_surj (c := C4) (d := D4) (e := E4) (t := pLevel4) (by norm_num [D4]) (by norm_num [E4]) (by norm_num [pLevel4]),
    pow_surj_nonneg (by norm_num [D4]) (by norm_num [E4]) (by norm_num [C4]) (by norm_num [pLevel3]) q3,
    pow_surj_nonneg (by norm_num [D4]) (by norm_num [E4]) (by norm_num [C4]) (by norm_num [pLevel4]) q4⟩⟩

theorem band_fd : ∃ b1 b2 b3 b4, Band fd1 fd2 fd3 fd4 fd5 dLevel1 dLevel2 dLevel3 dLevel4 b1 b2 b3 b4 := by
  obtain ⟨b1, e1⟩ := exp_surj (F := M2) (G := N2) (t := dLevel1) pos_M2 (by norm_num [N2]) (by norm_num [dLevel1])
  obtain ⟨b2, e2⟩ := exp_surj (F := M2) (G := N2) (t := dLevel2) pos_M2 (by norm_num [N2]) (by norm_num [dLevel2])
  have q3 : dLevel3 ≤ fd4 0 := by
    have := lay_fd.a4.antitoneOn (show (0:ℝ) ≤ 0 by norm_num) (show (0:ℝ) ≤ 31999.95 by norm_num) (by norm_num)
    have h : dLevel3 ≤ fd4 31999.95 := by
      apply le_of_log (by norm_num [dLevel3]) (p_fd4 (by norm_num))
      rw [at_fd4_32m]
      have h1 := log_V4_32
      have h2 := log_d3
      have h3 := log_upper (u := 1.387734154) (v := 1.3877333043049) (by norm_num) (by norm_num)
      simp only [L4, dLevel3] at *
      norm_num at h1 h2 h3 ⊢
      linarith
    linarith
  have q4 : dLevel4 ≤ fd4 0 := by
    have := lay_fd.a4.antitoneOn (show (0:ℝ) ≤ 0 by norm_num) (show (0:ℝ) ≤ 46999.95 by norm_num) (by norm_num)
    have := fd_t4lt; linarith
  have f0 : fd4 0 = I4 ^ L4 := by simp [fd4]
  rw [f0] at q3 q4
  exact ⟨b1, b2, _, _, ⟨fd_w1, fd_w2, fd_w3, fd_w4, e1, e2,
    pow_surj (c := I4) (d := J4) (e := L4) (t := dLevel3) (by norm_num [J4]) (by norm_num [L4]) (by norm_num [dLevel3]),
    pow_surj (c := I4) (d := J4) (e := L4) (t := dLevel4) (by norm_num [J4]) (by norm_num [L4]) (by norm_num [dLevel4]),
    pow_surj_nonneg (by norm_num [J4]) (by norm_num [L4]) (by norm_num [I4]) (by norm_num [dLevel3]) q3,
    pow_surj_nonneg (by norm_num [J4]) (by norm_num [L4]) (by norm_num [I4]) (by norm_num [dLevel4]) q4⟩⟩

end Verif.ISAL
