import Verif.Model.ISA
import Verif.Lemmas.ISANum
import Verif.Lemmas.Layers

/-
The ISA pressure and density as five-layer functions: the boundary facts of `Layers.Lay` and
`Layers.Inv`, from the logarithm brackets of `ISANum`.
-/

namespace Verif.ISAL
open Verif.Atmos Verif.ISANum Verif.Layers Set

noncomputable section

theorem lt_of_log {a b : ℝ} (ha : 0 < a) (hb : 0 < b) (h : Real.log a < Real.log b) : a < b :=
  (Real.log_lt_log_iff ha hb).mp h

theorem le_of_log {a b : ℝ} (ha : 0 < a) (hb : 0 < b) (h : Real.log a ≤ Real.log b) : a ≤ b :=
  (Real.log_le_log_iff ha hb).mp h

theorem log_fexp {F G h : ℝ} (hF : 0 < F) : Real.log (F * Real.exp (G * h)) = Real.log F + G * h := by
  rw [Real.log_mul hF.ne' (Real.exp_pos _).ne', Real.log_exp]

/-- Power layer with decreasing base and positive exponent. -/
theorem anti_pow_pos {c d e : ℝ} {s : Set ℝ} (hd : d < 0) (he : 0 < e) (hs : ∀ h ∈ s, 0 < c + d * h) :
    StrictAntiOn (fun h => (c + d * h) ^ e) s := by
  intro x hx y hy hxy
  exact Real.rpow_lt_rpow (hs y hy).le (by nlinarith) he

/-- Power layer with increasing base and negative exponent. -/
theorem anti_pow_neg {c d e : ℝ} {s : Set ℝ} (hd : 0 < d) (he : e < 0) (hs : ∀ h ∈ s, 0 < c + d * h) :
    StrictAntiOn (fun h => (c + d * h) ^ e) s := by
  intro x hx y hy hxy
  exact Real.rpow_lt_rpow_of_neg (hs x hx) (by nlinarith) he

theorem anti_exp {F G : ℝ} (hF : 0 < F) (hG : G < 0) : StrictAnti (fun h => F * Real.exp (G * h)) := by
  intro x y hxy
  apply mul_lt_mul_of_pos_left _ hF
  apply Real.exp_lt_exp.mpr
  nlinarith

theorem inv_pow {c d e h : ℝ} (hd : d ≠ 0) (he : e ≠ 0) (hp : 0 < c + d * h) :
    (((c + d * h) ^ e) ^ (1 / e) - c) / d = h := by
  rw [← Real.rpow_mul hp.le, mul_one_div_cancel he, Real.rpow_one]
  field_simp; ring

theorem inv_exp {F G h : ℝ} (hF : 0 < F) (hG : G ≠ 0) :
    (1 / G) * Real.log (1 + (F * Real.exp (G * h) / F - 1)) = h := by
  rw [mul_div_cancel_left₀ _ hF.ne', add_sub_cancel, Real.log_exp]
  field_simp

theorem ganti_pos {c d e : ℝ} (hd : d < 0) (he : 0 < e) :
    AntitoneOn (fun p : ℝ => (p ^ (1 / e) - c) / d) (Ioi 0) := by
  intro x hx y hy hxy
  have hx' : (0:ℝ) < x := hx
  apply div_le_div_of_nonpos_of_le hd.le
  have := Real.rpow_le_rpow hx'.le hxy (show 0 ≤ 1 / e by positivity)
  linarith

theorem ganti_neg {c d e : ℝ} (hd : 0 < d) (he : e < 0) :
    AntitoneOn (fun p : ℝ => (p ^ (1 / e) - c) / d) (Ioi 0) := by
  intro x hx y hy hxy
  have hx' : (0:ℝ) < x := hx
  apply div_le_div_of_nonneg_right _ hd.le
  have := Real.rpow_le_rpow_of_nonpos hx' hxy (show 1 / e ≤ 0 from (one_div_neg.mpr he).le)
  linarith

theorem ganti_exp {F G : ℝ} (hF : 0 < F) (hG : G < 0) :
    AntitoneOn (fun p : ℝ => (1 / G) * Real.log (1 + (p / F - 1))) (Ioi 0) := by
  intro x hx y hy hxy
  have hx' : (0:ℝ) < x := hx
  have hy' : (0:ℝ) < y := hy
  apply mul_le_mul_of_nonpos_left _ (one_div_neg.mpr hG).le
  rw [add_sub_cancel, add_sub_cancel]
  exact Real.log_le_log (by positivity) (div_le_div_of_nonneg_right hxy hF.le)

/-! ### Pressure -/

/-- Layer 1 formula. -/
def fp1 (h : ℝ) : ℝ := (C1 + D1 * h) ^ E1
/-- Layer 3 formula. -/
def fp3 (h : ℝ) : ℝ := (C3 + D3 * h) ^ E3
/-- Layer 4 formula. -/
def fp4 (h : ℝ) : ℝ := (C4 + D4 * h) ^ E4
/-- Layer 2 formula. -/
def fp2 (h : ℝ) : ℝ := F2 * Real.exp (G2 * h)
/-- Layer 5 formula. -/
def fp5 (h : ℝ) : ℝ := F5 * Real.exp (G5 * h)

theorem pos_U1 {h : ℝ} (hh : h ≤ 12000) : 0 < C1 + D1 * h := by
  simp only [C1, D1]; norm_num; linarith
theorem pos_U3 {h : ℝ} (hh : 0 ≤ h) : 0 < C3 + D3 * h := by
  simp only [C3, D3]; norm_num; linarith
theorem pos_U4 {h : ℝ} (hh : 0 ≤ h) : 0 < C4 + D4 * h := by
  simp only [C4, D4]; norm_num; linarith
theorem pos_F2 : 0 < F2 := by norm_num [F2]
theorem pos_F5 : 0 < F5 := by norm_num [F5]

theorem log_fp1 {h : ℝ} (hh : h ≤ 12000) : Real.log (fp1 h) = E1 * Real.log (C1 + D1 * h) :=
  Real.log_rpow (pos_U1 hh) _
theorem log_fp3 {h : ℝ} (hh : 0 ≤ h) : Real.log (fp3 h) = E3 * Real.log (C3 + D3 * h) :=
  Real.log_rpow (pos_U3 hh) _
theorem log_fp4 {h : ℝ} (hh : 0 ≤ h) : Real.log (fp4 h) = E4 * Real.log (C4 + D4 * h) :=
  Real.log_rpow (pos_U4 hh) _
theorem log_fp2 (h : ℝ) : Real.log (fp2 h) = Real.log F2 + G2 * h := log_fexp pos_F2
theorem log_fp5 (h : ℝ) : Real.log (fp5 h) = Real.log F5 + G5 * h := log_fexp pos_F5

theorem p_fp1 {h : ℝ} (hh : h ≤ 12000) : 0 < fp1 h := Real.rpow_pos_of_pos (pos_U1 hh) _
theorem p_fp3 {h : ℝ} (hh : 0 ≤ h) : 0 < fp3 h := Real.rpow_pos_of_pos (pos_U3 hh) _
theorem p_fp4 {h : ℝ} (hh : 0 ≤ h) : 0 < fp4 h := Real.rpow_pos_of_pos (pos_U4 hh) _
theorem p_fp2 (h : ℝ) : 0 < fp2 h := mul_pos pos_F2 (Real.exp_pos _)
theorem p_fp5 (h : ℝ) : 0 < fp5 h := mul_pos pos_F5 (Real.exp_pos _)

theorem at_fp1_11 : Real.log (fp1 (11000)) = E1 * Real.log 6.73819005 := by
  rw [log_fp1 (by norm_num)]
  congr 2
  norm_num [C1, D1]
theorem at_fp1_11p : Real.log (fp1 (11000.05)) = E1 * Real.log 6.7381799419375 := by
  rw [log_fp1 (by norm_num)]
  congr 2
  norm_num [C1, D1]
theorem at_fp3_20m : Real.log (fp3 (19999.95)) = E3 * Real.log 0.777272022615695 := by
  rw [log_fp3 (by norm_num)]
  congr 2
  norm_num [C3, D3]
theorem at_fp3_20 : Real.log (fp3 (20000)) = E3 * Real.log 0.777272202 := by
  rw [log_fp3 (by norm_num)]
  congr 2
  norm_num [C3, D3]
theorem at_fp3_20p : Real.log (fp3 (20000.05)) = E3 * Real.log 0.777272381384305 := by
  rw [log_fp3 (by norm_num)]
  congr 2
  norm_num [C3, D3]
theorem at_fp3_32 : Real.log (fp3 (32000)) = E3 * Real.log 0.8203244352 := by
  rw [log_fp3 (by norm_num)]
  congr 2
  norm_num [C3, D3]
theorem at_fp3_32p : Real.log (fp3 (32000.05)) = E3 * Real.log 0.820324614584305 := by
  rw [log_fp3 (by norm_num)]
  congr 2
  norm_num [C3, D3]
theorem at_fp4_32 : Real.log (fp4 (32000)) = E4 * Real.log 0.574327806 := by
  rw [log_fp4 (by norm_num)]
  congr 2
  norm_num [C4, D4]
theorem at_fp4_32e : Real.log (fp4 (32000 + 1e-9)) = E4 * Real.log 0.574327806000007033098 := by
  rw [log_fp4 (by norm_num)]
  congr 2
  norm_num [C4, D4]
theorem at_fp4_32m : Real.log (fp4 (31999.95)) = E4 * Real.log 0.5743274543451 := by
  rw [log_fp4 (by norm_num)]
  congr 2
  norm_num [C4, D4]
theorem at_fp4_47m : Real.log (fp4 (46999.95)) = E4 * Real.log 0.6798239243451 := by
  rw [log_fp4 (by norm_num)]
  congr 2
  norm_num [C4, D4]
theorem at_fp4_47 : Real.log (fp4 (47000)) = E4 * Real.log 0.679824276 := by
  rw [log_fp4 (by norm_num)]
  congr 2
  norm_num [C4, D4]

theorem fp_c11 : fp2 11000 < fp1 11000 := by
  apply lt_of_log (p_fp2 _) (p_fp1 (by norm_num))
  rw [log_fp2, at_fp1_11]
  have h1 := log_F2
  have h2 := log_U1_11
  simp only [F2, G2, E1]
  norm_num at h1 h2 ⊢
  linarith
theorem fp_c20a : fp3 20000 < fp2 19999.95 := by
  apply lt_of_log (p_fp3 (by norm_num)) (p_fp2 _)
  rw [at_fp3_20, log_fp2]
  have h1 := log_U3_20
  have h2 := log_F2
  simp only [E3, F2, G2]
  norm_num at h1 h2 ⊢
  linarith
theorem fp_c20b : fp3 20000.05 < fp2 20000 := by
  apply lt_of_log (p_fp3 (by norm_num)) (p_fp2 _)
  rw [at_fp3_20p, log_fp2]
  have h1 := log_U3_20p
  have h2 := log_F2
  simp only [E3, F2, G2]
  norm_num at h1 h2 ⊢
  linarith
theorem fp_c32 : fp4 32000 < fp3 32000 := by
  apply lt_of_log (p_fp4 (by norm_num)) (p_fp3 (by norm_num))
  rw [at_fp4_32, at_fp3_32]
  have h1 := log_U4_32
  have h2 := log_U3_32
  simp only [E4, E3]
  norm_num at h1 h2 ⊢
  linarith
theorem fp_c47a : fp5 47000 < fp4 46999.95 := by
  apply lt_of_log (p_fp5 _) (p_fp4 (by norm_num))
  rw [log_fp5, at_fp4_47m]
  have h1 := log_F5
  have h2 := log_U4_47m
  simp only [F5, G5, E4]
  norm_num at h1 h2 ⊢
  linarith
theorem fp_c47b : fp5 47000.05 < fp4 47000 := by
  apply lt_of_log (p_fp5 _) (p_fp4 (by norm_num))
  rw [log_fp5, at_fp4_47]
  have h1 := log_F5
  have h2 := log_U4_47
  simp only [F5, G5, E4]
  norm_num at h1 h2 ⊢
  linarith
theorem fp_j20 : fp2 19999.999 < fp3 20000 := by
  apply lt_of_log (p_fp2 _) (p_fp3 (by norm_num))
  rw [log_fp2, at_fp3_20]
  have h1 := log_F2
  have h2 := log_U3_20
  simp only [F2, G2, E3]
  norm_num at h1 h2 ⊢
  linarith
theorem at_fp4_47j : Real.log (fp4 46999.99) = E4 * Real.log 0.67982420566902 := by
  rw [log_fp4 (by norm_num)]
  congr 2
  norm_num [C4, D4]
theorem fp_j47 : fp4 46999.99 < fp5 47000 := by
  apply lt_of_log (p_fp4 (by norm_num)) (p_fp5 _)
  rw [at_fp4_47j, log_fp5]
  have h1 := log_U4_47j
  have h2 := log_F5
  simp only [E4, F5, G5]
  norm_num at h1 h2 ⊢
  linarith
theorem fp_t1lt : pLevel1 < fp1 11000 := by
  apply lt_of_log (by norm_num [pLevel1]) (p_fp1 (by norm_num))
  rw [at_fp1_11]
  have h1 := log_p1
  have h2 := log_U1_11
  simp only [pLevel1, E1]
  norm_num at h1 h2 ⊢
  linarith
theorem fp_t1gt : fp2 (11000 + 1e-9) ≤ pLevel1 := by
  apply le_of_log (p_fp2 _) (by norm_num [pLevel1])
  rw [log_fp2]
  have h1 := log_F2
  have h2 := log_p1
  simp only [F2, G2, pLevel1]
  norm_num at h1 h2 ⊢
  linarith
theorem fp_t2lt : pLevel2 < fp2 19999.95 := by
  apply lt_of_log (by norm_num [pLevel2]) (p_fp2 _)
  rw [log_fp2]
  have h1 := log_p2
  have h2 := log_F2
  simp only [pLevel2, F2, G2]
  norm_num at h1 h2 ⊢
  linarith
theorem fp_t2gt : fp3 20000 ≤ pLevel2 := by
  apply le_of_log (p_fp3 (by norm_num)) (by norm_num [pLevel2])
  rw [at_fp3_20]
  have h1 := log_U3_20
  have h2 := log_p2
  simp only [E3, pLevel2]
  norm_num at h1 h2 ⊢
  linarith
theorem fp_t3lt : pLevel3 < fp3 32000 := by
  apply lt_of_log (by norm_num [pLevel3]) (p_fp3 (by norm_num))
  rw [at_fp3_32]
  have h1 := log_p3
  have h2 := log_U3_32
  simp only [pLevel3, E3]
  norm_num at h1 h2 ⊢
  linarith
theorem fp_t3gt : fp4 (32000 + 1e-9) ≤ pLevel3 := by
  apply le_of_log (p_fp4 (by norm_num)) (by norm_num [pLevel3])
  rw [at_fp4_32e]
  have h1 := log_U4_32e
  have h2 := log_p3
  simp only [E4, pLevel3]
  norm_num at h1 h2 ⊢
  linarith
theorem fp_t4lt : pLevel4 < fp4 46999.95 := by
  apply lt_of_log (by norm_num [pLevel4]) (p_fp4 (by norm_num))
  rw [at_fp4_47m]
  have h1 := log_p4
  have h2 := log_U4_47m
  simp only [pLevel4, E4]
  norm_num at h1 h2 ⊢
  linarith
theorem fp_t4gt : fp5 47000 ≤ pLevel4 := by
  apply le_of_log (p_fp5 _) (by norm_num [pLevel4])
  rw [log_fp5]
  have h1 := log_F5
  have h2 := log_p4
  simp only [F5, G5, pLevel4]
  norm_num at h1 h2 ⊢
  linarith
theorem fp_b1 : fp1 11000.05 < pLevel1 := by
  apply lt_of_log (p_fp1 (by norm_num)) (by norm_num [pLevel1])
  rw [at_fp1_11p]
  have h1 := log_U1_11p
  have h2 := log_p1
  simp only [E1, pLevel1]
  norm_num at h1 h2 ⊢
  linarith
theorem fp_b2 : pLevel2 ≤ fp3 19999.95 := by
  apply le_of_log (by norm_num [pLevel2]) (p_fp3 (by norm_num))
  rw [at_fp3_20m]
  have h1 := log_p2
  have h2 := log_U3_20m
  simp only [pLevel2, E3]
  norm_num at h1 h2 ⊢
  linarith
theorem fp_b3 : fp3 32000.05 < pLevel3 := by
  apply lt_of_log (p_fp3 (by norm_num)) (by norm_num [pLevel3])
  rw [at_fp3_32p]
  have h1 := log_U3_32p
  have h2 := log_p3
  simp only [E3, pLevel3]
  norm_num at h1 h2 ⊢
  linarith
theorem fp_b4 : pLevel4 ≤ fp5 46999.95 := by
  apply le_of_log (by norm_num [pLevel4]) (p_fp5 _)
  rw [log_fp5]
  have h1 := log_p4
  have h2 := log_F5
  simp only [pLevel4, F5, G5]
  norm_num at h1 h2 ⊢
  linarith
theorem fp_v11 : pLevel1 < fp2 11000 := by
  apply lt_of_log (by norm_num [pLevel1]) (p_fp2 _)
  rw [log_fp2]
  have h1 := log_p1
  have h2 := log_F2
  simp only [pLevel1, F2, G2]
  norm_num at h1 h2 ⊢
  linarith
theorem fp_v32 : pLevel3 < fp4 32000 := by
  apply lt_of_log (by norm_num [pLevel3]) (p_fp4 (by norm_num))
  rw [at_fp4_32]
  have h1 := log_p3
  have h2 := log_U4_32
  simp only [pLevel3, E4]
  norm_num at h1 h2 ⊢
  linarith

theorem lay_fp : Lay fp1 fp2 fp3 fp4 fp5 where
  a1 := anti_pow_pos (by norm_num [D1]) (by norm_num [E1]) (fun h hh => pos_U1 hh)
  a2 := anti_exp pos_F2 (by norm_num [G2])
  a3 := anti_pow_neg (by norm_num [D3]) (by norm_num [E3]) (fun h hh => pos_U3 hh)
  a4 := anti_pow_neg (by norm_num [D4]) (by norm_num [E4]) (fun h hh => pos_U4 hh)
  a5 := anti_exp pos_F5 (by norm_num [G5])
  p1 := fun h hh => p_fp1 hh
  p2 := p_fp2
  p3 := fun h hh => p_fp3 hh
  p4 := fun h hh => p_fp4 hh
  p5 := p_fp5
  c11 := fp_c11
  c20a := fp_c20a
  c20b := fp_c20b
  c32 := fp_c32
  c47a := fp_c47a
  c47b := fp_c47b
  j20 := fp_j20
  j47 := fp_j47

theorem inv_fp : Inv fp1 fp2 fp3 fp4 fp5
    (fun p => (p ^ (1 / E1) - C1) / D1) (fun p => (1 / G2) * Real.log (1 + (p / F2 - 1)))
    (fun p => (p ^ (1 / E3) - C3) / D3) (fun p => (p ^ (1 / E4) - C4) / D4)
    (fun p => (1 / G5) * Real.log (1 + (p / F5 - 1))) pLevel1 pLevel2 pLevel3 pLevel4 where
  i1 := fun h hh => inv_pow (by norm_num [D1]) (by norm_num [E1]) (pos_U1 hh)
  i2 := fun h => inv_exp pos_F2 (by norm_num [G2])
  i3 := fun h hh => inv_pow (by norm_num [D3]) (by norm_num [E3]) (pos_U3 hh)
  i4 := fun h hh => inv_pow (by norm_num [D4]) (by norm_num [E4]) (pos_U4 hh)
  i5 := fun h => inv_exp pos_F5 (by norm_num [G5])
  ga1 := ganti_pos (by norm_num [D1]) (by norm_num [E1])
  ga3 := ganti_neg (by norm_num [D3]) (by norm_num [E3])
  ga5 := ganti_exp pos_F5 (by norm_num [G5])
  t1lt := fp_t1lt
  t1gt := fp_t1gt
  t2lt := fp_t2lt
  t2gt := fp_t2gt
  t3lt := fp_t3lt
  t3gt := fp_t3gt
  t4lt := fp_t4lt
  t4gt := fp_t4gt
  b1 := fp_b1
  b2 := fp_b2
  b3 := fp_b3
  b4 := fp_b4
  t12 := by norm_num [pLevel1, pLevel2]
  t23 := by norm_num [pLevel2, pLevel3]
  t34 := by norm_num [pLevel3, pLevel4]
  t4p := by norm_num [pLevel4]

theorem isapress_eq_pw (h : ℝ) : isapress h = pw fp1 fp2 fp3 fp4 fp5 h := rfl

/-! ### Density -/

/-- Layer 1 formula. -/
def fd1 (h : ℝ) : ℝ := (I1 + J1 * h) ^ L1
/-- Layer 3 formula. -/
def fd3 (h : ℝ) : ℝ := (I3 + J3 * h) ^ L3
/-- Layer 4 formula. -/
def fd4 (h : ℝ) : ℝ := (I4 + J4 * h) ^ L4
/-- Layer 2 formula. -/
def fd2 (h : ℝ) : ℝ := M2 * Real.exp (N2 * h)
/-- Layer 5 formula. -/
def fd5 (h : ℝ) : ℝ := M5 * Real.exp (N5 * h)

theorem pos_V1 {h : ℝ} (hh : h ≤ 12000) : 0 < I1 + J1 * h := by
  simp only [I1, J1]; norm_num; linarith
theorem pos_V3 {h : ℝ} (hh : 0 ≤ h) : 0 < I3 + J3 * h := by
  simp only [I3, J3]; norm_num; linarith
theorem pos_V4 {h : ℝ} (hh : 0 ≤ h) : 0 < I4 + J4 * h := by
  simp only [I4, J4]; norm_num; linarith
theorem pos_M2 : 0 < M2 := by norm_num [M2]
theorem pos_M5 : 0 < M5 := by norm_num [M5]

theorem log_fd1 {h : ℝ} (hh : h ≤ 12000) : Real.log (fd1 h) = L1 * Real.log (I1 + J1 * h) :=
  Real.log_rpow (pos_V1 hh) _
theorem log_fd3 {h : ℝ} (hh : 0 ≤ h) : Real.log (fd3 h) = L3 * Real.log (I3 + J3 * h) :=
  Real.log_rpow (pos_V3 hh) _
theorem log_fd4 {h : ℝ} (hh : 0 ≤ h) : Real.log (fd4 h) = L4 * Real.log (I4 + J4 * h) :=
  Real.log_rpow (pos_V4 hh) _
theorem log_fd2 (h : ℝ) : Real.log (fd2 h) = Real.log M2 + N2 * h := log_fexp pos_M2
theorem log_fd5 (h : ℝ) : Real.log (fd5 h) = Real.log M5 + N5 * h := log_fexp pos_M5

theorem p_fd1 {h : ℝ} (hh : h ≤ 12000) : 0 < fd1 h := Real.rpow_pos_of_pos (pos_V1 hh) _
theorem p_fd3 {h : ℝ} (hh : 0 ≤ h) : 0 < fd3 h := Real.rpow_pos_of_pos (pos_V3 hh) _
theorem p_fd4 {h : ℝ} (hh : 0 ≤ h) : 0 < fd4 h := Real.rpow_pos_of_pos (pos_V4 hh) _
theorem p_fd2 (h : ℝ) : 0 < fd2 h := mul_pos pos_M2 (Real.exp_pos _)
theorem p_fd5 (h : ℝ) : 0 < fd5 h := mul_pos pos_M5 (Real.exp_pos _)

theorem at_fd1_11 : Real.log (fd1 (11000)) = L1 * Real.log 0.788586446 := by
  rw [log_fd1 (by norm_num)]
  congr 2
  norm_num [I1, J1]
theorem at_fd1_11p : Real.log (fd1 (11000.05)) = L1 * Real.log 0.7885852630293 := by
  rw [log_fd1 (by norm_num)]
  congr 2
  norm_num [I1, J1]
theorem at_fd3_20m : Real.log (fd3 (19999.95)) = L3 * Real.log 1.0715506527 := by
  rw [log_fd3 (by norm_num)]
  congr 2
  norm_num [I3, J3]
theorem at_fd3_20 : Real.log (fd3 (20000)) = L3 * Real.log 1.0715509 := by
  rw [log_fd3 (by norm_num)]
  congr 2
  norm_num [I3, J3]
theorem at_fd3_20p : Real.log (fd3 (20000.05)) = L3 * Real.log 1.0715511473 := by
  rw [log_fd3 (by norm_num)]
  congr 2
  norm_num [I3, J3]
theorem at_fd3_32 : Real.log (fd3 (32000)) = L3 * Real.log 1.1309029 := by
  rw [log_fd3 (by norm_num)]
  congr 2
  norm_num [I3, J3]
theorem at_fd3_32p : Real.log (fd3 (32000.05)) = L3 * Real.log 1.1309031473 := by
  rw [log_fd3 (by norm_num)]
  congr 2
  norm_num [I3, J3]
theorem at_fd4_32 : Real.log (fd4 (32000)) = L4 * Real.log 1.387734154 := by
  rw [log_fd4 (by norm_num)]
  congr 2
  norm_num [I4, J4]
theorem at_fd4_32e : Real.log (fd4 (32000 + 1e-9)) = L4 * Real.log 1.387734154000016993902 := by
  rw [log_fd4 (by norm_num)]
  congr 2
  norm_num [I4, J4]
theorem at_fd4_32m : Real.log (fd4 (31999.95)) = L4 * Real.log 1.3877333043049 := by
  rw [log_fd4 (by norm_num)]
  congr 2
  norm_num [I4, J4]
theorem at_fd4_47m : Real.log (fd4 (46999.95)) = L4 * Real.log 1.6426418343049 := by
  rw [log_fd4 (by norm_num)]
  congr 2
  norm_num [I4, J4]
theorem at_fd4_47 : Real.log (fd4 (47000)) = L4 * Real.log 1.642642684 := by
  rw [log_fd4 (by norm_num)]
  congr 2
  norm_num [I4, J4]

theorem fd_c11 : fd2 11000 < fd1 11000 := by
  apply lt_of_log (p_fd2 _) (p_fd1 (by norm_num))
  rw [log_fd2, at_fd1_11]
  have h1 := log_M2
  have h2 := log_V1_11
  simp only [M2, N2, L1]
  norm_num at h1 h2 ⊢
  linarith
theorem fd_c20a : fd3 20000 < fd2 19999.95 := by
  apply lt_of_log (p_fd3 (by norm_num)) (p_fd2 _)
  rw [at_fd3_20, log_fd2]
  have h1 := log_V3_20
  have h2 := log_M2
  simp only [L3, M2, N2]
  norm_num at h1 h2 ⊢
  linarith
theorem fd_c20b : fd3 20000.05 < fd2 20000 := by
  apply lt_of_log (p_fd3 (by norm_num)) (p_fd2 _)
  rw [at_fd3_20p, log_fd2]
  have h1 := log_V3_20p
  have h2 := log_M2
  simp only [L3, M2, N2]
  norm_num at h1 h2 ⊢
  linarith
theorem fd_c32 : fd4 32000 < fd3 32000 := by
  apply lt_of_log (p_fd4 (by norm_num)) (p_fd3 (by norm_num))
  rw [at_fd4_32, at_fd3_32]
  have h1 := log_V4_32
  have h2 := log_V3_32
  simp only [L4, L3]
  norm_num at h1 h2 ⊢
  linarith
theorem fd_c47a : fd5 47000 < fd4 46999.95 := by
  apply lt_of_log (p_fd5 _) (p_fd4 (by norm_num))
  rw [log_fd5, at_fd4_47m]
  have h1 := log_M5
  have h2 := log_V4_47m
  simp only [M5, N5, L4]
  norm_num at h1 h2 ⊢
  linarith
theorem fd_c47b : fd5 47000.05 < fd4 47000 := by
  apply lt_of_log (p_fd5 _) (p_fd4 (by norm_num))
  rw [log_fd5, at_fd4_47]
  have h1 := log_M5
  have h2 := log_V4_47
  simp only [M5, N5, L4]
  norm_num at h1 h2 ⊢
  linarith
theorem fd_j20 : fd2 19999.999 < fd3 20000 := by
  apply lt_of_log (p_fd2 _) (p_fd3 (by norm_num))
  rw [log_fd2, at_fd3_20]
  have h1 := log_M2
  have h2 := log_V3_20
  simp only [M2, N2, L3]
  norm_num at h1 h2 ⊢
  linarith
theorem at_fd4_47j : Real.log (fd4 46999.99) = L4 * Real.log 1.64264251406098 := by
  rw [log_fd4 (by norm_num)]
  congr 2
  norm_num [I4, J4]
theorem fd_j47 : fd4 46999.99 < fd5 47000 := by
  apply lt_of_log (p_fd4 (by norm_num)) (p_fd5 _)
  rw [at_fd4_47j, log_fd5]
  have h1 := log_V4_47j
  have h2 := log_M5
  simp only [L4, M5, N5]
  norm_num at h1 h2 ⊢
  linarith
theorem fd_t1lt : dLevel1 < fd1 11000 := by
  apply lt_of_log (by norm_num [dLevel1]) (p_fd1 (by norm_num))
  rw [at_fd1_11]
  have h1 := log_d1
  have h2 := log_V1_11
  simp only [dLevel1, L1]
  norm_num at h1 h2 ⊢
  linarith
theorem fd_t1gt : fd2 (11000 + 1e-9) ≤ dLevel1 := by
  apply le_of_log (p_fd2 _) (by norm_num [dLevel1])
  rw [log_fd2]
  have h1 := log_M2
  have h2 := log_d1
  simp only [M2, N2, dLevel1]
  norm_num at h1 h2 ⊢
  linarith
theorem fd_t2lt : dLevel2 < fd2 19999.95 := by
  apply lt_of_log (by norm_num [dLevel2]) (p_fd2 _)
  rw [log_fd2]
  have h1 := log_d2
  have h2 := log_M2
  simp only [dLevel2, M2, N2]
  norm_num at h1 h2 ⊢
  linarith
theorem fd_t2gt : fd3 20000 ≤ dLevel2 := by
  apply le_of_log (p_fd3 (by norm_num)) (by norm_num [dLevel2])
  rw [at_fd3_20]
  have h1 := log_V3_20
  have h2 := log_d2
  simp only [L3, dLevel2]
  norm_num at h1 h2 ⊢
  linarith
theorem fd_t3lt : dLevel3 < fd3 32000 := by
  apply lt_of_log (by norm_num [dLevel3]) (p_fd3 (by norm_num))
  rw [at_fd3_32]
  have h1 := log_d3
  have h2 := log_V3_32
  simp only [dLevel3, L3]
  norm_num at h1 h2 ⊢
  linarith
theorem fd_t3gt : fd4 (32000 + 1e-9) ≤ dLevel3 := by
  apply le_of_log (p_fd4 (by norm_num)) (by norm_num [dLevel3])
  rw [at_fd4_32e]
  have h1 := log_V4_32e
  have h2 := log_d3
  simp only [L4, dLevel3]
  norm_num at h1 h2 ⊢
  linarith
theorem fd_t4lt : dLevel4 < fd4 46999.95 := by
  apply lt_of_log (by norm_num [dLevel4]) (p_fd4 (by norm_num))
  rw [at_fd4_47m]
  have h1 := log_d4
  have h2 := log_V4_47m
  simp only [dLevel4, L4]
  norm_num at h1 h2 ⊢
  linarith
theorem fd_t4gt : fd5 47000 ≤ dLevel4 := by
  apply le_of_log (p_fd5 _) (by norm_num [dLevel4])
  rw [log_fd5]
  have h1 := log_M5
  have h2 := log_d4
  simp only [M5, N5, dLevel4]
  norm_num at h1 h2 ⊢
  linarith
theorem fd_b1 : fd1 11000.05 < dLevel1 := by
  apply lt_of_log (p_fd1 (by norm_num)) (by norm_num [dLevel1])
  rw [at_fd1_11p]
  have h1 := log_V1_11p
  have h2 := log_d1
  simp only [L1, dLevel1]
  norm_num at h1 h2 ⊢
  linarith
theorem fd_b2 : dLevel2 ≤ fd3 19999.95 := by
  apply le_of_log (by norm_num [dLevel2]) (p_fd3 (by norm_num))
  rw [at_fd3_20m]
  have h1 := log_d2
  have h2 := log_V3_20m
  simp only [dLevel2, L3]
  norm_num at h1 h2 ⊢
  linarith
theorem fd_b3 : fd3 32000.05 < dLevel3 := by
  apply lt_of_log (p_fd3 (by norm_num)) (by norm_num [dLevel3])
  rw [at_fd3_32p]
  have h1 := log_V3_32p
  have h2 := log_d3
  simp only [L3, dLevel3]
  norm_num at h1 h2 ⊢
  linarith
theorem fd_b4 : dLevel4 ≤ fd5 46999.95 := by
  apply le_of_log (by norm_num [dLevel4]) (p_fd5 _)
  rw [log_fd5]
  have h1 := log_d4
  have h2 := log_M5
  simp only [dLevel4, M5, N5]
  norm_num at h1 h2 ⊢
  linarith
theorem fd_v11 : dLevel1 < fd2 11000 := by
  apply lt_of_log (by norm_num [dLevel1]) (p_fd2 _)
  rw [log_fd2]
  have h1 := log_d1
  have h2 := log_M2
  simp only [dLevel1, M2, N2]
  norm_num at h1 h2 ⊢
  linarith
theorem fd_v32 : fd4 32000 < dLevel3 := by
  apply lt_of_log (p_fd4 (by norm_num)) (by norm_num [dLevel3])
  rw [at_fd4_32]
  have h1 := log_V4_32
  have h2 := log_d3
  simp only [L4, dLevel3]
  norm_num at h1 h2 ⊢
  linarith

theorem lay_fd : Lay fd1 fd2 fd3 fd4 fd5 where
  a1 := anti_pow_pos (by norm_num [J1]) (by norm_num [L1]) (fun h hh => pos_V1 hh)
  a2 := anti_exp pos_M2 (by norm_num [N2])
  a3 := anti_pow_neg (by norm_num [J3]) (by norm_num [L3]) (fun h hh => pos_V3 hh)
  a4 := anti_pow_neg (by norm_num [J4]) (by norm_num [L4]) (fun h hh => pos_V4 hh)
  a5 := anti_exp pos_M5 (by norm_num [N5])
  p1 := fun h hh => p_fd1 hh
  p2 := p_fd2
  p3 := fun h hh => p_fd3 hh
  p4 := fun h hh => p_fd4 hh
  p5 := p_fd5
  c11 := fd_c11
  c20a := fd_c20a
  c20b := fd_c20b
  c32 := fd_c32
  c47a := fd_c47a
  c47b := fd_c47b
  j20 := fd_j20
  j47 := fd_j47

theorem inv_fd : Inv fd1 fd2 fd3 fd4 fd5
    (fun p => (p ^ (1 / L1) - I1) / J1) (fun p => (1 / N2) * Real.log (1 + (p / M2 - 1)))
    (fun p => (p ^ (1 / L3) - I3) / J3) (fun p => (p ^ (1 / L4) - I4) / J4)
    (fun p => (1 / N5) * Real.log (1 + (p / M5 - 1))) dLevel1 dLevel2 dLevel3 dLevel4 where
  i1 := fun h hh => inv_pow (by norm_num [J1]) (by norm_num [L1]) (pos_V1 hh)
  i2 := fun h => inv_exp pos_M2 (by norm_num [N2])
  i3 := fun h hh => inv_pow (by norm_num [J3]) (by norm_num [L3]) (pos_V3 hh)
  i4 := fun h hh => inv_pow (by norm_num [J4]) (by norm_num [L4]) (pos_V4 hh)
  i5 := fun h => inv_exp pos_M5 (by norm_num [N5])
  ga1 := ganti_pos (by norm_num [J1]) (by norm_num [L1])
  ga3 := ganti_neg (by norm_num [J3]) (by norm_num [L3])
  ga5 := ganti_exp pos_M5 (by norm_num [N5])
  t1lt := fd_t1lt
  t1gt := fd_t1gt
  t2lt := fd_t2lt
  t2gt := fd_t2gt
  t3lt := fd_t3lt
  t3gt := fd_t3gt
  t4lt := fd_t4lt
  t4gt := fd_t4gt
  b1 := fd_b1
  b2 := fd_b2
  b3 := fd_b3
  b4 := fd_b4
  t12 := by norm_num [dLevel1, dLevel2]
  t23 := by norm_num [dLevel2, dLevel3]
  t34 := by norm_num [dLevel3, dLevel4]
  t4p := by norm_num [dLevel4]

theorem isadens0_eq_pw (h : ℝ) : isadens0 h = pw fd1 fd2 fd3 fd4 fd5 h := rfl

end

end Verif.ISAL
