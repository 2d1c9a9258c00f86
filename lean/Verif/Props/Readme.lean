import Verif.Lemmas.ReadmeNum
import Verif.Props.Documented2
import Verif.Props.TestSuite

/-
C133: the numbers printed in README.md and in the notebooks of docs/ADRpy/notebooks, evaluated in the model.
-/

namespace Verif.Props
open Verif Verif.Atmos Verif.Units Verif.Aircraft

noncomputable section

/-! ### README: the atmosphere -/

/-- README.md:61-75: the density at 41000 ft, ten degrees above standard. -/
theorem C133_density : ∃ d, airdens_kgpm3 (.isa 10) (.scalar (feet2m 41000)) = .ok (.scalar d) ∧ Prints d 0.274725888531 1e-12 := by
  have e : feet2m 41000 = 12496.8 := by norm_num [feet2m]
  have hT : isatemp 10 12496.8 = 226.65 := by norm_num [isatemp, Level1, Level2, A2, B2]
  refine ⟨_, dens1_scalar (isa_dens1 10 _ (by rw [e]; norm_num)), ?_⟩
  rw [e]
  have k : isadens 10 12496.8 = 2.06214 * Real.exp (-1.970601896736) / (1 + 10 / 216.65) := by
    unfold isadens
    rw [hT]
    norm_num [isadens0, Level1, Level2, M2, N2]
  have b := ReadmeNum.exp_41000
  norm_num at b
  rw [k, Prints, abs_le]
  norm_num
  constructor <;> linarith [b.1, b.2]

/-! ### README: take-off in a hot atmosphere -/

theorem hot_rows : ((tableRows "high" "temp" "5" false).map (·.2.1))[0]? = some (290.15 : ℚ) ∧
    ((tableRows "high" "temp" "5" false).map (·.2.1))[1]? = some (294.163 : ℚ) ∧
    ((tableRows "high" "temp" "5" false).map (·.2.2))[0]? = some (1.215 : ℚ) ∧
    ((tableRows "high" "temp" "5" false).map (·.2.2))[1]? = some (0.9506 : ℚ) := by decide +kernel

/-- The hot atmosphere between the ground and 2 km. -/
theorem hot_atm : ∃ a b, mil_hdbk_310 "high" "temp" "5" = .ok (some (a, b)) ∧ ∀ h, 0 ≤ h → h < 2000 →
    airtemp_k (.profile a) (.scalar h) = .ok (.scalar (290.15 + 0.0020065 * h)) ∧
    airdens_kgpm3 (.profile a) (.scalar h) = .ok (.scalar (1.215 - 0.0001322 * h)) ∧
    airpress_pa (.profile a) (.scalar h) = .ok (.scalar (linSeg 0 (287.05287 * 1.215 * 290.15) 2000 (287.05287 * 0.9506 * 294.163) h)) := by
  obtain ⟨hs, ht⟩ := table_facts "high" (by simp) "temp" (by simp) "5" (by simp)
  obtain ⟨a1, a2, -⟩ := ht false (by simp)
  obtain ⟨b1, b2, -⟩ := ht true (by simp)
  obtain ⟨a, ea, pa, ta, ra⟩ := milProfile_physical _ a1 a2
  obtain ⟨b, eb, -⟩ := milProfile_physical _ b1 b2
  refine ⟨a, b, mil_eq _ _ _ a b hs ea eb, fun h h0 h1 => ?_⟩
  have hl : a.alt_m.length = 41 := by rw [pa.alts]; simp
  have hp : a.alt_m.Pairwise (· < ·) := by
    rw [pa.alts, List.pairwise_map]
    refine List.pairwise_lt_range.imp ?_
    intro a b hab
    have : (a:ℝ) < b := by exact_mod_cast hab
    linarith
  have hm : ∀ (k : ℕ) (hk : k < a.alt_m.length), a.alt_m[k] = 2000 * (k:ℝ) := by intro k hk; simp [pa.alts]
  have m0 : (0:ℝ) ∈ a.alt_m := by rw [pa.alts]; exact List.mem_map.mpr ⟨0, by simp, by simp⟩
  have m1 : (80000:ℝ) ∈ a.alt_m := by rw [pa.alts]; exact List.mem_map.mpr ⟨40, by simp, by norm_num⟩
  obtain ⟨i, hi, g0, g1, q1, q2, q3⟩ := profile_scalar a h hp (by omega) ⟨0, m0, h0⟩ ⟨80000, m1, by linarith⟩
    (by rw [hl, pa.temp_len]) (by rw [hl, pa.p_len]) (by rw [hl, pa.rho_len])
  rw [hm i (by omega)] at g0
  have hi0 : i = 0 := by
    by_contra h
    have : (1:ℝ) ≤ i := by exact_mod_cast Nat.one_le_iff_ne_zero.mpr h
    linarith
  subst hi0
  have valT : ∀ (k : ℕ) (q : ℚ) (hk : k < a.temp_k.length), ((tableRows "high" "temp" "5" false).map (·.2.1))[k]? = some q → a.temp_k[k] = (q : ℝ) := by
    intro k q hk hq
    simp only [ta, List.getElem_map]
    rw [List.getElem?_map, List.getElem?_eq_getElem (by rw [ta] at hk; simpa using hk)] at hq
    simp only [Option.map_some, Option.some.injEq] at hq
    rw [hq]
  have valR : ∀ (k : ℕ) (q : ℚ) (hk : k < a.rho_kgpm3.length), ((tableRows "high" "temp" "5" false).map (·.2.2))[k]? = some q →
      a.rho_kgpm3[k] = (q : ℝ) := by
    intro k q hk hq
    simp only [ra, List.getElem_map]
    rw [List.getElem?_map, List.getElem?_eq_getElem (by rw [ra] at hk; simpa using hk)] at hq
    simp only [Option.map_some, Option.some.injEq] at hq
    rw [hq]
  obtain ⟨r1, r2, r3, r4⟩ := hot_rows
  rw [pa.gas 0 (by norm_num), pa.gas 1 (by norm_num)] at q2
  rw [hm 0 (by omega), hm 1 (by omega), valT 0 _ (by rw [pa.temp_len]; norm_num) r1, valT 1 _ (by rw [pa.temp_len]; norm_num) r2] at q1 q2
  rw [valR 0 _ (by rw [pa.rho_len]; norm_num) r3, valR 1 _ (by rw [pa.rho_len]; norm_num) r4] at q2 q3
  rw [hm 0 (by omega), hm 1 (by omega)] at q3
  refine ⟨?_, ?_, ?_⟩
  · rw [q1]; congr 2; norm_num [linSeg]; ring
  · rw [q3]; congr 2; norm_num [linSeg]; ring
  · rw [q2]; congr 2; norm_num

theorem vsound_of_temp {a : Atm} {h T : ℝ} (k : airtemp_k a (.scalar h) = .ok (.scalar T)) (hT : 0 ≤ T) :
    vsound_mps a (.scalar h) = .ok (.scalar (√(1.4 * 287.05287 * T))) := by
  have k2 : alttest a (.scalar h) = .ok [h] := by
    unfold airtemp_k at k
    cases ht : alttest a (.scalar h) with
    | error e => rw [ht] at k; cases k
    | ok l => rw [(alttest_ok ht).1]; rfl
  have k3 : airtemp_k a (.array [h]) = .ok (.scalar T) := by
    unfold airtemp_k at k ⊢; rw [(alttest_ok k2).2]; rw [k2] at k; exact k
  unfold vsound_mps
  rw [k2]
  show (airtemp_k a (.array [h]) >>= _) = _
  rw [k3]
  show (vsoundE T >>= _) = _
  unfold vsoundE
  rw [if_neg (not_lt.mpr hT)]
  rfl

/-- The pressure at 1 km, from the two ends of the layer. -/
def hotP : ℝ := linSeg 0 (287.05287 * 1.215 * 290.15) 2000 (287.05287 * 0.9506 * 294.163) 1000

theorem hot_lof {w : ℝ} (h0 : 0 ≤ w) : liftoffPoint 1.0828 1.6 w ^ 2 = 1.5125 * w / 1.0828 := by
  rw [liftoffPoint, mul_pow, Real.sq_sqrt (by positivity)]
  field_simp
  norm_num
  ring

theorem hot_elem (X : Ext) {a : Obs} {r : Built} (hT : airtemp_k (.profile a) (.scalar 1000) = .ok (.scalar 292.1565))
    (hd : dens1 (.profile a) 1000 = .ok 1.0828) (hP : press1 (.profile a) 1000 = .ok hotP)
    (hb : construct docToBrief docToDesign docToPerf (some (.profile a)) .pyNone = .ok r)
    (ha : r.concept.designatm = .profile a) (hb' : r.concept.bpr = some 3.9) (ht : r.concept.throttle_r = some 1.05)
    (he : r.concept.rwyelevation_m = some 1000) (tw : ℝ) {w : ℝ} (w0 : 0 ≤ w) (w1 : w ≤ 5000) :
    takeoffSl X r.concept tw (liftoffPoint 1.0828 1.6 w) =
      .ok (tw / (hotP / 101325 * (1 + 1.5125 * w / 1.0828 / 117410.106539817 * 0.2005) ^ (1.401 / 0.401 : ℝ))) := by
  have hc := vsound_of_temp hT (by norm_num)
  have hm := (C18_ratio (.profile a) 1000 _ hc).1 (liftoffPoint 1.0828 1.6 w)
  have hs : Selects (pyNum r.concept.bpr) .pyNone .lowbpr := by
    rw [hb']
    exact .absent _ (.jet _ (by norm_num [pyNum]) (.lowbpr (by norm_num [pyNum]) (by norm_num [pyNum])))
  have htc : temp1c (.profile a) 1000 = .ok (292.1565 - 273.15) := by
    unfold temp1c airtemp_c; rw [hT]; rfl
  have k := C38_correction hb X (.scalar (liftoffPoint 1.0828 1.6 w)) 1000 _ _ _ _ (by rw [ha]; exact hm)
    (by rw [ha]; exact htc) (by rw [ha]; exact hP) (by rw [ha]; exact hd) _ hs
  unfold takeoffSl
  rw [he]
  show (slcorr X r.concept (.scalar (liftoffPoint 1.0828 1.6 w)) 1000 >>= _) = _
  rw [k]
  obtain ⟨M, hM⟩ : ∃ M, M = liftoffPoint 1.0828 1.6 w / √(1.4 * 287.05287 * 292.1565) := ⟨_, rfl⟩
  have m2 : M ^ 2 = 1.5125 * w / 1.0828 / 117410.106539817 := by
    rw [hM, div_pow, hot_lof w0, Real.sq_sqrt (by norm_num)]
    norm_num
  have m2b : M ^ 2 ≤ 0.07 := by
    rw [m2, div_le_iff₀ (by norm_num), div_le_iff₀ (by norm_num)]
    norm_num
    linarith
  have th : tempratio (292.1565 - 273.15) M ≤ 1.05 := by
    rw [tempratio, c2k, c2k, GAMMA_DRY_AIR]
    norm_num at m2b ⊢
    linarith
  show Except.ok (tw / turbofanthrustfactor (292.1565 - 273.15) hotP (liftoffPoint 1.0828 1.6 w / √(1.4 * 287.05287 * 292.1565))
    (pyNum r.concept.throttle_r) "lowbpr") = _
  rw [← hM, ht]
  have e : turbofanthrustfactor (292.1565 - 273.15) hotP M (pyNum (some 1.05)) "lowbpr" = pressratio hotP M := by
    unfold turbofanthrustfactor
    rw [if_neg (by decide), if_pos rfl, if_pos (by simpa [pyNum] using th)]
  rw [e, pressratio, GAMMA_DRY_AIR, ← m2]
  have x1 : 1 + M ^ 2 * (1.401 - 1) / 2 = 1 + M ^ 2 * 0.2005 := by norm_num; ring
  have x2 : (1.401 / (1.401 - 1) : ℝ) = 1.401 / 0.401 := by norm_num
  rw [x1, x2]

/-- The requirement and the lift-off speed (KEAS) at one wing loading, bracketed. -/
theorem hot_bounds {w x1 x2 y1 y2 tlo thi llo lhi : ℝ} (w0 : 0 < w) (p1 : y1 ≤ x1 ^ (1.401 / 0.401 : ℝ)) (p2 : x2 ^ (1.401 / 0.401 : ℝ) ≤ y2)
    (x0 : 0 ≤ x1) (y0 : 0 < y1) (h1 : x1 ≤ 1 + 1.5125 * w / 1.0828 / 117410.106539817 * 0.2005)
    (h2 : 1 + 1.5125 * w / 1.0828 / 117410.106539817 * 0.2005 ≤ x2)
    (k1 : tlo ≤ (1580 / 1335) * (1.5125 * w / 1.0828 / 23535.96 + 29 / 900) / (hotP / 101325 * y2))
    (k2 : (1580 / 1335) * (1.5125 * w / 1.0828 / 23535.96 + 29 / 900) / (hotP / 101325 * y1) ≤ thi)
    (l0 : 0 ≤ llo) (l1 : llo ^ 2 ≤ 1.9438445 ^ 2 * (1.5125 * w / 1.215)) (lh0 : 0 ≤ lhi) (l2 : 1.9438445 ^ 2 * (1.5125 * w / 1.215) ≤ lhi ^ 2) :
    (tlo ≤ (1580 / 1335) * (1.5125 * w / 1.0828 / 23535.96 + 29 / 900) / (hotP / 101325 * (1 + 1.5125 * w / 1.0828 / 117410.106539817 * 0.2005) ^ (1.401 / 0.401 : ℝ)) ∧
     (1580 / 1335) * (1.5125 * w / 1.0828 / 23535.96 + 29 / 900) / (hotP / 101325 * (1 + 1.5125 * w / 1.0828 / 117410.106539817 * 0.2005) ^ (1.401 / 0.401 : ℝ)) ≤ thi) ∧
    llo ≤ mps2kts (liftoffPoint 1.0828 1.6 w * √(1.0828 / 1.215)) ∧ mps2kts (liftoffPoint 1.0828 1.6 w * √(1.0828 / 1.215)) ≤ lhi := by
  have hP : 0 < hotP := by norm_num [hotP, linSeg]
  have hl := hot_lof w0.le
  obtain ⟨L, hL⟩ : ∃ L, L = 1.5125 * w / 1.0828 := ⟨_, rfl⟩
  have L0 : 0 < L := by rw [hL]; positivity
  have el : (mps2kts (liftoffPoint 1.0828 1.6 w * √(1.0828 / 1.215))) ^ 2 = 1.9438445 ^ 2 * (1.5125 * w / 1.215) := by
    rw [mps2kts, mul_pow, mul_pow, hl, Real.sq_sqrt (by norm_num)]
    field_simp
  rw [← hL] at k1 k2 h1 h2 ⊢
  have c1 : y1 ≤ (1 + L / 117410.106539817 * 0.2005) ^ (1.401 / 0.401 : ℝ) := p1.trans (Real.rpow_le_rpow x0 h1 (by norm_num))
  have c2 : (1 + L / 117410.106539817 * 0.2005) ^ (1.401 / 0.401 : ℝ) ≤ y2 := le_trans (Real.rpow_le_rpow (by positivity) h2 (by norm_num)) p2
  have lof0 : 0 ≤ mps2kts (liftoffPoint 1.0828 1.6 w * √(1.0828 / 1.215)) := by unfold liftoffPoint mps2kts; positivity
  generalize (1 + L / 117410.106539817 * 0.2005) ^ (1.401 / 0.401 : ℝ) = Y at c1 c2 ⊢
  have Y0 : 0 < Y := lt_of_lt_of_le y0 c1
  refine ⟨⟨k1.trans ?_, le_trans ?_ k2⟩, ?_, ?_⟩
  · gcongr
  · gcongr
  · exact (sq_le_sq₀ l0 lof0).mp (by rw [el]; exact l1)
  · exact (sq_le_sq₀ lof0 lh0).mp (by rw [el]; exact l2)

/-- README.md:85-143: thrust to weight ratios and lift-off speeds (knots, equivalent by the atmosphere's own sea level density) of a
turbofan at 1000 m in the one per cent high temperature profile of MIL-HDBK-310. -/
theorem C133_takeoff (X : Ext) : ∃ a b r t₁ t₂ t₃ t₄ l av v₁ v₂ v₃ v₄, mil_hdbk_310 "high" "temp" "5" = .ok (some (a, b)) ∧
    construct docToBrief docToDesign docToPerf (some (.profile a)) .pyNone = .ok r ∧
    twrequired_to X r.concept (.array [2000, 3000, 4000, 5000]) true = .ok (.array [t₁, t₂, t₃, t₄], l, av) ∧
    tas2easN (.profile a) l (.scalar 1000) = .ok (.array [v₁, v₂, v₃, v₄]) ∧
    (Prints t₁ 0.19618164 1e-8 ∧ Prints t₂ 0.2710746 1e-8 ∧ Prints t₃ 0.34472518 1e-8 ∧ Prints t₄ 0.41715311 1e-8) ∧
    Prints (mps2kts v₁) 96.99203483 1e-8 ∧ Prints (mps2kts v₂) 118.79049722 1e-8 ∧ Prints (mps2kts v₃) 137.1674511 1e-8 ∧
    Prints (mps2kts v₄) 153.35787248 1e-8 := by
  obtain ⟨a, b, hm, hq⟩ := hot_atm
  obtain ⟨q1, q2, q3⟩ := hq 1000 (by norm_num) (by norm_num)
  obtain ⟨-, q5, -⟩ := hq 0 (by norm_num) (by norm_num)
  norm_num at q1 q2 q5
  have hT : airtemp_k (.profile a) (.scalar 1000) = .ok (.scalar 292.1565) := by rw [q1]; norm_num
  have hd1 : airdens_kgpm3 (.profile a) (.scalar 1000) = .ok (.scalar 1.0828) := by rw [q2]; norm_num
  have hd0 : airdens_kgpm3 (.profile a) (.scalar 0) = .ok (.scalar 1.215) := by rw [q5]; norm_num
  have hd : dens1 (.profile a) 1000 = .ok 1.0828 := by unfold dens1; rw [hd1]; rfl
  have hP : press1 (.profile a) 1000 = .ok hotP := by unfold press1; rw [q3]; rfl
  have rr : rootRatio (.profile a) (.scalar 1000) = .ok (√(1.0828 / 1.215)) := by
    unfold rootRatio
    rw [hd1, hd0]
    show (if (1.0828:ℝ) / 1.215 < 0 then _ else _) = _
    rw [if_neg (by norm_num)]
  clear q1 q2 q3 q5
  obtain ⟨r, hb, ha, h1, h2, h3, h4, h5, h6, h7, h8⟩ : ∃ r, construct docToBrief docToDesign docToPerf (some (.profile a)) .pyNone = .ok r ∧
      r.concept.designatm = .profile a ∧ r.concept.bpr = some 3.9 ∧ r.concept.throttle_r = some 1.05 ∧ r.concept.rwyelevation_m = some 1000 ∧
      r.concept.groundrun_m = some 1200 ∧ r.concept.cdto = some 0.04 ∧ r.concept.clto = some 0.9 ∧ r.concept.clmaxto = some 1.6 ∧
      r.concept.mu_r = some 0.02 := by
    apply Exists.intro; constructor
    · rfl
    · exact ⟨rfl, rfl, rfl, rfl, rfl, rfl, rfl, rfl, rfl⟩
  have key : ∀ w, 0 ≤ w → map2static r.concept * takeoffPoint (pyNum r.concept.groundrun_m) (pyNum r.concept.cdto) (pyNum r.concept.clto) (pyNum r.concept.mu_r)
      (liftoffPoint 1.0828 1.6 w) = (1580 / 1335) * (1.5125 * w / 1.0828 / 23535.96 + 29 / 900) := by
    intro w w0
    have hs : map2static r.concept = 1580 / 1335 := by
      rw [map2static, h1]; norm_num [pyNum]
    rw [takeoffPoint, hot_lof w0, h4, h5, h6, h8, hs]
    simp only [pyNum, Option.getD_some, gAcc]
    generalize 1.5125 * w / 1.0828 = L
    norm_num
    ring
  have e := fun w w0 w1 => hot_elem X hT hd hP hb ha h1 h2 h3
    (map2static r.concept * takeoffPoint (pyNum r.concept.groundrun_m) (pyNum r.concept.cdto) (pyNum r.concept.clto) (pyNum r.concept.mu_r)
      (liftoffPoint 1.0828 1.6 w)) (w := w) w0 w1
  have hp : hotP = 90732.187529007843 + (hotP - 90732.187529007843) := by ring
  have b₁ := hot_bounds (w := 2000) (tlo := 0.19618164 - 1e-8 / 2) (thi := 0.19618164 + 1e-8 / 2) (llo := 96.99203483 - 1e-8 / 2) (lhi := 96.99203483 + 1e-8 / 2)
    (by norm_num) ReadmeNum.hot_2000_lo ReadmeNum.hot_2000_hi (by norm_num) (by norm_num) (by norm_num) (by norm_num) (by norm_num [hotP, linSeg]) (by norm_num [hotP, linSeg])
    (by norm_num) (by norm_num) (by norm_num) (by norm_num)
  have b₂ := hot_bounds (w := 3000) (tlo := 0.2710746 - 1e-8 / 2) (thi := 0.2710746 + 1e-8 / 2) (llo := 118.79049722 - 1e-8 / 2) (lhi := 118.79049722 + 1e-8 / 2)
    (by norm_num) ReadmeNum.hot_3000_lo ReadmeNum.hot_3000_hi (by norm_num) (by norm_num) (by norm_num) (by norm_num) (by norm_num [hotP, linSeg]) (by norm_num [hotP, linSeg])
    (by norm_num) (by norm_num) (by norm_num) (by norm_num)
  have b₃ := hot_bounds (w := 4000) (tlo := 0.34472518 - 1e-8 / 2) (thi := 0.34472518 + 1e-8 / 2) (llo := 137.1674511 - 1e-8 / 2) (lhi := 137.1674511 + 1e-8 / 2)
    (by norm_num) ReadmeNum.hot_4000_lo ReadmeNum.hot_4000_hi (by norm_num) (by norm_num) (by norm_num) (by norm_num) (by norm_num [hotP, linSeg]) (by norm_num [hotP, linSeg])
    (by norm_num) (by norm_num) (by norm_num) (by norm_num)
  have b₄ := hot_bounds (w := 5000) (tlo := 0.41715311 - 1e-8 / 2) (thi := 0.41715311 + 1e-8 / 2) (llo := 153.35787248 - 1e-8 / 2) (lhi := 153.35787248 + 1e-8 / 2)
    (by norm_num) ReadmeNum.hot_5000_lo ReadmeNum.hot_5000_hi (by norm_num) (by norm_num) (by norm_num) (by norm_num) (by norm_num [hotP, linSeg]) (by norm_num [hotP, linSeg])
    (by norm_num) (by norm_num) (by norm_num) (by norm_num)
  have pr : ∀ {x p lo hi : ℝ}, lo = p - 1e-8 / 2 → hi = p + 1e-8 / 2 → lo ≤ x ∧ x ≤ hi → Prints x p 1e-8 := by
    intro x p lo hi e1 e2 h
    rw [Prints, abs_le]; constructor <;> linarith [h.1, h.2]
  refine ⟨a, b, r, _, _, _, _, .array [liftoffPoint 1.0828 1.6 2000, liftoffPoint 1.0828 1.6 3000, liftoffPoint 1.0828 1.6 4000, liftoffPoint 1.0828 1.6 5000],
    .array [liftoffPoint 1.0828 1.6 2000 / √2, liftoffPoint 1.0828 1.6 3000 / √2,
      liftoffPoint 1.0828 1.6 4000 / √2, liftoffPoint 1.0828 1.6 5000 / √2], _, _, _, _, hm, hb, ?_, ?_, ⟨pr rfl rfl b₁.1, pr rfl rfl b₂.1, pr rfl rfl b₃.1, pr rfl rfl b₄.1⟩,
    pr rfl rfl b₁.2, pr rfl rfl b₂.2, pr rfl rfl b₃.2, pr rfl rfl b₄.2⟩
  · unfold twrequired_to thrusttoweight_takeoff
    rw [show Atmos.dens1 r.concept.designatm (pyNum r.concept.rwyelevation_m) = .ok 1.0828 by
      rw [ha, h3]; exact hd]
    rw [show (need r.concept.groundrun_m) = .ok 1200 by rw [h4]; rfl, show pyNum r.concept.clmaxto = 1.6 by rw [h7]; rfl]
    simp only [bind_ok, recastArray, List.map_cons, List.map_nil, pure_bind, if_true, takeoffSlAll]
    rw [e 2000 (by norm_num) (by norm_num), e 3000 (by norm_num) (by norm_num), e 4000 (by norm_num) (by norm_num), e 5000 (by norm_num) (by norm_num)]
    simp only [bind_ok, pure_bind, key _ (by norm_num : (0:ℝ) ≤ 2000), key _ (by norm_num : (0:ℝ) ≤ 3000), key _ (by norm_num : (0:ℝ) ≤ 4000),
      key _ (by norm_num : (0:ℝ) ≤ 5000)]
    rfl
  · unfold tas2easN
    rw [rr]
    rfl

/-- README.md:143: with the sea level density of the standard day, by which equivalent airspeeds are defined (`unitconversions.tas2eas`), the
first of these speeds is 96.6 knots instead of 97.0. -/
theorem C133_keas_violated : ∃ a b v, mil_hdbk_310 "high" "temp" "5" = .ok (some (a, b)) ∧ dens1 (.profile a) 1000 = .ok 1.0828 ∧
    v = mps2kts (Units.tas2eas (liftoffPoint 1.0828 1.6 2000) 1.0828) ∧ Prints v 96.595 1e-3 ∧ ¬ Prints v 96.99203483 0.7 := by
  obtain ⟨a, b, hm, hq⟩ := hot_atm
  obtain ⟨-, q2, -⟩ := hq 1000 (by norm_num) (by norm_num)
  have hd : dens1 (.profile a) 1000 = .ok 1.0828 := by
    unfold dens1; rw [q2]
    show Except.ok _ = _
    congr 1; norm_num
  have hl := hot_lof (w := 2000) (by norm_num)
  obtain ⟨v, hv⟩ : ∃ v, v = mps2kts (Units.tas2eas (liftoffPoint 1.0828 1.6 2000) 1.0828) := ⟨_, rfl⟩
  have hu : Units.tas2eas (liftoffPoint 1.0828 1.6 2000) 1.0828 = liftoffPoint 1.0828 1.6 2000 * √(1.0828 / 1.225) := by
    unfold Units.tas2eas; rw [Real.sqrt_eq_rpow]; congr 1; norm_num
  have v2 : v ^ 2 = 1.9438445 ^ 2 * (3025 / 1.225) := by
    rw [hv, hu, mps2kts, mul_pow, mul_pow, hl, Real.sq_sqrt (by norm_num)]
    norm_num
  have v0 : 0 ≤ v := by rw [hv, hu]; unfold liftoffPoint mps2kts; positivity
  have b1 : 96.5945 ≤ v := by
    refine (sq_le_sq₀ (by norm_num) v0).mp ?_
    rw [v2]; norm_num
  have b2 : v ≤ 96.5955 := by
    refine (sq_le_sq₀ v0 (by norm_num)).mp ?_
    rw [v2]; norm_num
  refine ⟨a, b, v, hm, hd, hv, prints_of ⟨b1, b2⟩ (by norm_num) (by norm_num), ?_⟩
  rw [Prints, abs_le]
  rintro ⟨h, -⟩
  norm_num at h b2
  linarith

end

end Verif.Props
