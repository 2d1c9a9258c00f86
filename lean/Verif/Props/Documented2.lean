import Verif.Props.Documented
import Verif.Props.SeaLevelMap
import Verif.Model.Propulsion

/-
C125, continued: take-off, wind components, ground effect, sea level thrust.
-/

namespace Verif.Props
open Verif Verif.Atmos Verif.Units Verif.Aircraft Verif.Propulsion

noncomputable section

/-! ### Take-off -/

/-- constraintanalysis.py:1469: the brief of the take-off example. -/
def docToBrief : Dict := [("rwyelevation_m", .num 1000), ("groundrun_m", .num 1200)]
/-- constraintanalysis.py:1470: the design of the take-off example. -/
def docToDesign : Dict := [("aspectratio", .num 7.3), ("bpr", .num 3.9), ("tr", .num 1.05)]
/-- constraintanalysis.py:1471: the performance of the take-off example. -/
def docToPerf : Dict := [("CDTO", .num 0.04), ("CLTO", .num 0.9), ("CLmaxTO", .num 1.6), ("mu_R", .num 0.02)]

theorem doc_to_dens : 1.1116423648253302 ≤ isadens 0 1000 ∧ isadens 0 1000 ≤ 1.1116423648253303 := by
  have e : isadens 0 1000 = 1.025180586 ^ (4.2558797 : ℝ) := doc_dens (by norm_num) (by norm_num)
  rw [e]; exact DocNum.dens_1000

theorem doc_to_press : 89874.55405878893 ≤ isapress 1000 ∧ isapress 1000 ≤ 89874.55405878894 := by
  have e : isapress 1000 = 8.75980255 ^ (5.2558797 : ℝ) := doc_press (by norm_num) (by norm_num)
  rw [e]; exact DocNum.press_1000

theorem doc_to_lof {w : ℝ} (h0 : 0 ≤ w) : liftoffPoint (isadens 0 1000) 1.6 w ^ 2 = 1.5125 * w / isadens 0 1000 := by
  have d := doc_to_dens.1
  have dp : 0 < isadens 0 1000 := by norm_num at d; linarith
  rw [liftoffPoint, mul_pow, Real.sq_sqrt (by positivity)]
  field_simp
  norm_num
  ring

theorem doc_to_elem (X : Ext) {r : Built} (hb : construct docToBrief docToDesign docToPerf (some (.isa 0)) .pyNone = .ok r)
    (ha : r.concept.designatm = .isa 0) (hb' : r.concept.bpr = some 3.9) (ht : r.concept.throttle_r = some 1.05)
    (he : r.concept.rwyelevation_m = some 1000) (tw : ℝ) {w : ℝ} (w0 : 0 ≤ w) (w1 : w ≤ 5000) :
    takeoffSl X r.concept tw (liftoffPoint (isadens 0 1000) 1.6 w) =
      .ok (tw / (isapress 1000 / 101325 * (1 + 1.5125 * w / isadens 0 1000 / 113187.8171697 * 0.2005) ^ (1.401 / 0.401 : ℝ))) := by
  have hT : isatemp 0 1000 = 281.65 := by norm_num [isatemp, Level1, A1, B1]
  have hc := isa_vsound 0 1000 (by norm_num) (by rw [hT]; norm_num)
  have hm := (C18_ratio (.isa 0) 1000 _ hc).1 (liftoffPoint (isadens 0 1000) 1.6 w)
  have hs : Selects (pyNum r.concept.bpr) .pyNone .lowbpr := by
    rw [hb']
    exact .absent _ (.jet _ (by norm_num [pyNum]) (.lowbpr (by norm_num [pyNum]) (by norm_num [pyNum])))
  have k := C38_correction hb X (.scalar (liftoffPoint (isadens 0 1000) 1.6 w)) 1000 _ _ _ _ (by rw [ha]; exact hm)
    (by rw [ha]; exact isa_temp1c 0 1000 (by norm_num)) (by rw [ha]; exact isa_press1 0 1000 (by norm_num))
    (by rw [ha]; exact isa_dens1 0 1000 (by norm_num)) _ hs
  unfold takeoffSl
  rw [he]
  show (slcorr X r.concept (.scalar (liftoffPoint (isadens 0 1000) 1.6 w)) 1000 >>= _) = _
  rw [k]
  obtain ⟨M, hM⟩ : ∃ M, M = liftoffPoint (isadens 0 1000) 1.6 w / √(1.4 * 287.05287 * isatemp 0 1000) := ⟨_, rfl⟩
  have m2 : M ^ 2 = 1.5125 * w / isadens 0 1000 / 113187.8171697 := by
    rw [hM, div_pow, doc_to_lof w0, hT, Real.sq_sqrt (by norm_num)]
    norm_num
  have d := doc_to_dens.1
  have dp : 0 < isadens 0 1000 := by norm_num at d; linarith
  have m2b : M ^ 2 ≤ 0.07 := by
    rw [m2, div_le_iff₀ (by norm_num), div_le_iff₀ dp]
    norm_num at d ⊢
    linarith
  have th : tempratio (isatemp 0 1000 - 273.15) M ≤ 1.05 := by
    rw [hT, tempratio, c2k, c2k, GAMMA_DRY_AIR]
    norm_num at m2b ⊢
    linarith
  show Except.ok (tw / turbofanthrustfactor (isatemp 0 1000 - 273.15) (isapress 1000) (liftoffPoint (isadens 0 1000) 1.6 w / √(1.4 * 287.05287 * isatemp 0 1000))
    (pyNum r.concept.throttle_r) "lowbpr") = _
  rw [← hM, ht]
  have e : turbofanthrustfactor (isatemp 0 1000 - 273.15) (isapress 1000) M (pyNum (some 1.05)) "lowbpr" = pressratio (isapress 1000) M := by
    unfold turbofanthrustfactor
    rw [if_neg (by decide), if_pos rfl, if_pos (by simpa [pyNum] using th)]
  rw [e, pressratio, GAMMA_DRY_AIR, ← m2]
  have x1 : 1 + M ^ 2 * (1.401 - 1) / 2 = 1 + M ^ 2 * 0.2005 := by norm_num; ring
  have x2 : (1.401 / (1.401 - 1) : ℝ) = 1.401 / 0.401 := by norm_num
  rw [x1, x2]

/-- The requirement and the lift-off speed at one wing loading, bracketed. -/
theorem doc_to_bounds {w x1 x2 y1 y2 tlo thi llo lhi : ℝ} (w0 : 0 < w) (p1 : y1 ≤ x1 ^ (1.401 / 0.401 : ℝ)) (p2 : x2 ^ (1.401 / 0.401 : ℝ) ≤ y2)
    (x0 : 0 ≤ x1) (y0 : 0 < y1) (h1 : x1 ≤ 1 + 1.5125 * w / 1.1116423648253303 / 113187.8171697 * 0.2005)
    (h2 : 1 + 1.5125 * w / 1.1116423648253302 / 113187.8171697 * 0.2005 ≤ x2) 
    (k1 : tlo ≤ (1580 / 1335) * (1.5125 * w / 1.1116423648253303 / 23535.96 + 29 / 900) / (89874.55405878894 / 101325 * y2))
    (k2 : (1580 / 1335) * (1.5125 * w / 1.1116423648253302 / 23535.96 + 29 / 900) / (89874.55405878893 / 101325 * y1) ≤ thi)
    (l0 : 0 ≤ llo) (l1 : llo ^ 2 ≤ 1.5125 * w / 1.1116423648253303) (lh0 : 0 ≤ lhi) (l2 : 1.5125 * w / 1.1116423648253302 ≤ lhi ^ 2) :
    (tlo ≤ (1580 / 1335) * (1.5125 * w / isadens 0 1000 / 23535.96 + 29 / 900) / (isapress 1000 / 101325 * (1 + 1.5125 * w / isadens 0 1000 / 113187.8171697 * 0.2005) ^ (1.401 / 0.401 : ℝ)) ∧
     (1580 / 1335) * (1.5125 * w / isadens 0 1000 / 23535.96 + 29 / 900) / (isapress 1000 / 101325 * (1 + 1.5125 * w / isadens 0 1000 / 113187.8171697 * 0.2005) ^ (1.401 / 0.401 : ℝ)) ≤ thi) ∧
    llo ≤ liftoffPoint (isadens 0 1000) 1.6 w ∧ liftoffPoint (isadens 0 1000) 1.6 w ≤ lhi := by
  obtain ⟨d1, d2⟩ := doc_to_dens
  obtain ⟨q1, q2⟩ := doc_to_press
  have hl := doc_to_lof w0.le
  obtain ⟨D, hD⟩ : ∃ D, D = isadens 0 1000 := ⟨_, rfl⟩
  obtain ⟨P, hP⟩ : ∃ P, P = isapress 1000 := ⟨_, rfl⟩
  rw [← hD] at d1 d2 hl ⊢
  rw [← hP] at q1 q2 ⊢
  have dp : 0 < D := lt_of_lt_of_le (by norm_num) d1
  have pp : 0 < P := lt_of_lt_of_le (by norm_num) q1
  obtain ⟨L, hL⟩ : ∃ L, L = 1.5125 * w / D := ⟨_, rfl⟩
  have a1 : 1.5125 * w / 1.1116423648253303 ≤ L := by rw [hL]; gcongr
  have a2 : L ≤ 1.5125 * w / 1.1116423648253302 := by rw [hL]; gcongr
  rw [← hL] at hl ⊢
  have L0 : 0 < L := by rw [hL]; positivity
  have b1 : x1 ≤ 1 + L / 113187.8171697 * 0.2005 := h1.trans (by gcongr)
  have b2 : 1 + L / 113187.8171697 * 0.2005 ≤ x2 := le_trans (by gcongr) h2
  have c1 : y1 ≤ (1 + L / 113187.8171697 * 0.2005) ^ (1.401 / 0.401 : ℝ) := p1.trans (Real.rpow_le_rpow x0 b1 (by norm_num))
  have c2 : (1 + L / 113187.8171697 * 0.2005) ^ (1.401 / 0.401 : ℝ) ≤ y2 := le_trans (Real.rpow_le_rpow (by positivity) b2 (by norm_num)) p2
  have lof0 : 0 ≤ liftoffPoint D 1.6 w := by unfold liftoffPoint; positivity
  generalize (1 + L / 113187.8171697 * 0.2005) ^ (1.401 / 0.401 : ℝ) = Y at c1 c2 ⊢
  have Y0 : 0 < Y := lt_of_lt_of_le y0 c1
  refine ⟨⟨k1.trans ?_, le_trans ?_ k2⟩, ?_, ?_⟩
  · gcongr
  · gcongr
  · exact (sq_le_sq₀ l0 lof0).mp (by rw [hl]; exact l1.trans a1)
  · exact (sq_le_sq₀ lof0 lh0).mp (by rw [hl]; exact a2.trans l2)

/-- constraintanalysis.py:1463-1486: required thrust to weight ratios and lift-off speeds of a turbofan at 1000 m. -/
theorem C125_takeoff (X : Ext) : ∃ r t₁ t₂ t₃ t₄ l₁ l₂ l₃ l₄ av, construct docToBrief docToDesign docToPerf (some (.isa 0)) .pyNone = .ok r ∧
    twrequired_to X r.concept (.array [2000, 3000, 4000, 5000]) true = .ok (.array [t₁, t₂, t₃, t₄], .array [l₁, l₂, l₃, l₄], av) ∧
    (Prints t₁ 0.19397876 1e-8 ∧ Prints t₂ 0.26758006 1e-8 ∧ Prints t₃ 0.33994772 1e-8 ∧ Prints t₄ 0.41110154 1e-8) ∧
    Prints l₁ 52.16511207 1e-8 ∧ Prints l₂ 63.88895348 1e-8 ∧ Prints l₃ 73.77260898 1e-8 ∧ Prints l₄ 82.48028428 1e-8 := by
  obtain ⟨r, hb, ha, h1, h2, h3, h4, h5, h6, h7, h8⟩ : ∃ r, construct docToBrief docToDesign docToPerf (some (.isa 0)) .pyNone = .ok r ∧
      r.concept.designatm = .isa 0 ∧ r.concept.bpr = some 3.9 ∧ r.concept.throttle_r = some 1.05 ∧ r.concept.rwyelevation_m = some 1000 ∧
      r.concept.groundrun_m = some 1200 ∧ r.concept.cdto = some 0.04 ∧ r.concept.clto = some 0.9 ∧ r.concept.clmaxto = some 1.6 ∧
      r.concept.mu_r = some 0.02 := by
    apply Exists.intro; constructor
    · rfl
    · exact ⟨rfl, rfl, rfl, rfl, rfl, rfl, rfl, rfl, rfl⟩
  have key : ∀ w, 0 ≤ w → map2static r.concept * takeoffPoint (pyNum r.concept.groundrun_m) (pyNum r.concept.cdto) (pyNum r.concept.clto) (pyNum r.concept.mu_r)
      (liftoffPoint (isadens 0 1000) 1.6 w) = (1580 / 1335) * (1.5125 * w / isadens 0 1000 / 23535.96 + 29 / 900) := by
    intro w w0
    have hs : map2static r.concept = 1580 / 1335 := by
      rw [map2static, h1]; norm_num [pyNum]
    rw [takeoffPoint, doc_to_lof w0, h4, h5, h6, h8, hs]
    simp only [pyNum, Option.getD_some, gAcc]
    generalize 1.5125 * w / isadens 0 1000 = L
    norm_num
    ring
  have e := fun w w0 w1 => doc_to_elem X hb ha h1 h2 h3
    (map2static r.concept * takeoffPoint (pyNum r.concept.groundrun_m) (pyNum r.concept.cdto) (pyNum r.concept.clto) (pyNum r.concept.mu_r)
      (liftoffPoint (isadens 0 1000) 1.6 w)) (w := w) w0 w1
  have b₁ := doc_to_bounds (w := 2000) (tlo := 0.19397876 - 1e-8 / 2) (thi := 0.19397876 + 1e-8 / 2) (llo := 52.16511207 - 1e-8 / 2) (lhi := 52.16511207 + 1e-8 / 2)
    (by norm_num) DocNum.to_2000_lo DocNum.to_2000_hi (by norm_num) (by norm_num) (by norm_num) (by norm_num) (by norm_num) (by norm_num)
    (by norm_num) (by norm_num) (by norm_num) (by norm_num)
  have b₂ := doc_to_bounds (w := 3000) (tlo := 0.26758006 - 1e-8 / 2) (thi := 0.26758006 + 1e-8 / 2) (llo := 63.88895348 - 1e-8 / 2) (lhi := 63.88895348 + 1e-8 / 2)
    (by norm_num) DocNum.to_3000_lo DocNum.to_3000_hi (by norm_num) (by norm_num) (by norm_num) (by norm_num) (by norm_num) (by norm_num)
    (by norm_num) (by norm_num) (by norm_num) (by norm_num)
  have b₃ := doc_to_bounds (w := 4000) (tlo := 0.33994772 - 1e-8 / 2) (thi := 0.33994772 + 1e-8 / 2) (llo := 73.77260898 - 1e-8 / 2) (lhi := 73.77260898 + 1e-8 / 2)
    (by norm_num) DocNum.to_4000_lo DocNum.to_4000_hi (by norm_num) (by norm_num) (by norm_num) (by norm_num) (by norm_num) (by norm_num)
    (by norm_num) (by norm_num) (by norm_num) (by norm_num)
  have b₄ := doc_to_bounds (w := 5000) (tlo := 0.41110154 - 1e-8 / 2) (thi := 0.41110154 + 1e-8 / 2) (llo := 82.48028428 - 1e-8 / 2) (lhi := 82.48028428 + 1e-8 / 2)
    (by norm_num) DocNum.to_5000_lo DocNum.to_5000_hi (by norm_num) (by norm_num) (by norm_num) (by norm_num) (by norm_num) (by norm_num)
    (by norm_num) (by norm_num) (by norm_num) (by norm_num)
  have pr : ∀ {x p lo hi : ℝ}, lo = p - 1e-8 / 2 → hi = p + 1e-8 / 2 → lo ≤ x ∧ x ≤ hi → Prints x p 1e-8 := by
    intro x p lo hi e1 e2 h
    rw [Prints, abs_le]; constructor <;> linarith [h.1, h.2]
  refine ⟨r, _, _, _, _, _, _, _, _, .array [liftoffPoint (isadens 0 1000) 1.6 2000 / √2, liftoffPoint (isadens 0 1000) 1.6 3000 / √2,
      liftoffPoint (isadens 0 1000) 1.6 4000 / √2, liftoffPoint (isadens 0 1000) 1.6 5000 / √2], hb, ?_, ⟨pr rfl rfl b₁.1, pr rfl rfl b₂.1, pr rfl rfl b₃.1, pr rfl rfl b₄.1⟩,
    pr rfl rfl b₁.2, pr rfl rfl b₂.2, pr rfl rfl b₃.2, pr rfl rfl b₄.2⟩
  · unfold twrequired_to thrusttoweight_takeoff
    rw [show Atmos.dens1 r.concept.designatm (pyNum r.concept.rwyelevation_m) = .ok (isadens 0 1000) by
      rw [ha, h3]; exact isa_dens1 0 1000 (by norm_num)]
    rw [show (need r.concept.groundrun_m) = .ok 1200 by rw [h4]; rfl, show pyNum r.concept.clmaxto = 1.6 by rw [h7]; rfl]
    simp only [bind_ok, recastArray, List.map_cons, List.map_nil, pure_bind, if_true, takeoffSlAll]
    rw [e 2000 (by norm_num) (by norm_num), e 3000 (by norm_num) (by norm_num), e 4000 (by norm_num) (by norm_num), e 5000 (by norm_num) (by norm_num)]
    simp only [bind_ok, pure_bind, key _ (by norm_num : (0:ℝ) ≤ 2000), key _ (by norm_num : (0:ℝ) ≤ 3000), key _ (by norm_num : (0:ℝ) ≤ 4000),
      key _ (by norm_num : (0:ℝ) ≤ 5000)]
    rfl

/-! ### Wind components -/

/-- atmospheres.py:233-253: a wind of 17 knots from 300° on the runway with heading 83.1°. -/
theorem C125_wind : ∃ h c, windcomponents 83.1 (.scalar 300) (.scalar 17) = .ok (.scalars h c) ∧
    Prints h (-13.5946391943) 1e-10 ∧ Prints c (-10.2071438305) 1e-10 := by
  obtain ⟨c1, c2⟩ := DocNum.cos369_0
  have p0 := Real.pi_pos
  have hs0 : 0 ≤ Real.sin (41 * Real.pi / 200) := Real.sin_nonneg_of_nonneg_of_le_pi (by positivity) (by linarith)
  have hcs := Real.sin_sq_add_cos_sq (41 * Real.pi / 200)
  have ec : Real.cos ((300 - 83.1 : ℝ) * Real.pi / 180) = - Real.cos (41 * Real.pi / 200) := by
    rw [show ((300 - 83.1 : ℝ) * Real.pi / 180) = 41 * Real.pi / 200 + Real.pi by ring, Real.cos_add_pi]
  have es : Real.sin ((300 - 83.1 : ℝ) * Real.pi / 180) = - Real.sin (41 * Real.pi / 200) := by
    rw [show ((300 - 83.1 : ℝ) * Real.pi / 180) = 41 * Real.pi / 200 + Real.pi by ring, Real.sin_add_pi]
  refine ⟨headwind1 83.1 300 17, crosswind1 83.1 300 17, rfl, ?_, ?_⟩
  · rw [Prints, abs_le, headwind1, deg2rad, show ((300 - 83.1 : ℝ) * (Real.pi / 180)) = (300 - 83.1) * Real.pi / 180 by ring, ec, abs_of_pos (by norm_num : (0:ℝ) < 17)]
    constructor <;> linarith
  · rw [Prints, abs_le, crosswind1, deg2rad, show ((300 - 83.1 : ℝ) * (Real.pi / 180)) = (300 - 83.1) * Real.pi / 180 by ring, es, abs_of_pos (by norm_num : (0:ℝ) < 17)]
    generalize Real.sin (41 * Real.pi / 200) = s at *
    generalize Real.cos (41 * Real.pi / 200) = c at *
    have s1 : 0.60041 ≤ s := by nlinarith
    have hl : 0.6004202253208 ≤ s := by nlinarith
    have hh : s ≤ 0.6004202253264 := by nlinarith
    constructor <;> linarith

/-! ### Wing in ground effect -/

theorem doc_wig6 : ∃ r, construct [] [("aspectratio", .num 8), ("wingheightratio", .num (0.6 / √(8 * 10)))] [] none .pyNone = .ok r ∧
    r.concept.wingheightratio = some (0.6 / √(8 * 10)) := by
  apply Exists.intro; constructor
  · rfl
  · rfl

theorem doc_wig8 : ∃ r, construct [] [("aspectratio", .num 8), ("wingheightratio", .num (0.8 / √(8 * 10)))] [] none .pyNone = .ok r ∧
    r.concept.wingheightratio = some (0.8 / √(8 * 10)) := by
  apply Exists.intro; constructor
  · rfl
  · rfl

theorem doc_wig10 : ∃ r, construct [] [("aspectratio", .num 8), ("wingheightratio", .num (1.0 / √(8 * 10)))] [] none .pyNone = .ok r ∧
    r.concept.wingheightratio = some (1.0 / √(8 * 10)) := by
  apply Exists.intro; constructor
  · rfl
  · rfl

/-- constraintanalysis.py:2424-2438: the ground effect factor of a wing of 10 square metres and aspect ratio 8 at three heights. -/
theorem C125_wig : ∀ p ∈ [((0.6 : ℝ), (0.5353159851301115 : ℝ)), (0.8, 0.6719160104986877), (1.0, 0.761904761904762)],
    ∃ r, construct [] [("aspectratio", .num 8), ("wingheightratio", .num (p.1 / √(8 * 10)))] [] none .pyNone = .ok r ∧
      Prints (wigfactor r.concept) p.2 1e-15 := by
  have key : ∀ x : ℝ, wig (x / √(8 * 10)) = (3.2 * x ^ 2) / (1 + 3.2 * x ^ 2) := by
    intro x
    have e : (16 * (x / √(8 * 10))) ^ 2 = 3.2 * x ^ 2 := by
      rw [mul_pow, div_pow, Real.sq_sqrt (by norm_num)]; ring
    rw [wig, e]
  have pr : ∀ {x v : ℝ} {r : Built}, r.concept.wingheightratio = some (x / √(8 * 10)) →
      |(3.2 * x ^ 2) / (1 + 3.2 * x ^ 2) - v| ≤ 1e-15 / 2 → Prints (wigfactor r.concept) v 1e-15 := by
    intro x v r h b
    rw [wigfactor, h, pyNum, Option.getD_some, key, Prints]
    exact b
  intro p hp
  simp only [List.mem_cons, List.not_mem_nil, or_false] at hp
  rcases hp with h | h | h <;> subst h
  · obtain ⟨r, hr, hw⟩ := doc_wig6
    exact ⟨r, hr, pr hw (by rw [abs_le]; norm_num)⟩
  · obtain ⟨r, hr, hw⟩ := doc_wig8
    exact ⟨r, hr, pr hw (by rw [abs_le]; norm_num)⟩
  · obtain ⟨r, hr, hw⟩ := doc_wig10
    exact ⟨r, hr, pr hw (by rw [abs_le]; norm_num)⟩

/-! ### Sea level thrust of the JT8D-9 -/

/-- ADRpy/data/engine_data/Jet_CSVs/JT8D-9_Sea_level_take_off_thrust_polynomial.csv: the fitted take-off thrust at sea level of the JT8D-9 (coefficients, limits) used by propulsion.py:1377-1415. -/
def docJt8dTo : PolyFile := ([67965.96706809467, -106535.97563030694, 640992.6130222493, -4466238.808452494, 22023713.453063685,
  -62256668.174850576, 90636670.75147733, -52757841.905313544], [0.000272148, 0.467408107])
/-- ADRpy/data/engine_data/Jet_CSVs/JT8D-9_Sea_level_thrust_polynomial.csv: the fitted thrust at sea level of the JT8D-9 (coefficients, limits) used by propulsion.py:1338-1375. -/
def docJt8dSl : PolyFile := ([51839.98008390952, -51545.446556477575, 57541.00119768832, 8005.512380364577, -140146.62194137223,
  211029.68662425922, -136973.63120387663, 33807.456798616884], [0, 0.98527989])

/-- propulsion.py:1393-1400: the take-off thrust at Mach 0.4. -/
theorem C125_jet_takeoff (d : JetDeck) (ha : d.avail.slto = true) (hp : d.sltoPoly = some docJt8dTo) :
    ∃ t, d.sl_take_off_thrust (.num 0.4) = .ok (some [t]) ∧ Prints t 53179.248666918036 1e-11 := by
  refine ⟨evalPoly docJt8dTo.1 0.4, ?_, ?_⟩
  · rw [JetDeck.sl_take_off_thrust, hp, ha]
    have e1 : pyIndex docJt8dTo.2 (-1) = .ok 0.467408107 := rfl
    have e2 : pyIndex docJt8dTo.2 0 = .ok 0.000272148 := rfl
    have e3 : getIdx docJt8dTo.2 1 = .ok 0.467408107 := rfl
    have e4 : getIdx docJt8dTo.2 0 = .ok 0.000272148 := rfl
    simp only [slQuery, polyQuery, e1, e2, e3, e4, bind_ok, if_neg (by norm_num : ¬ (0.467408107:ℝ) < 0.4),
      if_neg (by norm_num : ¬ (0.4:ℝ) < 0.000272148), if_false, Bool.true_eq_false]
    rfl
  · rw [Prints, abs_le]
    simp only [evalPoly, docJt8dTo, List.foldr]
    norm_num

example : ∃ t, (⟨⟨[], [], false, true⟩, none, none, none, some docJt8dTo⟩ : JetDeck).sl_take_off_thrust (.num 0.4) = .ok (some [t]) ∧
    Prints t 53179.248666918036 1e-11 :=
  C125_jet_takeoff _ rfl rfl

/-- propulsion.py:1353-1361: the documented thrust at Mach 0.5 is not that of the data, but 3 millionths of a newton away. -/
theorem C125_jet_violated (d : JetDeck) (ha : d.avail.sl = true) (hp : d.slPoly = some docJt8dSl) :
    ∃ t, d.sl_thrust (.num 0.5) = .ok (some [t]) ∧ ¬ Prints t 37412.617753750004 1e-6 ∧ |t - 37412.617753750004| ≤ 4e-6 := by
  refine ⟨evalPoly docJt8dSl.1 0.5, ?_, ?_, ?_⟩
  · rw [JetDeck.sl_thrust, hp, ha]
    have e1 : pyIndex docJt8dSl.2 (-1) = .ok 0.98527989 := rfl
    have e2 : pyIndex docJt8dSl.2 0 = .ok 0 := rfl
    have e3 : getIdx docJt8dSl.2 1 = .ok 0.98527989 := rfl
    have e4 : getIdx docJt8dSl.2 0 = .ok 0 := rfl
    simp only [slQuery, polyQuery, e1, e2, e3, e4, bind_ok, if_neg (by norm_num : ¬ (0.98527989:ℝ) < 0.5),
      if_neg (by norm_num : ¬ (0.5:ℝ) < 0), if_false, Bool.true_eq_false]
    rfl
  · rw [Prints, not_le, lt_abs]
    left
    simp only [evalPoly, docJt8dSl, List.foldr]
    norm_num
  · rw [abs_le]
    simp only [evalPoly, docJt8dSl, List.foldr]
    norm_num

example : ∃ t, (⟨⟨[], [], true, false⟩, none, none, some docJt8dSl, none⟩ : JetDeck).sl_thrust (.num 0.5) = .ok (some [t]) ∧
    ¬ Prints t 37412.617753750004 1e-6 ∧ |t - 37412.617753750004| ≤ 4e-6 :=
  C125_jet_violated _ rfl rfl

end

end Verif.Props
