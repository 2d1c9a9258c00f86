import Verif.Props.Documented3

/-
C125, continued: the turn example. The lift coefficients and the infeasible entry are as documented, the thrust to weight ratio
is not.
-/

namespace Verif.Props
open Verif Verif.Atmos Verif.Units Verif.Aircraft

noncomputable section

/-- constraintanalysis.py:1595-1596: the brief of the turn example. -/
def docTurnBrief : Dict := [("stloadfactor", .num 2), ("turnalt_m", .num (feet2m 10000)), ("turnspeed_ktas", .num 140)]
/-- constraintanalysis.py:1600-1601: the performance of the turn example (the design, 1603-1604, is that of the climb example). -/
def docTurnPerf : Dict := [("CLmaxclean", .num 1.45), ("CDminclean", .num 0.02541), ("etaprop", .sub [("turn", some 0.85)])]

theorem doc_turn_concept : ∃ r, construct docTurnBrief docClimbDesign docTurnPerf (some (.isa 0)) .pyNone = .ok r ∧
    r.concept.designatm = .isa 0 ∧ r.concept.bpr = some (-1) ∧ r.concept.propulsion = .pyFalse ∧ r.concept.turnalt_m = some (feet2m 10000) ∧
    r.concept.turnspeed_ktas = some 140 ∧ r.concept.stloadfactor = some 2 ∧ r.concept.cdminclean = some 0.02541 ∧
    r.concept.clmaxclean = some 1.45 ∧
    r.concept.climb_weight_fraction = some 1.0 ∧ r.concept.turn_weight_fraction = some 1.0 ∧
    r.concept.cruisespeed_ktas = none ∧ r.concept.cruisealt_m = none ∧
    r.concept.aspectratio = some 10.12 ∧ r.concept.a_0i = some (2 * Real.pi) ∧ r.concept.sweep_le_deg = some 2 ∧
    r.concept.sweep_25_deg = some (2 * 2 + 5 * 0 / 7) ∧ r.concept.sweep_mt_deg = some 0 ∧
    r.concept.roottaperratio = some (0.45 * Real.exp (-0.0375 * (2 * 2 + 5 * 0 / 7))) := by
  apply Exists.intro; constructor
  · rfl
  · exact ⟨rfl, rfl, rfl, rfl, rfl, rfl, rfl, rfl, rfl, rfl, rfl, rfl, rfl, rfl, rfl, rfl, rfl, rfl⟩

theorem doc_y08 {x : ℝ} (h0 : 0.46 ≤ x) (h1 : x ≤ 0.47) : 0.64 ≤ y_suction x 0.8 5.77 1 (-1.29) := by
  rw [y08_eq]
  norm_num at h0 h1
  have a1 : 1.484 ≤ 1.9546 - x := by norm_num; linarith
  have a2 : 0.63 ≤ Real.exp (-1 * (x - 0.1)) := by
    have := Real.add_one_le_exp (-1 * (x - 0.1))
    norm_num at *; linarith
  have a3 : 0.12 ≤ Real.tan (0.1 * (x + 0.74)) := by
    have hp := Real.pi_gt_d2
    have : 0.1 * (x + 0.74) ≤ Real.tan (0.1 * (x + 0.74)) := Real.le_tan (by norm_num; linarith) (by norm_num at *; linarith)
    norm_num at *; linarith
  have b1 : (0:ℝ) ≤ Real.exp (-1 * (x - 0.1)) := by positivity
  generalize Real.exp (-1 * (x - 0.1)) = e at *
  generalize Real.tan (0.1 * (x + 0.74)) = t at *
  have b2 : 0 ≤ 1.9546 - x := le_trans (by norm_num) a1
  calc (0.64:ℝ) ≤ 5.77 * 1.484 * 0.63 * 0.12 := by norm_num
    _ ≤ 5.77 * (1.9546 - x) * e * t := by gcongr

/-- The induced drag factor of the wing in the turn. -/
theorem DocWing.turn (X : Ext) {c : Concept} (h : DocWing c) {m w cl : ℝ} {K : ℝ → ℝ → ℝ} (h0 : 0 ≤ m) (h1 : m ≤ 0.2194)
    (hn : c.cruisespeed_ktas = none) (c0 : 1.06 ≤ cl) (c1 : cl ≤ 1.07) (hK : KFun X c m K) : K w cl ≤ 0.0424 := by
  have hcos := h.coss.1
  have hcos0 : 0 < Real.cos c.sweep_le_rad := lt_of_lt_of_le (by norm_num) hcos
  obtain ⟨ko, k0, k1, clc, g1, g2, g3⟩ := hK
  obtain ⟨ls, lss, a1, a2, a3, rfl, a4⟩ := kFactors_spec g1 hcos0
  have hcc : clc w = 0.6 := by
    rcases g3 with ⟨-, g⟩ | ⟨vc, _, _, g, -⟩
    · exact g w
    · rw [hn] at g; cases g
  have hpos : 0 < machstar_le c := by unfold machstar_le; positivity
  obtain ⟨s, t, ⟨t0, -, t2, -⟩, -, -, es, e⟩ := kBlend_spec ko (1 / ls) k1 (machstar_le c) m (cl - 0.6) 0.6 hpos
  rw [g2, hcc, e]
  have sl : 0.38 ≤ s := by
    have y1 := (y03_range (x := cl - 0.6) (by norm_num at *; linarith) (by norm_num at *; linarith)).1
    have y2 := doc_y08 (x := cl - 0.6) (by norm_num at *; linarith) (by norm_num at *; linarith)
    rw [es, (cruiseWeight 0.6).2.2.2.2 (by norm_num) (by norm_num)]
    generalize y_suction (cl - 0.6) 0.3 22.5 1.95 0 = y at *
    generalize y_suction (cl - 0.6) 0.8 5.77 1 (-1.29) = z at *
    norm_num at *; linarith
  have sh : s ≤ 1 := by
    have y1 := (y03_range (x := cl - 0.6) (by norm_num at *; linarith) (by norm_num at *; linarith)).2
    have y2 := (y08_range (x := cl - 0.6) (by norm_num at *; linarith) (by norm_num at *; linarith)).2
    rw [es, (cruiseWeight 0.6).2.2.2.2 (by norm_num) (by norm_num)]
    generalize y_suction (cl - 0.6) 0.3 22.5 1.95 0 = y at *
    generalize y_suction (cl - 0.6) 0.8 5.77 1 (-1.29) = z at *
    norm_num at *; linarith
  have hko := h.oswald (h1.trans (by norm_num)) a1
  have hls := h.slope X h0 (h1.trans_lt (by norm_num)) a2
  have hk1 := a4.1 (h1.trans_lt (by norm_num))
  rw [h.ar] at hk1
  have hk1' : k1 ≤ 0.0315 := by
    rw [hk1, div_le_iff₀ (by positivity)]
    have := Real.pi_gt_d4
    norm_num at *; linarith
  have hl' : 1 / ls ≤ 0.23 := by
    rw [div_le_iff₀ (by norm_num at hls; linarith)]
    norm_num at *; linarith
  have c1' := Real.cos_le_one c.sweep_le_rad
  have ems : m / machstar_le c = m * Real.cos c.sweep_le_rad := by unfold machstar_le; field_simp
  have mle : m * Real.cos c.sweep_le_rad ≤ 0.2194 * 1 := by gcongr
  have mge : 0 ≤ m * Real.cos c.sweep_le_rad := by positivity
  have ht5 := t2 h0 (by
    have : m / machstar_le c ≤ 1 := by rw [ems]; norm_num at *; linarith
    rwa [div_le_one hpos] at this)
  rw [ems] at ht5
  have ht : 0.951 ≤ t := by
    by_contra hc
    have hc := not_le.mp hc
    have : t ^ 5 < 0.951 ^ 5 := by gcongr
    rw [ht5] at this
    norm_num at *; linarith
  have ht1 : t ≤ 1 := by
    by_contra hc
    have := one_lt_pow₀ (not_le.mp hc) (n := 5) (by norm_num)
    linarith
  have u : s * k1 + (1 - s) * (1 / ls) ≤ 0.1546 := by
    have hs0 : 0 ≤ s := le_trans (by norm_num) sl
    have i1 := mul_le_mul_of_nonneg_left hk1' hs0
    have i2 := mul_le_mul_of_nonneg_left hl' (sub_nonneg.mpr sh)
    have : s * k1 + (1 - s) * (1 / ls) ≤ s * 0.0315 + (1 - s) * 0.23 := by linarith
    norm_num at *; linarith
  have i1 := mul_le_mul_of_nonneg_left hko t0
  have i2 := mul_le_mul_of_nonneg_left u (sub_nonneg.mpr ht1)
  have : t * ko + (1 - t) * (s * k1 + (1 - s) * (1 / ls)) ≤ t * 0.03653 + (1 - t) * 0.1546 := by linarith
  norm_num at *; linarith

/-- constraintanalysis.py:1591-1627: the lift coefficients required in the turn are those of the documentation to the last digit, and the
requirement is marked as infeasible at the highest wing loading only; but the thrust to weight ratio at the first wing loading is
less than documented. -/
theorem C125_turn_violated (X : Ext) : ∃ r t₁ t₂ t₃ l₁ l₂ l₃, construct docTurnBrief docClimbDesign docTurnPerf (some (.isa 0)) .pyNone = .ok r ∧
    twrequired_trn X r.concept (.array [1250, 1500, 1750]) true = .ok (.array [t₁, t₂, t₃], .array [l₁, l₂, l₃], .array [some t₁, some t₂, none]) ∧
    (Prints l₁ 1.06552292 1e-8 ∧ Prints l₂ 1.2786275 1e-8 ∧ Prints l₃ 1.49173209 1e-8) ∧
    t₁ < 0.197 ∧ ¬ Prints t₁ 0.19920641 1e-8 := by
  obtain ⟨r, hr, ha, hb, hp, halt, hs, hn, hcd, hcl, hwf, htf, hcs, hca, har, ha0, hle, hqc, hmt, htap⟩ := doc_turn_concept
  obtain ⟨c, hc⟩ : ∃ c, c = r.concept := ⟨_, rfl⟩
  rw [← hc] at ha hb hp halt hs hn hcd hcl hwf htf hcs hca har ha0 hle hqc hmt htap
  have dw : DocWing c := by
    refine ⟨by rw [har]; rfl, by rw [ha0]; rfl, by rw [hle]; rfl, ?_, by rw [hmt]; rfl, ?_⟩
    · rw [hqc]; norm_num [pyNum]
    · rw [htap, pyNum, Option.getD_some, show (2 * 2 + 5 * 0 / 7 : ℝ) = 4 by norm_num]
  have e0 : pyNum c.turnalt_m = 3048 := by rw [halt]; norm_num [pyNum, feet2m]
  have ef : pyNum c.climb_weight_fraction = 1 := by rw [hwf]; norm_num [pyNum]
  have eg : pyNum c.turn_weight_fraction = 1 := by rw [htf]; norm_num [pyNum]
  have ecd : pyNum c.cdminclean = 0.02541 := by rw [hcd]; rfl
  have ecl : pyNum c.clmaxclean = 1.45 := by rw [hcl]; rfl
  have env : EnvOK c.designatm 3048 := by rw [ha]; exact isa_env _ _ (by norm_num) (by norm_num)
  have hd : dens1 c.designatm 3048 = .ok (isadens 0 3048) := by rw [ha]; exact isa_dens1 0 3048 (by norm_num)
  have d1 : 0.9046367971133249 ≤ isadens 0 3048 ∧ isadens 0 3048 ≤ 0.904636797113325 := by
    have e : isadens 0 3048 = 0.976726106128 ^ (4.2558797 : ℝ) := doc_dens (by norm_num) (by norm_num)
    rw [e]; exact DocNum.dens_3048
  obtain ⟨d1, d2⟩ := d1
  generalize isadens 0 3048 = d at hd d1 d2
  have d0 : 0 < d := lt_of_lt_of_le (by norm_num) d1
  have eT : isatemp 0 3048 = 268.338 := by norm_num [isatemp, Level1, A1, B1]
  have hv : vsound_mps c.designatm (.scalar 3048) = .ok (.scalar (√(1.4 * 287.05287 * 268.338))) := by
    rw [ha, ← eT]; exact isa_vsound 0 3048 (by norm_num) (by rw [eT]; norm_num)
  have v1 : 328.3 ≤ √(1.4 * 287.05287 * 268.338) := Real.le_sqrt_of_sq_le (by norm_num)
  generalize √(1.4 * 287.05287 * 268.338) = vs at hv v1
  have vs0 : 0 < vs := lt_of_lt_of_le (by norm_num) v1
  have ek : kts2mps 140 = 72.022216 := by norm_num [kts2mps]
  have hm := mach1_of (v := kts2mps 140) hv
  have m0 : 0 ≤ kts2mps 140 / vs := by rw [ek]; positivity
  have m1 : kts2mps 140 / vs ≤ 0.2194 := by
    rw [ek, div_le_iff₀ vs0]; norm_num at *; linarith
  obtain ⟨K, hK⟩ := KFun.exists X c (kts2mps 140 / vs) (by intro alt h; rw [hca] at h; cases h)
  obtain ⟨q, hq⟩ : ∃ q, q = 0.5 * d * kts2mps 140 ^ 2 := ⟨_, rfl⟩
  have hin : TurnIn X c 140 2 (pistonpowerfactor d) q (kts2mps 140 / vs) K := by
    refine ⟨hs, hn, ⟨1, ?_⟩, ?_, by rw [e0]; exact hm, hK⟩
    · rw [e0]; exact piston_corr X (Or.inr ⟨hp, hb⟩) env hd _
    · rw [e0, hq]; unfold dynamicpressure_pa; rw [hd]; rfl
  have q1 : 2346.265814 ≤ q := by rw [hq, ek]; norm_num at d1 d2 ⊢; linarith
  have q2 : q ≤ 2346.265815 := by rw [hq, ek]; norm_num at d1 d2 ⊢; linarith
  have q0 : 0 < q := lt_of_lt_of_le (by norm_num) q1
  have cl : ∀ w, turnCl c 2 q w = 2 * w / q := by
    intro w; rw [turnCl, ef, eg]; ring
  have pr : ∀ {w p : ℝ}, 0 ≤ w → p - 1e-8 / 2 ≤ 2 * w / 2346.265815 → 2 * w / 2346.265814 ≤ p + 1e-8 / 2 → Prints (2 * w / q) p 1e-8 := by
    intro w p hw h1 h2
    have b1 : 2 * w / 2346.265815 ≤ 2 * w / q := by gcongr
    have b2 : 2 * w / q ≤ 2 * w / 2346.265814 := by gcongr
    rw [Prints, abs_le]; constructor <;> linarith
  have p1 : 0.7039 ≤ pistonpowerfactor d := by
    unfold pistonpowerfactor
    norm_num at d1 ⊢; linarith
  have c₁ : 1.06 ≤ 2 * 1250 / q ∧ 2 * 1250 / q ≤ 1.07 := by
    constructor
    · rw [le_div_iff₀ q0]; norm_num at q2 ⊢; linarith
    · rw [div_le_iff₀ q0]; norm_num at q1 ⊢; linarith
  have c₂ : ¬ 2 * 1500 / q > 1.45 := by
    rw [not_lt, div_le_iff₀ q0]; norm_num at q1 ⊢; linarith
  have c₃ : 2 * 1750 / q > 1.45 := by
    rw [gt_iff_lt, lt_div_iff₀ q0]; norm_num at q2 ⊢; linarith
  have hk := dw.turn X (w := 1250) (cl := 2 * 1250 / q) m0 m1 hcs c₁.1 c₁.2 hK
  have key : turnReq c true 2 (pistonpowerfactor d) q K 1250 < 0.197 := by
    unfold turnReq sl turnPoint
    rw [cl, ef, eg, ecd, mul_one, mul_one, mul_one, if_pos rfl]
    have pp : 0 < pistonpowerfactor d := lt_of_lt_of_le (by norm_num) p1
    rw [div_lt_iff₀ pp]
    generalize K 1250 (2 * 1250 / q) = k at hk ⊢
    have e : q * (0.02541 / 1250 + k * (2 / q) ^ 2 * 1250) = q * (0.02541 / 1250) + k * 5000 / q := by field_simp; ring
    have a1 : q * (0.02541 / 1250) ≤ 2346.265815 * (0.02541 / 1250) := by gcongr
    have a2 : k * 5000 / q ≤ 0.0424 * 5000 / 2346.265814 := by
      have b1 : k * 5000 / q ≤ 0.0424 * 5000 / q := by gcongr
      have b2 : (0.0424 * 5000 / q : ℝ) ≤ 0.0424 * 5000 / 2346.265814 := by gcongr
      exact b1.trans b2
    rw [e]
    norm_num at a1 a2 p1 ⊢; linarith
  refine ⟨r, _, turnReq c true 2 (pistonpowerfactor d) q K 1500, turnReq c true 2 (pistonpowerfactor d) q K 1750, _, _, _, hr, ?_, ⟨pr (w := 1250) (by norm_num) (by norm_num) (by norm_num), pr (w := 1500) (by norm_num) (by norm_num) (by norm_num),
    pr (w := 1750) (by norm_num) (by norm_num) (by norm_num)⟩, key, ?_⟩
  · rw [← hc, hin.eval]
    have f₁ : turnFeas c true 2 (pistonpowerfactor d) q K 1250 = some (turnReq c true 2 (pistonpowerfactor d) q K 1250) := by
      rw [turnFeas, cl, ecl, if_neg]; rw [not_lt]; exact c₁.2.trans (by norm_num)
    have f₂ : turnFeas c true 2 (pistonpowerfactor d) q K 1500 = some (turnReq c true 2 (pistonpowerfactor d) q K 1500) := by
      rw [turnFeas, cl, ecl, if_neg c₂]
    have f₃ : turnFeas c true 2 (pistonpowerfactor d) q K 1750 = none := by
      rw [turnFeas, cl, ecl, if_pos c₃]
    simp only [recastArray, List.map_cons, List.map_nil, f₁, f₂, f₃, cl]
    rfl
  · rw [Prints, not_le, lt_abs]; right; norm_num at *; linarith

end

end Verif.Props
