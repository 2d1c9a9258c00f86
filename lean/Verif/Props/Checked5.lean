import Verif.Lemmas.Checked
import Verif.Props.Airworthiness
import Verif.Props.Checked4
import Mathlib.Analysis.Complex.ExponentialBounds

/-
Property C135, last part: remaining formulas, the correction of piston engines, the requirements on physical data.
-/

namespace Verif.Props
open Verif Verif.Aircraft Verif.Checked Verif.Units

noncomputable section

theorem C135_climb_physical (X : Ext) {c : Concept} (hr : Ready c) {s r : ℝ} (h1 : c.climbspeed_kias = some s) (h2 : c.climbrate_fpm = some r)
    (hs : 0 < s) (hf : 0 < pyNum c.climb_weight_fraction) (b : Bool)
    (hc : ∀ v t p, CorrAt X c v (pyNum c.climbalt_m) t p → b = true → t ≠ 0) {w : ℝ} (hw : 0 < w) :
    ∃ roc v t q k y, twrequired_clm X c (.scalar w) b = .ok (.scalar y) ∧
      reqClimb b (some roc) (some v) (some q) (some (pyNum c.cdminclean)) (some k) (some w) (some (pyNum c.climb_weight_fraction)) (some t) =
        some y := by
  obtain ⟨v, roc, t, q, m, K, h⟩ := clm_given (X := X) hr h1 h2
  obtain ⟨k, y, e1, e2⟩ := C135_climb_whole X c b h w
  obtain ⟨p, hp⟩ := h.corr
  obtain ⟨d, hd, hd1⟩ := hr.climb.dens
  obtain ⟨d0, hd0, hd2⟩ := hr.sea.dens
  have hv : 0 < v := by
    have := h.tas
    unfold Atmos.eas2tas at this
    rw [dratio_ok hd1 hd2 hd hd0] at this
    cases this
    have : 0 < kts2mps s := by unfold kts2mps; positivity
    positivity
  refine ⟨roc, v, t, q, k, y, e1, e2.1 ⟨hv.ne', hw.ne', hf.ne', ?_, hc v t p hp⟩⟩
  have hq := h.press
  unfold Atmos.dynamicpressure_pa at hq
  rw [hd1] at hq
  cases hq
  positivity

example (X : Ext) : ∃ roc v t q k y, twrequired_clm X exC (.scalar 900) false = .ok (.scalar y) ∧
    reqClimb false (some roc) (some v) (some q) (some (pyNum exC.cdminclean)) (some k) (some 900) (some (pyNum exC.climb_weight_fraction)) (some t) =
      some y :=
  C135_climb_physical X exC_ready rfl rfl (by norm_num) (by norm_num [exC, pyNum]) false (fun _ _ _ _ h => absurd h (by decide)) (by norm_num)

theorem C135_ceiling_physical (X : Ext) {c : Concept} (hr : Ready c) {s alt : ℝ} (h1 : c.secclimbspd_kias = some s) (h2 : c.servceil_m = some alt)
    (hs : 0 < s) (hf : 0 < pyNum c.sec_weight_fraction) (b : Bool)
    (hc : ∀ v t p, CorrAt X c v alt t p → b = true → t ≠ 0) {w : ℝ} (hw : 0 < w) :
    ∃ roc v t q k y, twrequired_sec X c (.scalar w) b = .ok (.scalar y) ∧
      reqCeiling b (some roc) (some v) (some q) (some (pyNum c.cdminclean)) (some k) (some w) (some (pyNum c.sec_weight_fraction)) (some t) =
        some y := by
  obtain ⟨v, roc, t, q, m, K, h⟩ := sec_given (X := X) hr h1 h2
  obtain ⟨k, y, e1, e2⟩ := C135_ceiling_whole X c b h w
  obtain ⟨p, hp⟩ := h.corr
  obtain ⟨d, hd, hd1⟩ := (hr.ceiling alt h2).dens
  obtain ⟨d0, hd0, hd2⟩ := hr.sea.dens
  have hv : 0 < v := by
    have := h.tas
    unfold Atmos.eas2tas at this
    rw [dratio_ok hd1 hd2 hd hd0] at this
    cases this
    have : 0 < kts2mps s := by unfold kts2mps; positivity
    positivity
  refine ⟨roc, v, t, q, k, y, e1, e2.1 ⟨hv.ne', hw.ne', hf.ne', ?_, hc v t p hp⟩⟩
  have hq := h.press
  unfold Atmos.dynamicpressure_pa at hq
  rw [hd1] at hq
  cases hq
  positivity

example (X : Ext) : ∃ roc v t q k y, twrequired_sec X exC (.scalar 900) false = .ok (.scalar y) ∧
    reqCeiling false (some roc) (some v) (some q) (some (pyNum exC.cdminclean)) (some k) (some 900) (some (pyNum exC.sec_weight_fraction)) (some t) =
      some y :=
  C135_ceiling_physical X exC_ready rfl rfl (by norm_num) (by norm_num [exC, pyNum]) false (fun _ _ _ _ h => absurd h (by decide)) (by norm_num)

theorem C135_turn_physical (X : Ext) {c : Concept} (hr : Ready c) {s n : ℝ} (h1 : c.turnspeed_ktas = some s) (h2 : c.stloadfactor = some n)
    (hs : 0 < s) (hf : 0 < pyNum c.turn_weight_fraction) (b : Bool)
    (hc : ∀ t p, CorrAt X c (kts2mps s) (pyNum c.turnalt_m) t p → b = true → t ≠ 0) {w : ℝ} (hw : 0 < w) :
    ∃ t q k y cl f, twrequired_trn X c (.scalar w) b = .ok (.scalar y, cl, f) ∧
      reqTurn b (some q) (some (pyNum c.cdminclean)) (some n) (some k) (some w) (some (pyNum c.turn_weight_fraction))
        (some (pyNum c.climb_weight_fraction)) (some t) = some y := by
  obtain ⟨t, q, m, K, h⟩ := trn_given (X := X) hr h1 h2
  obtain ⟨k, y, cl, f, e1, e2⟩ := C135_turn_whole X c b h w
  obtain ⟨p, hp⟩ := h.corr
  obtain ⟨d, hd, hd1⟩ := hr.turn.dens
  refine ⟨t, q, k, y, cl, f, e1, e2.1 ⟨hw.ne', hf.ne', ?_, hc t p hp⟩⟩
  have hq := h.press
  unfold Atmos.dynamicpressure_pa at hq
  rw [hd1] at hq
  cases hq
  have : 0 < kts2mps s := by unfold kts2mps; positivity
  positivity

example (X : Ext) : ∃ t q k y cl f, twrequired_trn X exC (.scalar 900) false = .ok (.scalar y, cl, f) ∧
    reqTurn false (some q) (some (pyNum exC.cdminclean)) (some 2) (some k) (some 900) (some (pyNum exC.turn_weight_fraction))
      (some (pyNum exC.climb_weight_fraction)) (some t) = some y :=
  C135_turn_physical X exC_ready rfl rfl (by norm_num) (by norm_num [exC, pyNum]) false (fun _ _ _ h => absurd h (by decide)) (by norm_num)

/-! ### Piston engines -/

theorem C135_piston_zero (d : ℝ) :
    piston (some d) = some (Atmos.pistonpowerfactor d) ∧ (Atmos.pistonpowerfactor d = 0 ↔ d = 0.1617 / 1.132) := by
  constructor
  · unfold piston Atmos.pistonpowerfactor
    apply Exactly.suff
    · walk
    · norm_num
  · unfold Atmos.pistonpowerfactor
    constructor
    · intro h
      rw [eq_div_iff (by norm_num)]
      rw [div_eq_mul_inv] at h
      norm_num at h ⊢
      linarith
    · rintro rfl
      norm_num

example : Atmos.pistonpowerfactor 1 ≠ 0 ∧ piston (some 1) = some (Atmos.pistonpowerfactor 1) :=
  ⟨fun h => absurd ((C135_piston_zero 1).2.1 h) (by norm_num), (C135_piston_zero 1).1⟩

/-- On the standard atmosphere there is an altitude between 11 and 20 km where the correction of a piston engine is zero; the requirement mapped
to sea level divides by it. -/
theorem C135_piston_violated : ∃ h, 11000 < h ∧ h < 20000 ∧ Atmos.pistonpowerfactor (Atmos.isadens 0 h) = 0 ∧
    ∀ tw : ℝ, mapped true (some tw) (piston (some (Atmos.isadens 0 h))) = none := by
  have hN : Atmos.N2 < 0 := by norm_num [Atmos.N2]
  obtain ⟨h, hh⟩ : ∃ h, h = Real.log ((0.1617 / 1.132) / Atmos.M2) / Atmos.N2 := ⟨_, rfl⟩
  have e : Atmos.N2 * h = Real.log ((0.1617 / 1.132) / Atmos.M2) := by rw [hh]; have := hN.ne; field_simp
  have hv : Atmos.M2 * Real.exp (Atmos.N2 * h) = 0.1617 / 1.132 := by
    rw [e, Real.exp_log (by norm_num [Atmos.M2])]
    norm_num [Atmos.M2]
  have x1 := Real.exp_one_gt_d9
  have x2 := Real.exp_one_lt_d9
  have l2 : Real.exp (-2) = (Real.exp 1)⁻¹ ^ 2 := by rw [← Real.exp_neg, ← Real.exp_nat_mul]; norm_num
  have l3 : Real.exp (-3) = (Real.exp 1)⁻¹ ^ 3 := by rw [← Real.exp_neg, ← Real.exp_nat_mul]; norm_num
  have ub : Real.log ((0.1617 / 1.132) / Atmos.M2) < -2 := by
    rw [Real.log_lt_iff_lt_exp (by norm_num [Atmos.M2]), l2, inv_pow, lt_inv_comm₀ (by norm_num [Atmos.M2]) (by positivity)]
    refine lt_trans (pow_lt_pow_left₀ x2 (by positivity) (by norm_num)) ?_
    norm_num [Atmos.M2]
  have lb : -3 < Real.log ((0.1617 / 1.132) / Atmos.M2) := by
    rw [Real.lt_log_iff_exp_lt (by norm_num [Atmos.M2]), l3, inv_pow, inv_lt_comm₀ (by positivity) (by norm_num [Atmos.M2])]
    refine lt_trans ?_ (pow_lt_pow_left₀ x1 (by norm_num) (by norm_num))
    norm_num [Atmos.M2]
  have g1 : 11000 < h := by
    rw [← e] at ub; norm_num [Atmos.N2] at ub; linarith
  have g2 : h < 20000 := by
    rw [← e] at lb; norm_num [Atmos.N2] at lb; linarith
  have hd : Atmos.isadens 0 h = 0.1617 / 1.132 := by
    unfold Atmos.isadens Atmos.isadens0
    rw [if_neg (by norm_num [Atmos.Level1]; linarith), if_pos (by norm_num [Atmos.Level2]; linarith), hv]
    simp
  have hz := (C135_piston_zero (Atmos.isadens 0 h)).2.2 hd
  refine ⟨h, g1, g2, hz, fun tw => ?_⟩
  rw [(C135_piston_zero _).1, hz]
  exact ((Exactly.leaf tw).div (Exactly.leaf 0)).2 (fun h => h.2.2 rfl)

/-! ### Certification -/

theorem C135_vs (n w rho s cl : ℝ) : Exactly (stallspeed (some n) (some w) (some rho) (some s) (some cl))
    (rho ≠ 0 ∧ s ≠ 0 ∧ cl ≠ 0 ∧ 0 ≤ (n * w) / (0.5 * rho * s * cl)) (√((n * w) / (0.5 * rho * s * cl))) := by
  unfold stallspeed
  apply Exactly.of
  · walk
  · simp only [true_and, ne_eq, mul_eq_zero, not_or]
    norm_num
    tauto

example : stallspeed (some 1) (some 10000) (some 1.2) (some 12) (some 1.5) = some (√(1 * 10000 / (0.5 * 1.2 * 12 * 1.5))) ∧
    stallspeed (some (-1)) (some 10000) (some 1.2) (some 12) (some 1.5) = none :=
  ⟨(C135_vs ..).1 (by norm_num), (C135_vs ..).2 (by norm_num)⟩

/-- The stall speed of the certification object, at a positive or negative load factor: no undefined operation with positive weight, area, density
and a lift coefficient of the same sign as the load factor. -/
theorem C135_vs_keas (o : Airworthiness.Cert) (n w s cl rho : ℝ) (h1 : o.acobj.weight_n = some w) (h2 : o.acobj.wingarea_m2 = some s)
    (h3 : (if n ≥ 0 then o.acobj.clmaxclean else o.acobj.clminclean) = some cl) (h4 : Atmos.dens1 o.acobj.designatm 0 = .ok rho)
    (hw : 0 < w) (hs : 0 < s) (hr : 0 < rho) (hc : if n ≥ 0 then 0 < cl else cl < 0) :
    ∃ v, Airworthiness.vs_keas o n = .ok (mps2kts v) ∧ stallspeed (some n) (some w) (some rho) (some s) (some cl) = some v := by
  have hx : cl ≠ 0 ∧ 0 ≤ (n * w) / (0.5 * rho * s * cl) := by
    by_cases hn : n ≥ 0
    · rw [if_pos hn] at hc
      exact ⟨hc.ne', by positivity⟩
    · rw [if_neg hn] at hc
      refine ⟨hc.ne, div_nonneg_of_nonpos ?_ ?_⟩
      · exact (mul_neg_of_neg_of_pos (not_le.1 hn) hw).le
      · exact (mul_neg_of_pos_of_neg (by positivity) hc).le
  refine ⟨_, ?_, (C135_vs n w rho s cl).1 ⟨hr.ne', hs.ne', hx.1, hx.2⟩⟩
  unfold Airworthiness.vs_keas Airworthiness.mathSqrt
  simp only [h1, h2, h3, h4, need, bind_ok, not_lt.2 hx.2, if_false]
  rfl

example : ∃ v, Airworthiness.vs_keas exCert (-1) = .ok (mps2kts v) ∧
    stallspeed (some (-1)) (some 10000) (some 1) (some 12) (some (-1)) = some v :=
  C135_vs_keas exCert (-1) 10000 12 (-1) 1 rfl rfl (by rw [if_neg (by norm_num)]; rfl) (exAtm_dens 0 (by norm_num) (by norm_num)) (by norm_num)
    (by norm_num) (by norm_num) (by norm_num)

theorem C135_limitload (w : ℝ) (h : 0 ≤ w) : limitload (some (n2lbf w)) = some (2.1 + 24000 / (n2lbf w + 10000)) := by
  have h0 : 0 ≤ n2lbf w := by unfold n2lbf; positivity
  unfold limitload
  apply Exactly.suff
  · walk
  · simp only [true_and]
    positivity

example : limitload (some (n2lbf 10000)) = some (2.1 + 24000 / (n2lbf 10000 + 10000)) := C135_limitload _ (by norm_num)

theorem C135_alleviation {wl rho smc a : ℝ} (h1 : 0 ≤ wl) (h2 : 0 < rho) (h3 : 0 < smc) (h4 : 0 < a) :
    alleviation (some wl) (some rho) (some smc) (some a) = some (Airworthiness.k_gust (Airworthiness.mu_g wl rho smc a)) := by
  unfold alleviation Airworthiness.k_gust Airworthiness.mu_g gAcc
  apply Exactly.suff
  · walk
  · simp only [true_and]
    exact ⟨by positivity, by positivity⟩

example : alleviation (some 800) (some 1.2) (some 1.3) (some 5) = some (Airworthiness.k_gust (Airworthiness.mu_g 800 1.2 1.3 5)) :=
  C135_alleviation (by norm_num) (by norm_num) (by norm_num) (by norm_num)

theorem C135_gustload (k r u v a wl f : ℝ) : Exactly (gustload (some k) (some r) (some u) (some v) (some a) (some wl) (some f)) (wl ≠ 0 ∧ f ≠ 0)
    (Airworthiness.gustIncrement k r u v a wl f) := by
  unfold gustload Airworthiness.gustIncrement
  apply Exactly.of
  · walk
  · simp only [true_and, ne_eq, mul_eq_zero, not_or]
    norm_num

example : gustload (some 0.7) (some 1.2) (some 15) (some 60) (some 5) (some 800) (some 1) = some (Airworthiness.gustIncrement 0.7 1.2 15 60 5 800 1) ∧
    gustload (some 0.7) (some 1.2) (some 15) (some 60) (some 5) (some 800) (some 0) = none :=
  ⟨(C135_gustload ..).1 (by norm_num), (C135_gustload ..).2 (by norm_num)⟩

theorem C135_gustspeed {a cl k u wl rho f : ℝ} (h1 : 0 < cl) (h2 : 0 < rho) (h3 : 0 ≤ wl) (h4 : 0 ≤ f) :
    ∃ v, gustspeed (some a) (some cl) (some k) (some u) (some wl) (some rho) (some f) = some v ∧
      Airworthiness.vbmin1_keas a cl k u wl rho f = mps2kts v := by
  refine ⟨_, ?_, rfl⟩
  unfold gustspeed
  apply Exactly.suff
  · walk
  · simp only [true_and, and_true]
    have : 0 ≤ 2 * wl / (rho * cl) * f := by positivity
    refine ⟨h1.ne', by positivity, ?_, by norm_num⟩
    have e : -2 * wl / (rho * cl) * f = -(2 * wl / (rho * cl) * f) := by ring
    rw [e]
    nlinarith [sq_nonneg (-(a / cl) * k * u)]

example : ∃ v, gustspeed (some 5) (some 1.5) (some 0.7) (some 15) (some 800) (some 1.2) (some 1) = some v ∧
    Airworthiness.vbmin1_keas 5 1.5 0.7 15 800 1.2 1 = mps2kts v := C135_gustspeed (by norm_num) (by norm_num) (by norm_num) (by norm_num)

theorem C135_chords (o : Airworthiness.Cert) (h1 : 0 < pyNum o.acobj.wingarea_m2) (h2 : 0 < pyNum o.acobj.aspectratio)
    (h3 : 0 ≤ pyNum o.acobj.roottaperratio) : ∃ smc mac, Airworthiness.meanchord_m o = .ok (smc, mac) ∧
      chords (some (pyNum o.acobj.wingarea_m2)) (some (pyNum o.acobj.aspectratio)) (some (pyNum o.acobj.roottaperratio)) = (some smc, some mac) := by
  have h : ¬ pyNum o.acobj.wingarea_m2 / pyNum o.acobj.aspectratio < 0 := not_lt.2 (by positivity)
  refine ⟨√(pyNum o.acobj.wingarea_m2 / pyNum o.acobj.aspectratio), (2 / 3) * (2 / (1 + pyNum o.acobj.roottaperratio) *
    √(pyNum o.acobj.wingarea_m2 / pyNum o.acobj.aspectratio)) * (1 + pyNum o.acobj.roottaperratio + pyNum o.acobj.roottaperratio ^ 2) /
    (1 + pyNum o.acobj.roottaperratio), ?_, ?_⟩
  · unfold Airworthiness.meanchord_m Airworthiness.mathSqrt
    simp only [if_neg h, bind_ok]
    rfl
  · unfold chords
    refine Prod.ext ?_ ?_
    · apply Exactly.suff
      · walk
      · simp only [true_and]
        exact ⟨h2.ne', not_lt.1 h⟩
    · apply Exactly.suff
      · walk
      · simp only [true_and, and_true]
        exact ⟨⟨by norm_num, by positivity, h2.ne', not_lt.1 h⟩, by positivity⟩

example : ∃ smc mac, Airworthiness.meanchord_m exCert = .ok (smc, mac) ∧
    chords (some (pyNum exCert.acobj.wingarea_m2)) (some (pyNum exCert.acobj.aspectratio)) (some (pyNum exCert.acobj.roottaperratio)) = (some smc, some mac) :=
  C135_chords exCert (by norm_num [exCert, exC, pyNum]) (by norm_num [exCert, exC, pyNum]) (by norm_num [exCert, exC, pyNum])

end

end Verif.Props
