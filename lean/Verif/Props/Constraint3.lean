import Verif.Props.Constraint2
import Mathlib.Analysis.SpecialFunctions.Pow.Real

/-
Properties C42, C43, C44, C45: shape of the requirement curves, climb gradient, weight fractions.
-/

namespace Verif.Props
open Verif Verif.Aircraft Verif.Units

noncomputable section

/-! ### C42 -/

/-- Drag over weight in level flight: zero-lift part `a / w` and lift-dependent part `b * w`. -/
theorem bucket_ge {a b w : ℝ} (ha : 0 ≤ a) (hb : 0 ≤ b) (hw : 0 < w) : 2 * √(a * b) ≤ a / w + b * w := by
  have h1 : √(a * b) = √(a / w) * √(b * w) := by
    rw [← Real.sqrt_mul (by positivity)]; congr 1; field_simp
  have h2 := Real.mul_self_sqrt (show 0 ≤ a / w by positivity)
  have h3 := Real.mul_self_sqrt (show 0 ≤ b * w by positivity)
  nlinarith [sq_nonneg (√(a / w) - √(b * w))]

theorem bucket_shape {a b : ℝ} (ha : 0 < a) (hb : 0 < b) :
    (a / √(a / b) + b * √(a / b) = 2 * √(a * b)) ∧
    (∀ u w, 0 < u → u < w → w ≤ √(a / b) → a / w + b * w < a / u + b * u) ∧
    (∀ u w, √(a / b) ≤ u → u < w → a / u + b * u < a / w + b * w) := by
  have h0 : 0 < √(a / b) := Real.sqrt_pos.mpr (by positivity)
  have hs : √(a / b) * √(a / b) = a / b := Real.mul_self_sqrt (by positivity)
  have hd : ∀ u w : ℝ, 0 < u → 0 < w → (a / w + b * w) - (a / u + b * u) = (w - u) * (b - a / (u * w)) := by
    intro u w hu hw; field_simp; ring
  refine ⟨?_, fun u w hu huw hw => ?_, fun u w hu huw => ?_⟩
  · have h1 : √(a * b) = b * √(a / b) := by
      rw [Real.sqrt_eq_iff_mul_self_eq (by positivity) (by positivity)]
      symm
      calc b * √(a / b) * (b * √(a / b)) = b * b * (√(a / b) * √(a / b)) := by ring
        _ = a * b := by rw [hs]; field_simp
    have h2 : a / √(a / b) = b * √(a / b) := by
      rw [div_eq_iff h0.ne', mul_assoc, hs]; field_simp
    rw [h1, h2]; ring
  · have hw0 : 0 < w := hu.trans huw
    have : u * w < a / b := by rw [← hs]; nlinarith
    have h3 : b < a / (u * w) := by
      rw [lt_div_iff₀ (by positivity)]; rw [lt_div_iff₀ hb] at this; linarith
    have := hd u w hu hw0
    nlinarith
  · have hu0 : 0 < u := h0.trans_le hu
    have hw0 : 0 < w := hu0.trans huw
    have : a / b < u * w := by rw [← hs]; nlinarith
    have h3 : a / (u * w) < b := by
      rw [div_lt_iff₀ (by positivity)]; rw [div_lt_iff₀ hb] at this; linarith
    have := hd u w hu0 hw0
    nlinarith

/-- Factor from weight fraction, throttle setting and thrust correction (if mapped). -/
def cruiseScale (c : Concept) (b : Bool) (t : ℝ) : ℝ :=
  pyNum c.cruise_weight_fraction / pyNum c.cruisethrustfact / (if b then t else 1)

theorem cruiseReq_eq (c : Concept) (b : Bool) (t q w : ℝ) (K : ℝ → ℝ → ℝ) :
    cruiseReq c b t q K w = cruiseScale c b t * (q * pyNum c.cdminclean / (w * pyNum c.cruise_weight_fraction) +
      K w (w * pyNum c.cruise_weight_fraction / q) / q * (w * pyNum c.cruise_weight_fraction)) := by
  unfold cruiseReq cruisePoint sl cruiseScale
  cases b
  · simp only [Bool.false_eq_true, if_false]; ring
  · simp only [if_true]; ring

/-- Whatever the induced drag factor does: the cruise requirement is never below `2 √(k CDmin)` for the
factor `k` at this wing loading. -/
theorem C42_bound (X : Ext) (c : Concept) (b : Bool) (s alt t q m : ℝ) (K : ℝ → ℝ → ℝ)
    (h : CruiseIn X c s alt t q m K) (hq : 0 < q) (hcd : 0 ≤ pyNum c.cdminclean) (hs : 0 ≤ cruiseScale c b t)
    (hf : 0 < pyNum c.cruise_weight_fraction) (w : ℝ) (hw : 0 < w)
    (hk : 0 ≤ K w (w * pyNum c.cruise_weight_fraction / q)) :
    ∃ r, twrequired_crs X c (.scalar w) b = .ok (.scalar r) ∧
      cruiseScale c b t * (2 * √(K w (w * pyNum c.cruise_weight_fraction / q) * pyNum c.cdminclean)) ≤ r := by
  refine ⟨cruiseReq c b t q K w, h.eval b _, ?_⟩
  rw [cruiseReq_eq]
  apply mul_le_mul_of_nonneg_left _ hs
  have := bucket_ge (a := q * pyNum c.cdminclean) (b := K w (w * pyNum c.cruise_weight_fraction / q) / q)
    (w := w * pyNum c.cruise_weight_fraction) (by positivity) (by positivity) (by positivity)
  have e : q * pyNum c.cdminclean * (K w (w * pyNum c.cruise_weight_fraction / q) / q) =
      K w (w * pyNum c.cruise_weight_fraction / q) * pyNum c.cdminclean := by field_simp
  rw [e] at this
  exact this

/-- With a constant induced drag factor `k` the cruise requirement has the classical bucket shape. -/
theorem C42_bucket (X : Ext) (c : Concept) (b : Bool) (s alt t q m k : ℝ) (K : ℝ → ℝ → ℝ)
    (h : CruiseIn X c s alt t q m K) (hK : ∀ w cl, K w cl = k) (hk : 0 < k) (hq : 0 < q)
    (hcd : 0 < pyNum c.cdminclean) (hs : 0 < cruiseScale c b t) (hf : 0 < pyNum c.cruise_weight_fraction) :
    ∃ R : ℝ → ℝ, (∀ w, twrequired_crs X c (.scalar w) b = .ok (.scalar (R w))) ∧
      ∃ w₀, 0 < w₀ ∧ w₀ * pyNum c.cruise_weight_fraction = q * √(pyNum c.cdminclean / k) ∧
        R w₀ = cruiseScale c b t * (2 * √(k * pyNum c.cdminclean)) ∧
        (∀ w, 0 < w → w ≠ w₀ → R w₀ < R w) ∧
        (∀ u w, 0 < u → u < w → w ≤ w₀ → R w < R u) ∧ (∀ u w, w₀ ≤ u → u < w → R u < R w) := by
  refine ⟨cruiseReq c b t q K, fun w => h.eval b _, ?_⟩
  obtain ⟨f, hfd⟩ : ∃ f, f = pyNum c.cruise_weight_fraction := ⟨_, rfl⟩
  obtain ⟨cd, hcdd⟩ : ∃ cd, cd = pyNum c.cdminclean := ⟨_, rfl⟩
  obtain ⟨σ, hσ⟩ : ∃ σ, σ = cruiseScale c b t := ⟨_, rfl⟩
  have hR : ∀ w, cruiseReq c b t q K w = σ * (q * cd / (w * f) + k / q * (w * f)) := by
    intro w; rw [cruiseReq_eq, hK, ← hfd, ← hcdd, ← hσ]
  rw [← hfd] at hf; rw [← hcdd] at hcd; rw [← hσ] at hs
  rw [← hfd, ← hcdd, ← hσ]
  obtain ⟨b1, b2, b3⟩ := bucket_shape (a := q * cd) (b := k / q) (by positivity) (by positivity)
  have e0 : √(q * cd / (k / q)) = q * √(cd / k) := by
    rw [Real.sqrt_eq_iff_mul_self_eq (by positivity) (by positivity)]
    have := Real.mul_self_sqrt (show 0 ≤ cd / k by positivity)
    symm
    calc q * √(cd / k) * (q * √(cd / k)) = q * q * (√(cd / k) * √(cd / k)) := by ring
      _ = _ := by rw [this]; field_simp
  have e1 : q * cd * (k / q) = k * cd := by field_simp
  rw [e0] at b1 b2 b3
  rw [e1] at b1
  have hw0 : 0 < q * √(cd / k) := mul_pos hq (Real.sqrt_pos.mpr (by positivity))
  have e2 : q * √(cd / k) / f * f = q * √(cd / k) := by field_simp
  have dec : ∀ u w, 0 < u → u < w → w ≤ q * √(cd / k) / f → cruiseReq c b t q K w < cruiseReq c b t q K u := by
    intro u w hu huw hw
    rw [hR, hR]
    apply mul_lt_mul_of_pos_left _ hs
    exact b2 (u * f) (w * f) (by positivity) (by nlinarith) (by rw [le_div_iff₀ hf] at hw; exact hw)
  have inc : ∀ u w, q * √(cd / k) / f ≤ u → u < w → cruiseReq c b t q K u < cruiseReq c b t q K w := by
    intro u w hu huw
    rw [hR, hR]
    apply mul_lt_mul_of_pos_left _ hs
    exact b3 (u * f) (w * f) (by rw [div_le_iff₀ hf] at hu; exact hu) (by nlinarith)
  refine ⟨q * √(cd / k) / f, by positivity, e2, ?_, ?_, dec, inc⟩
  · rw [hR, e2, b1]
  · intro w hw hne
    rcases lt_or_gt_of_ne hne with hlt | hgt
    · exact dec w _ hw hlt le_rfl
    · exact inc _ w le_rfl hgt

/-- With a supersonic leading edge the induced drag factor does not depend on the wing loading: it is the
reciprocal of the lift slope. -/
theorem C42_constant (X : Ext) (c : Concept) (m : ℝ) (K : ℝ → ℝ → ℝ) (h : KFun X c m K) (h1 : 1 ≤ m)
    (h2 : machstar_le c ≤ m) (h3 : 0 < machstar_le c) :
    ∃ ls, liftslope_prad X c (some m) = .ok ls ∧ ∀ w cl, K w cl = 1 / ls := by
  obtain ⟨ko, k0, k1, clc, hk, hK, -⟩ := h
  unfold kFactors at hk
  simp only [bind_ok_iff, pure_ok_iff] at hk
  obtain ⟨_, hko, ls, hls, lss, hlss, hk⟩ := hk
  cases hk
  refine ⟨ls, hls, fun w cl => ?_⟩
  rw [hK]
  have e1 : npInterp2 m 0 (machstar_le c) 1 0 = 0 := by
    unfold npInterp2
    rw [if_neg (by linarith), if_pos h2]
  have e2 : k100 (pyNum c.aspectratio) (machstar_le c) (1 / lss) (1 / ls) m = 1 / ls := by
    unfold k100; rw [if_neg (by linarith), if_neg (by linarith)]
  unfold kBlend
  simp only [e1, e2]
  rw [Real.zero_rpow (by norm_num)]
  ring

theorem exAtm_vsound (alt : ℝ) (h0 : 0 ≤ alt) (h1 : alt ≤ 10000) :
    Atmos.vsound_mps exAtm (.scalar alt) = .ok (.scalar (Atmos.vsound 300)) := by
  have h2 := exAtm_alts alt h0 h1
  have h4 : Atmos.airtemp_k exAtm (.array [alt]) = .ok (.scalar 300) := by
    unfold Atmos.airtemp_k
    rw [(alttest_ok h2).2]
    simp only [bind_ok, exAtm, List.mapM_cons, List.mapM_nil, exAtm_interp alt 300 h0 h1]
    rfl
  unfold Atmos.vsound_mps
  simp only [h2, bind_ok, h4, Atmos.vsoundE, if_neg (show ¬ (300 : ℝ) < 0 by norm_num)]
  rfl

/-- The example concept with a supersonic cruise speed. -/
def exS : Concept := { exC with cruisespeed_ktas := some 1500 }

theorem exS_ready : Ready exS :=
  ⟨exC_ready.sea, exC_ready.runway, exC_ready.climb, exC_ready.turn, exC_ready.cruise, exC_ready.ceiling, exC_ready.prop⟩

theorem exS_mach : ∃ m, Atmos.mach1 exS.designatm (kts2mps 1500) 3000 = .ok m ∧ 2 ≤ m := by
  refine ⟨_, Atmos.mach1_of (exAtm_vsound 3000 (by norm_num) (by norm_num)), ?_⟩
  have h0 : (0:ℝ) < Atmos.vsound 300 := by
    unfold Atmos.vsound; apply Real.sqrt_pos.mpr; norm_num [Atmos.R_JPKGPK]
  have h1 : Atmos.vsound 300 ≤ 350 := by
    unfold Atmos.vsound; apply Real.sqrt_le_iff.mpr; norm_num [Atmos.R_JPKGPK]
  rw [le_div_iff₀ h0]
  have : (700 : ℝ) ≤ kts2mps 1500 := by norm_num [kts2mps]
  linarith

theorem slope_pos_unswept {X : Ext} {c : Concept} {m ls : ℝ} (hsw : c.sweep_le_rad = 0) (har : pyNum c.aspectratio = 9)
    (hm : 2 ≤ m) (hls : liftslope_prad X c (some m) = .ok ls) : 0 < ls := by
  unfold liftslope_prad at hls
  simp only [bind_ok_iff, pure_ok_iff] at hls
  obtain ⟨_, _, _, _, hls⟩ := hls
  rw [← hls]
  simp only [Option.getD_some, liftslopeblend]
  rw [if_neg (by norm_num; linarith), if_pos (by norm_num; linarith)]
  simp only [a_supersonic, hsw, ne_eq, not_true, if_false, List.nil_append, List.sum_cons, List.sum_nil,
    List.length_cons, List.length_nil, aSup3, aSup4]
  have hβ : 1 ≤ √(m ^ 2 - 1) := by
    rw [Real.one_le_sqrt]; nlinarith
  rw [har]
  have : 1 / 2 / 9 / √(m ^ 2 - 1) < 1 := by
    rw [div_lt_one (by linarith)]; linarith
  have h4 : 0 < 4 / √(m ^ 2 - 1) := by positivity
  have h5 := mul_pos h4 (sub_pos.mpr this)
  positivity

/-- The supersonic example meets the hypotheses of the bucket theorem. -/
example (X : Ext) : ∃ t q m K k, CruiseIn X exS 1500 3000 t q m K ∧ (∀ w cl, K w cl = k) ∧ 0 < k ∧ 0 < q ∧
    0 < pyNum exS.cdminclean ∧ 0 < cruiseScale exS false t ∧ 0 < pyNum exS.cruise_weight_fraction := by
  obtain ⟨t, q, m, K, h⟩ := crs_given (X := X) exS_ready (s := 1500) (alt := 3000) rfl rfl
  obtain ⟨m', hm, hm2⟩ := exS_mach
  have e := h.mach.symm.trans hm
  cases e
  have hstar : machstar_le exS = 1 := by
    simp [machstar_le, Concept.sweep_le_rad, exS, exC, pyNum, Atmos.deg2rad]
  obtain ⟨ls, hls, hK⟩ := C42_constant X exS m K h.drag (by linarith) (by rw [hstar]; linarith) (by rw [hstar]; norm_num)
  refine ⟨t, q, m, K, 1 / ls, h, hK, ?_, ?_, by norm_num [exS, exC, pyNum], by norm_num [cruiseScale, exS, exC, pyNum],
    by norm_num [exS, exC, pyNum]⟩
  · have : 0 < ls := slope_pos_unswept (by simp [Concept.sweep_le_rad, exS, exC, pyNum, Atmos.deg2rad]) rfl hm2 hls
    positivity
  · have hq := h.press
    unfold Atmos.dynamicpressure_pa at hq
    have hd : Atmos.dens1 exS.designatm 3000 = .ok 1 := exAtm_dens 3000 (by norm_num) (by norm_num)
    rw [hd] at hq; cases hq
    norm_num [kts2mps]

/-! ### C43 -/

/-- The climb gradient: indicated climb rate over indicated speed. -/
def gradient (r s : ℝ) : ℝ := fpm2mps r / kts2mps s

theorem climb_gradient {X : Ext} {c : Concept} {s r v roc t q m : ℝ} {K : ℝ → ℝ → ℝ}
    (h : ClimbIn X c s r v roc t q m K) (he : EnvOK c.designatm (pyNum c.climbalt_m)) (h0 : EnvOK c.designatm 0) :
    roc / v = gradient r s := by
  obtain ⟨d, p, hd⟩ := he.dens
  obtain ⟨d0, p0, hd0⟩ := h0.dens
  have hr := dratio_ok hd hd0 p p0
  have hs : 0 < √(d / d0) := Real.sqrt_pos.mpr (by positivity)
  have h1 := h.tas
  have h2 := h.troc
  unfold Atmos.eas2tas at h1 h2
  rw [hr] at h1 h2
  cases h1; cases h2
  unfold gradient
  rw [div_div_div_cancel_right₀ hs.ne']

theorem climb_rate {X : Ext} {c : Concept} {s r v roc t q m : ℝ} {K : ℝ → ℝ → ℝ}
    (h : ClimbIn X c s r v roc t q m K) (he : EnvOK c.designatm (pyNum c.climbalt_m)) (h0 : EnvOK c.designatm 0) (r' : ℝ) :
    ∃ roc', ClimbIn X { c with climbrate_fpm := some r' } s r' v roc' t q m K ∧ roc' / v = gradient r' s := by
  obtain ⟨roc', h'⟩ := he.tas h0 (fpm2mps r')
  have hin : ClimbIn X { c with climbrate_fpm := some r' } s r' v roc' t q m K :=
    ⟨h.speed, rfl, h.tas, h', h.corr, h.press, h.mach, h.drag⟩
  exact ⟨roc', hin, climb_gradient hin he h0⟩

/-- The requirement at climb rate `r` is the level-flight requirement plus the gradient less the induced
relief, both scaled with weight fraction and correction like the requirement itself. The gradient does not
depend on the altitude or the atmosphere. -/
theorem C43_decomposition (X : Ext) (c : Concept) (b : Bool) (s r v roc t q m : ℝ) (K : ℝ → ℝ → ℝ)
    (h : ClimbIn X c s r v roc t q m K) (he : EnvOK c.designatm (pyNum c.climbalt_m)) (h0 : EnvOK c.designatm 0) (w : ℝ) :
    ∃ R L k, twrequired_clm X c (.scalar w) b = .ok (.scalar R) ∧
      twrequired_clm X { c with climbrate_fpm := some 0 } (.scalar w) b = .ok (.scalar L) ∧
      induceddragfact_lesm X c (some [w]) (some [w * pyNum c.climb_weight_fraction / q]) (some m) = .ok [k] ∧
      L = pyNum c.climb_weight_fraction / (if b then t else 1) *
        (q * pyNum c.cdminclean / (w * pyNum c.climb_weight_fraction) + k / q * (w * pyNum c.climb_weight_fraction)) ∧
      R = L + pyNum c.climb_weight_fraction / (if b then t else 1) *
        (gradient r s - k / q * (w * pyNum c.climb_weight_fraction) * gradient r s ^ 2) := by
  obtain ⟨roc0, hL, hg0⟩ := climb_rate h he h0 0
  have hg := climb_gradient h he h0
  refine ⟨climbReq c b v roc t q K w, climbReq { c with climbrate_fpm := some 0 } b v roc0 t q K w, _, h.eval b _,
    hL.eval b _, h.drag.lesm [w] (fun w => w * pyNum c.climb_weight_fraction / q), ?_, ?_⟩
  · have hg00 : gradient 0 s = 0 := by norm_num [gradient, fpm2mps, feet2m]
    rw [hg00] at hg0
    unfold climbReq climbPoint sl
    rw [one_mul, hg0]
    cases b
    · simp only [Bool.false_eq_true, if_false]; ring
    · simp only [if_true]; ring
  · have hg00 : gradient 0 s = 0 := by norm_num [gradient, fpm2mps, feet2m]
    rw [hg00] at hg0
    unfold climbReq climbPoint sl
    rw [one_mul, one_mul, hg0, hg]
    cases b
    · simp only [Bool.false_eq_true, if_false]; ring
    · simp only [if_true]; ring

/-- A larger climb rate needs more thrust exactly when the sum of the two gradients times the induced
drag over weight is below one. -/
theorem C43_increasing (X : Ext) (c : Concept) (b : Bool) (s r v roc t q m : ℝ) (K : ℝ → ℝ → ℝ)
    (h : ClimbIn X c s r v roc t q m K) (he : EnvOK c.designatm (pyNum c.climbalt_m)) (h0 : EnvOK c.designatm 0)
    (w r₁ r₂ : ℝ) (hs : 0 < s) (hr : r₁ < r₂) (hf : 0 < pyNum c.climb_weight_fraction) (ht : b = true → 0 < t) :
    ∃ R₁ R₂, twrequired_clm X { c with climbrate_fpm := some r₁ } (.scalar w) b = .ok (.scalar R₁) ∧
      twrequired_clm X { c with climbrate_fpm := some r₂ } (.scalar w) b = .ok (.scalar R₂) ∧
      (R₁ < R₂ ↔ K w (w * pyNum c.climb_weight_fraction / q) / q * (w * pyNum c.climb_weight_fraction) *
        (gradient r₁ s + gradient r₂ s) < 1) := by
  obtain ⟨c1, h1, g1⟩ := climb_rate h he h0 r₁
  obtain ⟨c2, h2, g2⟩ := climb_rate h he h0 r₂
  refine ⟨_, _, h1.eval b _, h2.eval b _, ?_⟩
  obtain ⟨k, hk⟩ : ∃ k, k = K w (w * pyNum c.climb_weight_fraction / q) := ⟨_, rfl⟩
  obtain ⟨f, hfd⟩ : ∃ f, f = pyNum c.climb_weight_fraction := ⟨_, rfl⟩
  have e : ∀ r' roc', roc' / v = gradient r' s → climbReq { c with climbrate_fpm := some r' } b v roc' t q K w =
      f / (if b then t else 1) * (gradient r' s + (q * pyNum c.cdminclean / (w * f) + k / q * (w * f)) -
        k / q * (w * f) * gradient r' s ^ 2) := by
    intro r' roc' hg
    unfold climbReq climbPoint sl
    rw [one_mul, hg]
    show _ = _
    simp only [← hfd] at hk ⊢
    rw [← hk]
    cases b
    · simp only [Bool.false_eq_true, if_false]; ring
    · simp only [if_true]; ring
  rw [e _ _ g1, e _ _ g2, ← hfd] 
  rw [← hfd] at hk hf
  rw [← hk]
  have hpos : 0 < f / (if b then t else 1) := by
    cases b
    · simpa using hf
    · have := ht rfl; simp only [if_true]; positivity
  have hgr : gradient r₁ s < gradient r₂ s := by
    unfold gradient
    have : 0 < kts2mps s := by unfold kts2mps; positivity
    have : fpm2mps r₁ < fpm2mps r₂ := by unfold fpm2mps feet2m; norm_num; linarith
    gcongr
  rw [mul_lt_mul_iff_right₀ hpos]
  generalize gradient r₁ s = x at *
  generalize gradient r₂ s = y at *
  generalize k / q * (w * f) = z at *
  constructor
  · intro hlt
    by_contra hc
    nlinarith
  · intro hlt
    nlinarith

example (X : Ext) : ∃ v roc t q m K, ClimbIn X exC 100 1000 v roc t q m K ∧
    EnvOK exC.designatm (pyNum exC.climbalt_m) ∧ EnvOK exC.designatm 0 ∧ 0 < pyNum exC.climb_weight_fraction := by
  obtain ⟨v, roc, t, q, m, K, h⟩ := clm_given (X := X) exC_ready (s := 100) (r := 1000) rfl rfl
  exact ⟨v, roc, t, q, m, K, h, exC_ready.climb, exC_ready.sea, by norm_num [exC, pyNum]⟩

example (X : Ext) (w : ℝ) : ∃ R L, twrequired_clm X exC (.scalar w) true = .ok (.scalar R) ∧
    twrequired_clm X { exC with climbrate_fpm := some 0 } (.scalar w) true = .ok (.scalar L) := by
  obtain ⟨v, roc, t, q, m, K, h⟩ := clm_given (X := X) exC_ready (s := 100) (r := 1000) rfl rfl
  obtain ⟨R, L, k, h1, h2, -⟩ := C43_decomposition X exC true 100 1000 v roc t q m K h exC_ready.climb exC_ready.sea w
  exact ⟨R, L, h1, h2⟩

end

end Verif.Props
