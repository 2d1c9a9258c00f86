import Verif.Props.Suction
import Verif.Props.Balance
import Verif.Props.Constraint2

/-
Property C103: each requirement depends on the items of its own flight condition.
-/

namespace Verif.Props
open Verif Verif.Aircraft Verif.Units Verif.Spec

noncomputable section

/-- The climb requirement does not depend on the items of the take-off, the turn and the service ceiling, nor on the
stalled lift coefficients, the weight, the wing area and the propulsive efficiencies, nor on the cruise thrust fraction. -/
theorem C103_climb (X : Ext) (c : Concept) (w : NumArg) (b : Bool)
    (run elev turnalt turnspeed load turnwf ceil secspd secwf thr cdto clto clmaxto mu clmax clmin stall W S e1 e2 e3 e4 e5 : Option ℝ) :
    twrequired_clm X { c with
      groundrun_m := run, rwyelevation_m := elev, cdto := cdto, clto := clto, clmaxto := clmaxto, mu_r := mu,
      turnalt_m := turnalt, turnspeed_ktas := turnspeed, stloadfactor := load, turn_weight_fraction := turnwf,
      servceil_m := ceil, secclimbspd_kias := secspd, sec_weight_fraction := secwf, cruisethrustfact := thr,
      clmaxclean := clmax, clminclean := clmin, vstallclean_kcas := stall, weight_n := W, wingarea_m2 := S,
      etaprop_climb := e1, etaprop_cruise := e2, etaprop_sec := e3, etaprop_to := e4, etaprop_turn := e5 } w b
    = twrequired_clm X c w b := rfl

/-- The cruise requirement does not depend on the items of the climb, the take-off, the turn and the service ceiling. -/
theorem C103_cruise (X : Ext) (c : Concept) (w : NumArg) (b : Bool)
    (run elev turnalt turnspeed load turnwf ceil secspd secwf clmalt clmspd clmrate clmwf cdto clto clmaxto mu clmax clmin stall W S e1 e2 e3 e4 e5 : Option ℝ) :
    twrequired_crs X { c with
      groundrun_m := run, rwyelevation_m := elev, cdto := cdto, clto := clto, clmaxto := clmaxto, mu_r := mu,
      turnalt_m := turnalt, turnspeed_ktas := turnspeed, stloadfactor := load, turn_weight_fraction := turnwf,
      servceil_m := ceil, secclimbspd_kias := secspd, sec_weight_fraction := secwf,
      climbalt_m := clmalt, climbspeed_kias := clmspd, climbrate_fpm := clmrate, climb_weight_fraction := clmwf,
      clmaxclean := clmax, clminclean := clmin, vstallclean_kcas := stall, weight_n := W, wingarea_m2 := S,
      etaprop_climb := e1, etaprop_cruise := e2, etaprop_sec := e3, etaprop_to := e4, etaprop_turn := e5 } w b
    = twrequired_crs X c w b := rfl

/-- The service ceiling requirement does not depend on the items of the climb, the take-off and the turn, nor on the cruise
thrust fraction. -/
theorem C103_ceiling (X : Ext) (c : Concept) (w : NumArg) (b : Bool)
    (run elev turnalt turnspeed load turnwf thr clmalt clmspd clmrate clmwf cdto clto clmaxto mu clmax clmin stall W S e1 e2 e3 e4 e5 : Option ℝ) :
    twrequired_sec X { c with
      groundrun_m := run, rwyelevation_m := elev, cdto := cdto, clto := clto, clmaxto := clmaxto, mu_r := mu,
      turnalt_m := turnalt, turnspeed_ktas := turnspeed, stloadfactor := load, turn_weight_fraction := turnwf,
      cruisethrustfact := thr,
      climbalt_m := clmalt, climbspeed_kias := clmspd, climbrate_fpm := clmrate, climb_weight_fraction := clmwf,
      clmaxclean := clmax, clminclean := clmin, vstallclean_kcas := stall, weight_n := W, wingarea_m2 := S,
      etaprop_climb := e1, etaprop_cruise := e2, etaprop_sec := e3, etaprop_to := e4, etaprop_turn := e5 } w b
    = twrequired_sec X c w b := rfl

/-- The turn requirement does not depend on the items of the take-off and the service ceiling, nor on the climb altitude,
speed and rate, nor on the cruise thrust fraction. -/
theorem C103_turn (X : Ext) (c : Concept) (w : NumArg) (b : Bool)
    (run elev ceil secspd secwf thr clmalt clmspd clmrate cdto clto clmaxto mu clmin stall W S e1 e2 e3 e4 e5 : Option ℝ) :
    twrequired_trn X { c with
      groundrun_m := run, rwyelevation_m := elev, cdto := cdto, clto := clto, clmaxto := clmaxto, mu_r := mu,
      servceil_m := ceil, secclimbspd_kias := secspd, sec_weight_fraction := secwf, cruisethrustfact := thr,
      climbalt_m := clmalt, climbspeed_kias := clmspd, climbrate_fpm := clmrate,
      clminclean := clmin, vstallclean_kcas := stall, weight_n := W, wingarea_m2 := S,
      etaprop_climb := e1, etaprop_cruise := e2, etaprop_sec := e3, etaprop_to := e4, etaprop_turn := e5 } w b
    = twrequired_trn X c w b := rfl

theorem takeoffSlAll_congr (X : Ext) (c c' : Concept) (h : ∀ t v, takeoffSl X c t v = takeoffSl X c' t v) (l m : List ℝ) :
    takeoffSlAll X c l m = takeoffSlAll X c' l m := by
  induction l generalizing m with
  | nil => rfl
  | cons x l ih =>
    cases m with
    | nil => rfl
    | cons y m => simp only [takeoffSlAll, ih, h]

theorem twrequired_to_congr (X : Ext) (c c' : Concept) (w : NumArg) (b : Bool) (h : ∀ t v, takeoffSl X c t v = takeoffSl X c' t v)
    (h1 : c.groundrun_m = c'.groundrun_m) (h2 : ∀ ws, thrusttoweight_takeoff c ws = thrusttoweight_takeoff c' ws)
    (h3 : map2static c = map2static c') : twrequired_to X c w b = twrequired_to X c' w b := by
  unfold twrequired_to
  simp only [h1, h2, h3, takeoffSlAll_congr X c c' h]

/-- The take-off requirement does not depend on any of the items of the flight conditions, on the wing's geometry nor on
the clean drag coefficient. -/
theorem C103_takeoff (X : Ext) (c : Concept) (w : NumArg) (b : Bool)
    (turnalt turnspeed load turnwf ceil secspd secwf thr crsalt crsspd crswf clmalt clmspd clmrate clmwf cd clmax clmin stall W S
      ar le mt sw taper a0 e1 e2 e3 e4 e5 : Option ℝ) :
    twrequired_to X { c with
      turnalt_m := turnalt, turnspeed_ktas := turnspeed, stloadfactor := load, turn_weight_fraction := turnwf,
      servceil_m := ceil, secclimbspd_kias := secspd, sec_weight_fraction := secwf, cruisethrustfact := thr,
      cruisealt_m := crsalt, cruisespeed_ktas := crsspd, cruise_weight_fraction := crswf, cdminclean := cd,
      climbalt_m := clmalt, climbspeed_kias := clmspd, climbrate_fpm := clmrate, climb_weight_fraction := clmwf,
      clmaxclean := clmax, clminclean := clmin, vstallclean_kcas := stall, weight_n := W, wingarea_m2 := S,
      aspectratio := ar, sweep_le_deg := le, sweep_mt_deg := mt, sweep_25_deg := sw, roottaperratio := taper, a_0i := a0,
      etaprop_climb := e1, etaprop_cruise := e2, etaprop_sec := e3, etaprop_to := e4, etaprop_turn := e5 } w b
    = twrequired_to X c w b :=
  twrequired_to_congr X _ c w b (fun _ _ => rfl) rfl (fun _ => rfl) rfl

-- a shorter runway, a tighter turn and a higher ceiling do not change the climb requirement of the example aircraft, which exists
example (X : Ext) : ∃ r, twrequired_clm X exC (.array [500, 1000]) true = .ok r ∧
    twrequired_clm X { exC with groundrun_m := some 250, stloadfactor := some 3, servceil_m := some 7000 } (.array [500, 1000]) true = .ok r :=
  ((C48_single_given X exC (.array [500, 1000]) true exC_ready).1 (by simp [exC]) (by simp [exC])).imp fun _ h => ⟨h, h ▸ C103_climb X exC _ _ ..⟩

-- nor does a faster climb change the cruise requirement
example (X : Ext) : ∃ r, twrequired_crs X exC (.array [500, 1000]) true = .ok r ∧
    twrequired_crs X { exC with climbrate_fpm := some 1500, stloadfactor := some 3 } (.array [500, 1000]) true = .ok r :=
  ((C48_single_given X exC (.array [500, 1000]) true exC_ready).2.1 (by simp [exC]) (by simp [exC])).imp fun _ h => ⟨h, h ▸ C103_cruise X exC _ _ ..⟩

-- nor the ceiling requirement
example (X : Ext) : ∃ r, twrequired_sec X exC (.array [500, 1000]) true = .ok r ∧
    twrequired_sec X { exC with climbrate_fpm := some 1500, stloadfactor := some 3 } (.array [500, 1000]) true = .ok r :=
  ((C48_single_given X exC (.array [500, 1000]) true exC_ready).2.2.1 (by simp [exC]) (by simp [exC])).imp fun _ h => ⟨h, h ▸ C103_ceiling X exC _ _ ..⟩

-- nor the turn requirement
example (X : Ext) : ∃ r, twrequired_trn X exC (.array [500, 1000]) true = .ok r ∧
    twrequired_trn X { exC with climbrate_fpm := some 1500, groundrun_m := some 300 } (.array [500, 1000]) true = .ok r :=
  ((C48_single_given X exC (.array [500, 1000]) true exC_ready).2.2.2.2 (by simp [exC]) (by simp [exC])).imp fun _ h => ⟨h, h ▸ C103_turn X exC _ _ ..⟩

-- nor the take-off requirement
example (X : Ext) : ∃ r, twrequired_to X exC (.array [500, 1000]) true = .ok r ∧
    twrequired_to X { exC with climbrate_fpm := some 1500, cruisespeed_ktas := some 170 } (.array [500, 1000]) true = .ok r :=
  ((C48_single_given X exC (.array [500, 1000]) true exC_ready).2.2.2.1 (by simp [exC])).imp fun _ h => ⟨h, h ▸ C103_takeoff X exC _ _ ..⟩

/-! ### The coupling with the cruise condition -/

/-- The cruise speed for a given cruise lift coefficient. -/
theorem cruiseSpeed_exists {a : Atmos.Atm} {alt d : ℝ} (hd : Atmos.dens1 a alt = .ok d) (hd0 : 0 < d) {w f x : ℝ} (hw : 0 < w)
    (hf : 0 < f) (hx : 0 < x) : ∃ v q, 0 < v ∧ Atmos.dynamicpressure_pa a (kts2mps v) alt = .ok q ∧ w * f / q = x := by
  have hp : 0 < 2 * (w * f / x) / d := by positivity
  refine ⟨√(2 * (w * f / x) / d) / 0.5144444, w * f / x, by positivity, ?_, ?_⟩
  · unfold Atmos.dynamicpressure_pa
    rw [hd, bind_ok]
    have : (kts2mps (√(2 * (w * f / x) / d) / 0.5144444)) ^ 2 = 2 * (w * f / x) / d := by
      unfold kts2mps
      rw [div_mul_cancel₀ _ (by norm_num), Real.sq_sqrt hp.le]
    rw [this]
    show Except.ok _ = Except.ok _
    congr 1
    field_simp
    norm_num
  · field_simp

/-- The climb requirement of a wing of finite drag due to lift depends on the cruise speed: the suction is that of a wing designed for
the cruise lift coefficient. For every climb condition, every cruise altitude and every wing loading there
are two cruise speeds for which it is different. -/
theorem C103_coupling_violated {X : Ext} {c : Concept} {b : Bool} {s r v roc t q m : ℝ} {K : ℝ → ℝ → ℝ}
    (h : ClimbIn X c s r v roc t q m K) (hms : 0 < Real.cos c.sweep_le_rad) (hm0 : 0 < m) (hm1 : m < 1) (hq : 0 < q)
    (hls : ∀ ls, liftslope_prad X c (some m) = .ok ls → 1 / ls ≠ 1 / (Real.pi * pyNum c.aspectratio))
    (hb : b = true → t ≠ 0) (hroc : (roc / v) ^ 2 ≠ 1) (hf : 0 < pyNum c.climb_weight_fraction)
    (hcf : 0 < pyNum c.cruise_weight_fraction) {alt d : ℝ} (hd : Atmos.dens1 c.designatm alt = .ok d) (hd0 : 0 < d) {w : ℝ} (hw : 0 < w) :
    ∃ v₁ v₂ R₁ R₂, 0 < v₁ ∧ 0 < v₂ ∧
      twrequired_clm X { c with cruisespeed_ktas := some v₁, cruisealt_m := some alt } (.scalar w) b = .ok (.scalar R₁) ∧
      twrequired_clm X { c with cruisespeed_ktas := some v₂, cruisealt_m := some alt } (.scalar w) b = .ok (.scalar R₂) ∧ R₁ ≠ R₂ := by
  obtain ⟨cl, hcl⟩ : ∃ cl, cl = w * pyNum c.climb_weight_fraction / q := ⟨_, rfl⟩
  have hcl0 : 0 < cl := by rw [hcl]; positivity
  obtain ⟨v₁, q₁, p₁, dq₁, e₁⟩ := cruiseSpeed_exists hd hd0 hw hcf hcl0
  obtain ⟨v₂, q₂, p₂, dq₂, e₂⟩ := cruiseSpeed_exists hd hd0 hw hcf (by linarith : 0 < cl + 2)
  obtain ⟨ko, k0, k1, clc, h1, -, -⟩ := h.drag
  have key : ∀ vv qq, Atmos.dynamicpressure_pa c.designatm (kts2mps vv) alt = .ok qq →
      ∃ K', (∀ x, K' w x = kBlend ko k0 k1 (machstar_le c) m (x - w * pyNum c.cruise_weight_fraction / qq) (w * pyNum c.cruise_weight_fraction / qq)) ∧
      twrequired_clm X { c with cruisespeed_ktas := some vv, cruisealt_m := some alt } (.scalar w) b =
        .ok (.scalar (climbReq c b v roc t q K' w)) := by
    intro vv qq hqq
    refine ⟨fun w x => kBlend ko k0 k1 (machstar_le c) m (x - w * pyNum c.cruise_weight_fraction / qq) (w * pyNum c.cruise_weight_fraction / qq),
      fun _ => rfl, ?_⟩
    have h' : ClimbIn X { c with cruisespeed_ktas := some vv, cruisealt_m := some alt } s r v roc t q m
        (fun w x => kBlend ko k0 k1 (machstar_le c) m (x - w * pyNum c.cruise_weight_fraction / qq) (w * pyNum c.cruise_weight_fraction / qq)) :=
      ⟨h.speed, h.rate, h.tas, h.troc, h.corr, h.press, h.mach,
        ⟨ko, k0, k1, fun w => w * pyNum c.cruise_weight_fraction / qq, h1, fun _ _ => rfl, Or.inr ⟨vv, alt, qq, rfl, rfl, hqq, fun _ => rfl⟩⟩⟩
    rw [h'.eval]; rfl
  obtain ⟨K₁, hK₁, r₁⟩ := key v₁ q₁ dq₁
  obtain ⟨K₂, hK₂, r₂⟩ := key v₂ q₂ dq₂
  refine ⟨v₁, v₂, _, _, p₁, p₂, r₁, r₂, ?_⟩
  have hpos : 0 < 1 / Real.cos c.sweep_le_rad := by positivity
  have hms1 : 1 ≤ 1 / Real.cos c.sweep_le_rad := by
    rw [le_div_iff₀ hms]; linarith [Real.cos_le_one c.sweep_le_rad]
  obtain ⟨ls, lss, -, a2, -, rfl, a5, -, -⟩ := kFactors_spec h1 hms
  have hne : K₁ w cl ≠ K₂ w cl := by
    rw [hK₁, hK₂, e₁, e₂]
    obtain ⟨s₁, t₁, ⟨o0, -, o2, -⟩, ⟨sp, -, -⟩, et₁, -, k₁⟩ := kBlend_spec ko (1 / ls) k1 _ m (cl - cl) cl hpos
    obtain ⟨s₂, t₂, -, -, et₂, es₂, k₂⟩ := kBlend_spec ko (1 / ls) k1 _ m (cl - (cl + 2)) (cl + 2) hpos
    unfold machstar_le
    rw [k₁, k₂]
    rw [← et₁] at et₂; subst et₂
    have hs₁ := (sp (by ring)).1
    have hs₂ : s₂ < 0 := by
      rw [es₂, (cruiseWeight (cl + 2)).2.2.2.1 (by norm_num; linarith), y08_eq]
      have he := Real.exp_pos (-1 * (cl - (cl + 2) - 0.1))
      have : Real.tan (0.1 * (cl - (cl + 2) + 0.74)) < 0 := by
        apply Real.tan_neg_of_neg_of_pi_div_two_lt
        · norm_num
        · norm_num; linarith [Real.pi_gt_three]
      have h2 : 0 < 5.77 * (1.9546 - (cl - (cl + 2))) := by norm_num
      rw [zero_mul, zero_add, sub_zero, one_mul]
      exact mul_neg_of_pos_of_neg (by positivity) this
    have t1 : t₂ < 1 := by
      have h5 := o2 hm0.le (by linarith)
      have : 0 < m / (1 / Real.cos c.sweep_le_rad) := by positivity
      by_contra hc
      have := one_le_pow₀ (not_lt.mp hc) (n := 5)
      linarith
    intro heq
    have hk := hls ls a2
    rw [← a5 hm1] at hk
    have h3 : (1 - t₂) * ((s₁ - s₂) * (1 / ls - k1)) = 0 := by linarith
    rcases mul_eq_zero.mp h3 with h4 | h4
    · linarith
    · rcases mul_eq_zero.mp h4 with h6 | h6
      · norm_num at hs₁; linarith
      · exact hk (by linarith)
  intro heq
  apply hne
  unfold climbReq at heq
  rw [← hcl] at heq
  have h3 := mul_right_cancel₀ hf.ne' heq
  have h4 : climbPoint roc v q (pyNum c.cdminclean) (K₁ w cl) (w * pyNum c.climb_weight_fraction) =
      climbPoint roc v q (pyNum c.cdminclean) (K₂ w cl) (w * pyNum c.climb_weight_fraction) := by
    unfold sl at h3
    cases b with
    | false => simpa using h3
    | true => simp only [if_true] at h3; exact (div_left_inj' (hb rfl)).mp h3
  unfold climbPoint at h4
  have h5 : (K₁ w cl / q) * (w * pyNum c.climb_weight_fraction) * (1 - (roc / v) ^ 2) =
      (K₂ w cl / q) * (w * pyNum c.climb_weight_fraction) * (1 - (roc / v) ^ 2) := by linarith
  have h6 := mul_right_cancel₀ (sub_ne_zero.mpr (Ne.symm hroc)) h5
  have h7 := mul_right_cancel₀ (by positivity : w * pyNum c.climb_weight_fraction ≠ 0) h6
  exact (div_left_inj' hq.ne').mp h7

/-- The lift slope of the example aircraft is below that of an elliptical wing of infinite section slope. -/
theorem exC_slope {X : Ext} {m ls : ℝ} (h0 : 0 ≤ m) (h1 : m ≤ 0.3) (h : liftslope_prad X exC (some m) = .ok ls) :
    0 < ls ∧ 1 / (Real.pi * pyNum exC.aspectratio) < 1 / ls := by
  obtain ⟨sub, tr, h2, -, h3⟩ := C71_estimates X exC (some m)
  rw [h3, (C71_ranges _ _ _ _).1 (by norm_num at h1 ⊢; linarith)] at h
  cases h
  obtain ⟨b, hb, pb, hle⟩ := C72_subsonic exC_isWing h0 (by norm_num at h1 ⊢; linarith)
  have h1' : a_subsonic exC m = .ok ls := h2
  rw [hb] at h1'; cases h1'
  have h6 : (0.9:ℝ) ≤ √(1 - m ^ 2) := by
    apply Real.le_sqrt_of_sq_le; norm_num at h1 ⊢; nlinarith
  rw [le_div_iff₀ (lt_of_lt_of_le (by norm_num) h6)] at hle
  have h5 : pyNum exC.a_0i = 6 := rfl
  have h7 : pyNum exC.aspectratio = 9 := rfl
  rw [h5] at hle
  rw [h7]
  refine ⟨pb, one_div_lt_one_div_of_lt pb ?_⟩
  have h8 : ls * 0.9 ≤ 6 := le_trans (mul_le_mul_of_nonneg_left h6 pb.le) hle
  norm_num at h8
  linarith [Real.pi_gt_three]

theorem exC_vsound : 340 ≤ Atmos.vsound 300 ∧ Atmos.vsound 300 ≤ 350 := by
  unfold Atmos.vsound
  exact ⟨Real.le_sqrt_of_sq_le (by norm_num [Atmos.R_JPKGPK]), Real.sqrt_le_iff.mpr (by norm_num [Atmos.R_JPKGPK])⟩

-- the example aircraft climbing at 100 knots, wing loading 600 Pa, cruise at 3000 m
example (X : Ext) : ∃ v₁ v₂ R₁ R₂, 0 < v₁ ∧ 0 < v₂ ∧
    twrequired_clm X { exC with cruisespeed_ktas := some v₁, cruisealt_m := some 3000 } (.scalar 600) false = .ok (.scalar R₁) ∧
    twrequired_clm X { exC with cruisespeed_ktas := some v₂, cruisealt_m := some 3000 } (.scalar 600) false = .ok (.scalar R₂) ∧ R₁ ≠ R₂ := by
  obtain ⟨v, roc, t, q, m, K, h⟩ := clm_given (X := X) exC_ready (s := 100) (r := 1000) rfl rfl
  have hv := h.tas
  rw [exC_tas _ (pyNum exC.climbalt_m) (by norm_num [exC, pyNum]) (by norm_num [exC, pyNum])] at hv; cases hv
  have hr := h.troc
  rw [exC_tas _ (pyNum exC.climbalt_m) (by norm_num [exC, pyNum]) (by norm_num [exC, pyNum])] at hr; cases hr
  have hq := h.press
  rw [exC_q _ (pyNum exC.climbalt_m) (by norm_num [exC, pyNum]) (by norm_num [exC, pyNum])] at hq; cases hq
  have hm := h.mach
  have hm' : Atmos.mach1 exC.designatm (kts2mps 100) (pyNum exC.climbalt_m) = .ok _ :=
    Atmos.mach1_of (exAtm_vsound (pyNum exC.climbalt_m) (by norm_num [exC, pyNum]) (by norm_num [exC, pyNum]))
  rw [hm'] at hm; cases hm
  obtain ⟨s0, s1⟩ := exC_vsound
  have m0 : 0 < kts2mps 100 / Atmos.vsound 300 := div_pos (by norm_num [kts2mps]) (by linarith)
  have m1 : kts2mps 100 / Atmos.vsound 300 ≤ 0.3 := by
    rw [div_le_iff₀ (by linarith)]; norm_num [kts2mps]; linarith
  exact C103_coupling_violated h exC_cos m0 (by norm_num at m1 ⊢; linarith) (by norm_num [kts2mps])
    (fun ls hls => (exC_slope m0.le m1 hls).2.ne') (by simp) (by norm_num [fpm2mps, feet2m, kts2mps]) (by norm_num [exC, pyNum])
    (by norm_num [exC, pyNum]) (exAtm_dens 3000 (by norm_num) (by norm_num)) one_pos (by norm_num)

end

end Verif.Props
