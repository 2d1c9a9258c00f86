import Verif.Props.Suction
import Mathlib.Analysis.SpecialFunctions.Trigonometric.ArctanDeriv

/-
Property C136, first part: the requirements as functions of the wing loading have no jumps.
-/

namespace Verif.Props
open Verif Verif.Aircraft Verif.Units Verif.Spec

noncomputable section

theorem interp_cont {a b : ℝ} (ya yb : ℝ) (h : a < b) : Continuous (fun x => npInterp2 x a b ya yb) := by
  unfold npInterp2
  have hba : b - a ≠ 0 := by linarith
  refine Continuous.if_le continuous_const ?_ continuous_id continuous_const ?_
  · refine Continuous.if_le continuous_const (by fun_prop) continuous_const continuous_id ?_
    rintro x rfl
    field_simp
    ring
  · rintro x rfl
    rw [if_neg (not_le.mpr h)]
    simp

theorem y_suction_cont (cc a c r : ℝ) (h : 0 ≤ cc ∧ cc ≤ 0.8) :
    ContinuousOn (fun x => y_suction x cc a c r) {x | |x| ≤ 10} := by
  obtain ⟨h0, h1⟩ := h
  unfold y_suction
  simp only []
  obtain ⟨k, hk⟩ : ∃ k, k = (-0.5 * cc ^ 2) - (0.25 * cc) - 0.22 := ⟨_, rfl⟩
  rw [← hk]
  have hk0 : -0.74 ≤ k := by rw [hk]; norm_num at h1 ⊢; nlinarith
  have hk1 : k ≤ 0 := by rw [hk]; norm_num at h1 ⊢; nlinarith
  have ht : ContinuousOn (fun x => Real.tan (0.1 * (x - k))) {x | |x| ≤ 10} := by
    refine Real.continuousOn_tan_Ioo.comp (by fun_prop) ?_
    intro x hx
    have := abs_le.mp (show |x| ≤ 10 from hx)
    have hp := Real.pi_gt_three
    norm_num at hk0
    constructor <;> norm_num <;> linarith [this.1, this.2]
  have he : Continuous (fun x => a * (x - (1 + r * k)) * Real.exp (-c * (x - 0.1))) := by fun_prop
  exact he.continuousOn.mul ht.neg

/-- The induced drag factor along a curve of wing loadings and lift coefficients. -/
theorem kfun_cont {X : Ext} {c : Concept} {m : ℝ} {K : ℝ → ℝ → ℝ} (h : KFun X c m K) (u g : ℝ → ℝ) (S : Set ℝ)
    (hu : Continuous u) (hg : Continuous g) (hS : ∀ w ∈ S, ∀ cc, CruiseCl c (u w) cc → |g w - cc| ≤ 10) :
    ContinuousOn (fun w => K (u w) (g w)) S := by
  obtain ⟨ko, k0, k1, clc, -, h2, h3⟩ := h
  have hc : Continuous (fun w => clc (u w)) := by
    rcases h3 with ⟨-, h3⟩ | ⟨_, _, qc, -, -, -, h3⟩
    · simp only [h3]; fun_prop
    · simp only [h3]; fun_prop
  have hcc : ∀ w, CruiseCl c w (clc w) := by
    intro w
    unfold CruiseCl
    rcases h3 with ⟨hn, h3⟩ | ⟨vc, hc, qc, e1, e2, e3, h3⟩
    · rw [h3]
      rcases hn with hn | hn
      · rw [hn]
      · rw [hn]; cases c.cruisespeed_ktas <;> rfl
    · rw [e1, e2]; exact ⟨qc, e3, h3 w⟩
  have hd : Set.MapsTo (fun w => g w - clc (u w)) S {x | |x| ≤ 10} := fun w hw => hS w hw _ (hcc _)
  have hdc : ContinuousOn (fun w => g w - clc (u w)) S := (hg.sub hc).continuousOn
  have y3 := (y_suction_cont 0.3 22.5 1.95 0 (by norm_num)).comp hdc hd
  have y8 := (y_suction_cont 0.8 5.77 1 (-1.29) (by norm_num)).comp hdc hd
  have wt : ContinuousOn (fun w => npInterp2 (clc (u w)) 0.3 0.8 1 0) S :=
    ((interp_cont 1 0 (by norm_num)).comp hc).continuousOn
  simp only [h2]
  unfold kBlend
  simp only []
  have s := (wt.mul y3).add ((continuousOn_const (c := (1:ℝ)).sub wt).mul y8)
  have s2 := ((s.mul (continuousOn_const (c := k1))).add
    ((continuousOn_const (c := (1:ℝ)).sub s).mul (continuousOn_const (c := k0)))).mul
    (continuousOn_const (c := 1 - (npInterp2 m 0 (machstar_le c) 1 0) ^ (0.2 : ℝ)))
  exact (continuousOn_const (c := ko * (npInterp2 m 0 (machstar_le c) 1 0) ^ (0.2 : ℝ))).add s2

theorem sl_cont {b : Bool} {t : ℝ} {f : ℝ → ℝ} {S : Set ℝ} (h : ContinuousOn f S) :
    ContinuousOn (fun w => sl b t (f w)) S := by
  unfold sl
  cases b with
  | true => simpa using h.div_const t
  | false => simpa using h

/-- The wing loadings at which the lift coefficient `l w` lies within 10 of that of the cruise: all those of practice
(the fitted suction curves have their first poles further out). -/
def NearCruise (c : Concept) (wl cl : ℝ → ℝ) : Set ℝ := {w | 0 < w ∧ ∀ cc, CruiseCl c (wl w) cc → |cl w - cc| ≤ 10}

/-- Cruise: no jumps at any wing loading. -/
theorem C136_cruise (X : Ext) (c : Concept) (b : Bool) (hr : Ready c) (h1 : c.cruisespeed_ktas ≠ none)
    (h2 : c.cruisealt_m ≠ none) (hw : pyNum c.cruise_weight_fraction ≠ 0) :
    ∃ f, (∀ w, twrequired_crs X c (.scalar w) b = .ok (.scalar (f w))) ∧ ContinuousOn f (Set.Ioi 0) := by
  obtain ⟨s, h1⟩ := Option.ne_none_iff_exists'.mp h1
  obtain ⟨alt, h2⟩ := Option.ne_none_iff_exists'.mp h2
  obtain ⟨t, q, m, K, h⟩ := crs_given (X := X) hr h1 h2
  refine ⟨_, fun w => h.eval b (.scalar w), ?_⟩
  have hK : ContinuousOn (fun w => K w (w * pyNum c.cruise_weight_fraction / q)) (Set.Ioi 0) := by
    refine kfun_cont h.drag (fun w => w) _ _ continuous_id (by fun_prop) ?_
    intro w _ cc hcc
    unfold CruiseCl at hcc
    rw [h1, h2] at hcc
    obtain ⟨q', hq', rfl⟩ := hcc
    rw [h.press] at hq'
    cases hq'
    simp
  unfold cruiseReq cruisePoint
  refine ((sl_cont ?_).mul_const _).mul_const _
  have hd : ContinuousOn (fun w : ℝ => 1 / (w * pyNum c.cruise_weight_fraction)) (Set.Ioi 0) :=
    continuousOn_const.div (by fun_prop) (fun w hw' => mul_ne_zero (ne_of_gt hw') hw)
  exact ((hd.mul_const _).mul_const _).add ((hK.div_const _).mul (by fun_prop))

/-- Climb: no jumps where the lift coefficient lies within 10 of that of the cruise. -/
theorem C136_climb (X : Ext) (c : Concept) (b : Bool) (hr : Ready c) {s r : ℝ} (h1 : c.climbspeed_kias = some s)
    (h2 : c.climbrate_fpm = some r) (hw : pyNum c.climb_weight_fraction ≠ 0) :
    ∃ f v q, Atmos.eas2tas c.designatm (kts2mps s) (pyNum c.climbalt_m) = .ok v ∧
      Atmos.dynamicpressure_pa c.designatm v (pyNum c.climbalt_m) = .ok q ∧
      (∀ w, twrequired_clm X c (.scalar w) b = .ok (.scalar (f w))) ∧
      ContinuousOn f (NearCruise c id (fun w => w * pyNum c.climb_weight_fraction / q)) := by
  obtain ⟨v, roc, t, q, m, K, h⟩ := clm_given (X := X) hr h1 h2
  refine ⟨_, v, q, h.tas, h.press, fun w => h.eval b (.scalar w), ?_⟩
  have hK := kfun_cont h.drag (fun w => w) (fun w => w * pyNum c.climb_weight_fraction / q)
    (NearCruise c id (fun w => w * pyNum c.climb_weight_fraction / q)) continuous_id (by fun_prop) (fun w hw => hw.2)
  unfold climbReq climbPoint
  refine (sl_cont ?_).mul_const _
  have hd : ContinuousOn (fun w : ℝ => 1 / (w * pyNum c.climb_weight_fraction))
      (NearCruise c id (fun w => w * pyNum c.climb_weight_fraction / q)) :=
    continuousOn_const.div (by fun_prop) (fun w hw' => mul_ne_zero (ne_of_gt hw'.1) hw)
  exact ((continuousOn_const).add ((hd.mul_const _).mul_const _)).add
    (((hK.div_const _).mul (by fun_prop)).mul_const _)

/-- Service ceiling. -/
theorem C136_ceiling (X : Ext) (c : Concept) (b : Bool) (hr : Ready c) {s alt : ℝ} (h1 : c.secclimbspd_kias = some s)
    (h2 : c.servceil_m = some alt) (hw : pyNum c.sec_weight_fraction ≠ 0) :
    ∃ f v q, Atmos.eas2tas c.designatm (kts2mps s) alt = .ok v ∧
      Atmos.dynamicpressure_pa c.designatm v alt = .ok q ∧
      (∀ w, twrequired_sec X c (.scalar w) b = .ok (.scalar (f w))) ∧
      ContinuousOn f (NearCruise c id (fun w => w * pyNum c.sec_weight_fraction / q)) := by
  obtain ⟨v, roc, t, q, m, K, h⟩ := sec_given (X := X) hr h1 h2
  refine ⟨_, v, q, h.tas, h.press, fun w => h.eval b (.scalar w), ?_⟩
  have hK := kfun_cont h.drag (fun w => w) (fun w => w * pyNum c.sec_weight_fraction / q)
    (NearCruise c id (fun w => w * pyNum c.sec_weight_fraction / q)) continuous_id (by fun_prop) (fun w hw => hw.2)
  unfold ceilReq ceilingPoint
  refine (sl_cont ?_).mul_const _
  have hd : ContinuousOn (fun w : ℝ => 1 / (w * pyNum c.sec_weight_fraction))
      (NearCruise c id (fun w => w * pyNum c.sec_weight_fraction / q)) :=
    continuousOn_const.div (by fun_prop) (fun w hw' => mul_ne_zero (ne_of_gt hw'.1) hw)
  exact ((continuousOn_const).add ((hd.mul_const _).mul_const _)).add
    ((hK.div_const _).mul (by fun_prop))

/-- Turn: the requirement and the lift coefficient have no jumps; the requirement restricted to feasible turns is this
requirement up to the wing loading where the lift coefficient reaches its limit. -/
theorem C136_turn (X : Ext) (c : Concept) (b : Bool) (hr : Ready c) {s n : ℝ} (h1 : c.turnspeed_ktas = some s)
    (h2 : c.stloadfactor = some n) (hw : pyNum c.turn_weight_fraction ≠ 0) :
    ∃ f cl q, Atmos.dynamicpressure_pa c.designatm (kts2mps s) (pyNum c.turnalt_m) = .ok q ∧
      (∀ w, twrequired_trn X c (.scalar w) b = .ok (.scalar (f w), .scalar (cl w),
        .scalar (if cl w > pyNum c.clmaxclean then none else some (f w)))) ∧
      (∀ w, cl w = w * pyNum c.turn_weight_fraction * pyNum c.climb_weight_fraction * n / q) ∧
      ContinuousOn f (NearCruise c (fun w => w * pyNum c.turn_weight_fraction) cl) := by
  obtain ⟨t, q, m, K, h⟩ := trn_given (X := X) hr h1 h2
  refine ⟨_, _, q, h.press, fun w => h.eval b (.scalar w), ?_, ?_⟩
  · exact fun w => rfl
  have hK := kfun_cont h.drag (fun w => w * pyNum c.turn_weight_fraction) (turnCl c n q)
    (NearCruise c (fun w => w * pyNum c.turn_weight_fraction) (turnCl c n q)) (by fun_prop)
    (by unfold turnCl; fun_prop) (fun w hw => hw.2)
  unfold turnReq turnPoint
  refine (sl_cont ?_).mul_const _
  have hd : ContinuousOn (fun w : ℝ => pyNum c.cdminclean / (w * pyNum c.turn_weight_fraction))
      (NearCruise c (fun w => w * pyNum c.turn_weight_fraction) (turnCl c n q)) :=
    continuousOn_const.div (by fun_prop) (fun w hw' => mul_ne_zero (ne_of_gt hw'.1) hw)
  exact (hd.add ((hK.mul_const _).mul (by fun_prop))).const_mul q

/-- Take-off (static, not mapped to sea level): no jumps at any wing loading. -/
theorem C136_takeoff (X : Ext) (c : Concept) (hr : Ready c) (h1 : c.groundrun_m ≠ none) :
    ∃ f lof av, (∀ w, twrequired_to X c (.scalar w) false = .ok (.scalar (f w), .scalar (lof w), .scalar (av w))) ∧
      Continuous f ∧ Continuous lof ∧ Continuous av := by
  obtain ⟨g, h1⟩ := Option.ne_none_iff_exists'.mp h1
  rcases to_point_static X c with ⟨e, he⟩ | ⟨g', d, hi, hw⟩
  · obtain ⟨_, _, _, hh⟩ := to_given X hr h1 (.scalar 0) false
    rw [he] at hh; cases hh
  · refine ⟨_, _, _, fun w => hw (.scalar w), ?_, ?_, ?_⟩
    · unfold toStatic toLof takeoffPoint liftoffPoint; fun_prop
    · unfold toLof liftoffPoint; fun_prop
    · unfold toLof liftoffPoint; fun_prop

/-- The largest of the five requirements (not mapped to sea level) has no jumps either. -/
theorem C136_combined (X : Ext) (c : Concept) (hr : Ready c) {cs cr ts n rs ra ss sa : ℝ}
    (hg : c.groundrun_m ≠ none) (h1 : c.climbspeed_kias = some cs) (h2 : c.climbrate_fpm = some cr)
    (h3 : c.turnspeed_ktas = some ts) (h4 : c.stloadfactor = some n)
    (h5 : c.cruisespeed_ktas = some rs) (h6 : c.cruisealt_m = some ra)
    (h7 : c.secclimbspd_kias = some ss) (h8 : c.servceil_m = some sa)
    (w1 : pyNum c.climb_weight_fraction ≠ 0) (w2 : pyNum c.turn_weight_fraction ≠ 0)
    (w3 : pyNum c.cruise_weight_fraction ≠ 0) (w4 : pyNum c.sec_weight_fraction ≠ 0) :
    ∃ f vc qc qt vs qs, Atmos.eas2tas c.designatm (kts2mps cs) (pyNum c.climbalt_m) = .ok vc ∧
      Atmos.dynamicpressure_pa c.designatm vc (pyNum c.climbalt_m) = .ok qc ∧
      Atmos.dynamicpressure_pa c.designatm (kts2mps ts) (pyNum c.turnalt_m) = .ok qt ∧
      Atmos.eas2tas c.designatm (kts2mps ss) sa = .ok vs ∧ Atmos.dynamicpressure_pa c.designatm vs sa = .ok qs ∧
      (∀ w, ∃ r, twrequired X c (.scalar w) false false = .ok r ∧ r.combined = .scalar (some (f w))) ∧
      ContinuousOn f (NearCruise c id (fun w => w * pyNum c.climb_weight_fraction / qc) ∩
        NearCruise c (fun w => w * pyNum c.turn_weight_fraction)
          (fun w => w * pyNum c.turn_weight_fraction * pyNum c.climb_weight_fraction * n / qt) ∩
        NearCruise c id (fun w => w * pyNum c.sec_weight_fraction / qs)) := by
  obtain ⟨f1, lof, av, e1, k1, -, -⟩ := C136_takeoff X c hr hg
  obtain ⟨f2, cl, qt, hqt, e2, hcl, k2⟩ := C136_turn X c false hr h3 h4 w2
  obtain ⟨f3, vc, qc, hvc, hqc, e3, k3⟩ := C136_climb X c false hr h1 h2 w1
  obtain ⟨f4, e4, k4⟩ := C136_cruise X c false hr (by rw [h5]; simp) (by rw [h6]; simp) w3
  obtain ⟨f5, vs, qs, hvs, hqs, e5, k5⟩ := C136_ceiling X c false hr h7 h8 w4
  obtain rfl : cl = _ := funext hcl
  refine ⟨fun w => max (max (max (max (f1 w) (f2 w)) (f3 w)) (f4 w)) (f5 w), vc, qc, qt, vs, qs, hvc, hqc, hqt, hvs, hqs,
    fun w => ?_, ?_⟩
  · have a1 : twrequired_to X c (.array [w]) false = _ := e1 w
    have a2 : twrequired_trn X c (.array [w]) false = _ := e2 w
    have a3 : twrequired_clm X c (.array [w]) false = _ := e3 w
    have a4 : twrequired_crs X c (.array [w]) false = _ := e4 w
    have a5 : twrequired_sec X c (.array [w]) false = _ := e5 w
    refine ⟨⟨.scalar (f1 w), .scalar (lof w), .scalar (av w), .scalar (f2 w),
      .scalar (if w * pyNum c.turn_weight_fraction * pyNum c.climb_weight_fraction * n / qt > pyNum c.clmaxclean then none else some (f2 w)), .scalar (w * pyNum c.turn_weight_fraction * pyNum c.climb_weight_fraction * n / qt),
      .scalar (f3 w), .scalar (f4 w), .scalar (f5 w), .scalar (some (max (max (max (max (f1 w) (f2 w)) (f3 w)) (f4 w)) (f5 w)))⟩, ?_, rfl⟩
    unfold twrequired
    simp only [recastArray, a1, a2, a3, a4, a5, bind_ok]
    rfl
  · refine (((k1.continuousOn.sup ?_).sup ?_).sup ?_).sup ?_
    · exact k2.mono (fun w hw => hw.1.2)
    · exact k3.mono (fun w hw => hw.1.1)
    · exact k4.mono (fun w hw => hw.1.1.1)
    · exact k5.mono (fun w hw => hw.2)

/-! ### The light aircraft of the examples -/

example (X : Ext) : ∃ f, (∀ w, twrequired_crs X exC (.scalar w) true = .ok (.scalar (f w))) ∧ ContinuousOn f (Set.Ioi 0) :=
  C136_cruise X exC true exC_ready (by simp [exC]) (by simp [exC]) (by norm_num [exC, pyNum])

example (X : Ext) : ∃ f lof av, (∀ w, twrequired_to X exC (.scalar w) false = .ok (.scalar (f w), .scalar (lof w), .scalar (av w))) ∧
    Continuous f ∧ Continuous lof ∧ Continuous av :=
  C136_takeoff X exC exC_ready (by simp [exC])

example (X : Ext) : ∃ f v q, Atmos.eas2tas exC.designatm (kts2mps 100) 0 = .ok v ∧
    Atmos.dynamicpressure_pa exC.designatm v 0 = .ok q ∧ (∀ w, twrequired_clm X exC (.scalar w) true = .ok (.scalar (f w))) ∧
    ContinuousOn f (NearCruise exC id (fun w => w * 1 / q)) :=
  C136_climb X exC true exC_ready (s := 100) (r := 1000) rfl rfl (by norm_num [exC, pyNum])

example (X : Ext) : ∃ f v q, Atmos.eas2tas exC.designatm (kts2mps 90) 6000 = .ok v ∧
    Atmos.dynamicpressure_pa exC.designatm v 6000 = .ok q ∧ (∀ w, twrequired_sec X exC (.scalar w) true = .ok (.scalar (f w))) ∧
    ContinuousOn f (NearCruise exC id (fun w => w * 1 / q)) :=
  C136_ceiling X exC true exC_ready (s := 90) (alt := 6000) rfl rfl (by norm_num [exC, pyNum])

example (X : Ext) : ∃ f : ℝ → ℝ, ∀ w, ∃ r, twrequired X exC (.scalar w) false false = .ok r ∧ r.combined = .scalar (some (f w)) := by
  obtain ⟨f, _, _, _, _, _, -, -, -, -, -, h, -⟩ := C136_combined X exC exC_ready (by simp [exC]) rfl rfl rfl rfl rfl rfl rfl rfl
    (by norm_num [exC, pyNum]) (by norm_num [exC, pyNum]) (by norm_num [exC, pyNum]) (by norm_num [exC, pyNum])
  exact ⟨f, h⟩

/-- Turning at 120 knots at twice the weight: no jumps between 0 and 5000 Pa. -/
example (X : Ext) : ∃ f cl : ℝ → ℝ, (∀ w, twrequired_trn X exC (.scalar w) false = .ok (.scalar (f w), .scalar (cl w),
    .scalar (if cl w > 1.5 then none else some (f w)))) ∧ ContinuousOn f (Set.Ioo 0 5000) := by
  obtain ⟨f, cl, q, hq, h, hcl, hc⟩ := C136_turn X exC false exC_ready (s := 120) (n := 2) rfl rfl (by norm_num [exC, pyNum])
  have e : q = 0.5 * 1 * kts2mps 120 ^ 2 := by
    unfold Atmos.dynamicpressure_pa at hq
    have hd : Atmos.dens1 exC.designatm (pyNum exC.turnalt_m) = .ok 1 :=
      exAtm_dens 1000 (by norm_num) (by norm_num)
    rw [hd] at hq
    cases hq; rfl
  refine ⟨f, cl, h, hc.mono ?_⟩
  rintro w ⟨h0, h1⟩
  refine ⟨h0, fun cc hcc => ?_⟩
  rw [exC_cruiseCl _ _ hcc, hcl, e]
  rw [show pyNum exC.turn_weight_fraction = 1 from rfl, show pyNum exC.climb_weight_fraction = 1 from rfl]
  unfold kts2mps
  rw [abs_le]
  constructor <;> norm_num <;> linarith

end

end Verif.Props
