import Verif.Props.Continuity2
import Verif.Props.OswaldMach

/-
Property C136, third part: subsonic flight, no jumps over the Mach number and the cruise speed.
-/

namespace Verif.Props
open Verif Verif.Aircraft Verif.Units Verif.Spec Verif.Atmos

noncomputable section

theorem beta_cont : Continuous (fun m : ℝ => √(1 - m ^ 2)) := by fun_prop

theorem beta_ne {m : ℝ} (h : m ∈ Set.Ico (0:ℝ) 1) : √(1 - m ^ 2) ≠ 0 := (beta_pos h.1 h.2).ne'

theorem sub0_cont (c : Concept) : ContinuousOn (aSub0 c) (Set.Ico 0 1) := by
  unfold aSub0
  simp only []
  refine continuousOn_const.div (by fun_prop) (fun m _ => ?_)
  have := Real.sqrt_nonneg (1 + (Real.pi * pyNum c.aspectratio / pyNum c.a_0i / Real.cos c.sweep_25_rad) ^ 2 * √(1 - m ^ 2) ^ 2)
  linarith

theorem sub3_cont {c : Concept} (w : Wing c) : ContinuousOn (aSub3 c) (Set.Ico 0 1) := by
  unfold aSub3
  simp only []
  refine continuousOn_const.div (by fun_prop) (fun m hm => ?_)
  have hb := beta_pos hm.1 hm.2
  have har := w.ar
  have ha := w.a0
  have he := (C40_second c har).1
  have hp := Real.pi_pos
  positivity

theorem sub4_cont {c : Concept} (w : Wing c) : ContinuousOn (aSub4 c) (Set.Ico 0 1) := by
  unfold aSub4
  simp only []
  refine continuousOn_const.div (by fun_prop) (fun m hm => ?_)
  have har := w.ar
  have ha := w.a0
  have hp := Real.pi_pos
  positivity

theorem sub5_cont {c : Concept} (w : Wing c) : ContinuousOn (aSub5 c) (Set.Ico 0 1) := by
  unfold aSub5
  simp only []
  refine continuousOn_const.div (by fun_prop) (fun m hm => ?_)
  have har := w.ar
  have ha := w.a0
  have hp := Real.pi_pos
  have hc := cos_pos_of_abs w.le
  positivity

theorem sub6_cont (c : Concept) (s : ℝ) : ContinuousOn (fun m => aSub6 c m s) (Set.Ico 0 1) := by
  unfold aSub6
  simp only []
  have ht : ContinuousOn (fun m : ℝ => Real.tan s / √(1 - m ^ 2)) (Set.Ico 0 1) :=
    continuousOn_const.div beta_cont.continuousOn (fun m hm => beta_ne hm)
  refine continuousOn_const.div ?_ (fun m _ => ?_)
  · exact continuousOn_const.add ((((by fun_prop : Continuous (fun m : ℝ => (pyNum c.aspectratio * √(1 - m ^ 2) / (pyNum c.a_0i / (2 * Real.pi))) ^ 2)).continuousOn.mul
      (continuousOn_const.add (ht.pow 2))).add continuousOn_const).sqrt)
  · have := Real.sqrt_nonneg ((pyNum c.aspectratio * √(1 - m ^ 2) / (pyNum c.a_0i / (2 * Real.pi))) ^ 2 *
      (1 + (Real.tan s / √(1 - m ^ 2)) ^ 2) + 4)
    linarith

theorem sub8_cont {c : Concept} (w : Wing c) : ContinuousOn (aSub8 c) (Set.Ico 0 1) := by
  unfold aSub8
  simp only []
  have ha : ContinuousOn (fun m : ℝ => pyNum c.a_0i / √(1 - m ^ 2)) (Set.Ico 0 1) :=
    continuousOn_const.div beta_cont.continuousOn (fun m hm => beta_ne hm)
  refine (ha.mul continuousOn_const).div ?_ (fun m hm => ?_)
  · exact ((continuousOn_const.add ((ha.div_const _).pow 2)).sqrt).add (ha.div_const _)
  · have hb := beta_pos hm.1 hm.2
    have har := w.ar
    have ha := w.a0
    have hp := Real.pi_pos
    positivity

theorem sub7_cont {c : Concept} (w : Wing c) {s : ℝ} (hs : |s| < Real.pi / 2) :
    ContinuousOn (fun m => aSub7 c m s) (Set.Ico 0 1) := by
  have har := w.ar
  have ha := w.a0
  have hp := Real.pi_pos
  unfold aSub7
  simp only []
  obtain ⟨r, hre⟩ : ∃ b, b = Real.pi * pyNum c.aspectratio := ⟨_, rfl⟩
  have hr0 : 0 < r := by rw [hre]; positivity
  obtain ⟨a, hae⟩ : ∃ a : ℝ → ℝ, ∀ m, a m = pyNum c.a_0i / √(1 - m ^ 2) := ⟨_, fun _ => rfl⟩
  simp only [← hre, ← hae]
  have ca : ContinuousOn a (Set.Ico 0 1) := by
    rw [show a = _ from funext hae]
    exact continuousOn_const.div beta_cont.continuousOn (fun m hm => beta_ne hm)
  have pa : ∀ m ∈ Set.Ico (0:ℝ) 1, 0 < a m := by
    intro m hm
    have := beta_pos hm.1 hm.2
    rw [hae]; positivity
  obtain ⟨d, hd⟩ : ∃ d : ℝ → ℝ, ∀ m, d m = (1 + (a m * Real.cos s / r) ^ 2) ^ (0.25 : ℝ) := ⟨_, fun _ => rfl⟩
  have hd1 : ∀ m, 1 ≤ d m := by
    intro m
    rw [hd]
    exact Real.one_le_rpow (by nlinarith [sq_nonneg (a m * Real.cos s / r)]) (by norm_num)
  have cd : ContinuousOn d (Set.Ico 0 1) := by
    rw [show d = _ from funext hd]
    exact (continuousOn_const.add (((ca.mul continuousOn_const).div_const _).pow 2)).rpow_const (fun _ _ => Or.inr (by norm_num))
  obtain ⟨e, he⟩ : ∃ e : ℝ → ℝ, ∀ m, e m = s / d m := ⟨_, fun _ => rfl⟩
  have ce : ContinuousOn e (Set.Ico 0 1) := by
    rw [show e = _ from funext he]
    exact continuousOn_const.div cd (fun m _ => by have := hd1 m; linarith)
  obtain ⟨f, hf⟩ : ∃ f : ℝ → ℝ, ∀ m, f m = a m * Real.cos (e m) := ⟨_, fun _ => rfl⟩
  have cf : ContinuousOn f (Set.Ico 0 1) := by
    rw [show f = _ from funext hf]
    exact ca.mul (Real.continuous_cos.comp_continuousOn ce)
  have pf : ∀ m ∈ Set.Ico (0:ℝ) 1, 0 < f m := by
    intro m hm
    have hes : |e m| ≤ |s| := by
      rw [he, abs_div, abs_of_pos (by linarith [hd1 m] : 0 < d m)]
      exact div_le_self (abs_nonneg _) (hd1 m)
    rw [hf]
    exact mul_pos (pa m hm) (cos_pos_of_abs (lt_of_le_of_lt hes hs))
  obtain ⟨p, hpe⟩ : ∃ p : ℝ → ℝ, ∀ m, p m = 1 / (4 * (1 + (|e m| / (0.5 * Real.pi)))) := ⟨_, fun _ => rfl⟩
  have hp0 : ∀ m, 0 < p m := by intro m; rw [hpe]; positivity
  have cp : ContinuousOn p (Set.Ico 0 1) := by
    rw [show p = _ from funext hpe]
    refine continuousOn_const.div (continuousOn_const.mul (continuousOn_const.add (ce.abs.div_const _))) (fun m _ => ?_)
    positivity
  obtain ⟨x, hx⟩ : ∃ x : ℝ → ℝ, ∀ m, x m = (1 + (f m / r) ^ 2) ^ p m := ⟨_, fun _ => rfl⟩
  have hx1 : ∀ m, 1 ≤ x m := by
    intro m
    rw [hx]
    exact Real.one_le_rpow (by nlinarith [sq_nonneg (f m / r)]) (hp0 m).le
  have cx : ContinuousOn x (Set.Ico 0 1) := by
    rw [show x = _ from funext hx]
    exact (continuousOn_const.add ((cf.div_const _).pow 2)).rpow cp
      (fun m _ => Or.inl (show (1:ℝ) + (f m / r) ^ 2 ≠ 0 by positivity))
  obtain ⟨n, hn⟩ : ∃ n : ℝ → ℝ, ∀ m, n m = 1 - 1 / (2 * x m) := ⟨_, fun _ => rfl⟩
  have cn : ContinuousOn n (Set.Ico 0 1) := by
    rw [show n = _ from funext hn]
    exact continuousOn_const.sub (continuousOn_const.div (continuousOn_const.mul cx) (fun m _ => by have := hx1 m; linarith))
  have hn01 : ∀ m, 1 / 2 ≤ n m ∧ n m < 1 := by
    intro m
    have h1 := hx1 m
    have hq : 0 < 1 / (2 * x m) := by positivity
    have hq2 : 1 / (2 * x m) ≤ 1 / 2 := by
      apply one_div_le_one_div_of_le <;> linarith
    rw [hn]
    constructor <;> linarith
  simp only [← hd, ← he, ← hf, ← hpe, ← hx, ← hn]
  have hsin : ∀ m, Real.sin (Real.pi * n m) ≠ 0 := by
    intro m
    obtain ⟨h1, h2⟩ := hn01 m
    exact (Real.sin_pos_of_pos_of_lt_pi (by positivity) (by nlinarith)).ne'
  have ccot : ContinuousOn (fun m => 1 / Real.tan (Real.pi * n m)) (Set.Ico 0 1) := by
    have : (fun m => 1 / Real.tan (Real.pi * n m)) = fun m => Real.cos (Real.pi * n m) / Real.sin (Real.pi * n m) := by
      funext m
      rw [Real.tan_eq_sin_div_cos, one_div_div]
    rw [this]
    exact (Real.continuous_cos.comp_continuousOn (continuousOn_const.mul cn)).div
      (Real.continuous_sin.comp_continuousOn (continuousOn_const.mul cn)) (fun m _ => hsin m)
  refine ((continuousOn_const.mul cf).mul cn).div
    ((continuousOn_const.sub ((continuousOn_const.mul cn).mul ccot)).add (((continuousOn_const.mul cf).mul (cn.pow 2)).div_const _))
    (fun m hm => ?_)
  have hcot := neg_cot_bound (hn01 m).1 (hn01 m).2
  have h1 := (hn01 m).1
  have hlast : 0 < 4 * f m * n m ^ 2 / r := by
    have := pf m hm
    have : 0 < n m := by linarith
    positivity
  linarith

/-- The subsonic lift slope has no jumps below Mach 1. -/
theorem C136_subsonic {c : Concept} (w : Wing c) :
    ∃ a : ℝ → ℝ, (∀ m, a_subsonic c m = .ok (a m)) ∧ ContinuousOn a (Set.Ico 0 1) := by
  obtain ⟨s, hs, he⟩ := C41_line c 0.5 (by norm_num) (by norm_num)
  have hs2 : s = 2 * c.sweep_25_rad - c.sweep_le_rad := by norm_num at he; linarith
  have hsl : |s| < Real.pi / 2 := by rw [hs2]; exact w.hc
  refine ⟨fun m => ([aSub0 c m, aSub3 c m, aSub4 c m, aSub5 c m, aSub6 c m s, aSub7 c m s, aSub8 c m]).sum / (7 : ℕ), fun m => ?_, ?_⟩
  · unfold a_subsonic
    rw [hs]
    rfl
  · simp only [List.sum_cons, List.sum_nil, add_zero]
    exact ((sub0_cont c).add ((sub3_cont w).add ((sub4_cont w).add ((sub5_cont w).add ((sub6_cont c s).add
      ((sub7_cont w hsl).add (sub8_cont w))))))).div_const _

example : ∃ a : ℝ → ℝ, (∀ m, a_subsonic exC m = .ok (a m)) ∧ ContinuousOn a (Set.Ico 0 1) := C136_subsonic exC_isWing

/-- The lift slope has no jumps up to Mach 0.6. -/
theorem C136_liftslope (X : Ext) {c : Concept} (w : Wing c) :
    ∃ a : ℝ → ℝ, (∀ m, m ≤ 0.6 → liftslope_prad X c (some m) = .ok (a m)) ∧ ContinuousOn a (Set.Icc 0 0.6) := by
  obtain ⟨a, ha, hc⟩ := C136_subsonic w
  refine ⟨a, fun m hm => ?_, hc.mono (fun m hm => ⟨hm.1, lt_of_le_of_lt hm.2 (by norm_num)⟩)⟩
  obtain ⟨sub, tr, h1, h2, h3⟩ := C71_estimates X c (some m)
  rw [h3]
  simp only [Option.getD_some] at h1 ⊢
  rw [ha] at h1
  cases h1
  rw [(C71_ranges _ _ _ _).1 hm]

example (X : Ext) : ∃ a : ℝ → ℝ, (∀ m, m ≤ 0.6 → liftslope_prad X exC (some m) = .ok (a m)) ∧ ContinuousOn a (Set.Icc 0 0.6) :=
  C136_liftslope X exC_isWing

/-- The induced drag factor without speed-dependent corrections: the factors of the blending up to Mach 0.6. -/
theorem kfactors_cont (X : Ext) {c : Concept} (w : Wing c) :
    ∃ ko k0 : ℝ → ℝ, (∀ m, m ≤ 0.6 → kFactors X c m = .ok (ko m, k0 m, 1 / (Real.pi * pyNum c.aspectratio))) ∧
      ContinuousOn ko (Set.Icc 0 0.6) ∧ ContinuousOn k0 (Set.Icc 0 0.6) := by
  obtain ⟨a, ha, hac⟩ := C136_liftslope X w
  have hpos : ∀ m ∈ Set.Icc (0:ℝ) 0.6, a m ≠ 0 := by
    intro m hm
    obtain ⟨a', h1, h2⟩ := (C72_method X w (some m)).1 hm.1 hm.2
    rw [ha m hm.2] at h1
    cases h1
    exact h2.ne'
  refine ⟨fun m => 1 / (Real.pi * pyNum c.aspectratio * ((oswaldspaneff2 c + oswaldspaneff4 c (some m)) / 2)), fun m => 1 / a m,
    fun m hm => ?_, ?_, continuousOn_const.div hac hpos⟩
  · unfold kFactors
    have hk : induceddragfact c (some 24) (some (min m 0.6)) = .ok (1 / (Real.pi * pyNum c.aspectratio *
        ((oswaldspaneff2 c + oswaldspaneff4 c (some m)) / 2))) := by
      rw [min_eq_left hm]
      have hl : oswaldlist c (some 24) (some m) = .ok [oswaldspaneff2 c, oswaldspaneff4 c (some m)] := by
        unfold oswaldlist
        simp
      unfold induceddragfact
      rw [hl, bind_ok]
      show Except.ok _ = Except.ok _
      congr 1
      simp only [List.length_cons, List.length_nil, List.sum_cons, List.sum_nil]
      norm_num
    obtain ⟨_, _, _, _, h4⟩ := C71_estimates X c (some (machstar_le c))
    rw [hk, ha m hm, h4]
    simp only [bind_ok]
    unfold k100
    rw [if_pos (lt_of_le_of_lt hm (by norm_num))]
    rfl
  · refine continuousOn_const.div (continuousOn_const.mul ((continuousOn_const.add (C136_oswald c).continuousOn).div_const _)) (fun m _ => ?_)
    have h1 := w.ar
    have h2 := (C40_second c h1).1
    have h3 : 0 < oswaldspaneff4 c (some m) := by
      unfold oswaldspaneff4
      simp only []
      split_ifs with h
      · norm_num
      · exact lt_of_lt_of_le (by norm_num) (not_lt.mp h)
    have hp := Real.pi_pos
    positivity

/-- The cruise requirement as a function of the cruise speed has no jumps up to Mach 0.6. -/
theorem C136_speed (X : Ext) {c : Concept} (W : Wing c) (hP : PropOK c) {alt cs w : ℝ} (hE : EnvOK c.designatm alt)
    (hc : c.cruisealt_m = some alt) (hcs : vsound_mps c.designatm (.scalar alt) = .ok (.scalar cs)) (hcs0 : 0 < cs) :
    ∃ f : ℝ → ℝ, (∀ s, kts2mps s ≤ 0.6 * cs →
        twrequired_crs X { c with cruisespeed_ktas := some s } (.scalar w) false = .ok (.scalar (f s))) ∧
      ContinuousOn f {s | 0 < s ∧ kts2mps s ≤ 0.6 * cs} := by
  obtain ⟨ko, k0, hk, cko, ck0⟩ := kfactors_cont X W
  obtain ⟨d, hd0, hd⟩ := hE.dens
  obtain ⟨q, hq⟩ : ∃ q : ℝ → ℝ, ∀ s, q s = 0.5 * d * kts2mps s ^ 2 := ⟨_, fun _ => rfl⟩
  have hm6 : ∀ s, kts2mps s ≤ 0.6 * cs → kts2mps s / cs ≤ 0.6 := fun s h => by rwa [div_le_iff₀ hcs0]
  obtain ⟨K, hK⟩ : ∃ K : ℝ → ℝ, ∀ s, K s = kBlend (ko (kts2mps s / cs)) (k0 (kts2mps s / cs)) (1 / (Real.pi * pyNum c.aspectratio))
    (machstar_le c) (kts2mps s / cs) 0 (w * pyNum c.cruise_weight_fraction / q s) := ⟨_, fun _ => rfl⟩
  refine ⟨fun s => cruisePoint (q s) (pyNum c.cdminclean) (K s) (w * pyNum c.cruise_weight_fraction) *
    pyNum c.cruise_weight_fraction * (1 / pyNum c.cruisethrustfact), fun s hs => ?_, ?_⟩
  · obtain ⟨t, p, hcor⟩ := corr_exists X (c := { c with cruisespeed_ktas := some s }) hP hE (kts2mps s)
    have hqs : dynamicpressure_pa c.designatm (kts2mps s) alt = .ok (q s) := by
      unfold dynamicpressure_pa; rw [hd, hq]; rfl
    have hK' : KFun X { c with cruisespeed_ktas := some s } (kts2mps s / cs) (fun u cl => kBlend (ko (kts2mps s / cs))
        (k0 (kts2mps s / cs)) (1 / (Real.pi * pyNum c.aspectratio)) (machstar_le c) (kts2mps s / cs)
        (cl - u * pyNum c.cruise_weight_fraction / q s) (u * pyNum c.cruise_weight_fraction / q s)) :=
      ⟨_, _, _, fun u => u * pyNum c.cruise_weight_fraction / q s, hk _ (hm6 s hs), fun _ _ => rfl,
        Or.inr ⟨s, alt, q s, rfl, hc, hqs, fun _ => rfl⟩⟩
    have hi : CruiseIn X { c with cruisespeed_ktas := some s } s alt t (q s) (kts2mps s / cs) _ :=
      ⟨rfl, hc, ⟨p, hcor⟩, hqs, mach1_of hcs, hK'⟩
    rw [hi.eval false (.scalar w)]
    simp only [hK]
    unfold cruiseReq sl
    simp only [recastArray, List.map_cons, List.map_nil, Bool.false_eq_true, if_false, sub_self]
    rfl
  · obtain ⟨S, hS⟩ : ∃ S : Set ℝ, S = {s | 0 < s ∧ kts2mps s ≤ 0.6 * cs} := ⟨_, rfl⟩
    rw [← hS]
    have hmap : Set.MapsTo (fun s => kts2mps s / cs) S (Set.Icc 0 0.6) := by
      intro s hs
      rw [hS] at hs
      refine ⟨?_, hm6 s hs.2⟩
      have := hs.1
      unfold kts2mps
      positivity
    have cv : Continuous kts2mps := by unfold kts2mps; fun_prop
    have cm : ContinuousOn (fun s => kts2mps s / cs) S := (cv.div_const _).continuousOn
    have cq : Continuous q := by rw [show q = _ from funext hq]; fun_prop
    have hq0 : ∀ s ∈ S, q s ≠ 0 := by
      intro s hs
      rw [hS] at hs
      have := hs.1
      have : 0 < kts2mps s := by unfold kts2mps; positivity
      rw [hq]; positivity
    have hms : 0 < machstar_le c := by unfold machstar_le; have := cos_pos_of_abs W.le; positivity
    have c1 := cko.comp cm hmap
    have c2 := ck0.comp cm hmap
    have c3 : ContinuousOn (fun s => npInterp2 (w * pyNum c.cruise_weight_fraction / q s) 0.3 0.8 1 0) S :=
      (interp_cont 1 0 (by norm_num)).comp_continuousOn (continuousOn_const.div cq.continuousOn hq0)
    have c4 : ContinuousOn (fun s => (npInterp2 (kts2mps s / cs) 0 (machstar_le c) 1 0) ^ (0.2 : ℝ)) S :=
      ((interp_cont 1 0 hms).comp_continuousOn cm).rpow_const (fun _ _ => Or.inr (by norm_num))
    have cK : ContinuousOn K S := by
      rw [show K = _ from funext hK]
      unfold kBlend
      simp only []
      have s := (c3.mul (continuousOn_const (c := y_suction 0 0.3 22.5 1.95 0))).add
        ((continuousOn_const (c := (1:ℝ)).sub c3).mul (continuousOn_const (c := y_suction 0 0.8 5.77 1 (-1.29))))
      exact (c1.mul c4).add (((s.mul continuousOn_const).add ((continuousOn_const.sub s).mul c2)).mul (continuousOn_const.sub c4))
    unfold cruisePoint
    exact ((((continuousOn_const.mul cq.continuousOn).mul_const _).add ((cK.div cq.continuousOn hq0).mul_const _)).mul_const _).mul_const _

/-- The light aircraft of the examples at 3000 m, up to Mach 0.6. -/
example (X : Ext) : ∃ f : ℝ → ℝ, (∀ s, kts2mps s ≤ 0.6 * vsound 300 →
      twrequired_crs X { exC with cruisespeed_ktas := some s } (.scalar 1000) false = .ok (.scalar (f s))) ∧
    ContinuousOn f {s | 0 < s ∧ kts2mps s ≤ 0.6 * vsound 300} := by
  refine C136_speed X exC_isWing exC_ready.prop (exC_ready.cruise 3000 rfl) rfl (exAtm_vsound 3000 (by norm_num) (by norm_num)) ?_
  unfold vsound R_JPKGPK
  positivity

end

end Verif.Props
