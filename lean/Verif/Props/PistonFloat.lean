import Verif.Model.PistonFloat
import Verif.Props.HotHigh
import Verif.Props.SpeedFloat
import Verif.Props.InputError
import Verif.Props.Readme2

/-
C157: the requirements of a piston engined aircraft in the ISA, mapped to sea level, end to end in floating point. What the methods of
the model return for one wing loading (`twrequired_crs` and the others) is what the code computes, up to a stated number of units of
rounding, including the errors of the densities and of the thrust correction. The induced drag factor is taken as carrying `j` roundings.
-/

namespace Verif.Props
open Verif Verif.Aircraft Verif.Units Verif.Fl

variable (F : Rounding) (M : Libm F)

/-- A day and an altitude at which a piston engine still has a tenth of its sea level power: an offset of up to 100 degrees, from 5 km
below sea level to 20 km. -/
structure PistonDay (o h : ℝ) : Prop where
  off : |o| ≤ 100
  low : -5000 ≤ h
  high : h < 20000
  power : 0.1 ≤ 1.132 * (Atmos.isadens o h / 1.225) - 0.132

theorem PistonDay.cold {o h : ℝ} (H : PistonDay o h) : -100 ≤ o := (abs_le.1 H.off).1

theorem PistonDay.dens {o h : ℝ} (H : PistonDay o h) (x : ℝ) : 0 < Atmos.isadens o x := by
  refine C13_positive o x ?_
  have := C11_bounds o x
  linarith [this.1, H.cold]

theorem PistonDay.acc {o h : ℝ} (H : PistonDay o h) :
    Acc F 42 (Fl.isadens F M o h) (Atmos.isadens o h) ∧ Acc F 42 (Fl.isadens F M o 0) (Atmos.isadens o 0) :=
  ⟨(acc_dens F M o h H.off H.low (by linarith [H.high])).2 H.high, (acc_dens F M o 0 H.off (by norm_num) (by norm_num)).2 (by norm_num)⟩

theorem PistonDay.env {o h : ℝ} (H : PistonDay o h) {c : Concept} (ha : c.designatm = .isa o) :
    EnvOK c.designatm h ∧ EnvOK c.designatm 0 := by
  rw [ha]
  exact ⟨isa_env o h H.cold (by linarith [H.high]), isa_env o 0 H.cold (by norm_num)⟩

/-- C157: the thrust correction of a piston engine in the ISA, relative to itself. -/
theorem C157_factor {o h : ℝ} (H : PistonDay o h) :
    |pistonCorr F M o h - Atmos.pistonpowerfactor (Atmos.isadens o h)| ≤ 112 * F.u * Atmos.pistonpowerfactor (Atmos.isadens o h) := by
  have hu := F.u_nonneg
  have hul := F.u_lt
  have hf : 0.1 ≤ Atmos.pistonpowerfactor (Atmos.isadens o h) := H.power
  have e : Atmos.pistonpowerfactor (Atmos.isadens o h) = 1.132 * (Atmos.isadens o h / 1.225) - 0.132 := rfl
  have a : Acc F 46 (F.rd (F.rd 1.132 * F.rd (Fl.isadens F M o h / F.rd 1.225))) (1.132 * (Atmos.isadens o h / 1.225)) :=
    (((Acc.rd F 1.132).mul ((H.acc F M).1.div (Acc.rd F 1.225)).round).round).weaken (by norm_num)
  have d0 := H.dens h
  have a' := a.err 47 (by norm_num) (by norm_num)
  rw [abs_of_pos (show 0 < 1.132 * (Atmos.isadens o h / 1.225) by positivity)] at a'
  unfold pistonCorr Fl.pistonpowerfactor
  generalize F.rd (F.rd 1.132 * F.rd (Fl.isadens F M o h / F.rd 1.225)) = y at *
  generalize Atmos.pistonpowerfactor (Atmos.isadens o h) = f at *
  have b := F.err 0.132
  rw [abs_of_pos (show (0 : ℝ) < 0.132 by norm_num)] at b
  have c := F.err (y - F.rd 0.132)
  generalize F.rd (y - F.rd 0.132) = z at *
  generalize F.rd 0.132 = l at *
  rw [show 1.132 * (Atmos.isadens o h / 1.225) = f + 0.132 by rw [e]; ring] at a'
  have uf : F.u * 0.1 ≤ F.u * f := mul_le_mul_of_nonneg_left hf hu
  have k : |y - l - f| ≤ 110.7 * F.u * f := by
    rw [abs_le] at a' b ⊢
    constructor <;> norm_num at * <;> nlinarith [a'.1, a'.2, b.1, b.2]
  have k2 : |y - l| ≤ 1.3 * f := by
    have h1 : |y - l| ≤ |y - l - f| + |f| := by
      have := abs_add_le (y - l - f) f
      rwa [sub_add_cancel] at this
    rw [abs_of_pos (show 0 < f by norm_num at hf; linarith)] at h1
    have : F.u * f ≤ 0.001 * f := by
      apply mul_le_mul_of_nonneg_right _ (by norm_num at hf; linarith)
      norm_num at *; linarith
    norm_num at *
    linarith
  have k3 : F.u * |y - l| ≤ F.u * (1.3 * f) := mul_le_mul_of_nonneg_left k2 hu
  have t := abs_sub_le z (y - l) f
  norm_num at *
  linarith

theorem acc_pistonCorr {o h : ℝ} (H : PistonDay o h) :
    Acc F 113 (pistonCorr F M o h) (Atmos.pistonpowerfactor (Atmos.isadens o h)) := by
  have hf : 0.1 ≤ Atmos.pistonpowerfactor (Atmos.isadens o h) := H.power
  have k := C157_factor F M H
  refine Acc.of_rel_err 112 (by norm_num) ?_
  rwa [abs_of_pos (show 0 < Atmos.pistonpowerfactor (Atmos.isadens o h) by norm_num at hf; linarith)]

theorem isa_q {c : Concept} {o h : ℝ} (ha : c.designatm = .isa o) (hh : h ≤ 50000) (v : ℝ) :
    Atmos.dynamicpressure_pa c.designatm v h = .ok (0.5 * Atmos.isadens o h * v ^ 2) := by
  unfold Atmos.dynamicpressure_pa
  rw [ha, isa_dens1 o h hh]
  rfl

theorem PistonDay.tas {o h : ℝ} (H : PistonDay o h) {c : Concept} (ha : c.designatm = .isa o) (v : ℝ) :
    Atmos.eas2tas c.designatm v h = .ok (v / √(Atmos.isadens o h / Atmos.isadens o 0)) := by
  rw [ha]
  unfold Atmos.eas2tas
  rw [dratio_ok (isa_dens1 o h (by linarith [H.high])) (isa_dens1 o 0 (by norm_num)) (H.dens h) (H.dens 0)]
  rfl

theorem PistonDay.corr (X : Ext) {o h : ℝ} (H : PistonDay o h) {c : Concept} (ha : c.designatm = .isa o) (hp : Piston c) (v : ℝ) :
    CorrAt X c v h (Atmos.pistonpowerfactor (Atmos.isadens o h)) 1 :=
  piston_corr X hp (H.env ha).1 (by rw [ha]; exact isa_dens1 o h (by linarith [H.high])) v

/-- C157: the cruise requirement of a piston engined aircraft. -/
theorem C157_cruise (X : Ext) (c : Concept) (hp : Piston c) {o alt s w m : ℝ} {K : ℝ → ℝ → ℝ} (H : PistonDay o alt) (ha : c.designatm = .isa o)
    (hs : c.cruisespeed_ktas = some s) (hc : c.cruisealt_m = some alt) (hs0 : 0 < s) (hw : 0 < w) (hcd : 0 < pyNum c.cdminclean)
    (hfr : 0 < pyNum c.cruise_weight_fraction) (hm : Atmos.mach1 c.designatm (kts2mps s) alt = .ok m) (hK : KFun X c m K)
    {k : ℝ} (hk : k = K w (w * pyNum c.cruise_weight_fraction / (0.5 * Atmos.isadens o alt * kts2mps s ^ 2))) (hk0 : 0 < k) :
    ∃ r, twrequired_crs X c (.scalar w) true = .ok (.scalar r) ∧ ∀ (j : ℕ) (kh : ℝ), j ≤ 200 → Acc F j kh k →
      |pistonCruise F M o alt s (pyNum c.cdminclean) kh w (pyNum c.cruise_weight_fraction) (pyNum c.cruisethrustfact) - r| ≤
        (174 + j) * F.u * |r| := by
  have h : CruiseIn X c s alt (Atmos.pistonpowerfactor (Atmos.isadens o alt)) (0.5 * Atmos.isadens o alt * kts2mps s ^ 2) m K :=
    ⟨hs, hc, ⟨1, H.corr X ha hp _⟩, isa_q ha (by linarith [H.high]) _, hm, hK⟩
  refine ⟨_, h.eval true (.scalar w), fun j kh hj hkh => ?_⟩
  simp only [cruiseReq, sl, if_true]
  rw [← hk]
  have d0 := H.dens alt
  have hv' : 0 < kts2mps s := by unfold Units.kts2mps; positivity
  have a2 := Acc.dynamicpressure M (H.acc F M).1 (Acc.refl (F := F) s).kts2mps hv'
  have a3 := ((Acc.refl (F := F) w).mul (Acc.refl (F := F) (pyNum c.cruise_weight_fraction))).round
  obtain ⟨b1, b2⟩ := acc_drag F (pyNum c.cdminclean) a2 hkh a3
  have a4 := (b1.add b2 (by positivity) (by positivity)).round
  have a5 := ((((a4.div (acc_pistonCorr F M H)).round.mul (Acc.refl (F := F) (pyNum c.cruise_weight_fraction))).round).mul
    (((Acc.refl (F := F) 1).div (Acc.refl (F := F) (pyNum c.cruisethrustfact))).round)).round
  exact (a5.weaken (n := 173 + j) (by omega)).err _ (by push_cast; linarith) (by omega)

/-- C157: the climb requirement, for climb angles up to 45 degrees. -/
theorem C157_climb (X : Ext) (c : Concept) (hp : Piston c) {o alt s fpm w m : ℝ} {K : ℝ → ℝ → ℝ} (H : PistonDay o alt)
    (ha : c.designatm = .isa o) (hs : c.climbspeed_kias = some s) (hr : c.climbrate_fpm = some fpm) (hc : c.climbalt_m = some alt)
    (hs0 : 0 < s) (hf : 0 < fpm) (hangle : 2 * fpm2mps fpm ^ 2 ≤ kts2mps s ^ 2) (hw : 0 < w) (hcd : 0 < pyNum c.cdminclean)
    (hfr : 0 < pyNum c.climb_weight_fraction) {v : ℝ} (hv : v = kts2mps s / √(Atmos.isadens o alt / Atmos.isadens o 0))
    (hm : Atmos.mach1 c.designatm v alt = .ok m) (hK : KFun X c m K)
    {k : ℝ} (hk : k = K w (w * pyNum c.climb_weight_fraction / (0.5 * Atmos.isadens o alt * v ^ 2))) (hk0 : 0 < k) :
    ∃ r, twrequired_clm X c (.scalar w) true = .ok (.scalar r) ∧ ∀ (j : ℕ) (kh : ℝ), j ≤ 200 → Acc F j kh k →
      |pistonClimb F M o alt s fpm (pyNum c.cdminclean) kh w (pyNum c.climb_weight_fraction) - r| ≤ (653 + j) * F.u * |r| := by
  have ec : pyNum c.climbalt_m = alt := by rw [hc]; rfl
  have h : ClimbIn X c s fpm v (fpm2mps fpm / √(Atmos.isadens o alt / Atmos.isadens o 0)) (Atmos.pistonpowerfactor (Atmos.isadens o alt))
      (0.5 * Atmos.isadens o alt * v ^ 2) m K := by
    subst hv
    refine ⟨hs, hr, ?_, ?_, ⟨1, ?_⟩, ?_, ?_, hK⟩ <;> rw [ec]
    exacts [H.tas ha _, H.tas ha _, H.corr X ha hp _, isa_q ha (by linarith [H.high]) _, hm]
  refine ⟨_, h.eval true (.scalar w), fun j kh hj hkh => ?_⟩
  simp only [climbReq, sl, if_true]
  rw [← hk]
  have hd0 := H.dens alt
  have hd00 := H.dens 0
  obtain ⟨hd, hdsl⟩ := H.acc F M
  have ht := acc_pistonCorr F M H
  unfold pistonClimb climbTw
  generalize pistonCorr F M o alt = th at *
  generalize Atmos.pistonpowerfactor (Atmos.isadens o alt) = t at *
  generalize hD : Atmos.isadens o alt = d at *
  generalize hD0 : Atmos.isadens o 0 = d0 at *
  have hs : 0 < √(d / d0) := Real.sqrt_pos.2 (by positivity)
  have hV : 0 < kts2mps s := by unfold Units.kts2mps; positivity
  have hR : 0 < fpm2mps fpm := by unfold Units.fpm2mps Units.feet2m; positivity
  have hv' : 0 < v := by rw [hv]; exact div_pos hV hs
  have a1 := acc_eas2tas F hd hdsl (Acc.refl (F := F) s).kts2mps hd0 hd00
  have r1 := acc_eas2tas F hd hdsl (Acc.refl (F := F) fpm).fpm2mps hd0 hd00
  rw [← hv] at a1
  generalize hroc : fpm2mps fpm / √(d / d0) = roc at *
  have hr' : 0 < roc := by rw [← hroc]; exact div_pos hR hs
  have hang : (roc / v) ^ 2 ≤ 1 / 2 := by
    have : roc / v = fpm2mps fpm / kts2mps s := by rw [← hroc, hv]; field_simp
    rw [this, div_pow, div_le_iff₀ (by positivity)]; linarith
  have a2 := Acc.dynamicpressure M hd a1 hv'
  have a3 := ((Acc.refl (F := F) w).mul (Acc.refl (F := F) (pyNum c.climb_weight_fraction))).round
  obtain ⟨b1, b2⟩ := acc_drag F (pyNum c.cdminclean) a2 hkh a3
  have g := ((((Acc.refl (F := F) 1).mul r1).round).div a1).round
  have c' := (Acc.one_sub (Acc.libm_sq M (r1.div a1).round (by positivity)) (by positivity) hang (by norm_num)).round
  have hc0 : 0 ≤ 1 - (roc / v) ^ 2 := by linarith
  have b3 := (b2.mul c').round
  have a4 := ((g.add b1 (by positivity) (by positivity)).round.add b3 (by positivity)
    (mul_nonneg (by positivity) hc0)).round
  have a5 := ((a4.div ht).round.mul (Acc.refl (F := F) (pyNum c.climb_weight_fraction))).round
  exact (a5.weaken (n := 652 + j) (by omega)).err _ (by push_cast; linarith) (by omega)

/-- C157: the service ceiling requirement. -/
theorem C157_ceiling (X : Ext) (c : Concept) (hp : Piston c) {o alt s w m : ℝ} {K : ℝ → ℝ → ℝ} (H : PistonDay o alt)
    (ha : c.designatm = .isa o) (hs : c.secclimbspd_kias = some s) (hc : c.servceil_m = some alt) (hs0 : 0 < s) (hw : 0 < w)
    (hcd : 0 < pyNum c.cdminclean) (hfr : 0 < pyNum c.sec_weight_fraction) {v : ℝ}
    (hv : v = kts2mps s / √(Atmos.isadens o alt / Atmos.isadens o 0)) (hm : Atmos.mach1 c.designatm v alt = .ok m) (hK : KFun X c m K)
    {k : ℝ} (hk : k = K w (w * pyNum c.sec_weight_fraction / (0.5 * Atmos.isadens o alt * v ^ 2))) (hk0 : 0 < k) :
    ∃ r, twrequired_sec X c (.scalar w) true = .ok (.scalar r) ∧ ∀ (j : ℕ) (kh : ℝ), j ≤ 200 → Acc F j kh k →
      |pistonCeiling F M o alt s (pyNum c.cdminclean) kh w (pyNum c.sec_weight_fraction) - r| ≤ (263 + j) * F.u * |r| := by
  have h : CeilIn X c s alt v (fpm2mps 100 / √(Atmos.isadens o alt / Atmos.isadens o 0)) (Atmos.pistonpowerfactor (Atmos.isadens o alt))
      (0.5 * Atmos.isadens o alt * v ^ 2) m K := by
    subst hv
    exact ⟨hc, hs, H.tas ha _, H.tas ha _, ⟨1, H.corr X ha hp _⟩, isa_q ha (by linarith [H.high]) _, hm, hK⟩
  refine ⟨_, h.eval true (.scalar w), fun j kh hj hkh => ?_⟩
  simp only [ceilReq, sl, if_true]
  rw [← hk]
  have hd0 := H.dens alt
  have hd00 := H.dens 0
  obtain ⟨hd, hdsl⟩ := H.acc F M
  have ht := acc_pistonCorr F M H
  have hs' : 0 < √(Atmos.isadens o alt / Atmos.isadens o 0) := Real.sqrt_pos.2 (by positivity)
  have hv' : 0 < v := by rw [hv]; exact div_pos (by unfold Units.kts2mps; positivity) hs'
  have a1 := acc_eas2tas F hd hdsl (Acc.refl (F := F) s).kts2mps hd0 hd00
  have r1 := acc_eas2tas F hd hdsl (Acc.refl (F := F) 100).fpm2mps hd0 hd00
  have hr : 0 < fpm2mps 100 / √(Atmos.isadens o alt / Atmos.isadens o 0) := div_pos (by unfold Units.fpm2mps Units.feet2m; positivity) hs'
  rw [← hv] at a1
  have a2 := Acc.dynamicpressure M hd a1 hv'
  have a3 := ((Acc.refl (F := F) w).mul (Acc.refl (F := F) (pyNum c.sec_weight_fraction))).round
  obtain ⟨b1, b2⟩ := acc_drag F (pyNum c.cdminclean) a2 hkh a3
  have a4 := (((r1.div a1).round.add b1 (by positivity) (by positivity)).round.add b2 (by positivity) (by positivity)).round
  have a5 := ((a4.div ht).round.mul (Acc.refl (F := F) (pyNum c.sec_weight_fraction))).round
  exact (a5.weaken (n := 262 + j) (by omega)).err _ (by push_cast; linarith) (by omega)

/-- C157: the take-off requirement and the lift-off speed. -/
theorem C157_takeoff (X : Ext) (c : Concept) (hp : Piston c) {o elev w : ℝ} (H : PistonDay o elev) (ha : c.designatm = .isa o)
    (hc : c.rwyelevation_m = some elev) (hs : TakeoffSigns c) (hb : pyNum c.bpr ≤ 1) (hw : 0 < w) :
    ∃ r l av, twrequired_to X c (.scalar w) true = .ok (.scalar r, .scalar l, .scalar av) ∧
      |pistonLof F M o elev (pyNum c.clmaxto) w - l| ≤ 48 * F.u * |l| ∧
      |pistonTakeoff F M o elev (pyNum c.groundrun_m) (pyNum c.clmaxto) (pyNum c.cdto) (pyNum c.clto) (pyNum c.mu_r) w - r| ≤
        219 * F.u * |r| := by
  have ec : pyNum c.rwyelevation_m = elev := by rw [hc]; rfl
  obtain ⟨g, hg⟩ : ∃ g, c.groundrun_m = some g := by
    cases hx : c.groundrun_m with
    | none => have := hs.run; rw [hx] at this; exact absurd this (by norm_num [pyNum])
    | some g => exact ⟨g, rfl⟩
  have eg : pyNum c.groundrun_m = g := by rw [hg]; rfl
  have hi : TakeoffIn X c g (Atmos.isadens o elev) := ⟨hg, by rw [ec, ha]; exact isa_dens1 o elev (by linarith [H.high])⟩
  refine ⟨_, _, _, to_point_sl X c hi (.scalar w) (fun _ => Atmos.pistonpowerfactor (Atmos.isadens o elev))
    (fun x _ => ⟨1, by rw [ec]; exact H.corr X ha hp _⟩), ?_⟩
  have em : map2static c = 1 := by unfold map2static; rw [if_neg (by linarith)]
  have hd0 := H.dens elev
  have hg0 := hs.run; have hcl := hs.clmax; have hclto := hs.cl; have hcd := hs.cd; have hmu := hs.mu
  rw [eg] at hg0 ⊢
  simp only [toStatic, toLof, em]
  have hgp : 0 < Units.gAcc := by norm_num [Units.gAcc]
  have hd := (H.acc F M).1
  have a0 : Acc F (2 * 44) (F.rd (F.rd (2 * w) / F.rd (Fl.isadens F M o elev * pyNum c.clmaxto)))
      ((2 * w) / (Atmos.isadens o elev * pyNum c.clmaxto)) :=
    (((Acc.rd F (2 * w)).div ((hd.mul (Acc.refl (F := F) (pyNum c.clmaxto))).round)).round).weaken (by norm_num)
  have a1 : Acc F 47 (pistonLof F M o elev (pyNum c.clmaxto) w) (Aircraft.liftoffPoint (Atmos.isadens o elev) (pyNum c.clmaxto) w) :=
    ((Acc.rd F 1.1).mul (a0.sqrt (by positivity)).round).round.weaken (by norm_num)
  have hlof : 0 < Aircraft.liftoffPoint (Atmos.isadens o elev) (pyNum c.clmaxto) w := by
    show 0 < 1.1 * √((2 * w) / (Atmos.isadens o elev * pyNum c.clmaxto))
    have : 0 < √((2 * w) / (Atmos.isadens o elev * pyNum c.clmaxto)) := Real.sqrt_pos.2 (by positivity)
    positivity
  constructor
  · exact a1.err 48 (by norm_num) (by norm_num)
  generalize Aircraft.liftoffPoint (Atmos.isadens o elev) (pyNum c.clmaxto) w = lof at *
  have g0 : Acc F 1 (Fl.gAcc F) Units.gAcc := Acc.rd F _
  have g1 := (((Acc.refl (F := F) 2).mul g0).round.mul (Acc.refl (F := F) g)).round
  have b1 := ((Acc.libm_sq M a1 hlof).div g1).round
  have b2 := ((Acc.rd F (0.5 * pyNum c.cdto)).div (Acc.refl (F := F) (pyNum c.clto))).round
  have b3 := ((b1.add b2 (by positivity) (by positivity)).round.add (Acc.rd F (0.5 * pyNum c.mu_r)) (by positivity) (by positivity)).round
  have a5 := (((Acc.refl (F := F) 1).mul b3).round.div (acc_pistonCorr F M H)).round
  exact (a5.weaken (n := 218) (by norm_num)).err 219 (by norm_num) (by norm_num)

/-- C157: the turn requirement. -/
theorem C157_turn (X : Ext) (c : Concept) (hp : Piston c) {o alt s n w m : ℝ} {K : ℝ → ℝ → ℝ} (H : PistonDay o alt)
    (ha : c.designatm = .isa o) (hs : c.turnspeed_ktas = some s) (hn : c.stloadfactor = some n) (hc : c.turnalt_m = some alt)
    (hs0 : 0 < s) (hn0 : 0 < n) (hw : 0 < w) (hcd : 0 < pyNum c.cdminclean) (hfr : 0 < pyNum c.turn_weight_fraction)
    (hfc : 0 < pyNum c.climb_weight_fraction) (hm : Atmos.mach1 c.designatm (kts2mps s) alt = .ok m) (hK : KFun X c m K) {k : ℝ}
    (hk : k = K (w * pyNum c.turn_weight_fraction) (w * pyNum c.turn_weight_fraction * pyNum c.climb_weight_fraction * n /
      (0.5 * Atmos.isadens o alt * kts2mps s ^ 2))) (hk0 : 0 < k) :
    ∃ r cl fe, twrequired_trn X c (.scalar w) true = .ok (.scalar r, .scalar cl, fe) ∧ ∀ (j : ℕ) (kh : ℝ), j ≤ 200 → Acc F j kh k →
      |pistonTurn F M o alt s (pyNum c.cdminclean) n kh w (pyNum c.turn_weight_fraction) (pyNum c.climb_weight_fraction) - r| ≤
        (280 + j) * F.u * |r| := by
  have ec : pyNum c.turnalt_m = alt := by rw [hc]; rfl
  have h : TurnIn X c s n (Atmos.pistonpowerfactor (Atmos.isadens o alt)) (0.5 * Atmos.isadens o alt * kts2mps s ^ 2) m K := by
    refine ⟨hs, hn, ⟨1, ?_⟩, ?_, ?_, hK⟩ <;> rw [ec]
    exacts [H.corr X ha hp _, isa_q ha (by linarith [H.high]) _, hm]
  refine ⟨_, _, _, h.eval true (.scalar w), fun j kh hj hkh => ?_⟩
  simp only [turnReq, Aircraft.turnCl, sl, if_true]
  rw [← hk]
  have d0 := H.dens alt
  have hv' : 0 < kts2mps s := by unfold Units.kts2mps; positivity
  have hq := Acc.dynamicpressure M (H.acc F M).1 (Acc.refl (F := F) s).kts2mps hv'
  have w1 := ((Acc.refl (F := F) w).mul (Acc.refl (F := F) (pyNum c.turn_weight_fraction))).round
  have w2 := (w1.mul (Acc.refl (F := F) (pyNum c.climb_weight_fraction))).round
  have a1 := Acc.libm_sq M ((Acc.refl (F := F) n).div hq).round (by positivity)
  have a2 := ((hkh.mul a1).round.mul w2).round
  have a3 := (((Acc.refl (F := F) (pyNum c.cdminclean)).div w1).round.add a2 (by positivity) (by positivity)).round
  have a4 := (hq.mul a3).round
  have a5 := ((a4.div (acc_pistonCorr F M H)).round.mul (Acc.refl (F := F) (pyNum c.turn_weight_fraction))).round
  exact (a5.weaken (n := 279 + j) (by omega)).err _ (by push_cast; linarith) (by omega)

/-- Every day up to 30 degrees above standard and every altitude up to 25000 ft is such a day. -/
theorem C157_days {o h : ℝ} (h0 : |o| ≤ 100) (ho : o ≤ 30) (h1 : -5000 ≤ h) (h2 : h ≤ 7620) : PistonDay o h := by
  have t := (C11_bounds 0 h).1
  have t1 := (C11_bounds o h).1
  have e := C11_offset o h
  have hcold := (abs_le.1 h0).1
  have d : 0.548 ≤ Atmos.isadens 0 h := by
    have k := nb_dens7620.1
    rcases h2.eq_or_lt with rfl | h2
    · norm_num at k ⊢; linarith
    · have := C13_decreasing_block 0 h 7620 (by norm_num) h2 (Or.inl (by norm_num))
      norm_num at k ⊢; linarith
  have l := C13_offset_law o 0 h (by linarith) (by linarith)
  have dp := C13_positive o h (by linarith)
  rw [e] at l
  refine ⟨h0, h1, by linarith, ?_⟩
  have : 0.48 ≤ Atmos.isadens o h := by
    by_contra hn
    rw [not_le] at hn
    have k1 : Atmos.isadens o h * (Atmos.isatemp 0 h + o) ≤ 0.48 * (Atmos.isatemp 0 h + o) :=
      mul_le_mul_of_nonneg_right hn.le (by linarith)
    have k2 : 0.548 * Atmos.isatemp 0 h ≤ Atmos.isadens 0 h * Atmos.isatemp 0 h := mul_le_mul_of_nonneg_right d (by linarith)
    norm_num at *
    linarith
  norm_num at *
  linarith

/-! ### Cases: a light aircraft with a piston engine -/

/-- The light aircraft in the ISA, cruising at 3 km ten degrees above standard. -/
noncomputable def pfCruise : Concept := { exC with designatm := .isa 10 }

/-- The light aircraft without a cruise speed, on a standard day. -/
noncomputable def pfField : Concept := { exC with designatm := .isa 0, cruisespeed_ktas := none, turnalt_m := some 0 }

theorem pf_wing : Wing pfCruise ∧ Wing pfField := by
  have hp := Real.pi_pos
  constructor <;> constructor <;>
    norm_num [pfCruise, pfField, exC, pyNum, Concept.sweep_le_rad, Concept.sweep_25_rad, Atmos.deg2rad] <;> exact hp

theorem pf_mach {o h v : ℝ} (h0 : 0 ≤ o) (hh : h ≤ 50000) (v0 : 0 ≤ v) (v1 : v ≤ 170) :
    ∃ m, Atmos.mach1 (.isa o) v h = .ok m ∧ 0 ≤ m ∧ m < 0.6 := by
  have t := (C11_bounds o h).1
  have hT : 0 ≤ Atmos.isatemp o h := by linarith
  have k : 290 ≤ √(1.4 * 287.05287 * Atmos.isatemp o h) := by
    apply Real.le_sqrt_of_sq_le
    norm_num at *; linarith
  refine ⟨_, Atmos.mach1_of (isa_vsound o h hh hT), by positivity, ?_⟩
  rw [div_lt_iff₀ (by linarith)]
  norm_num at *; linarith

example (X : Ext) : ∃ k r, 0 < k ∧ twrequired_crs X pfCruise (.scalar 600) true = .ok (.scalar r) ∧
    |pistonCruise binary64 (exactPow binary64) 10 3000 150 0.025 k 600 1 1 - r| ≤ 174 * (2 : ℝ) ^ (-53 : ℤ) * |r| := by
  have H : PistonDay 10 3000 := C157_days (by norm_num [abs_le]) (by norm_num) (by norm_num) (by norm_num)
  obtain ⟨m, hm, m0, m1⟩ := pf_mach (o := 10) (h := 3000) (v := Units.kts2mps 150) (by norm_num) (by norm_num)
    (by norm_num [Units.kts2mps]) (by norm_num [Units.kts2mps])
  obtain ⟨K, hK⟩ := KFun.exists X pfCruise m (fun alt' h' => by cases h'; exact (H.env (c := pfCruise) rfl).1)
  have k0 := (KFun.mono hK (Finite.of_wing X pf_wing.1 m0 m1) (w := 600)
    (x := 600 * pyNum pfCruise.cruise_weight_fraction / (0.5 * Atmos.isadens 10 3000 * Units.kts2mps 150 ^ 2))
    (fun cc hc => by
      obtain ⟨q, hq, rfl⟩ := hc
      rw [isa_q (c := pfCruise) (o := 10) rfl (by norm_num)] at hq; cases hq; exact le_rfl) le_rfl
    (fun cc hc => by
      obtain ⟨q, hq, rfl⟩ := hc
      rw [isa_q (c := pfCruise) (o := 10) rfl (by norm_num)] at hq; cases hq; linarith)).1
  obtain ⟨r, hr, hacc⟩ := C157_cruise binary64 (exactPow binary64) X pfCruise (Or.inl rfl) (w := 600) H rfl rfl rfl (by norm_num) (by norm_num)
    (by norm_num [pfCruise, exC, pyNum]) (by norm_num [pfCruise, exC, pyNum]) hm hK rfl k0
  refine ⟨_, r, k0, hr, ?_⟩
  have := hacc 0 _ (by norm_num) (Acc.refl _)
  rw [Nat.cast_zero, add_zero] at this
  exact this

/-- Above the lift coefficient 0.6 and below 1.6 the induced drag factor of the aircraft without a cruise speed is positive. -/
theorem pf_kpos {X : Ext} {m w x : ℝ} {K : ℝ → ℝ → ℝ} (hK : KFun X pfField m K) (m0 : 0 ≤ m) (m1 : m < 0.6) (h0 : 0.6 ≤ x) (h1 : x ≤ 1.6) :
    0 < K w x :=
  (KFun.mono hK (Finite.of_wing X pf_wing.2 m0 m1) (fun cc hc => by have : cc = 0.6 := hc; rw [this]; exact h0) le_rfl
    (fun cc hc => by have : cc = 0.6 := hc; rw [this]; norm_num at *; linarith)).1

theorem pf_day (h : ℝ) (h1 : -5000 ≤ h) (h2 : h ≤ 7620) : PistonDay 0 h := C157_days (by norm_num) (by norm_num) h1 h2

theorem pf_k (X : Ext) (m : ℝ) : ∃ K, KFun X pfField m K :=
  KFun.exists X pfField m (fun alt' h' => by cases h'; exact ((pf_day 3000 (by norm_num) (by norm_num)).env (c := pfField) rfl).1)

/-- The dynamic pressure of an equivalent airspeed depends on the sea level density alone. -/
theorem pf_q {d d0 V : ℝ} (hd : 0 < d) (hd0 : 0 < d0) : 0.5 * d * (V / √(d / d0)) ^ 2 = 0.5 * d0 * V ^ 2 := by
  rw [div_pow, Real.sq_sqrt (by positivity)]
  field_simp

theorem pf_cl {w V lo hi : ℝ} (hV : 0 < V) (h0 : lo * (0.6126 * V ^ 2) ≤ w) (h1 : w ≤ hi * (0.6124 * V ^ 2)) (l0 : 0 ≤ lo) (hh : 0 ≤ hi) :
    lo ≤ w / (0.5 * Atmos.isadens 0 0 * V ^ 2) ∧ w / (0.5 * Atmos.isadens 0 0 * V ^ 2) ≤ hi := by
  have k := abs_le.mp C102_sea_level.2.2
  have dp : 0 < Atmos.isadens 0 0 := by have := k.1; norm_num at this; linarith
  have k1 : 0.6124 ≤ 0.5 * Atmos.isadens 0 0 := by have := k.1; norm_num at *; linarith
  have k2 : 0.5 * Atmos.isadens 0 0 ≤ 0.6126 := by have := k.2; norm_num at *; linarith
  have s : 0 < V ^ 2 := by positivity
  rw [le_div_iff₀ (by positivity), div_le_iff₀ (by positivity)]
  constructor
  · refine le_trans (mul_le_mul_of_nonneg_left (mul_le_mul_of_nonneg_right k2 s.le) l0) h0
  · exact h1.trans (mul_le_mul_of_nonneg_left (mul_le_mul_of_nonneg_right k1 s.le) hh)

/-- True airspeeds up to 25000 ft are less than 1.6 times the equivalent ones. -/
theorem pf_tas {h V : ℝ} (h1 : -5000 ≤ h) (h2 : h ≤ 7620) (hV : 0 ≤ V) : V / √(Atmos.isadens 0 h / Atmos.isadens 0 0) ≤ 1.6 * V := by
  have H := pf_day h h1 h2
  have hp := H.power
  have k := (abs_le.mp C102_sea_level.2.2).2
  have dp := H.dens 0
  have dh := H.dens h
  have d : 0.548 ≤ Atmos.isadens 0 h := by
    have k := nb_dens7620.1
    rcases h2.eq_or_lt with rfl | h2
    · norm_num at k ⊢; linarith
    · have := C13_decreasing_block 0 h 7620 (by norm_num) h2 (Or.inl (by norm_num))
      norm_num at k ⊢; linarith
  have s : 0.65 ≤ √(Atmos.isadens 0 h / Atmos.isadens 0 0) := by
    apply Real.le_sqrt_of_sq_le
    rw [le_div_iff₀ dp]
    norm_num at *; linarith
  rw [div_le_iff₀ (by norm_num at s; linarith)]
  have := mul_le_mul_of_nonneg_left s hV
  norm_num at *; linarith

example (X : Ext) : ∃ k r, 0 < k ∧ twrequired_clm X pfField (.scalar 1300) true = .ok (.scalar r) ∧
    |pistonClimb binary64 (exactPow binary64) 0 0 100 1000 0.025 k 1300 1 - r| ≤ 653 * (2 : ℝ) ^ (-53 : ℤ) * |r| := by
  have H := pf_day 0 (by norm_num) (by norm_num)
  have v1 := pf_tas (h := 0) (V := Units.kts2mps 100) (by norm_num) (by norm_num) (by norm_num [Units.kts2mps])
  obtain ⟨m, hm, m0, m1⟩ := pf_mach (o := 0) (h := 0) (v := Units.kts2mps 100 / √(Atmos.isadens 0 0 / Atmos.isadens 0 0)) le_rfl (by norm_num)
    (div_nonneg (by norm_num [Units.kts2mps]) (Real.sqrt_nonneg _)) (v1.trans (by norm_num [Units.kts2mps]))
  obtain ⟨K, hK⟩ := pf_k X m
  obtain ⟨c0, c1⟩ := pf_cl (w := 1300) (V := Units.kts2mps 100) (lo := 0.6) (hi := 1.6) (by norm_num [Units.kts2mps])
    (by norm_num [Units.kts2mps]) (by norm_num [Units.kts2mps]) (by norm_num) (by norm_num)
  have k0 : 0 < K 1300 (1300 * pyNum pfField.climb_weight_fraction /
      (0.5 * Atmos.isadens 0 0 * (Units.kts2mps 100 / √(Atmos.isadens 0 0 / Atmos.isadens 0 0)) ^ 2)) := by
    rw [pf_q (H.dens 0) (H.dens 0), show (1300 : ℝ) * pyNum pfField.climb_weight_fraction = 1300 from by norm_num [pfField, exC, pyNum]]
    exact pf_kpos hK m0 m1 c0 c1
  obtain ⟨r, hr, hacc⟩ := C157_climb binary64 (exactPow binary64) X pfField (Or.inl rfl) (w := 1300) H rfl rfl rfl rfl (by norm_num)
    (by norm_num) (by norm_num [Units.fpm2mps, Units.feet2m, Units.kts2mps]) (by norm_num)
    (by norm_num [pfField, exC, pyNum]) (by norm_num [pfField, exC, pyNum]) rfl hm hK rfl k0
  refine ⟨_, r, k0, hr, ?_⟩
  have := hacc 0 _ (by norm_num) (Acc.refl _)
  rw [Nat.cast_zero, add_zero] at this
  exact this

example (X : Ext) : ∃ k r, 0 < k ∧ twrequired_sec X pfField (.scalar 1100) true = .ok (.scalar r) ∧
    |pistonCeiling binary64 (exactPow binary64) 0 6000 90 0.025 k 1100 1 - r| ≤ 263 * (2 : ℝ) ^ (-53 : ℤ) * |r| := by
  have H := pf_day 6000 (by norm_num) (by norm_num)
  have v1 := pf_tas (h := 6000) (V := Units.kts2mps 90) (by norm_num) (by norm_num) (by norm_num [Units.kts2mps])
  obtain ⟨m, hm, m0, m1⟩ := pf_mach (o := 0) (h := 6000) (v := Units.kts2mps 90 / √(Atmos.isadens 0 6000 / Atmos.isadens 0 0)) le_rfl (by norm_num)
    (div_nonneg (by norm_num [Units.kts2mps]) (Real.sqrt_nonneg _)) (v1.trans (by norm_num [Units.kts2mps]))
  obtain ⟨K, hK⟩ := pf_k X m
  obtain ⟨c0, c1⟩ := pf_cl (w := 1100) (V := Units.kts2mps 90) (lo := 0.6) (hi := 1.6) (by norm_num [Units.kts2mps])
    (by norm_num [Units.kts2mps]) (by norm_num [Units.kts2mps]) (by norm_num) (by norm_num)
  have k0 : 0 < K 1100 (1100 * pyNum pfField.sec_weight_fraction /
      (0.5 * Atmos.isadens 0 6000 * (Units.kts2mps 90 / √(Atmos.isadens 0 6000 / Atmos.isadens 0 0)) ^ 2)) := by
    rw [pf_q (H.dens 6000) (H.dens 0), show (1100 : ℝ) * pyNum pfField.sec_weight_fraction = 1100 from by norm_num [pfField, exC, pyNum]]
    exact pf_kpos hK m0 m1 c0 c1
  obtain ⟨r, hr, hacc⟩ := C157_ceiling binary64 (exactPow binary64) X pfField (Or.inl rfl) (w := 1100) H rfl rfl rfl (by norm_num)
    (by norm_num) (by norm_num [pfField, exC, pyNum]) (by norm_num [pfField, exC, pyNum]) rfl hm hK rfl k0
  refine ⟨_, r, k0, hr, ?_⟩
  have := hacc 0 _ (by norm_num) (Acc.refl _)
  rw [Nat.cast_zero, add_zero] at this
  exact this

example (X : Ext) : ∃ r l av, twrequired_to X (onDay exC 25 1500) (.scalar 600) true = .ok (.scalar r, .scalar l, .scalar av) ∧
    |pistonLof binary64 (exactPow binary64) 25 1500 1.6 600 - l| ≤ 48 * (2 : ℝ) ^ (-53 : ℤ) * |l| ∧
    |pistonTakeoff binary64 (exactPow binary64) 25 1500 400 1.6 0.04 0.6 0.03 600 - r| ≤ 219 * (2 : ℝ) ^ (-53 : ℤ) * |r| :=
  C157_takeoff binary64 (exactPow binary64) X (onDay exC 25 1500) (Or.inl rfl)
    (C157_days (by norm_num [abs_le]) (by norm_num) (by norm_num) (by norm_num)) rfl rfl
    (by constructor <;> norm_num [onDay, exC, pyNum]) (by norm_num [onDay, exC, pyNum]) (by norm_num)

example (X : Ext) : ∃ k r cl fe, 0 < k ∧ twrequired_trn X pfField (.scalar 1000) true = .ok (.scalar r, .scalar cl, fe) ∧
    |pistonTurn binary64 (exactPow binary64) 0 0 120 0.025 2 k 1000 1 1 - r| ≤ 280 * (2 : ℝ) ^ (-53 : ℤ) * |r| := by
  have H := pf_day 0 (by norm_num) (by norm_num)
  obtain ⟨m, hm, m0, m1⟩ := pf_mach (o := 0) (h := 0) (v := Units.kts2mps 120) le_rfl (by norm_num)
    (by norm_num [Units.kts2mps]) (by norm_num [Units.kts2mps])
  obtain ⟨K, hK⟩ := pf_k X m
  obtain ⟨c0, c1⟩ := pf_cl (w := 2000) (V := Units.kts2mps 120) (lo := 0.6) (hi := 1.6) (by norm_num [Units.kts2mps])
    (by norm_num [Units.kts2mps]) (by norm_num [Units.kts2mps]) (by norm_num) (by norm_num)
  have k0 : 0 < K (1000 * pyNum pfField.turn_weight_fraction) (1000 * pyNum pfField.turn_weight_fraction *
      pyNum pfField.climb_weight_fraction * 2 / (0.5 * Atmos.isadens 0 0 * Units.kts2mps 120 ^ 2)) := by
    rw [show (1000 : ℝ) * pyNum pfField.turn_weight_fraction * pyNum pfField.climb_weight_fraction * 2 = 2000 from by
      norm_num [pfField, exC, pyNum]]
    exact pf_kpos hK m0 m1 c0 c1
  obtain ⟨r, cl, fe, hr, hacc⟩ := C157_turn binary64 (exactPow binary64) X pfField (Or.inl rfl) (w := 1000) H rfl rfl rfl rfl (by norm_num)
    (by norm_num) (by norm_num) (by norm_num [pfField, exC, pyNum]) (by norm_num [pfField, exC, pyNum]) (by norm_num [pfField, exC, pyNum])
    hm hK rfl k0
  refine ⟨_, r, cl, fe, k0, hr, ?_⟩
  have := hacc 0 _ (by norm_num) (Acc.refl _)
  rw [Nat.cast_zero, add_zero] at this
  exact this

example : |pistonCorr binary64 (exactPow binary64) 20 7000 - Atmos.pistonpowerfactor (Atmos.isadens 20 7000)| ≤
    112 * (2 : ℝ) ^ (-53 : ℤ) * Atmos.pistonpowerfactor (Atmos.isadens 20 7000) :=
  C157_factor binary64 (exactPow binary64) (C157_days (by norm_num [abs_le]) (by norm_num) (by norm_num) (by norm_num))

end Verif.Props
