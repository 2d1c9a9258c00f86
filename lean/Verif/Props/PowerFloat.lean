import Verif.Props.PistonFloat
import Verif.Props.Constraint6

/-
C158: the powers in hp that `powerrequired` returns for a piston engined aircraft in the ISA, end to end in floating point.
-/

namespace Verif.Props
open Verif Verif.Aircraft Verif.Units Verif.Fl

variable (F : Rounding) (M : Libm F)

/-- Offsets of up to 100 degrees, from 5 km below sea level to 20 km. -/
structure IsaDay (o h : ℝ) : Prop where
  off : |o| ≤ 100
  low : -5000 ≤ h
  high : h < 20000

theorem IsaDay.cold {o h : ℝ} (H : IsaDay o h) : -100 ≤ o := (abs_le.1 H.off).1

theorem IsaDay.dens {o h : ℝ} (H : IsaDay o h) (x : ℝ) : 0 < Atmos.isadens o x := by
  refine C13_positive o x ?_
  have := C11_bounds o x
  linarith [this.1, H.cold]

theorem IsaDay.acc {o h : ℝ} (H : IsaDay o h) :
    Acc F 42 (Fl.isadens F M o h) (Atmos.isadens o h) ∧ Acc F 42 (Fl.isadens F M o 0) (Atmos.isadens o 0) :=
  ⟨(acc_dens F M o h H.off H.low (by linarith [H.high])).2 H.high, (acc_dens F M o 0 H.off (by norm_num) (by norm_num)).2 (by norm_num)⟩

theorem IsaDay.tas {o h : ℝ} (H : IsaDay o h) {c : Concept} (ha : c.designatm = .isa o) (v : ℝ) :
    Atmos.eas2tas c.designatm v h = .ok (v / √(Atmos.isadens o h / Atmos.isadens o 0)) := by
  rw [ha]
  unfold Atmos.eas2tas
  rw [dratio_ok (isa_dens1 o h (by linarith [H.high])) (isa_dens1 o 0 (by norm_num)) (H.dens h) (H.dens 0)]
  rfl

theorem IsaDay.corr (X : Ext) {o h : ℝ} (H : IsaDay o h) {c : Concept} (ha : c.designatm = .isa o) (hp : Piston c) (v : ℝ) :
    CorrAt X c v h (Atmos.pistonpowerfactor (Atmos.isadens o h)) 1 := by
  have hh : h ≤ 50000 := by linarith [H.high]
  refine piston_corr X hp ?_ ?_ v <;> rw [ha]
  · exact isa_env o h H.cold hh
  · exact isa_dens1 o h hh

theorem IsaDay.one {X : Ext} {o h : ℝ} (H : IsaDay o h) {c : Concept} (ha : c.designatm = .isa o) (hp : Piston c) {v t p : ℝ}
    (hc : CorrAt X c v h t p) : p = 1 := (CorrAt.unique hc (H.corr X ha hp v)).2

theorem acc_hp {n m : ℕ} {th t vh v : ℝ} (tow eta : ℝ) (ht : Acc F n th t) (hv : Acc F m vh v) :
    Acc F (n + m + 9) (stringHp F tow eta th vh) (hp tow eta t v) := by
  have a1 := ((ht.mul hv).round.div (Acc.refl (F := F) eta)).round
  have a2 := ((((a1.mul (Acc.rd F 9.80665)).round).div (Acc.refl (F := F) 1000)).round.mul (Acc.rd F 1.34102)).round
  have a3 := (((a2.mul (Acc.refl (F := F) tow)).round).div (Acc.refl (F := F) 1)).round
  rw [div_one (t * v / eta * 9.80665 / 1000 * 1.34102 * tow)] at a3
  exact a3.weaken (n := n + m + 9) (by omega)

/-- What the power requirement at one wing loading is made of. -/
theorem power_parts {X : Ext} {c : Concept} {w tow : ℝ} {fo : Bool} {P : Req} (h : powerrequired X c (.scalar w) tow fo true = .ok P) :
    ∃ (R : ReqAt) (vc vs : ℝ) (pto : ℝ → ℝ) (ptrn pclm pcrs psec : ℝ) (fe : NanArg),
      PowerIn X c true vc vs pto ptrn pclm pcrs psec ∧
      twrequired_to X c (.scalar w) false = .ok (.scalar R.takeoff, .scalar R.liftoffspeed, .scalar R.avspeed) ∧
      twrequired_trn X c (.scalar w) false = .ok (.scalar R.turn, .scalar R.turncl, fe) ∧
      twrequired_clm X c (.scalar w) false = .ok (.scalar R.climb) ∧ twrequired_crs X c (.scalar w) false = .ok (.scalar R.cruise) ∧
      twrequired_sec X c (.scalar w) false = .ok (.scalar R.servceil) ∧
      recastArray P.takeoff = [hp tow (pyNum c.etaprop_to) R.takeoff R.liftoffspeed / pto R.liftoffspeed] ∧
      recastArray P.turn = [hp tow (pyNum c.etaprop_turn) R.turn (kts2mps (pyNum c.turnspeed_ktas)) / ptrn] ∧
      recastArray P.climb = [hp tow (pyNum c.etaprop_climb) R.climb vc / pclm] ∧
      recastArray P.cruise = [hp tow (pyNum c.etaprop_cruise) R.cruise (kts2mps (pyNum c.cruisespeed_ktas)) / pcrs] ∧
      recastArray P.servceil = [hp tow (pyNum c.etaprop_sec) R.servceil vs / psec] := by
  rcases power_point X c tow fo true with ⟨e, he⟩ | ⟨R, vc, vs, pto, ptrn, pclm, pcrs, psec, hin, hR, -, hP⟩
  · rw [he _ (by simp [recastArray])] at h; cases h
  rcases tw_point X c fo false with ⟨e, he⟩ | ⟨R', hR', k1, k2, k3, k4, k5, -⟩
  · have := hR (.scalar w); rw [he _ (by simp [recastArray])] at this; cases this
  have e := (hR (.scalar w)).symm.trans (hR' (.scalar w))
  rw [hP _ (by simp [recastArray])] at h
  cases h
  simp only [Except.ok.injEq, reqOf, recastArray, List.map_cons, List.map_nil, Atmos.revert, Req.mk.injEq, NumArg.scalar.injEq] at e
  obtain ⟨e1, e2, e3, e4, -, e6, e7, e8, e9, -⟩ := e
  refine ⟨R w, vc, vs, pto, ptrn, pclm, pcrs, psec, revertNan ((recastArray (.scalar w)).map fun w => (R' w).turnfeasible), hin, ?_, ?_, ?_, ?_, ?_, ?_, ?_, ?_, ?_, ?_⟩
  · rw [e1, e2, e3]; exact k1 (.scalar w)
  · rw [e4, e6]; exact k2 (.scalar w)
  · rw [e7]; exact k3 (.scalar w)
  · rw [e8]; exact k4 (.scalar w)
  · rw [e9]; exact k5 (.scalar w)
  all_goals exact (recast_shp _ _).trans (by simp only [recastArray, List.map_cons, List.map_nil, powerAt, sl, if_true])

/-- C158: cruise power. -/
theorem C158_cruise (X : Ext) (c : Concept) (hp : Piston c) {o alt s w m tow : ℝ} {fo : Bool} {P : Req} {K : ℝ → ℝ → ℝ} (H : IsaDay o alt)
    (ha : c.designatm = .isa o) (hP : powerrequired X c (.scalar w) tow fo true = .ok P)
    (hs : c.cruisespeed_ktas = some s) (hc : c.cruisealt_m = some alt) (hs0 : 0 < s) (hw : 0 < w) (hcd : 0 < pyNum c.cdminclean)
    (hfr : 0 < pyNum c.cruise_weight_fraction) (hm : Atmos.mach1 c.designatm (kts2mps s) alt = .ok m) (hK : KFun X c m K)
    {k : ℝ} (hk : k = K w (w * pyNum c.cruise_weight_fraction / (0.5 * Atmos.isadens o alt * kts2mps s ^ 2))) (hk0 : 0 < k) :
    ∃ p, recastArray P.cruise = [p] ∧ ∀ (j : ℕ) (kh : ℝ), j ≤ 200 → Acc F j kh k →
      |cruiseHp F M o alt s (pyNum c.cdminclean) kh w (pyNum c.cruise_weight_fraction) (pyNum c.cruisethrustfact) tow (pyNum c.etaprop_cruise)
        - p| ≤ (71 + j) * F.u * |p| := by
  obtain ⟨R, vc, vs, pto, ptrn, pclm, pcrs, psec, fe, hin, -, -, -, hr, -, -, -, -, hpc, -⟩ := power_parts hP
  have es : pyNum c.cruisespeed_ktas = s := by rw [hs]; rfl
  have ec : pyNum c.cruisealt_m = alt := by rw [hc]; rfl
  obtain ⟨t, ht⟩ := hin.crs rfl
  rw [es, ec] at ht
  obtain rfl := H.one ha hp ht
  rw [es, div_one] at hpc
  have h : CruiseIn X c s alt (Atmos.pistonpowerfactor (Atmos.isadens o alt)) (0.5 * Atmos.isadens o alt * kts2mps s ^ 2) m K :=
    ⟨hs, hc, ⟨1, H.corr X ha hp _⟩, isa_q ha (by linarith [H.high]) _, hm, hK⟩
  have e := (h.eval false (.scalar w)).symm.trans hr
  simp only [cruiseReq, sl, Bool.false_eq_true, if_false, recastArray, List.map_cons, List.map_nil, Atmos.revert, Except.ok.injEq,
    NumArg.scalar.injEq] at e
  refine ⟨_, hpc, fun j kh hj hkh => ?_⟩
  rw [← e, ← hk]
  have d0 := H.dens alt
  have hv' : 0 < kts2mps s := by unfold Units.kts2mps; positivity
  have v1 := (Acc.refl (F := F) s).kts2mps
  have a2 := Acc.dynamicpressure M (H.acc F M).1 v1 hv'
  have a3 := ((Acc.refl (F := F) w).mul (Acc.refl (F := F) (pyNum c.cruise_weight_fraction))).round
  obtain ⟨b1, b2⟩ := acc_drag F (pyNum c.cdminclean) a2 hkh a3
  have a4 := (b1.add b2 (by positivity) (by positivity)).round
  have a5 := (((a4.mul (Acc.refl (F := F) (pyNum c.cruise_weight_fraction))).round).mul
    (((Acc.refl (F := F) 1).div (Acc.refl (F := F) (pyNum c.cruisethrustfact))).round)).round
  have a6 := acc_hp F tow (pyNum c.etaprop_cruise) a5 v1
  exact (a6.weaken (n := 70 + j) (by omega)).err _ (by push_cast; linarith) (by omega)

/-- C158: climb power, for climb angles up to 45 degrees. -/
theorem C158_climb (X : Ext) (c : Concept) (hp : Piston c) {o alt s fpm w m tow : ℝ} {fo : Bool} {P : Req} {K : ℝ → ℝ → ℝ} (H : IsaDay o alt)
    (ha : c.designatm = .isa o) (hP : powerrequired X c (.scalar w) tow fo true = .ok P)
    (hs : c.climbspeed_kias = some s) (hr : c.climbrate_fpm = some fpm) (hc : c.climbalt_m = some alt)
    (hs0 : 0 < s) (hf : 0 < fpm) (hangle : 2 * fpm2mps fpm ^ 2 ≤ kts2mps s ^ 2) (hw : 0 < w) (hcd : 0 < pyNum c.cdminclean)
    (hfr : 0 < pyNum c.climb_weight_fraction) {v : ℝ} (hv : v = kts2mps s / √(Atmos.isadens o alt / Atmos.isadens o 0))
    (hm : Atmos.mach1 c.designatm v alt = .ok m) (hK : KFun X c m K)
    {k : ℝ} (hk : k = K w (w * pyNum c.climb_weight_fraction / (0.5 * Atmos.isadens o alt * v ^ 2))) (hk0 : 0 < k) :
    ∃ p, recastArray P.climb = [p] ∧ ∀ (j : ℕ) (kh : ℝ), j ≤ 200 → Acc F j kh k →
      |climbHp F M o alt s fpm (pyNum c.cdminclean) kh w (pyNum c.climb_weight_fraction) tow (pyNum c.etaprop_climb) - p| ≤
        (595 + j) * F.u * |p| := by
  obtain ⟨R, vc, vs, pto, ptrn, pclm, pcrs, psec, fe, hin, -, -, hrc, -, -, -, -, hpc, -, -⟩ := power_parts hP
  have es : pyNum c.climbspeed_kias = s := by rw [hs]; rfl
  have ec : pyNum c.climbalt_m = alt := by rw [hc]; rfl
  obtain ⟨t, ht⟩ := hin.clm rfl
  rw [ec] at ht
  obtain rfl := H.one ha hp ht
  obtain ⟨s', hs', rfl⟩ := hin.climbspeed
  rw [es, ec, H.tas ha] at hs'
  cases hs'
  rw [div_one] at hpc
  have h : ClimbIn X c s fpm v (fpm2mps fpm / √(Atmos.isadens o alt / Atmos.isadens o 0)) (Atmos.pistonpowerfactor (Atmos.isadens o alt))
      (0.5 * Atmos.isadens o alt * v ^ 2) m K := by
    subst hv
    refine ⟨hs, hr, ?_, ?_, ⟨1, ?_⟩, ?_, ?_, hK⟩ <;> rw [ec]
    exacts [H.tas ha _, H.tas ha _, H.corr X ha hp _, isa_q ha (by linarith [H.high]) _, hm]
  have e := (h.eval false (.scalar w)).symm.trans hrc
  simp only [climbReq, sl, Bool.false_eq_true, if_false, recastArray, List.map_cons, List.map_nil, Atmos.revert, Except.ok.injEq,
    NumArg.scalar.injEq] at e
  refine ⟨_, hpc, fun j kh hj hkh => ?_⟩
  rw [← e, ← hk]
  have hd0 := H.dens alt
  have hd00 := H.dens 0
  obtain ⟨hd, hdsl⟩ := H.acc F M
  have s1 := (acc_eas2tas F hd hdsl (Acc.refl (F := F) s) hd0 hd00).kts2mps
  have hs : 0 < √(Atmos.isadens o alt / Atmos.isadens o 0) := Real.sqrt_pos.2 (by positivity)
  have hV : 0 < kts2mps s := by unfold Units.kts2mps; positivity
  have hR : 0 < fpm2mps fpm := by unfold Units.fpm2mps Units.feet2m; positivity
  have hv' : 0 < v := by rw [hv]; exact div_pos hV hs
  have a1 := acc_eas2tas F hd hdsl (Acc.refl (F := F) s).kts2mps hd0 hd00
  have r1 := acc_eas2tas F hd hdsl (Acc.refl (F := F) fpm).fpm2mps hd0 hd00
  rw [← hv] at a1
  have hr' : 0 < fpm2mps fpm / √(Atmos.isadens o alt / Atmos.isadens o 0) := div_pos hR hs
  have hang : (fpm2mps fpm / √(Atmos.isadens o alt / Atmos.isadens o 0) / v) ^ 2 ≤ 1 / 2 := by
    have : fpm2mps fpm / √(Atmos.isadens o alt / Atmos.isadens o 0) / v = fpm2mps fpm / kts2mps s := by rw [hv]; field_simp
    rw [this, div_pow, div_le_iff₀ (by positivity)]; linarith
  have a2 := Acc.dynamicpressure M hd a1 hv'
  have a3 := ((Acc.refl (F := F) w).mul (Acc.refl (F := F) (pyNum c.climb_weight_fraction))).round
  obtain ⟨b1, b2⟩ := acc_drag F (pyNum c.cdminclean) a2 hkh a3
  have g := ((((Acc.refl (F := F) 1).mul r1).round).div a1).round
  have c' := (Acc.one_sub (Acc.libm_sq M (r1.div a1).round (by positivity)) (by positivity) hang (by norm_num)).round
  have hc0 : 0 ≤ 1 - (fpm2mps fpm / √(Atmos.isadens o alt / Atmos.isadens o 0) / v) ^ 2 := by linarith
  have b3 := (b2.mul c').round
  have a4 := ((g.add b1 (by positivity) (by positivity)).round.add b3 (by positivity)
    (mul_nonneg (by positivity) hc0)).round
  have a5 := (a4.mul (Acc.refl (F := F) (pyNum c.climb_weight_fraction))).round
  have a6 := acc_hp F tow (pyNum c.etaprop_climb) a5 s1
  exact (a6.weaken (n := 594 + j) (by omega)).err _ (by push_cast; linarith) (by omega)

/-- C158: power at the service ceiling. -/
theorem C158_ceiling (X : Ext) (c : Concept) (hp : Piston c) {o alt s w m tow : ℝ} {fo : Bool} {P : Req} {K : ℝ → ℝ → ℝ} (H : IsaDay o alt)
    (ha : c.designatm = .isa o) (hP : powerrequired X c (.scalar w) tow fo true = .ok P)
    (hs : c.secclimbspd_kias = some s) (hc : c.servceil_m = some alt) (hs0 : 0 < s) (hw : 0 < w)
    (hcd : 0 < pyNum c.cdminclean) (hfr : 0 < pyNum c.sec_weight_fraction) {v : ℝ}
    (hv : v = kts2mps s / √(Atmos.isadens o alt / Atmos.isadens o 0)) (hm : Atmos.mach1 c.designatm v alt = .ok m) (hK : KFun X c m K)
    {k : ℝ} (hk : k = K w (w * pyNum c.sec_weight_fraction / (0.5 * Atmos.isadens o alt * v ^ 2))) (hk0 : 0 < k) :
    ∃ p, recastArray P.servceil = [p] ∧ ∀ (j : ℕ) (kh : ℝ), j ≤ 200 → Acc F j kh k →
      |ceilingHp F M o alt s (pyNum c.cdminclean) kh w (pyNum c.sec_weight_fraction) tow (pyNum c.etaprop_sec) - p| ≤
        (205 + j) * F.u * |p| := by
  obtain ⟨R, vc, vs, pto, ptrn, pclm, pcrs, psec, fe, hin, -, -, -, -, hrc, -, -, -, -, hpc⟩ := power_parts hP
  have es : pyNum c.secclimbspd_kias = s := by rw [hs]; rfl
  have ec : pyNum c.servceil_m = alt := by rw [hc]; rfl
  obtain ⟨t, ht⟩ := hin.sec rfl
  rw [ec] at ht
  obtain rfl := H.one ha hp ht
  obtain ⟨s', hs', rfl⟩ := hin.secspeed
  rw [es, ec, H.tas ha] at hs'
  cases hs'
  rw [div_one] at hpc
  have h : CeilIn X c s alt v (fpm2mps 100 / √(Atmos.isadens o alt / Atmos.isadens o 0)) (Atmos.pistonpowerfactor (Atmos.isadens o alt))
      (0.5 * Atmos.isadens o alt * v ^ 2) m K := by
    subst hv
    exact ⟨hc, hs, H.tas ha _, H.tas ha _, ⟨1, H.corr X ha hp _⟩, isa_q ha (by linarith [H.high]) _, hm, hK⟩
  have e := (h.eval false (.scalar w)).symm.trans hrc
  simp only [ceilReq, sl, Bool.false_eq_true, if_false, recastArray, List.map_cons, List.map_nil, Atmos.revert, Except.ok.injEq,
    NumArg.scalar.injEq] at e
  refine ⟨_, hpc, fun j kh hj hkh => ?_⟩
  rw [← e, ← hk]
  have hd0 := H.dens alt
  have hd00 := H.dens 0
  obtain ⟨hd, hdsl⟩ := H.acc F M
  have s1 := (acc_eas2tas F hd hdsl (Acc.refl (F := F) s) hd0 hd00).kts2mps
  have hs' : 0 < √(Atmos.isadens o alt / Atmos.isadens o 0) := Real.sqrt_pos.2 (by positivity)
  have hv' : 0 < v := by rw [hv]; exact div_pos (by unfold Units.kts2mps; positivity) hs'
  have a1 := acc_eas2tas F hd hdsl (Acc.refl (F := F) s).kts2mps hd0 hd00
  have r1 := acc_eas2tas F hd hdsl (Acc.refl (F := F) 100).fpm2mps hd0 hd00
  have hr : 0 < fpm2mps 100 / √(Atmos.isadens o alt / Atmos.isadens o 0) := div_pos (by unfold Units.fpm2mps Units.feet2m; positivity) hs'
  rw [← hv] at a1
  have a2 := Acc.dynamicpressure M hd a1 hv'
  have a3 := ((Acc.refl (F := F) w).mul (Acc.refl (F := F) (pyNum c.sec_weight_fraction))).round
  obtain ⟨b1, b2⟩ := acc_drag F (pyNum c.cdminclean) a2 hkh a3
  have a4 := (((r1.div a1).round.add b1 (by positivity) (by positivity)).round.add b2 (by positivity) (by positivity)).round
  have a5 := (a4.mul (Acc.refl (F := F) (pyNum c.sec_weight_fraction))).round
  have a6 := acc_hp F tow (pyNum c.etaprop_sec) a5 s1
  exact (a6.weaken (n := 204 + j) (by omega)).err _ (by push_cast; linarith) (by omega)

/-- C158: take-off power. -/
theorem C158_takeoff (X : Ext) (c : Concept) (hp : Piston c) {o elev w tow : ℝ} {fo : Bool} {P : Req} (H : IsaDay o elev)
    (ha : c.designatm = .isa o) (hP : powerrequired X c (.scalar w) tow fo true = .ok P)
    (hc : c.rwyelevation_m = some elev) (hs : TakeoffSigns c) (hb : pyNum c.bpr ≤ 1) (hw : 0 < w) :
    ∃ p, recastArray P.takeoff = [p] ∧
      |takeoffHp F M o elev (pyNum c.groundrun_m) (pyNum c.clmaxto) (pyNum c.cdto) (pyNum c.clto) (pyNum c.mu_r) w tow (pyNum c.etaprop_to)
        - p| ≤ 161 * F.u * |p| := by
  obtain ⟨R, vc, vs, pto, ptrn, pclm, pcrs, psec, fe, hin, hrt, -, -, -, -, hpc, -⟩ := power_parts hP
  have ec : pyNum c.rwyelevation_m = elev := by rw [hc]; rfl
  obtain ⟨t, ht⟩ := hin.tko rfl R.liftoffspeed
  rw [ec] at ht
  have h1 := H.one ha hp ht
  rw [h1, div_one] at hpc
  obtain ⟨g, d, t0, hi, -, e1, e2, -⟩ := to_scalar hrt
  have eg : pyNum c.groundrun_m = g := by rw [hi.run]; rfl
  have ed := hi.dens
  rw [ec, ha, isa_dens1 o elev (by linarith [H.high])] at ed
  cases ed
  refine ⟨_, hpc, ?_⟩
  have em : map2static c = 1 := by unfold map2static; rw [if_neg (by linarith)]
  have hd0 := H.dens elev
  have hg0 := hs.run; have hcl := hs.clmax; have hclto := hs.cl; have hcd := hs.cd; have hmu := hs.mu
  rw [eg] at hg0 ⊢
  simp only [sl, Bool.false_eq_true, if_false, toStatic, toLof, em] at e1 e2
  rw [e1, e2]
  have hgp : 0 < Units.gAcc := by norm_num [Units.gAcc]
  have hd := (H.acc F M).1
  have a0 : Acc F (2 * 44) (F.rd (F.rd (2 * w) / F.rd (Fl.isadens F M o elev * pyNum c.clmaxto)))
      ((2 * w) / (Atmos.isadens o elev * pyNum c.clmaxto)) :=
    (((Acc.rd F (2 * w)).div ((hd.mul (Acc.refl (F := F) (pyNum c.clmaxto))).round)).round).weaken (by norm_num)
  have a1 : Acc F 47 (pistonLof F M o elev (pyNum c.clmaxto) w) (Aircraft.liftoffPoint (Atmos.isadens o elev) (pyNum c.clmaxto) w) :=
    ((Acc.rd F 1.1).mul (a0.sqrt (by positivity)).round).round.weaken (by norm_num)
  have hlof : 0 < Aircraft.liftoffPoint (Atmos.isadens o elev) (pyNum c.clmaxto) w := by
    show 0 < 1.1 * √((2 * w) / (Atmos.isadens o elev * pyNum c.clmaxto))
    have : 0 < √((2 * w) / (Atmos.isadens o elev * pyNum c.clmaxto)) := Real.sqrt_pos.2 (by positivity)
    positivity
  clear e1 e2
  unfold takeoffHp
  generalize pistonLof F M o elev (pyNum c.clmaxto) w = lofh at *
  generalize Aircraft.liftoffPoint (Atmos.isadens o elev) (pyNum c.clmaxto) w = lof at *
  have g0 : Acc F 1 (Fl.gAcc F) Units.gAcc := Acc.rd F _
  have g1 := (((Acc.refl (F := F) 2).mul g0).round.mul (Acc.refl (F := F) g)).round
  have b1 := ((Acc.libm_sq M a1 hlof).div g1).round
  have b2 := ((Acc.rd F (0.5 * pyNum c.cdto)).div (Acc.refl (F := F) (pyNum c.clto))).round
  have b3 := ((b1.add b2 (by positivity) (by positivity)).round.add (Acc.rd F (0.5 * pyNum c.mu_r)) (by positivity) (by positivity)).round
  have a5 := ((Acc.refl (F := F) 1).mul b3).round
  have a6 := acc_hp F tow (pyNum c.etaprop_to) a5 a1
  exact (a6.weaken (n := 160) (by norm_num)).err 161 (by norm_num) (by norm_num)

/-- C158: turn power. -/
theorem C158_turn (X : Ext) (c : Concept) (hp : Piston c) {o alt s n w m tow : ℝ} {fo : Bool} {P : Req} {K : ℝ → ℝ → ℝ} (H : IsaDay o alt)
    (ha : c.designatm = .isa o) (hP : powerrequired X c (.scalar w) tow fo true = .ok P)
    (hs : c.turnspeed_ktas = some s) (hn : c.stloadfactor = some n) (hc : c.turnalt_m = some alt)
    (hs0 : 0 < s) (hn0 : 0 < n) (hw : 0 < w) (hcd : 0 < pyNum c.cdminclean) (hfr : 0 < pyNum c.turn_weight_fraction)
    (hfc : 0 < pyNum c.climb_weight_fraction) (hm : Atmos.mach1 c.designatm (kts2mps s) alt = .ok m) (hK : KFun X c m K) {k : ℝ}
    (hk : k = K (w * pyNum c.turn_weight_fraction) (w * pyNum c.turn_weight_fraction * pyNum c.climb_weight_fraction * n /
      (0.5 * Atmos.isadens o alt * kts2mps s ^ 2))) (hk0 : 0 < k) :
    ∃ p, recastArray P.turn = [p] ∧ ∀ (j : ℕ) (kh : ℝ), j ≤ 200 → Acc F j kh k →
      |turnHp F M o alt s (pyNum c.cdminclean) n kh w (pyNum c.turn_weight_fraction) (pyNum c.climb_weight_fraction) tow (pyNum c.etaprop_turn)
        - p| ≤ (177 + j) * F.u * |p| := by
  obtain ⟨R, vc, vs, pto, ptrn, pclm, pcrs, psec, fe, hin, -, hrt, -, -, -, -, hpc, -⟩ := power_parts hP
  have es : pyNum c.turnspeed_ktas = s := by rw [hs]; rfl
  have ec : pyNum c.turnalt_m = alt := by rw [hc]; rfl
  obtain ⟨t, ht⟩ := hin.trn rfl
  rw [es, ec] at ht
  obtain rfl := H.one ha hp ht
  rw [es, div_one] at hpc
  have h : TurnIn X c s n (Atmos.pistonpowerfactor (Atmos.isadens o alt)) (0.5 * Atmos.isadens o alt * kts2mps s ^ 2) m K := by
    refine ⟨hs, hn, ⟨1, ?_⟩, ?_, ?_, hK⟩ <;> rw [ec]
    exacts [H.corr X ha hp _, isa_q ha (by linarith [H.high]) _, hm]
  have e := (h.eval false (.scalar w)).symm.trans hrt
  simp only [turnReq, Aircraft.turnCl, sl, Bool.false_eq_true, if_false, recastArray, List.map_cons, List.map_nil, Atmos.revert,
    Except.ok.injEq, Prod.mk.injEq, NumArg.scalar.injEq] at e
  refine ⟨_, hpc, fun j kh hj hkh => ?_⟩
  rw [← e.1, ← hk]
  have d0 := H.dens alt
  have hv' : 0 < kts2mps s := by unfold Units.kts2mps; positivity
  have v1 := (Acc.refl (F := F) s).kts2mps
  have hq := Acc.dynamicpressure M (H.acc F M).1 v1 hv'
  have w1 := ((Acc.refl (F := F) w).mul (Acc.refl (F := F) (pyNum c.turn_weight_fraction))).round
  have w2 := (w1.mul (Acc.refl (F := F) (pyNum c.climb_weight_fraction))).round
  have a1 := Acc.libm_sq M ((Acc.refl (F := F) n).div hq).round (by positivity)
  have a2 := ((hkh.mul a1).round.mul w2).round
  have a3 := (((Acc.refl (F := F) (pyNum c.cdminclean)).div w1).round.add a2 (by positivity) (by positivity)).round
  have a4 := (hq.mul a3).round
  have a5 := (a4.mul (Acc.refl (F := F) (pyNum c.turn_weight_fraction))).round
  have a6 := acc_hp F tow (pyNum c.etaprop_turn) a5 v1
  exact (a6.weaken (n := 176 + j) (by omega)).err _ (by push_cast; linarith) (by omega)

/-- The largest of five numbers, each known to within some rounding units. -/
theorem five_greatest {pt pn pl pc ps ht hn hl hc hs e p : ℝ} (he : 0 ≤ e) (hp' : p = max (max (max (max pt pn) pl) pc) ps)
    (at' : |ht - pt| ≤ e * F.u * |pt|) (an : |hn - pn| ≤ e * F.u * |pn|) (al : |hl - pl| ≤ e * F.u * |pl|)
    (ac : |hc - pc| ≤ e * F.u * |pc|) (as' : |hs - ps| ≤ e * F.u * |ps|) :
    IsGreatest {pt, pn, pl, pc, ps} p ∧
      (∀ M, |pt| ≤ M → |pn| ≤ M → |pl| ≤ M → |pc| ≤ M → |ps| ≤ M → |combinedHp ht hn hl hc hs - p| ≤ e * F.u * M) ∧
      (0 ≤ pt → 0 ≤ pn → 0 ≤ pl → 0 ≤ pc → 0 ≤ ps → |combinedHp ht hn hl hc hs - p| ≤ e * F.u * p) := by
  have l1 : pt ≤ p := by rw [hp']; simp
  have l2 : pn ≤ p := by rw [hp']; simp
  have l3 : pl ≤ p := by rw [hp']; simp
  have l4 : pc ≤ p := by rw [hp']; simp
  have l5 : ps ≤ p := by rw [hp']; simp
  have u0 : 0 ≤ e * F.u := mul_nonneg he F.u_nonneg
  have mx : ∀ {a b a' b' E : ℝ}, |a' - a| ≤ E → |b' - b| ≤ E → |max a' b' - max a b| ≤ E := fun h1 h2 =>
    (abs_max_sub_max_le_max _ _ _ _).trans (max_le h1 h2)
  have key : ∀ M, |pt| ≤ M → |pn| ≤ M → |pl| ≤ M → |pc| ≤ M → |ps| ≤ M → |combinedHp ht hn hl hc hs - p| ≤ e * F.u * M := by
    intro M m1 m2 m3 m4 m5
    have up : ∀ {x : ℝ}, |x| ≤ M → e * F.u * |x| ≤ e * F.u * M := fun h => mul_le_mul_of_nonneg_left h u0
    have := mx (mx (mx (mx (at'.trans (up m1)) (an.trans (up m2))) (al.trans (up m3))) (ac.trans (up m4))) (as'.trans (up m5))
    rw [← hp'] at this
    exact this
  refine ⟨⟨?_, ?_⟩, key, fun z1 z2 z3 z4 z5 => key p ?_ ?_ ?_ ?_ ?_⟩
  · simp only [Set.mem_insert_iff, Set.mem_singleton_iff]
    rw [hp']
    rcases max_choice (max (max (max pt pn) pl) pc) ps with h | h <;> rw [h]
    · rcases max_choice (max (max pt pn) pl) pc with h | h <;> rw [h]
      · rcases max_choice (max pt pn) pl with h | h <;> rw [h]
        · rcases max_choice pt pn with h | h <;> rw [h] <;> simp
        · simp
      · simp
    · simp
  · rintro x (rfl | rfl | rfl | rfl | rfl) <;> assumption
  all_goals rw [abs_of_nonneg (by assumption)]; assumption

/-- C158: the combined power. It is NaN only where infeasible turns are left out, and otherwise the largest of the five powers, as
accurate as the least accurate of them. -/
theorem C158_combined (X : Ext) (c : Concept) {w tow : ℝ} {fo : Bool} {P : Req} (hP : powerrequired X c (.scalar w) tow fo true = .ok P)
    {pt pn pl pc ps ht hn hl hc hs e : ℝ} (he : 0 ≤ e)
    (kt : recastArray P.takeoff = [pt]) (kn : recastArray P.turn = [pn]) (kl : recastArray P.climb = [pl])
    (kc : recastArray P.cruise = [pc]) (ks : recastArray P.servceil = [ps])
    (at' : |ht - pt| ≤ e * F.u * |pt|) (an : |hn - pn| ≤ e * F.u * |pn|) (al : |hl - pl| ≤ e * F.u * |pl|)
    (ac : |hc - pc| ≤ e * F.u * |pc|) (as' : |hs - ps| ≤ e * F.u * |ps|) :
    ∃ o, P.combined.toList = [o] ∧ (fo = false → o ≠ none) ∧ ∀ p, o = some p →
      IsGreatest {pt, pn, pl, pc, ps} p ∧
      (∀ M, |pt| ≤ M → |pn| ≤ M → |pl| ≤ M → |pc| ≤ M → |ps| ≤ M → |combinedHp ht hn hl hc hs - p| ≤ e * F.u * M) ∧
      (0 ≤ pt → 0 ≤ pn → 0 ≤ pl → 0 ≤ pc → 0 ≤ ps → |combinedHp ht hn hl hc hs - p| ≤ e * F.u * p) := by
  rcases power_point X c tow fo true with ⟨e, he⟩ | ⟨R, vc, vs, pto, ptrn, pclm, pcrs, psec, hin, hR, hfe, hQ⟩
  · rw [he _ (by simp [recastArray])] at hP; cases hP
  rw [hQ _ (by simp [recastArray])] at hP
  cases hP
  simp only [preqOf] at kt kn kl kc ks ⊢
  rw [recast_shp] at kt kn kl kc ks
  rw [toList_shpNan]
  simp only [recastArray, List.map_cons, List.map_nil, powerAt, List.cons.injEq, and_true] at kt kn kl kc ks ⊢
  rw [kt, kn, kl, kc, ks, hfe]
  refine ⟨_, rfl, fun h => by rw [h]; simp [max5], fun p hp => ?_⟩
  have hp' : p = max (max (max (max pt pn) pl) pc) ps := by
    cases fo
    · simpa [max5] using hp.symm
    · rw [if_pos rfl] at hp
      by_cases h1 : (R w).turncl > pyNum c.clmaxclean
      · rw [if_pos h1] at hp; simp [max5] at hp
      · rw [if_neg h1] at hp
        simp only [Option.map_some, max5, Option.some.injEq] at hp
        rw [← hp, kn]
  exact five_greatest F he hp' at' an al ac as'

/-- C158: the combined thrust to weight ratio. It is NaN only where infeasible turns are left out, and otherwise the largest of the five
ratios, as accurate as the least accurate of them. -/
theorem C158_thrust (X : Ext) (c : Concept) {w : ℝ} {fo b : Bool} {P : Req} (hP : twrequired X c (.scalar w) fo b = .ok P)
    {pt pn pl pc ps l av cl ht hn hl hc hs e : ℝ} {fe : NanArg} (he : 0 ≤ e)
    (kt : twrequired_to X c (.scalar w) b = .ok (.scalar pt, .scalar l, .scalar av))
    (kn : twrequired_trn X c (.scalar w) b = .ok (.scalar pn, .scalar cl, fe)) (kl : twrequired_clm X c (.scalar w) b = .ok (.scalar pl))
    (kc : twrequired_crs X c (.scalar w) b = .ok (.scalar pc)) (ks : twrequired_sec X c (.scalar w) b = .ok (.scalar ps))
    (at' : |ht - pt| ≤ e * F.u * |pt|) (an : |hn - pn| ≤ e * F.u * |pn|) (al : |hl - pl| ≤ e * F.u * |pl|)
    (ac : |hc - pc| ≤ e * F.u * |pc|) (as' : |hs - ps| ≤ e * F.u * |ps|) :
    ∃ o, P.combined.toList = [o] ∧ (fo = false → o ≠ none) ∧ (cl ≤ pyNum c.clmaxclean → o ≠ none) ∧ ∀ p, o = some p →
      IsGreatest {pt, pn, pl, pc, ps} p ∧
      (∀ M, |pt| ≤ M → |pn| ≤ M → |pl| ≤ M → |pc| ≤ M → |ps| ≤ M → |combinedHp ht hn hl hc hs - p| ≤ e * F.u * M) ∧
      (0 ≤ pt → 0 ≤ pn → 0 ≤ pl → 0 ≤ pc → 0 ≤ ps → |combinedHp ht hn hl hc hs - p| ≤ e * F.u * p) := by
  rcases tw_point X c fo b with ⟨e, he⟩ | ⟨R, hR, k1, k2, k3, k4, k5, hcomb, hfe⟩
  · rw [he _ (by simp [recastArray])] at hP; cases hP
  have e1 := (k1 (.scalar w)).symm.trans kt
  have e2 := (k2 (.scalar w)).symm.trans kn
  have e3 := (k3 (.scalar w)).symm.trans kl
  have e4 := (k4 (.scalar w)).symm.trans kc
  have e5 := (k5 (.scalar w)).symm.trans ks
  simp only [recastArray, List.map_cons, List.map_nil, Atmos.revert, Except.ok.injEq, Prod.mk.injEq, NumArg.scalar.injEq] at e1 e2 e3 e4 e5
  have hc' := hcomb w
  rw [hfe, e1.1, e2.1, e2.2.1, e3, e4, e5] at hc'
  have e6 := hR (.scalar w)
  rw [hP] at e6
  cases e6
  refine ⟨(R w).combined, rfl, fun h => by rw [hc', h]; simp [max5], fun h => ?_, fun p hp => ?_⟩
  · rw [hc', if_neg (not_lt.2 h), ite_self]; simp [max5]
  · rw [hc'] at hp
    refine five_greatest F he ?_ at' an al ac as'
    cases fo
    · simpa [max5] using hp.symm
    · rw [if_pos rfl] at hp
      by_cases h1 : cl > pyNum c.clmaxclean
      · rw [if_pos h1] at hp; simp [max5] at hp
      · rw [if_neg h1] at hp
        simp only [Option.map_some, max5, Option.some.injEq] at hp
        exact hp.symm

/-! ### Cases: a light aircraft with a piston engine -/

/-- The light aircraft on a standard day, climbing at 80 knots and turning at sea level. -/
noncomputable def pwC : Concept :=
  { exC with designatm := .isa 0, turnalt_m := some 0, climbspeed_kias := some 80, etaprop_to := some 0.5, etaprop_climb := some 0.75,
             etaprop_cruise := some 0.85, etaprop_turn := some 0.85, etaprop_sec := some 0.65 }

theorem pw_exists (X : Ext) (w tow : ℝ) (fo : Bool) : ∃ P, powerrequired X pwC (.scalar w) tow fo true = .ok P :=
  (C48_given X pwC (.scalar w) fo true (isa_ready pwC 0 rfl (by norm_num) (by norm_num [pwC, exC, pyNum]) (by norm_num [pwC, exC, pyNum])
    (by norm_num [pwC, exC, pyNum]) (by norm_num [pwC, exC, pyNum]) (by norm_num [pwC, exC, pyNum]) (by intro h; exact absurd h (by decide)))
    (by simp [Missing, pwC, exC])).2 (by simp [recastArray]) tow

theorem pw_wing : Wing pwC := by
  have hp := Real.pi_pos
  constructor <;> norm_num [pwC, exC, pyNum, Concept.sweep_le_rad, Concept.sweep_25_rad, Atmos.deg2rad] <;> exact hp

theorem pw_day (h : ℝ) (h1 : -5000 ≤ h) (h2 : h ≤ 7620) : IsaDay 0 h := ⟨by norm_num, h1, by linarith⟩

theorem pw_k (X : Ext) (m : ℝ) : ∃ K, KFun X pwC m K :=
  KFun.exists X pwC m (fun alt' h' => by cases h'; exact ((pf_day 3000 (by norm_num) (by norm_num)).env (c := pwC) rfl).1)

/-- Above the lift coefficient 0.38 and below 1 the induced drag factor is positive. -/
theorem pw_kpos {X : Ext} {m x : ℝ} {K : ℝ → ℝ → ℝ} (hK : KFun X pwC m K) (m0 : 0 ≤ m) (m1 : m < 0.6) (h0 : 0.38 ≤ x) (h1 : x ≤ 1) :
    0 < K 600 x := by
  have d : 0.548 ≤ Atmos.isadens 0 3000 := by
    have k := nb_dens7620.1
    have := C13_decreasing_block 0 3000 7620 (by norm_num) (by norm_num) (Or.inl (by norm_num))
    norm_num at k ⊢; linarith
  have dp : 0 < Atmos.isadens 0 3000 := by norm_num at d; linarith
  refine (KFun.mono hK (Finite.of_wing X pw_wing m0 m1) (fun cc hc => ?_) le_rfl (fun cc hc => ?_)).1
  all_goals
    obtain ⟨q, hq, rfl⟩ := hc
    rw [isa_q (c := pwC) (o := 0) rfl (by norm_num)] at hq
    cases hq
    have e : pyNum pwC.cruise_weight_fraction = 1 := by norm_num [pwC, exC, pyNum]
    rw [e]
  · refine le_trans ?_ h0
    rw [div_le_iff₀ (mul_pos (mul_pos (by norm_num) dp) (by norm_num [Units.kts2mps]))]
    norm_num [Units.kts2mps] at *
    linarith
  · have : 0 ≤ 600 * 1 / (0.5 * Atmos.isadens 0 3000 * Units.kts2mps 150 ^ 2) := by positivity
    norm_num at *
    linarith

theorem pw_cruise {X : Ext} {fo : Bool} {P : Req} (hP : powerrequired X pwC (.scalar 600) 1100 fo true = .ok P) :
    ∃ k p, 0 < k ∧ recastArray P.cruise = [p] ∧
    |cruiseHp binary64 (exactPow binary64) 0 3000 150 0.025 k 600 1 1 1100 0.85 - p| ≤ 71 * (2 : ℝ) ^ (-53 : ℤ) * |p| := by
  obtain ⟨m, hm, m0, m1⟩ := pf_mach (o := 0) (h := 3000) (v := Units.kts2mps 150) le_rfl (by norm_num)
    (by norm_num [Units.kts2mps]) (by norm_num [Units.kts2mps])
  obtain ⟨K, hK⟩ := pw_k X m
  have k0 := (KFun.mono hK (Finite.of_wing X pw_wing m0 m1) (w := 600)
    (x := 600 * pyNum pwC.cruise_weight_fraction / (0.5 * Atmos.isadens 0 3000 * Units.kts2mps 150 ^ 2))
    (fun cc hc => by
      obtain ⟨q, hq, rfl⟩ := hc
      rw [isa_q (c := pwC) (o := 0) rfl (by norm_num)] at hq; cases hq; exact le_rfl) le_rfl
    (fun cc hc => by
      obtain ⟨q, hq, rfl⟩ := hc
      rw [isa_q (c := pwC) (o := 0) rfl (by norm_num)] at hq; cases hq; linarith)).1
  obtain ⟨p, hp, hacc⟩ := C158_cruise binary64 (exactPow binary64) X pwC (Or.inl rfl) (pw_day 3000 (by norm_num) (by norm_num)) rfl hP
    rfl rfl (by norm_num) (by norm_num) (by norm_num [pwC, exC, pyNum]) (by norm_num [pwC, exC, pyNum]) hm hK rfl k0
  refine ⟨_, p, k0, hp, ?_⟩
  have := hacc 0 _ (by norm_num) (Acc.refl _)
  rw [Nat.cast_zero, add_zero] at this
  exact this

example (X : Ext) : ∃ P k p, 0 < k ∧ powerrequired X pwC (.scalar 600) 1100 true true = .ok P ∧ recastArray P.cruise = [p] ∧
    |cruiseHp binary64 (exactPow binary64) 0 3000 150 0.025 k 600 1 1 1100 0.85 - p| ≤ 71 * (2 : ℝ) ^ (-53 : ℤ) * |p| :=
  let ⟨P, hP⟩ := pw_exists X 600 1100 true
  let ⟨k, p, h0, h1, h2⟩ := pw_cruise hP
  ⟨P, k, p, h0, hP, h1, h2⟩

theorem pw_climb {X : Ext} {fo : Bool} {P : Req} (hP : powerrequired X pwC (.scalar 600) 1100 fo true = .ok P) :
    ∃ k p, 0 < k ∧ recastArray P.climb = [p] ∧
    |climbHp binary64 (exactPow binary64) 0 0 80 1000 0.025 k 600 1 1100 0.75 - p| ≤ 595 * (2 : ℝ) ^ (-53 : ℤ) * |p| := by
  have H := pw_day 0 (by norm_num) (by norm_num)
  have v1 := pf_tas (h := 0) (V := Units.kts2mps 80) (by norm_num) (by norm_num) (by norm_num [Units.kts2mps])
  obtain ⟨m, hm, m0, m1⟩ := pf_mach (o := 0) (h := 0) (v := Units.kts2mps 80 / √(Atmos.isadens 0 0 / Atmos.isadens 0 0)) le_rfl (by norm_num)
    (div_nonneg (by norm_num [Units.kts2mps]) (Real.sqrt_nonneg _)) (v1.trans (by norm_num [Units.kts2mps]))
  obtain ⟨K, hK⟩ := pw_k X m
  obtain ⟨c0, c1⟩ := pf_cl (w := 600) (V := Units.kts2mps 80) (lo := 0.38) (hi := 1) (by norm_num [Units.kts2mps])
    (by norm_num [Units.kts2mps]) (by norm_num [Units.kts2mps]) (by norm_num) (by norm_num)
  have k0 : 0 < K 600 (600 * pyNum pwC.climb_weight_fraction /
      (0.5 * Atmos.isadens 0 0 * (Units.kts2mps 80 / √(Atmos.isadens 0 0 / Atmos.isadens 0 0)) ^ 2)) := by
    rw [pf_q (H.dens 0) (H.dens 0), show (600 : ℝ) * pyNum pwC.climb_weight_fraction = 600 from by norm_num [pwC, exC, pyNum]]
    exact pw_kpos hK m0 m1 c0 c1
  obtain ⟨p, hp, hacc⟩ := C158_climb binary64 (exactPow binary64) X pwC (Or.inl rfl) H rfl hP rfl rfl rfl (by norm_num)
    (by norm_num) (by norm_num [Units.fpm2mps, Units.feet2m, Units.kts2mps]) (by norm_num)
    (by norm_num [pwC, exC, pyNum]) (by norm_num [pwC, exC, pyNum]) rfl hm hK rfl k0
  refine ⟨_, p, k0, hp, ?_⟩
  have := hacc 0 _ (by norm_num) (Acc.refl _)
  rw [Nat.cast_zero, add_zero] at this
  exact this

example (X : Ext) : ∃ P k p, 0 < k ∧ powerrequired X pwC (.scalar 600) 1100 true true = .ok P ∧ recastArray P.climb = [p] ∧
    |climbHp binary64 (exactPow binary64) 0 0 80 1000 0.025 k 600 1 1100 0.75 - p| ≤ 595 * (2 : ℝ) ^ (-53 : ℤ) * |p| :=
  let ⟨P, hP⟩ := pw_exists X 600 1100 true
  let ⟨k, p, h0, h1, h2⟩ := pw_climb hP
  ⟨P, k, p, h0, hP, h1, h2⟩

theorem pw_ceiling {X : Ext} {fo : Bool} {P : Req} (hP : powerrequired X pwC (.scalar 600) 1100 fo true = .ok P) :
    ∃ k p, 0 < k ∧ recastArray P.servceil = [p] ∧
    |ceilingHp binary64 (exactPow binary64) 0 6000 90 0.025 k 600 1 1100 0.65 - p| ≤ 205 * (2 : ℝ) ^ (-53 : ℤ) * |p| := by
  have H := pw_day 6000 (by norm_num) (by norm_num)
  have v1 := pf_tas (h := 6000) (V := Units.kts2mps 90) (by norm_num) (by norm_num) (by norm_num [Units.kts2mps])
  obtain ⟨m, hm, m0, m1⟩ := pf_mach (o := 0) (h := 6000) (v := Units.kts2mps 90 / √(Atmos.isadens 0 6000 / Atmos.isadens 0 0)) le_rfl
    (by norm_num) (div_nonneg (by norm_num [Units.kts2mps]) (Real.sqrt_nonneg _)) (v1.trans (by norm_num [Units.kts2mps]))
  obtain ⟨K, hK⟩ := pw_k X m
  obtain ⟨c0, c1⟩ := pf_cl (w := 600) (V := Units.kts2mps 90) (lo := 0.38) (hi := 1) (by norm_num [Units.kts2mps])
    (by norm_num [Units.kts2mps]) (by norm_num [Units.kts2mps]) (by norm_num) (by norm_num)
  have k0 : 0 < K 600 (600 * pyNum pwC.sec_weight_fraction /
      (0.5 * Atmos.isadens 0 6000 * (Units.kts2mps 90 / √(Atmos.isadens 0 6000 / Atmos.isadens 0 0)) ^ 2)) := by
    rw [pf_q (H.dens 6000) (H.dens 0), show (600 : ℝ) * pyNum pwC.sec_weight_fraction = 600 from by norm_num [pwC, exC, pyNum]]
    exact pw_kpos hK m0 m1 c0 c1
  obtain ⟨p, hp, hacc⟩ := C158_ceiling binary64 (exactPow binary64) X pwC (Or.inl rfl) H rfl hP rfl rfl (by norm_num)
    (by norm_num) (by norm_num [pwC, exC, pyNum]) (by norm_num [pwC, exC, pyNum]) rfl hm hK rfl k0
  refine ⟨_, p, k0, hp, ?_⟩
  have := hacc 0 _ (by norm_num) (Acc.refl _)
  rw [Nat.cast_zero, add_zero] at this
  exact this

example (X : Ext) : ∃ P k p, 0 < k ∧ powerrequired X pwC (.scalar 600) 1100 true true = .ok P ∧ recastArray P.servceil = [p] ∧
    |ceilingHp binary64 (exactPow binary64) 0 6000 90 0.025 k 600 1 1100 0.65 - p| ≤ 205 * (2 : ℝ) ^ (-53 : ℤ) * |p| :=
  let ⟨P, hP⟩ := pw_exists X 600 1100 true
  let ⟨k, p, h0, h1, h2⟩ := pw_ceiling hP
  ⟨P, k, p, h0, hP, h1, h2⟩

theorem pw_takeoff {X : Ext} {fo : Bool} {P : Req} (hP : powerrequired X pwC (.scalar 600) 1100 fo true = .ok P) :
    ∃ p, recastArray P.takeoff = [p] ∧
    |takeoffHp binary64 (exactPow binary64) 0 0 400 (pyNum pwC.clmaxto) (pyNum pwC.cdto) (pyNum pwC.clto) (pyNum pwC.mu_r) 600 1100 0.5 - p| ≤
      161 * (2 : ℝ) ^ (-53 : ℤ) * |p| := by
  obtain ⟨p, hp, hacc⟩ := C158_takeoff binary64 (exactPow binary64) X pwC (Or.inl rfl) (pw_day 0 (by norm_num) (by norm_num)) rfl hP rfl
    (by constructor <;> norm_num [pwC, exC, pyNum]) (by norm_num [pwC, exC, pyNum]) (by norm_num)
  exact ⟨p, hp, hacc⟩

example (X : Ext) : ∃ P p, powerrequired X pwC (.scalar 600) 1100 true true = .ok P ∧ recastArray P.takeoff = [p] ∧
    |takeoffHp binary64 (exactPow binary64) 0 0 400 (pyNum pwC.clmaxto) (pyNum pwC.cdto) (pyNum pwC.clto) (pyNum pwC.mu_r) 600 1100 0.5 - p| ≤
      161 * (2 : ℝ) ^ (-53 : ℤ) * |p| :=
  let ⟨P, hP⟩ := pw_exists X 600 1100 true
  let ⟨p, h1, h2⟩ := pw_takeoff hP
  ⟨P, p, hP, h1, h2⟩

theorem pw_turn {X : Ext} {fo : Bool} {P : Req} (hP : powerrequired X pwC (.scalar 600) 1100 fo true = .ok P) :
    ∃ k p, 0 < k ∧ recastArray P.turn = [p] ∧
    |turnHp binary64 (exactPow binary64) 0 0 120 0.025 2 k 600 1 1 1100 0.85 - p| ≤ 177 * (2 : ℝ) ^ (-53 : ℤ) * |p| := by
  obtain ⟨m, hm, m0, m1⟩ := pf_mach (o := 0) (h := 0) (v := Units.kts2mps 120) le_rfl (by norm_num)
    (by norm_num [Units.kts2mps]) (by norm_num [Units.kts2mps])
  obtain ⟨K, hK⟩ := pw_k X m
  obtain ⟨c0, c1⟩ := pf_cl (w := 1200) (V := Units.kts2mps 120) (lo := 0.38) (hi := 1) (by norm_num [Units.kts2mps])
    (by norm_num [Units.kts2mps]) (by norm_num [Units.kts2mps]) (by norm_num) (by norm_num)
  have k0 : 0 < K (600 * pyNum pwC.turn_weight_fraction) (600 * pyNum pwC.turn_weight_fraction * pyNum pwC.climb_weight_fraction * 2 /
      (0.5 * Atmos.isadens 0 0 * Units.kts2mps 120 ^ 2)) := by
    rw [show (600 : ℝ) * pyNum pwC.turn_weight_fraction = 600 from by norm_num [pwC, exC, pyNum],
      show (600 : ℝ) * pyNum pwC.climb_weight_fraction * 2 = 1200 from by norm_num [pwC, exC, pyNum]]
    exact pw_kpos hK m0 m1 c0 c1
  obtain ⟨p, hp, hacc⟩ := C158_turn binary64 (exactPow binary64) X pwC (Or.inl rfl) (pw_day 0 (by norm_num) (by norm_num)) rfl hP
    rfl rfl rfl (by norm_num) (by norm_num) (by norm_num) (by norm_num [pwC, exC, pyNum]) (by norm_num [pwC, exC, pyNum])
    (by norm_num [pwC, exC, pyNum]) hm hK rfl k0
  refine ⟨_, p, k0, hp, ?_⟩
  have := hacc 0 _ (by norm_num) (Acc.refl _)
  rw [Nat.cast_zero, add_zero] at this
  exact this

example (X : Ext) : ∃ P k p, 0 < k ∧ powerrequired X pwC (.scalar 600) 1100 true true = .ok P ∧ recastArray P.turn = [p] ∧
    |turnHp binary64 (exactPow binary64) 0 0 120 0.025 2 k 600 1 1 1100 0.85 - p| ≤ 177 * (2 : ℝ) ^ (-53 : ℤ) * |p| :=
  let ⟨P, hP⟩ := pw_exists X 600 1100 true
  let ⟨k, p, h0, h1, h2⟩ := pw_turn hP
  ⟨P, k, p, h0, hP, h1, h2⟩

example (X : Ext) : ∃ P kn kl kc ks pt pn pl pc ps p, powerrequired X pwC (.scalar 600) 1100 false true = .ok P ∧
    P.combined.toList = [some p] ∧ IsGreatest {pt, pn, pl, pc, ps} p ∧ recastArray P.takeoff = [pt] ∧ recastArray P.turn = [pn] ∧
    recastArray P.climb = [pl] ∧ recastArray P.cruise = [pc] ∧ recastArray P.servceil = [ps] ∧
    |combinedHp
      (takeoffHp binary64 (exactPow binary64) 0 0 400 (pyNum pwC.clmaxto) (pyNum pwC.cdto) (pyNum pwC.clto) (pyNum pwC.mu_r) 600 1100 0.5)
      (turnHp binary64 (exactPow binary64) 0 0 120 0.025 2 kn 600 1 1 1100 0.85)
      (climbHp binary64 (exactPow binary64) 0 0 80 1000 0.025 kl 600 1 1100 0.75)
      (cruiseHp binary64 (exactPow binary64) 0 3000 150 0.025 kc 600 1 1 1100 0.85)
      (ceilingHp binary64 (exactPow binary64) 0 6000 90 0.025 ks 600 1 1100 0.65) - p| ≤
      595 * (2 : ℝ) ^ (-53 : ℤ) * (|pt| + |pn| + |pl| + |pc| + |ps|) := by
  obtain ⟨P, hP⟩ := pw_exists X 600 1100 false
  obtain ⟨pt, t1, t2⟩ := pw_takeoff hP
  obtain ⟨kn, pn, -, n1, n2⟩ := pw_turn hP
  obtain ⟨kl, pl, -, l1, l2⟩ := pw_climb hP
  obtain ⟨kc, pc, -, c1, c2⟩ := pw_cruise hP
  obtain ⟨ks, ps, -, s1, s2⟩ := pw_ceiling hP
  have w : ∀ {a b e : ℝ}, e ≤ 595 → |a - b| ≤ e * (2 : ℝ) ^ (-53 : ℤ) * |b| → |a - b| ≤ 595 * (2 : ℝ) ^ (-53 : ℤ) * |b| := fun h h' =>
    h'.trans (mul_le_mul_of_nonneg_right (mul_le_mul_of_nonneg_right h (by positivity)) (abs_nonneg _))
  obtain ⟨o, ho, h1, h2⟩ := C158_combined binary64 X pwC hP (e := 595) (by norm_num) t1 n1 l1 c1 s1
    (w (by norm_num) t2) (w (by norm_num) n2) (w (by norm_num) l2) (w (by norm_num) c2) (w (by norm_num) s2)
  obtain ⟨p, rfl⟩ := Option.ne_none_iff_exists'.mp (h1 rfl)
  exact ⟨P, kn, kl, kc, ks, pt, pn, pl, pc, ps, p, hP, ho, (h2 p rfl).1, t1, n1, l1, c1, s1, (h2 p rfl).2.1 _
    (by linarith [abs_nonneg pt, abs_nonneg pn, abs_nonneg pl, abs_nonneg pc, abs_nonneg ps])
    (by linarith [abs_nonneg pt, abs_nonneg pn, abs_nonneg pl, abs_nonneg pc, abs_nonneg ps])
    (by linarith [abs_nonneg pt, abs_nonneg pn, abs_nonneg pl, abs_nonneg pc, abs_nonneg ps])
    (by linarith [abs_nonneg pt, abs_nonneg pn, abs_nonneg pl, abs_nonneg pc, abs_nonneg ps])
    (by linarith [abs_nonneg pt, abs_nonneg pn, abs_nonneg pl, abs_nonneg pc, abs_nonneg ps])⟩

example (X : Ext) : ∃ P pt pn pl pc ps p, twrequired X pwC (.scalar 600) false true = .ok P ∧ P.combined.toList = [some p] ∧
    IsGreatest {pt, pn, pl, pc, ps} p ∧ twrequired_clm X pwC (.scalar 600) true = .ok (.scalar pl) ∧
    twrequired_crs X pwC (.scalar 600) true = .ok (.scalar pc) ∧ twrequired_sec X pwC (.scalar 600) true = .ok (.scalar ps) ∧
    |combinedHp (binary64.rd pt) (binary64.rd pn) (binary64.rd pl) (binary64.rd pc) (binary64.rd ps) - p| ≤
      1 * (2 : ℝ) ^ (-53 : ℤ) * (|pt| + |pn| + |pl| + |pc| + |ps|) := by
  obtain ⟨P, hP⟩ := (C48_given X pwC (.scalar 600) false true (isa_ready pwC 0 rfl (by norm_num) (by norm_num [pwC, exC, pyNum])
    (by norm_num [pwC, exC, pyNum]) (by norm_num [pwC, exC, pyNum]) (by norm_num [pwC, exC, pyNum]) (by norm_num [pwC, exC, pyNum])
    (by intro h; exact absurd h (by decide))) (by simp [Missing, pwC, exC])).1
  rcases tw_point X pwC false true with ⟨e, he⟩ | ⟨R, hR, k1, k2, k3, k4, k5, -⟩
  · rw [he _ (by simp [recastArray])] at hP; cases hP
  have r : ∀ x, |binary64.rd x - x| ≤ 1 * binary64.u * |x| := fun x => by rw [one_mul]; exact binary64.err x
  obtain ⟨o, ho, h1, -, h2⟩ := C158_thrust binary64 X pwC hP (e := 1) (by norm_num) (k1 (.scalar 600)) (k2 (.scalar 600)) (k3 (.scalar 600))
    (k4 (.scalar 600)) (k5 (.scalar 600)) (r _) (r _) (r _) (r _) (r _)
  obtain ⟨p, rfl⟩ := Option.ne_none_iff_exists'.mp (h1 rfl)
  exact ⟨P, _, _, _, _, _, p, hP, ho, (h2 p rfl).1, k3 (.scalar 600), k4 (.scalar 600), k5 (.scalar 600), (h2 p rfl).2.1 _
    (by linarith [abs_nonneg (R 600).takeoff, abs_nonneg (R 600).turn, abs_nonneg (R 600).climb, abs_nonneg (R 600).cruise, abs_nonneg (R 600).servceil])
    (by linarith [abs_nonneg (R 600).takeoff, abs_nonneg (R 600).turn, abs_nonneg (R 600).climb, abs_nonneg (R 600).cruise, abs_nonneg (R 600).servceil])
    (by linarith [abs_nonneg (R 600).takeoff, abs_nonneg (R 600).turn, abs_nonneg (R 600).climb, abs_nonneg (R 600).cruise, abs_nonneg (R 600).servceil])
    (by linarith [abs_nonneg (R 600).takeoff, abs_nonneg (R 600).turn, abs_nonneg (R 600).climb, abs_nonneg (R 600).cruise, abs_nonneg (R 600).servceil])
    (by linarith [abs_nonneg (R 600).takeoff, abs_nonneg (R 600).turn, abs_nonneg (R 600).climb, abs_nonneg (R 600).cruise, abs_nonneg (R 600).servceil])⟩

end Verif.Props
