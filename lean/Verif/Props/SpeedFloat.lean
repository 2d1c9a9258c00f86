import Verif.Model.SpeedFloat
import Verif.Props.AirspeedFloat
import Verif.Props.Constraint6

/-
Property C154: stall speed, stall-limited wing loading and area, best climb speed and turn radius in floating point.
-/

namespace Verif.Props
open Verif Verif.Fl Verif.Aircraft

variable (F : Rounding) (M : Libm2 F)

theorem acc_dens_sl {o : ℝ} (ho : |o| ≤ 100) :
    0 < Atmos.isadens o 0 ∧ Acc F 42 (Fl.isadens F M.toLibm o 0) (Atmos.isadens o 0) := by
  have H : InIsa o 0 := ⟨ho, le_rfl, by norm_num⟩
  exact ⟨C13_positive o 0 H.hot.2, (acc_dens F M.toLibm o 0 ho (by norm_num) (by norm_num)).2 (by norm_num)⟩

theorem acc_vstall {n : ℕ} {wh w cl : ℝ} (hw : Acc F (2 * n) wh w) (w0 : 0 < w) (c0 : 0 < cl) :
    Acc F (n + 26) (Fl.vstall_kias F M wh cl) (Units.mps2kts (√(2 * w / (Atmos.isadens 0 0 * cl)))) := by
  obtain ⟨d0, ad⟩ := acc_dens_sl F M (o := 0) (by norm_num)
  have a1 : Acc F 43 _ _ := (ad.mul (Acc.refl (F := F) cl)).round
  have a2 : Acc F (2 * n + 1) _ _ := (((Acc.refl (F := F) 2).mul hw).round).weaken (by omega)
  have a3 : Acc F (2 * (n + 23)) _ _ := ((a2.div a1).round).weaken (by omega)
  have a4 : Acc F (n + 24) _ _ := (a3.sqrt (by positivity)).round
  exact ((a4.mul (Acc.rd F 1.9438445)).round).weaken (by omega)

/-- C154: the stall speed at a wing loading is accurate to 27 units of rounding. -/
theorem C154_vstall (c : Concept) (w cl : ℝ) (w0 : 0 < w) (c0 : 0 < cl) :
    ∃ v, Aircraft.vstall_kias c (.scalar w) (.num cl) = .ok v ∧ |Fl.vstall_kias F M w cl - v| ≤ 27 * F.u * v := by
  obtain ⟨d0, _⟩ := acc_dens_sl F M (o := 0) (by norm_num)
  have hp : 0 < 2 * w / (Atmos.isadens 0 0 * cl) := by positivity
  refine ⟨Units.mps2kts (√(2 * w / (Atmos.isadens 0 0 * cl))), ?_, ?_⟩
  · unfold Aircraft.vstall_kias
    rw [isa_dens1 0 0 (by norm_num)]
    simp only [recastArray, bind_ok, not_lt.mpr hp.le, if_false]
    rfl
  · have := (acc_vstall F M (n := 0) (Acc.refl (F := F) w) w0 c0).err 27 (by norm_num) (by norm_num)
    rwa [abs_of_nonneg (show 0 ≤ Units.mps2kts (√(2 * w / (Atmos.isadens 0 0 * cl))) by unfold Units.mps2kts; positivity)] at this

theorem acc_wsmax {o vs cl : ℝ} (ho : |o| ≤ 100) (v0 : 0 < vs) :
    Acc F 52 (Fl.wsmaxcleanstall_pa F M o vs cl) (0.5 * Atmos.isadens o 0 * (Units.kts2mps vs) ^ 2 * cl) := by
  obtain ⟨d0, ad⟩ := acc_dens_sl F M ho
  have a1 := Acc.dynamicpressure M.toLibm ad ((Acc.refl (F := F) vs).kts2mps) (by unfold Units.kts2mps; positivity)
  have a2 := (a1.mul (Acc.refl (F := F) cl)).round
  unfold Fl.wsmaxcleanstall_pa
  exact a2.weaken (by norm_num)

theorem wsmax_eq {c : Concept} {o vs cl : ℝ} (ha : c.designatm = .isa o) (hv : c.vstallclean_kcas = some vs) (hc : c.clmaxclean = some cl) :
    Aircraft.wsmaxcleanstall_pa c = .ok (0.5 * Atmos.isadens o 0 * (Units.kts2mps vs) ^ 2 * cl) := by
  unfold Aircraft.wsmaxcleanstall_pa Atmos.dynamicpressure_pa
  rw [hc, hv, ha, isa_dens1 o 0 (by norm_num)]; rfl

/-- C154: the stall-limited wing loading is accurate to 53, the smallest wing area to 56 units of rounding. -/
theorem C154_stall (c : Concept) (o vs cl m : ℝ) (ha : c.designatm = .isa o) (ho : |o| ≤ 100) (hv : c.vstallclean_kcas = some vs)
    (hc : c.clmaxclean = some cl) (v0 : 0 < vs) (c0 : 0 < cl) (m0 : 0 < m) :
    ∃ ws s, Aircraft.wsmaxcleanstall_pa c = .ok ws ∧ Aircraft.smincleanstall_m2 c m = .ok s ∧
      |Fl.wsmaxcleanstall_pa F M o vs cl - ws| ≤ 53 * F.u * ws ∧ |Fl.smincleanstall_m2 F M o vs cl m - s| ≤ 56 * F.u * s := by
  obtain ⟨d0, _⟩ := acc_dens_sl F M ho
  have hk : 0 < Units.kts2mps vs := by unfold Units.kts2mps; positivity
  have a := acc_wsmax F M (cl := cl) ho v0
  have e := wsmax_eq ha hv hc
  have hp : 0 < 0.5 * Atmos.isadens o 0 * (Units.kts2mps vs) ^ 2 * cl := by positivity
  refine ⟨_, Units.kg2n m / (0.5 * Atmos.isadens o 0 * (Units.kts2mps vs) ^ 2 * cl), e, ?_, ?_, ?_⟩
  · unfold Aircraft.smincleanstall_m2; rw [e]; rfl
  · have := a.err 53 (by norm_num) (by norm_num)
    rwa [abs_of_pos hp] at this
  · have b : Acc F 55 _ _ := ((((Acc.refl (F := F) m).mul (Acc.rd F 9.80665)).round).div a).round
    have := b.err 56 (by norm_num) (by norm_num)
    have hs : 0 < Units.kg2n m / (0.5 * Atmos.isadens o 0 * (Units.kts2mps vs) ^ 2 * cl) := by
      unfold Units.kg2n Units.gAcc; exact div_pos (by positivity) hp
    have hm : Units.kg2n m / (0.5 * Atmos.isadens o 0 * (Units.kts2mps vs) ^ 2 * cl) =
      m * 9.80665 / (0.5 * Atmos.isadens o 0 * (Units.kts2mps vs) ^ 2 * cl) := rfl
    rw [← hm, abs_of_pos hs] at this
    exact this

/-- C154: the stall speed computed for the stall-limited wing loading computed in the standard atmosphere gives the stall speed of the
brief back, to 53 units of rounding and the knots drift of C03. -/
theorem C154_inverse (vs cl : ℝ) (v0 : 0 < vs) (c0 : 0 < cl) :
    |Fl.vstall_kias F M (Fl.wsmaxcleanstall_pa F M 0 vs cl) cl - vs| ≤ (53 * F.u * 1.0000002 + 2e-7) * vs := by
  obtain ⟨d0, _⟩ := acc_dens_sl F M (o := 0) (by norm_num)
  have hk : 0 < Units.kts2mps vs := by unfold Units.kts2mps; positivity
  have a := acc_vstall F M (n := 26) (acc_wsmax F M (o := 0) (cl := cl) (by norm_num) v0) (by positivity) c0
  have e : 2 * (0.5 * Atmos.isadens 0 0 * (Units.kts2mps vs) ^ 2 * cl) / (Atmos.isadens 0 0 * cl) = (Units.kts2mps vs) ^ 2 := by
    field_simp; norm_num
  rw [e, Real.sqrt_sq hk.le] at a
  have e2 : Units.mps2kts (Units.kts2mps vs) = ktsDrift * vs := by unfold Units.mps2kts Units.kts2mps ktsDrift; ring
  rw [e2] at a
  have b := a.err 53 (by norm_num) (by norm_num)
  have k := abs_lt.1 ktsDrift_close
  rw [abs_of_pos (mul_pos (by norm_num at k; linarith [k.1]) v0)] at b
  have hu := F.u_nonneg
  have c : |Fl.vstall_kias F M (Fl.wsmaxcleanstall_pa F M 0 vs cl) cl - vs| ≤
      |Fl.vstall_kias F M (Fl.wsmaxcleanstall_pa F M 0 vs cl) cl - ktsDrift * vs| + |ktsDrift * vs - vs| := by
    have := abs_add_le (Fl.vstall_kias F M (Fl.wsmaxcleanstall_pa F M 0 vs cl) cl - ktsDrift * vs) (ktsDrift * vs - vs)
    rwa [sub_add_sub_cancel] at this
  have d : |ktsDrift * vs - vs| ≤ 2e-7 * vs := by
    rw [show ktsDrift * vs - vs = (ktsDrift - 1) * vs by ring, abs_mul, abs_of_pos v0]
    exact mul_le_mul_of_nonneg_right ktsDrift_close.le v0.le
  have g : 53 * F.u * (ktsDrift * vs) ≤ 53 * F.u * (1.0000002 * vs) := by
    have : ktsDrift ≤ 1.0000002 := by norm_num at k ⊢; linarith [k.2]
    gcongr
  linarith

/-- C154: the best climb speed of a propeller aircraft at a wing loading, from wing geometry to result, is accurate to 250 units of
rounding. -/
theorem C154_climb (c : Concept) (o h w : ℝ) (ha : c.designatm = .isa o) (H : InIsa o h) (hc : UsualWing c)
    (hcd : 0 < pyNum c.cdminclean) (w0 : 0 < w) :
    ∃ v, Aircraft.bestclimbspeedprop c (.scalar w) h = .ok (.scalar v) ∧
      |Fl.bestclimbspeedprop F M o (pyNum c.aspectratio) (pyNum c.sweep_mt_deg) (pyNum c.roottaperratio) (pyNum c.sweep_25_deg)
        (pyNum c.cdminclean) w h - v| ≤ 250 * F.u * v := by
  obtain ⟨k, ek, bk, kl⟩ := C152_factor F M c hc none
  have hr : 0 < 1 / (Real.pi * pyNum c.aspectratio) := by have := hc.ar0; have := Real.pi_pos; positivity
  have hk : 0 < k := by
    obtain ⟨k', ek', hk', _⟩ := C40_factor c none hc.ar0
    rw [ek] at ek'; cases ek'; exact hk'
  have ak : Acc F 701 (Fl.induceddragfact F M (pyNum c.aspectratio) (pyNum c.sweep_mt_deg) (pyNum c.roottaperratio) (pyNum c.sweep_25_deg)) k :=
    Acc.of_err 700 (by norm_num) hk (by exact_mod_cast bk)
  obtain ⟨t, t0⟩ := H.hot
  have pd := C13_positive o h t
  have ad := (acc_dens F M.toLibm o h H.off (by linarith [H.low]) H.high).1
  have a1 : Acc F (2 * 352) _ _ := ((ak.div (((Acc.refl (F := F) 3).mul (Acc.refl (F := F) (pyNum c.cdminclean))).round)).round).weaken (by norm_num)
  have a2 : Acc F 353 _ _ := (a1.sqrt (by positivity)).round
  have a3 : Acc F 135 _ _ := ((Acc.refl (F := F) 2).div ad).round
  have a4 : Acc F 136 _ _ := (a3.mul (Acc.refl (F := F) w)).round
  have a5 : Acc F (2 * 245) _ _ := (a4.mul a2).round
  have a6 : Acc F 246 _ _ := (a5.sqrt (by positivity)).round
  refine ⟨√(2 / Atmos.isadens o h * w * √(k / (3 * pyNum c.cdminclean))), ?_, ?_⟩
  · unfold Aircraft.bestclimbspeedprop
    rw [ek, ha, isa_dens1 o h H.high]; rfl
  · have := a6.err 250 (by norm_num) (by norm_num)
    rwa [abs_of_nonneg (Real.sqrt_nonneg _)] at this

/-- C154: the turn radius of a bank angle up to 60 degrees is accurate to 45 units of rounding. -/
theorem C154_radius (c : Concept) (b : ℝ) (hb : 0 < b) (hb1 : b ≤ 60) (hv : 0 < pyNum c.turnspeed_ktas) :
    |Fl.bank2turnradius F M (pyNum c.turnspeed_ktas) b - Aircraft.bank2turnradius c b| ≤ 45 * F.u * Aircraft.bank2turnradius c b := by
  have hp : 0 < Real.tan (Atmos.deg2rad b) := by
    have h3 := deg_bound (x := b) (by rw [abs_of_pos hb]; exact hb1)
    have hpi := Real.pi_pos
    have h4 : 0 < Atmos.deg2rad b := by unfold Atmos.deg2rad; positivity
    rw [abs_of_pos h4] at h3
    exact Real.tan_pos_of_pos_of_lt_pi_div_two h4 (by linarith)
  have a1 : Acc F 33 _ _ := ((Acc.rd F 9.80665).mul (acc_tan M (x := b) (by rw [abs_of_pos hb]; exact hb1))).round
  have a2 := ((Acc.refl (F := F) (pyNum c.turnspeed_ktas)).kts2mps).libm_sq M.toLibm (by unfold Units.kts2mps; positivity)
  have a3 : Acc F 44 _ _ := ((a2.div a1).round).weaken (by norm_num)
  have := a3.err 45 (by norm_num) (by norm_num)
  have hq : 0 < Aircraft.bank2turnradius c b := by
    unfold Aircraft.bank2turnradius Units.gAcc Units.kts2mps
    positivity
  have e : Aircraft.bank2turnradius c b = (Units.kts2mps (pyNum c.turnspeed_ktas)) ^ 2 / (9.80665 * Real.tan (Atmos.deg2rad b)) := rfl
  rw [← e, abs_of_pos hq] at this
  exact this

example : ∃ v, Aircraft.vstall_kias exC (.scalar 800) (.num 1.5) = .ok v ∧
    |Fl.vstall_kias binary64 (exactLibm binary64) 800 1.5 - v| ≤ 27 * (2 : ℝ) ^ (-53 : ℤ) * v :=
  C154_vstall binary64 (exactLibm binary64) exC 800 1.5 (by norm_num) (by norm_num)

example : ∃ ws s, Aircraft.wsmaxcleanstall_pa { exC with designatm := .isa 15, vstallclean_kcas := some 60, clmaxclean := some 1.5 } = .ok ws ∧
    Aircraft.smincleanstall_m2 { exC with designatm := .isa 15, vstallclean_kcas := some 60, clmaxclean := some 1.5 } 1500 = .ok s ∧
    |Fl.wsmaxcleanstall_pa binary64 (exactLibm binary64) 15 60 1.5 - ws| ≤ 53 * (2 : ℝ) ^ (-53 : ℤ) * ws ∧
    |Fl.smincleanstall_m2 binary64 (exactLibm binary64) 15 60 1.5 1500 - s| ≤ 56 * (2 : ℝ) ^ (-53 : ℤ) * s :=
  C154_stall binary64 (exactLibm binary64) _ 15 60 1.5 1500 rfl (by norm_num [abs_le]) rfl rfl (by norm_num) (by norm_num) (by norm_num)

example : |Fl.vstall_kias binary64 (exactLibm binary64) (Fl.wsmaxcleanstall_pa binary64 (exactLibm binary64) 0 60 1.5) 1.5 - 60| ≤
    (53 * (2 : ℝ) ^ (-53 : ℤ) * 1.0000002 + 2e-7) * 60 :=
  C154_inverse binary64 (exactLibm binary64) 60 1.5 (by norm_num) (by norm_num)

example : ∃ v, Aircraft.bestclimbspeedprop { sweptWing with designatm := .isa 15, cdminclean := some 0.025 } (.scalar 1200) 9000 = .ok (.scalar v) ∧
    |Fl.bestclimbspeedprop binary64 (exactLibm binary64) 15 9 26 0.3 27 0.025 1200 9000 - v| ≤ 250 * (2 : ℝ) ^ (-53 : ℤ) * v :=
  C154_climb binary64 (exactLibm binary64) { sweptWing with designatm := .isa 15, cdminclean := some 0.025 } 15 9000 1200 rfl exIsa
    ⟨sweptWing_usual.ar0, sweptWing_usual.ar1, sweptWing_usual.le, sweptWing_usual.mt, sweptWing_usual.q0, sweptWing_usual.q1,
      sweptWing_usual.t0, sweptWing_usual.t1⟩ (by norm_num [pyNum]) (by norm_num)

example : |Fl.bank2turnradius binary64 (exactLibm binary64) 100 30 - Aircraft.bank2turnradius { exC with turnspeed_ktas := some 100 } 30| ≤
    45 * (2 : ℝ) ^ (-53 : ℤ) * Aircraft.bank2turnradius { exC with turnspeed_ktas := some 100 } 30 :=
  C154_radius binary64 (exactLibm binary64) { exC with turnspeed_ktas := some 100 } 30 (by norm_num) (by norm_num) (by norm_num [pyNum])

end Verif.Props
