import Verif.Lemmas.Envelope

/-
When the flight envelope of ADRpy/airworthiness.py is computed without an error.
-/

namespace Verif.Props
open Verif Verif.Aircraft Verif.Units Verif.Airworthiness

noncomputable section

/-- Complete data with the usual signs. -/
structure Flyable (X : Ext) (o : Cert) (W S clmax clmin : ℝ) : Prop where
  cat : ∃ cat, parseCat o.category = .ok cat
  env : EnvOK o.acobj.designatm o.altitude_m
  env0 : EnvOK o.acobj.designatm 0
  cruise : ∃ vc, 0 ≤ vc ∧ o.cruisespeed_keas = some vc
  weight : o.acobj.weight_n = some W
  area : o.acobj.wingarea_m2 = some S
  hmax : o.acobj.clmaxclean = some clmax
  hmin : o.acobj.clminclean = some clmin
  pW : 0 < W
  pS : 0 < S
  pmax : 0 < clmax
  nmin : clmin < 0
  ar : 0 < pyNum o.acobj.aspectratio
  wf : 0 < o.weightfraction
  slope : ∀ rho vc m a, Atmos.dens1 o.acobj.designatm o.altitude_m = .ok rho → o.cruisespeed_keas = some vc →
    Atmos.mach1 o.acobj.designatm (kts2mps (Units.eas2tas vc rho)) o.altitude_m = .ok m →
    liftslope_prad X o.acobj (some m) = .ok a → 0 < a

theorem meanchord_pos {o : Cert} {S smc mac : ℝ} (hS : o.acobj.wingarea_m2 = some S) (pS : 0 < S)
    (par : 0 < pyNum o.acobj.aspectratio) (h : meanchord_m o = .ok (smc, mac)) : 0 < smc := by
  unfold meanchord_m at h
  simp only [bind_ok_iff, mathSqrt_ok] at h
  obtain ⟨_, ⟨-, rfl⟩, _, -, h⟩ := h
  cases h
  rw [hS]
  show 0 < √(S / _)
  positivity

theorem Flyable.gust {X : Ext} {o : Cert} {W S clmax clmin : ℝ} (f : Flyable X o W S clmax clmin) (speeds : Gust → Option ℝ) :
    ∃ l k a, paragraph341 X o speeds = .ok (l, k, a) := by
  obtain ⟨rho, pr, hr⟩ := f.env.dens
  obtain ⟨rho0, pr0, hr0⟩ := f.env0.dens
  obtain ⟨vc, hv, hc⟩ := f.cruise
  obtain ⟨m, hm⟩ := f.env.mach (kts2mps (Units.eas2tas vc rho))
  obtain ⟨_, _, -, -, ha⟩ := C71_estimates X o.acobj (some m)
  have h337 : ∃ l, paragraph337 o = .ok l := by
    unfold paragraph337; simp only [f.weight, f.area, need, bind_ok]; exact ⟨_, rfl⟩
  obtain ⟨l, hl⟩ := h337
  have hmc : ∃ x, meanchord_m o = .ok x := by
    unfold meanchord_m
    have : mathSqrt (pyNum o.acobj.wingarea_m2 / pyNum o.acobj.aspectratio) = .ok (√(pyNum o.acobj.wingarea_m2 / pyNum o.acobj.aspectratio)) := by
      rw [mathSqrt_ok]
      refine ⟨div_nonneg ?_ f.ar.le, rfl⟩
      rw [f.area]; exact f.pS.le
    simp only [this, bind_ok]
    exact ⟨_, rfl⟩
  obtain ⟨⟨smc, mac⟩, hmc⟩ := hmc
  unfold paragraph341
  simp only [hr, hc, need, bind_ok, hm, f.weight, f.area, ha, hr0, paragraph333, hl, hmc]
  exact ⟨_, _, _, rfl⟩

theorem Flyable.alleviation {X : Ext} {o : Cert} {W S clmax clmin rho vc m W' S' a rho0 smc k : ℝ} (f : Flyable X o W S clmax clmin)
    (h : GustIn X o rho vc m W' S' a rho0 smc k) :
    0 < rho ∧ 0 ≤ vc ∧ W' = W ∧ S' = S ∧ 0 < a ∧ 0 < rho0 ∧ 0 < smc ∧ 0 < k := by
  obtain ⟨r, pr, hr⟩ := f.env.dens
  obtain ⟨r0, pr0, hr0⟩ := f.env0.dens
  obtain ⟨v, hv, hc⟩ := f.cruise
  have e1 := h.dens; rw [hr] at e1; cases e1
  have e2 := h.dens0; rw [hr0] at e2; cases e2
  have e3 := h.cruise; rw [hc] at e3; cases e3
  have e4 := h.weight; rw [f.weight] at e4; cases e4
  have e5 := h.area; rw [f.area] at e5; cases e5
  have pa := f.slope _ _ _ _ hr hc h.mach h.slope
  obtain ⟨mac, hm⟩ := h.chord
  have ps := meanchord_pos f.area f.pS f.ar hm
  have := f.pW; have := f.pS; have := f.wf
  refine ⟨pr, hv, rfl, rfl, pa, pr0, ps, ?_⟩
  rw [h.allev]
  have hmu : 0 < mu_g (W / S * o.weightfraction) rho smc a := by unfold mu_g gAcc; positivity
  unfold k_gust
  positivity

theorem interp_gust_pos (alt hi lo : ℝ) (h : lo < hi) (hl : 0 < lo) :
    0 < npInterp2 alt (feet2m 20000) (feet2m 50000) (feet2m hi) (feet2m lo) := by
  rw [interp_gust]
  have := ((C56_shape hi lo h hl).1 (alt / 0.3048)).2.2
  positivity

theorem limits_ok {o : Cert} {l : Cat → ℝ × ℝ} (h : paragraph337 o = .ok l) (W : ℝ) (hW : o.acobj.weight_n = some W) (pW : 0 < W)
    (cat : Cat) : 2.1 < (l cat).1 ∧ (l cat).2 < 0 := by
  obtain ⟨W', S, hW', hS, h1, h2, h3, h4⟩ := paragraph337_ok h
  rw [hW] at hW'; cases hW'
  have hl : (0:ℝ) < n2lbf W := by unfold n2lbf; positivity
  have hr := C55_range (n2lbf W) hl.le
  rw [min_cs337 _ hl.le] at h1 h2 h4
  have hp : 0 < cs337 (n2lbf W) := by norm_num at hr; linarith
  cases cat
  · rw [h1]; exact ⟨hr.1, by norm_num; linarith⟩
  · rw [h2]; exact ⟨by norm_num, by norm_num; linarith⟩
  · rw [h3, h1]; exact ⟨hr.1, by norm_num; linarith⟩
  · rw [h4]; exact ⟨by norm_num, by norm_num; linarith⟩

theorem Flyable.stalls {X : Ext} {o : Cert} {W S clmax clmin : ℝ} (f : Flyable X o W S clmax clmin) :
    ∃ rho0, 0 < rho0 ∧ Atmos.dens1 o.acobj.designatm 0 = .ok rho0 ∧
    vs_keas o o.weightfraction = .ok (1.9438445 * √(2 * o.weightfraction * W / (rho0 * S * clmax))) ∧
    vs_keas o (-o.weightfraction) = .ok (1.9438445 * √(2 * -o.weightfraction * W / (rho0 * S * clmin))) := by
  obtain ⟨rho0, pr0, hr0⟩ := f.env0.dens
  have := f.wf; have := f.pmax; have := f.nmin
  refine ⟨rho0, pr0, hr0, ?_, ?_⟩
  · apply C75_succeeds o _ W S rho0 clmax f.weight f.area hr0 f.pW.le f.pS pr0
    · rw [if_pos f.wf.le]; exact f.hmax
    · positivity
  · apply C75_succeeds o _ W S rho0 clmin f.weight f.area hr0 f.pW.le f.pS pr0
    · rw [if_neg (by linarith : ¬ 0 ≤ -o.weightfraction)]; exact f.hmin
    · nlinarith

/-- With complete data the envelope is computed. -/
theorem Flyable.envelope {X : Ext} {o : Cert} {W S clmax clmin : ℝ} (f : Flyable X o W S clmax clmin) :
    ∃ E, flightenvelope X o = .ok E := by
  obtain ⟨cat, hcat⟩ := f.cat
  obtain ⟨rho0, pr0, hr0, hvs, hvis⟩ := f.stalls
  obtain ⟨vc, hv, hc⟩ := f.cruise
  have h337 : ∃ l, paragraph337 o = .ok l := by
    unfold paragraph337; simp only [f.weight, f.area, need, bind_ok]; exact ⟨_, rfl⟩
  obtain ⟨l, hl⟩ := h337
  have h333 : ∃ M, paragraph333 o = .ok (M, gustList o.altitude_m) := by
    unfold paragraph333; rw [hl]; exact ⟨_, rfl⟩
  obtain ⟨M, hM⟩ := h333
  have hroot : ∃ rt, overCats (fun cat => mathSqrt (l cat).1) = .ok rt := by
    apply overCats_of
    intro cat
    have := (limits_ok hl W f.weight f.pW cat).1
    exact ⟨_, by rw [mathSqrt_ok]; exact ⟨by norm_num at this; linarith, rfl⟩⟩
  obtain ⟨rt, hrt⟩ := hroot
  have h335 : ∃ L, paragraph335 X o = .ok L := by
    obtain ⟨loads, k, a, hg⟩ := f.gust (fun g => if g = .Uc then some vc else none)
    obtain ⟨rho, vc', m, W', S', r0, smc, hi, hload⟩ := paragraph341_ok hg
    obtain ⟨pr, hv', rfl, rfl, pa, pr0', psm, pk⟩ := f.alleviation hi
    have e := hi.cruise; rw [hc] at e; cases e
    have e := hi.dens0; rw [hr0] at e; cases e
    unfold paragraph335
    simp only [hc, f.hmax, f.weight, f.area, need, bind_ok, hvs, hl, hrt, hM, hg, hr0]
    apply overCats_of
    intro cat
    unfold speedsAt
    have hq : gustLoad (loads cat) .Uc = .ok (loadOf k rho0 a (W' / S' * o.weightfraction) o.weightfraction (.Uc, gustc_mps o.altitude_m) vc) := by
      rw [hload]
      cases cat <;> (simp [gustLoad, gustList, loadOf])
    have hU : ∃ U, gustSpeed (gustList o.altitude_m cat) (if cat = .comm then .Ub else .Uc) = .ok U := by
      cases cat <;> simp [gustSpeed, gustList]
    obtain ⟨U, hU⟩ := hU
    have hs : ∃ r, mathSqrt (loadOf k rho0 a (W' / S' * o.weightfraction) o.weightfraction (.Uc, gustc_mps o.altitude_m) vc).npos = .ok r := by
      refine ⟨_, mathSqrt_ok.mpr ⟨?_, rfl⟩⟩
      have hgp : 0 < gustc_mps o.altitude_m := interp_gust_pos _ _ _ (by norm_num) (by norm_num)
      have := f.pW; have := f.pS; have := f.wf
      unfold loadOf gustIncrement kts2mps
      dsimp only
      positivity
    obtain ⟨r, hs⟩ := hs
    simp only [hU, bind_ok, hq, hs]
    exact ⟨_, rfl⟩
  obtain ⟨L, hL⟩ := h335
  obtain ⟨loads, k, a, hg⟩ := f.gust (envSpeeds (L cat).vbmin1 (max vc (L cat).vcmin) (match o.divespeed_keas with
    | none => (L cat).vdmin
    | some v => max v (L cat).vdmin))
  have hg' := hg
  obtain ⟨rho, vc', m, W', S', r0, smc, hi, hload⟩ := paragraph341_ok hg
  have hq : ∀ g, g ≠ .Ub → ∃ e, gustLoad (loads cat) g = .ok e := by
    intro g hgne
    rw [hload]
    cases cat <;> cases g <;> first | exact absurd rfl hgne | simp [gustLoad, gustList, loadOf, envSpeeds]
  obtain ⟨gc, hgc⟩ := hq .Uc (by simp)
  obtain ⟨gd, hgd⟩ := hq .Ud (by simp)
  unfold flightenvelope
  simp only [hcat, hr0, hc, f.hmax, f.hmin, f.weight, f.area, need, bind_ok, hL, hM, one_mul, neg_one_mul, hvs, hvis]
  have hg2 : paragraph341 X o (fun g => match g with
      | .Ub => some (L cat).vbmin1
      | .Uc => some (max vc (L cat).vcmin)
      | .Ud => some (match o.divespeed_keas with
        | none => (L cat).vdmin
        | some v => max v (L cat).vdmin)) = .ok (loads, k, a) := hg'
  erw [hg2]
  simp only [bind_ok, hgc, hgd]
  exact ⟨_, rfl⟩

/-- A light aircraft of the weight `W` at the weight fraction `wf`, in the category `cat`. -/
def exFly (W wf : ℝ) (cat : String) : Cert :=
  { exCert with acobj := { exC with weight_n := some W }, category := .str cat, weightfraction := wf }

theorem exC_wing (W : ℝ) : Wing { exC with weight_n := some W } := by
  have hp := Real.pi_pos
  constructor <;>
    norm_num [exC, pyNum, Concept.sweep_le_rad, Concept.sweep_25_rad, Atmos.deg2rad] <;> exact hp

theorem exFly_mach (vc m : ℝ) (h0 : 0 ≤ vc) (h1 : vc ≤ 120)
    (hm : Atmos.mach1 exAtm (kts2mps (Units.eas2tas vc 1)) 2000 = .ok m) : 0 ≤ m ∧ m ≤ 0.3 := by
  rw [Atmos.mach1_of (exAtm_vsound 2000 (by norm_num) (by norm_num))] at hm
  cases hm
  have h5 : (300:ℝ) ≤ Atmos.vsound 300 := by
    unfold Atmos.vsound; apply Real.le_sqrt_of_sq_le; norm_num [Atmos.R_JPKGPK]
  have e : (0.9:ℝ) ≤ (1 / 1.225 : ℝ) ^ (0.5 : ℝ) := by
    rw [show (0.5:ℝ) = 1 / 2 by norm_num, ← Real.sqrt_eq_rpow]
    apply Real.le_sqrt_of_sq_le; norm_num
  have e0 : (0:ℝ) < (1 / 1.225 : ℝ) ^ (0.5 : ℝ) := lt_of_lt_of_le (by norm_num) e
  unfold Units.eas2tas kts2mps
  constructor
  · positivity
  · rw [div_le_iff₀ (by linarith)]
    have : vc / (1 / 1.225 : ℝ) ^ (0.5 : ℝ) ≤ 120 / 0.9 := by gcongr
    norm_num at this ⊢
    linarith

theorem exFly_ok (X : Ext) (W wf : ℝ) (cat : String) (hW : 0 < W) (hwf : 0 < wf) (hc : ∃ c, parseCat (.str cat) = .ok c) :
    Flyable X (exFly W wf cat) W 12 1.5 (-1) where
  cat := hc
  env := exAtm_env 2000 (by norm_num) (by norm_num)
  env0 := exAtm_env 0 (by norm_num) (by norm_num)
  cruise := ⟨120, by norm_num, rfl⟩
  weight := rfl
  area := rfl
  hmax := rfl
  hmin := rfl
  pW := hW
  pS := by norm_num
  pmax := by norm_num
  nmin := by norm_num
  ar := by norm_num [exFly, exC, pyNum]
  wf := hwf
  slope := by
    intro rho vc m a hr hv hm ha
    have hr' : Atmos.dens1 exAtm 2000 = .ok rho := hr
    rw [exAtm_dens 2000 (by norm_num) (by norm_num)] at hr'
    cases hr'
    have hv' : (some 120 : Option ℝ) = some vc := hv
    cases hv'
    have := exFly_mach 120 m (by norm_num) le_rfl hm
    obtain ⟨a', ha', pa⟩ := (C72_method X (exC_wing W) (some m)).1 this.1 (by norm_num at this ⊢; linarith)
    have ha2 : liftslope_prad X { exC with weight_n := some W } (some m) = .ok a := ha
    rw [ha'] at ha2; cases ha2
    exact pa

end

end Verif.Props
