import Verif.Lemmas.CsFloat
import Verif.Props.ConstraintFloat
import Verif.Props.Airworthiness2

/-
C141: the formulas of CS-23 in floating point. Quantities computed elsewhere (densities, lift slope) may themselves carry `j` roundings.
-/

namespace Verif.Props
open Verif.Fl
open Verif.Airworthiness (Cat Gust Cert)

noncomputable section

variable (F : Rounding) (M : Libm F)

/-! ### Lemmas -/

theorem acc_npos (W : ℝ) (hW : 0 ≤ W) : Acc F 5 (nposNorm F W) (min 3.8 (2.1 + 24000 / (Units.n2lbf W + 10000))) := by
  have hw : 0 ≤ Units.n2lbf W := by unfold Units.n2lbf; positivity
  have a1 := ((Acc.refl (F := F) W).mul (Acc.rd F 0.224809)).round
  have a2 := (a1.add (Acc.refl (F := F) 10000) hw (by norm_num)).round
  have a3 := ((Acc.refl (F := F) 24000).div a2).round
  have hd : 0 ≤ 24000 / (W * 0.224809 + 10000) := by positivity
  have a4 := ((Acc.rd F 2.1).add a3 (by norm_num) hd).round
  exact ((Acc.rd F 3.8).weaken (by norm_num)).min (a4.weaken (by norm_num)) (by norm_num) (by positivity)

theorem acc_smc (S AR : ℝ) (hS : 0 < S) (hA : 0 < AR) : Acc F 2 (smc F S AR) √(S / AR) := by
  have a1 := ((Acc.refl (F := F) S).div (Acc.refl (F := F) AR)).round
  exact (Acc.sqrt (n := 1) (a1.weaken (by norm_num)) (by positivity)).round

theorem acc_mac (S AR t : ℝ) (hS : 0 < S) (hA : 0 < AR) (ht : 0 < t) :
    Acc F 14 (mac F M S AR t) (2 / 3 * (2 / (1 + t) * √(S / AR)) * (1 + t + t ^ 2) / (1 + t)) := by
  have a0 := Acc.rd F (1 + t)
  have a1 := (((Acc.refl (F := F) 2).div a0).round.mul (acc_smc F S AR hS hA)).round
  have a2 := (a0.add (Acc.libm_sq M (Acc.refl (F := F) t) ht) (by positivity) (by positivity)).round
  have a3 := (((((Acc.rd F (2 / 3)).mul a1).round).mul a2).round.div a0).round
  exact a3.weaken (by norm_num)

theorem acc_gust (y1 y2 alt : ℝ) (ha : 0 ≤ alt) (h0 : 0 < y2) (h1 : 1.03 * y2 ≤ y1) (h2 : y1 ≤ 2 * y2) :
    Acc F 42 (gust_mps F y1 y2 alt) (npInterp2 alt (Units.feet2m 20000) (Units.feet2m 50000) (Units.feet2m y1) (Units.feet2m y2)) := by
  have lit : ∀ x, Acc F 2 (feet2m F x) (Units.feet2m x) := fun x => ((Acc.refl (F := F) x).mul (Acc.rd F 0.3048)).round
  have := acc_places (n := 2) (F := F) (by norm_num) ((Acc.refl (F := F) alt).weaken (by norm_num)) (lit 20000) (lit 50000) ha
    (by unfold Units.feet2m; norm_num) (by unfold Units.feet2m; norm_num) (lit y1) (lit y2) (by unfold Units.feet2m; positivity)
    (by unfold Units.feet2m; linarith) (by unfold Units.feet2m; linarith)
  exact this.weaken (by norm_num)

theorem acc_increment (j g : ℕ) {W S AR wf rhoh rho rho0h rho0 ah a guh gu V : ℝ} (hW : 0 < W) (hS : 0 < S) (hA : 0 < AR) (hwf : 0 < wf)
    (hr : Acc F j rhoh rho) (hr0 : Acc F j rho0h rho0) (ha : Acc F j ah a) (hg : Acc F g guh gu) (pr : 0 < rho)
    (pa : 0 < a) :
    let tlh := F.rd (F.rd (W / S) * wf)
    let mu := 2 * (W / S * wf) / (rho * √(S / AR) * a * Units.gAcc)
    let k := 0.88 * mu / (5.3 + mu)
    Acc F (4 * j + 24) (k_gust F (mu_g F tlh rhoh (smc F S AR) ah)) k ∧
    Acc F (6 * j + g + 35) (gustIncrement F (k_gust F (mu_g F tlh rhoh (smc F S AR) ah)) rho0h guh (kts2mps F V) ah tlh wf)
      (k * rho0 * gu * Units.kts2mps V * a / (2 * (W / S * wf)) / wf) := by
  intro tlh mu k
  have t1 := (((Acc.refl (F := F) W).div (Acc.refl (F := F) S)).round.mul (Acc.refl (F := F) wf)).round
  have t2 := ((Acc.refl (F := F) 2).mul t1).round
  have d1 := ((((hr.mul (acc_smc F S AR hS hA)).round.mul ha).round).mul (Acc.rd F 9.80665)).round
  have m1 := (t2.div d1).round
  have pmu : 0 < mu := by
    have : 0 < √(S / AR) := Real.sqrt_pos.2 (by positivity)
    have : 0 < Units.gAcc := by unfold Units.gAcc; norm_num
    positivity
  have k1 := (((Acc.rd F 0.88).mul m1).round.div (((Acc.rd F 5.3).add m1 (by norm_num) pmu.le).round)).round
  have k2 : Acc F (4 * j + 24) (k_gust F (mu_g F tlh rhoh (smc F S AR) ah)) k := k1.weaken (by omega)
  refine ⟨k2, ?_⟩
  have q := ((((((((k2.mul hr0).round.mul hg).round).mul (Acc.refl (F := F) V).kts2mps).round).mul ha).round.div t2).round.div
    (Acc.refl (F := F) wf)).round
  exact q.weaken (by omega)

/-- The load factors from the increment. -/
theorem load_err {n : ℕ} {qh q : ℝ} (h : Acc F n qh q) (hq : 0 ≤ q) (hn : n ≤ 800) :
    |F.rd (1 + qh) - (1 + q)| ≤ (n + 2) * F.u * (1 + q) ∧ |F.rd (1 - qh) - (1 - q)| ≤ (n + 3) * F.u * (1 + q) := by
  have hu := F.u_nonneg
  have hul := F.u_lt
  constructor
  · have := (((Acc.refl (F := F) 1).add h (by norm_num) hq).round.weaken (n := n + 1) (by simp)).le (by omega)
    rw [abs_of_nonneg (by linarith : 0 ≤ 1 + q)] at this
    push_cast at this
    linarith
  · have e := h.le (by omega)
    rw [abs_of_nonneg hq] at e
    have hn' : (n : ℝ) ≤ 800 := by exact_mod_cast hn
    have hn0 : (0 : ℝ) ≤ n := by positivity
    have r := F.err (1 - qh)
    have hk : ((n : ℝ) + 1) * F.u ≤ 0.001 := by
      calc ((n : ℝ) + 1) * F.u ≤ 801 * F.u := mul_le_mul_of_nonneg_right (by linarith) hu
        _ ≤ 0.001 := by linarith
    have e' : |qh - q| ≤ 0.001 * q := e.trans (mul_le_mul_of_nonneg_right hk hq)
    have b : |1 - qh| ≤ 2 * (1 + q) := by
      rw [abs_le] at e' ⊢
      constructor <;> linarith [e'.1, e'.2]
    have r' : |F.rd (1 - qh) - (1 - qh)| ≤ F.u * (2 * (1 + q)) := r.trans (mul_le_mul_of_nonneg_left b hu)
    have f : ((n : ℝ) + 1) * F.u * q ≤ ((n : ℝ) + 1) * F.u * (1 + q) := mul_le_mul_of_nonneg_left (by linarith) (by positivity)
    have : F.rd (1 - qh) - (1 - q) = (F.rd (1 - qh) - (1 - qh)) + -(qh - q) := by ring
    rw [this]
    refine (abs_add_le _ _).trans ?_
    rw [abs_neg]
    linarith

theorem acc_vc {wlh wl : ℝ} (h : Acc F 4 wlh wl) (h0 : 0 < wl) (cat : Cat) : Acc F 65 (vcmin_keas F wlh cat) (Airworthiness.vcmin_keas wl cat) := by
  have r : Acc F 3 (F.rd √wlh) √wl := (Acc.sqrt (n := 2) (h.weaken (by norm_num)) h0.le).round
  have i : ∀ y : ℝ, y = 33 ∨ y = 36 → Acc F 61 (interp2 F wlh 20 100 y (F.rd 28.6)) (npInterp2 wl 20 100 y 28.6) := by
    intro y hy
    have := acc_places (n := 4) (F := F) (by norm_num) h ((Acc.refl (F := F) 20).weaken (by norm_num)) ((Acc.refl (F := F) 100).weaken (by norm_num))
      h0.le (by norm_num) (by norm_num) ((Acc.refl (F := F) y).weaken (by norm_num)) ((Acc.rd F 28.6).weaken (by norm_num)) (by norm_num)
      (by rcases hy with rfl | rfl <;> norm_num) (by rcases hy with rfl | rfl <;> norm_num)
    exact this.weaken (by norm_num)
  cases cat
  · exact (((i 33 (.inl rfl)).mul r).round).weaken (by norm_num)
  · exact (((i 33 (.inl rfl)).mul r).round).weaken (by norm_num)
  · exact (((i 33 (.inl rfl)).mul r).round).weaken (by norm_num)
  · exact (((i 36 (.inr rfl)).mul r).round).weaken (by norm_num)

theorem interp_pos (x a b ya yb : ℝ) (hab : a < b) (ha : 0 < ya) (hb : 0 < yb) : 0 < npInterp2 x a b ya yb := by
  obtain ⟨p0, p1⟩ := place_mem (x := x) hab
  rw [npInterp2_eq _ _ hab]
  rcases p0.eq_or_lt with e | e
  · rw [← e]; simpa using ha
  · have := mul_nonneg (by linarith : 0 ≤ 1 - place x a b) ha.le
    have := mul_pos e hb
    linarith

theorem vc_pos {wl : ℝ} (h0 : 0 < wl) (cat : Cat) : 0 < Airworthiness.vcmin_keas wl cat := by
  have := Real.sqrt_pos.2 h0
  cases cat <;> exact mul_pos (interp_pos _ _ _ _ _ (by norm_num) (by norm_num) (by norm_num)) this

theorem acc_vd {wlh wl vc : ℝ} (h : Acc F 4 wlh wl) (h0 : 0 < wl) (hv : 0 < vc) (cat : Cat) :
    Acc F 127 (vdmin_keas F vc wlh cat) (Airworthiness.vdmin_keas vc wl cat) := by
  have i : ∀ yh y : ℝ, Acc F 1 yh y → y = 1.4 ∨ y = 1.5 ∨ y = 1.55 →
      Acc F 61 (interp2 F wlh 20 100 yh (F.rd 1.35)) (npInterp2 wl 20 100 y 1.35) := by
    intro yh y hyh hy
    have := acc_places (n := 4) (F := F) (by norm_num) h ((Acc.refl (F := F) 20).weaken (by norm_num)) ((Acc.refl (F := F) 100).weaken (by norm_num))
      h0.le (by norm_num) (by norm_num) (hyh.weaken (by norm_num)) ((Acc.rd F 1.35).weaken (by norm_num)) (by norm_num)
      (by rcases hy with rfl | rfl | rfl <;> norm_num) (by rcases hy with rfl | rfl | rfl <;> norm_num)
    exact this.weaken (by norm_num)
  have c : Acc F 127 (F.rd (1.25 * vc)) (1.25 * vc) := (Acc.rd F (1.25 * vc)).weaken (by norm_num)
  have step : ∀ yh y : ℝ, Acc F 1 yh y → (y = 1.4 ∨ y = 1.5 ∨ y = 1.55) → ∀ cat,
      Acc F 127 (max (F.rd (1.25 * vc)) (F.rd (interp2 F wlh 20 100 yh (F.rd 1.35) * vcmin_keas F wlh cat)))
        (max (1.25 * vc) (npInterp2 wl 20 100 y 1.35 * Airworthiness.vcmin_keas wl cat)) := by
    intro yh y hyh hy cat
    have py : 0 < y := by rcases hy with rfl | rfl | rfl <;> norm_num
    exact c.max ((((i yh y hyh hy).mul (acc_vc F h h0 cat)).round).weaken (by norm_num)) (by positivity)
      (mul_pos (interp_pos _ _ _ _ _ (by norm_num) py (by norm_num)) (vc_pos h0 cat)).le
  cases cat
  · exact step _ _ (Acc.rd F 1.4) (by norm_num) .norm
  · exact step _ _ ((Acc.refl (F := F) 1.5).weaken (by norm_num)) (by norm_num) .util
  · exact step _ _ (Acc.rd F 1.4) (by norm_num) .comm
  · exact step _ _ (Acc.rd F 1.55) (by norm_num) .aero

/-! ### C141 -/

/-- C141: the limit manoeuvring load factors are computed up to six (positive) and eight (negative) units of rounding. -/
theorem C141_limit_loads (o : Cert) (l : Cat → ℝ × ℝ) (h : Airworthiness.paragraph337 o = .ok l) (W : ℝ) (hW : o.acobj.weight_n = some W)
    (h0 : 0 ≤ W) (cat : Cat) :
    |npos_min F W cat - (l cat).1| ≤ 6 * F.u * (l cat).1 ∧ |nneg_max F W cat - (l cat).2| ≤ 8 * F.u * |(l cat).2| := by
  have hw : 0 ≤ Units.n2lbf W := by unfold Units.n2lbf; positivity
  have hp : 0 < min 3.8 (2.1 + 24000 / (Units.n2lbf W + 10000)) := lt_min (by norm_num) (by positivity)
  have A := acc_npos F W h0
  have B := ((Acc.rd F 0.4).neg.mul A).round
  have C := ((Acc.refl (F := F) (-0.5)).mul A).round
  have e1 := A.err 6 (by norm_num) (by norm_num)
  rw [abs_of_pos hp] at e1
  have e2 := B.err 8 (by norm_num) (by norm_num)
  have e3 := C.err 8 (by norm_num) (by norm_num)
  unfold Airworthiness.paragraph337 at h
  rw [hW] at h
  cases hS : o.acobj.wingarea_m2 with
  | none => rw [hS] at h; cases h
  | some S =>
    rw [hS] at h
    have h' : l = _ := (Except.ok.inj h).symm
    subst h'
    have hu := F.u_nonneg
    cases cat
    · exact ⟨e1, e2⟩
    · refine ⟨?_, e2⟩
      have := (Acc.rd F 4.4).err 6 (by norm_num) (by norm_num)
      rwa [abs_of_pos (by norm_num : (0 : ℝ) < 4.4)] at this
    · exact ⟨e1, e2⟩
    · refine ⟨?_, e3⟩
      show |(6 : ℝ) - 6.0| ≤ 6 * F.u * 6.0
      have : 0 ≤ 6 * F.u * 6.0 := by positivity
      rw [show (6 : ℝ) - 6.0 = 0 by norm_num, abs_zero]
      exact this

example : ∃ l, Airworthiness.paragraph337 exCert = .ok l ∧
    |npos_min binary64 10000 .norm - (l .norm).1| ≤ 6 * binary64.u * (l .norm).1 := by
  obtain ⟨l, h⟩ : ∃ l, Airworthiness.paragraph337 exCert = .ok l := ⟨_, rfl⟩
  exact ⟨l, h, (C141_limit_loads binary64 _ l h 10000 rfl (by norm_num) .norm).1⟩

/-- C141: the stall speed at a load factor is computed up to `j + 7` units, the manoeuvring speed from it (and a load factor with up to five
roundings) up to `j + 11`. -/
theorem C141_stall (j : ℕ) (hj : j ≤ 100) (o : Cert) (n v W S rho0h rho0 cl : ℝ) (h : Airworthiness.vs_keas o n = .ok v)
    (hW : o.acobj.weight_n = some W) (hS : o.acobj.wingarea_m2 = some S) (hd : Atmos.dens1 o.acobj.designatm 0 = .ok rho0)
    (hcl : o.acobj.clmaxclean = some cl) (hn : 0 ≤ n) (pW : 0 ≤ W) (pS : 0 < S) (pd : 0 < rho0) (pc : 0 < cl)
    (hr : Acc F (2 * j) rho0h rho0) :
    |vs_keas F n W S rho0h cl - v| ≤ (j + 7) * F.u * v ∧
    ∀ mh m, Acc F 5 mh m → 0 ≤ m → |speedAtLoad F (vs_keas F n W S rho0h cl) mh - v * √m| ≤ (j + 12) * F.u * (v * √m) := by
  have e : v = Units.mps2kts √(n * W / (0.5 * rho0 * S * cl)) := by
    unfold Airworthiness.vs_keas at h
    rw [hW, hS, if_pos hn, hcl, hd] at h
    have hq : ¬ (n * W / (0.5 * rho0 * S * cl) < 0) := not_lt.2 (by positivity)
    simp only [Aircraft.need, bind_ok, Airworthiness.mathSqrt, if_neg hq] at h
    exact (Except.ok.inj h).symm
  have a1 := (Acc.rd F (n * W)).div ((((((Acc.refl (F := F) 0.5).mul hr).round.mul (Acc.refl (F := F) S)).round).mul (Acc.refl (F := F) cl)).round)
  have a2 := ((Acc.sqrt (n := j + 3) (a1.round.weaken (by omega)) (by positivity)).round.mul (Acc.rd F 1.9438445)).round
  have A : Acc F (j + 6) (vs_keas F n W S rho0h cl) v := by rw [e]; exact a2.weaken (by omega)
  have pv : 0 ≤ v := by rw [e]; unfold Units.mps2kts; positivity
  refine ⟨?_, fun mh m hm m0 => ?_⟩
  · have := A.err (j + 7) (by push_cast; linarith) (by omega)
    rwa [abs_of_nonneg pv] at this
  · have B := (A.mul (Acc.sqrt (n := 3) (hm.weaken (by norm_num)) m0).round).round
    have := B.err (j + 12) (by push_cast; linarith) (by omega)
    rwa [abs_of_nonneg (by positivity : 0 ≤ v * √m)] at this

example : |vs_keas binary64 1 10000 12 1 1.5 - 1.9438445 * √(2 * 1 * 10000 / (1 * 12 * 1.5))| ≤
    7 * binary64.u * (1.9438445 * √(2 * 1 * 10000 / (1 * 12 * 1.5))) := by
  have d := exAtm_dens 0 (by norm_num) (by norm_num)
  have h := C75_succeeds exCert 1 10000 12 1 1.5 rfl rfl d (by norm_num) (by norm_num) one_pos (by rw [if_pos (by norm_num)]; rfl) (by norm_num)
  have := (C141_stall binary64 0 (by norm_num) exCert 1 _ 10000 12 1 1 1.5 h rfl rfl d rfl (by norm_num) (by norm_num) (by norm_num) one_pos
    (by norm_num) (Acc.refl 1)).1
  simpa using this

/-- C141: the standard mean chord is computed up to three units, the mean aerodynamic chord up to fifteen. -/
theorem C141_chords (o : Cert) (c m S AR t : ℝ) (h : Airworthiness.meanchord_m o = .ok (c, m)) (hS : o.acobj.wingarea_m2 = some S)
    (hA : o.acobj.aspectratio = some AR) (ht : o.acobj.roottaperratio = some t) (pS : 0 < S) (pA : 0 < AR) (pt : 0 < t) :
    |smc F S AR - c| ≤ 3 * F.u * c ∧ |mac F M S AR t - m| ≤ 15 * F.u * m := by
  unfold Airworthiness.meanchord_m at h
  rw [hS, hA, ht] at h
  have hq : ¬ (S / AR < 0) := not_lt.2 (by positivity)
  simp only [Option.getD_some, Aircraft.pyNum, Airworthiness.mathSqrt, hq, if_false, bind_ok] at h
  have h' := Except.ok.inj h
  rw [Prod.mk.injEq] at h'
  obtain ⟨rfl, rfl⟩ := h'
  have e1 := (acc_smc F S AR pS pA).err 3 (by norm_num) (by norm_num)
  have e2 := (acc_mac F M S AR t pS pA pt).err 15 (by norm_num) (by norm_num)
  rw [abs_of_nonneg (Real.sqrt_nonneg _)] at e1
  rw [abs_of_nonneg (by positivity : 0 ≤ 2 / 3 * (2 / (1 + t) * √(S / AR)) * (1 + t + t ^ 2) / (1 + t))] at e2
  exact ⟨e1, e2⟩

example : ∃ c m, Airworthiness.meanchord_m exCert = .ok (c, m) ∧ |smc binary64 12 9 - c| ≤ 3 * binary64.u * c ∧
    |mac binary64 (exactPow binary64) 12 9 0.5 - m| ≤ 15 * binary64.u * m := by
  obtain ⟨c, m, h⟩ : ∃ c m, Airworthiness.meanchord_m exCert = .ok (c, m) := by
    have q : ¬ ((12 : ℝ) / 9 < 0) := by norm_num
    unfold Airworthiness.meanchord_m Airworthiness.mathSqrt
    simp only [exCert, exC, Aircraft.pyNum, Option.getD_some, q, if_false, bind_ok]
    exact ⟨_, _, rfl⟩
  exact ⟨c, m, h, C141_chords binary64 (exactPow binary64) exCert c m 12 9 0.5 h rfl rfl rfl (by norm_num) (by norm_num) (by norm_num)⟩

/-- The gusts of CS 23.333(c) in ft/s: up to 20000 ft and from 50000 ft on (airworthiness.py:238-240). -/
def gustFeet : Gust → ℝ × ℝ
  | .Ub => (66, 38)
  | .Uc => (50, 25)
  | .Ud => (25, 12.5)

theorem acc_gustFeet (g : Gust) (alt : ℝ) (h : 0 ≤ alt) :
    Acc F 42 (gust_mps F (gustFeet g).1 (gustFeet g).2 alt) (csGustMps g alt) := by
  cases g
  · rw [← gustb_eq]; exact acc_gust F 66 38 alt h (by norm_num) (by norm_num) (by norm_num)
  · rw [← gustc_eq]; exact acc_gust F 50 25 alt h (by norm_num) (by norm_num) (by norm_num)
  · rw [← gustd_eq]; exact acc_gust F 25 12.5 alt h (by norm_num) (by norm_num) (by norm_num)

/-- C141: the gust velocities of CS 23.333(c) are computed up to 43 units at every altitude, also next to the corners at 20000 and
50000 ft, where the rounded comparison may take the other branch. -/
theorem C141_gust_speeds (g : Gust) (alt : ℝ) (h : 0 ≤ alt) :
    |gust_mps F (gustFeet g).1 (gustFeet g).2 alt - csGustMps g alt| ≤ 43 * F.u * csGustMps g alt := by
  have := (acc_gustFeet F g alt h).err 43 (by norm_num) (by norm_num)
  rwa [abs_of_pos (csGustMps_pos g alt)] at this

example : |gust_mps binary64 50 25 6096 - csGustMps .Uc 6096| ≤ 43 * binary64.u * csGustMps .Uc 6096 :=
  C141_gust_speeds binary64 .Uc 6096 (by norm_num)

/-- C141: the gust load factors are computed up to `6 j + 79` (positive) and `6 j + 80` (negative) units of the positive one. -/
theorem C141_gust_loads (j : ℕ) (hj : j ≤ 100) (X : Aircraft.Ext) (o : Cert) (speeds : Gust → Option ℝ) (l : Cat → List Airworthiness.GustLoad)
    (k a : ℝ) (h : Airworthiness.paragraph341 X o speeds = .ok (l, k, a)) (AR t : ℝ) (hA : o.acobj.aspectratio = some AR)
    (ht : o.acobj.roottaperratio = some t) :
    ∃ rho rho0 W S, Atmos.dens1 o.acobj.designatm o.altitude_m = .ok rho ∧ Atmos.dens1 o.acobj.designatm 0 = .ok rho0 ∧
      o.acobj.weight_n = some W ∧ o.acobj.wingarea_m2 = some S ∧
      (0 < W → 0 < S → 0 < AR → 0 < rho → 0 < rho0 → 0 < a → 0 < o.weightfraction → 0 ≤ o.altitude_m →
        ∀ rhoh rho0h ah, Acc F j rhoh rho → Acc F j rho0h rho0 → Acc F j ah a → ∀ cat, ∀ e ∈ l cat, ∃ V, speeds e.gust = some V ∧
          (0 ≤ V → |(gustLoads F W S AR o.weightfraction rhoh rho0h ah (gust_mps F (gustFeet e.gust).1 (gustFeet e.gust).2 o.altitude_m) V).1 - e.npos| ≤
              (6 * j + 79) * F.u * e.npos ∧
            |(gustLoads F W S AR o.weightfraction rhoh rho0h ah (gust_mps F (gustFeet e.gust).1 (gustFeet e.gust).2 o.altitude_m) V).2 - e.nneg| ≤
              (6 * j + 80) * F.u * e.npos)) := by
  obtain ⟨rho, W, S, rho0, c, e1, e2, e3, e4, ⟨m, e5⟩, e6, -, e8⟩ := C57_formula X o speeds l k a h
  refine ⟨rho, rho0, W, S, e1, e2, e3, e4, ?_⟩
  intro pW pS pA pr pr0 pa pw palt rhoh rho0h ah hr hr0 ha cat e he
  obtain ⟨V, v1, -, v3, v4⟩ := e8 cat e he
  refine ⟨V, v1, fun hV => ?_⟩
  have hc : c = √(S / AR) := by
    unfold Airworthiness.meanchord_m at e5
    rw [e4, hA, ht] at e5
    have hq : ¬ (S / AR < 0) := not_lt.2 (by positivity)
    simp only [Option.getD_some, Aircraft.pyNum, Airworthiness.mathSqrt, hq, if_false, bind_ok] at e5
    have h' := Except.ok.inj e5
    rw [Prod.mk.injEq] at h'
    exact h'.1.symm
  obtain ⟨-, I⟩ := acc_increment F j 42 (V := V) pW pS pA pw hr hr0 ha (acc_gustFeet F e.gust o.altitude_m palt) pr pa
  obtain ⟨q, hq⟩ : ∃ q, q = e.npos - 1 := ⟨_, rfl⟩
  have eq : (0.88 * (2 * (W / S * o.weightfraction) / (rho * √(S / AR) * a * Units.gAcc)) /
      (5.3 + 2 * (W / S * o.weightfraction) / (rho * √(S / AR) * a * Units.gAcc)) * rho0 * csGustMps e.gust o.altitude_m *
      Units.kts2mps V * a / (2 * (W / S * o.weightfraction)) / o.weightfraction) = q := by
    rw [hq, v3, e6, hc]
    unfold csKg csMu csIncr Units.kts2mps Units.gAcc
    rw [show W / S * o.weightfraction = o.weightfraction * W / S by ring, mul_comm V]
    ring
  rw [eq] at I
  have hq0 : 0 ≤ q := by
    rw [← eq]
    have := csGustMps_pos e.gust o.altitude_m
    have : 0 < Units.gAcc := by unfold Units.gAcc; norm_num
    unfold Units.kts2mps
    positivity
  obtain ⟨r1, r2⟩ := load_err F I hq0 (by omega)
  have n1 : e.npos = 1 + q := by rw [hq]; ring
  have n2 : e.nneg = 1 - q := by rw [hq]; linarith
  rw [n1, n2]
  push_cast at r1 r2
  constructor
  · refine r1.trans (le_of_eq ?_); ring
  · refine r2.trans (le_of_eq ?_); ring

example (X : Aircraft.Ext) : ∃ l k a rho, Airworthiness.paragraph341 X (exFly 10000 0.9 "util") (envSpeeds 100 120 170) = .ok (l, k, a) ∧
    ∃ e ∈ l .util, e.gust = .Uc ∧
      |(gustLoads binary64 10000 12 9 0.9 rho 1 a (gust_mps binary64 50 25 (exFly 10000 0.9 "util").altitude_m) 120).1 - e.npos| ≤
        79 * binary64.u * e.npos := by
  have f := exFly_ok X 10000 0.9 "util" (by norm_num) (by norm_num) ⟨.util, rfl⟩
  obtain ⟨l, k, a, h⟩ := f.gust (envSpeeds 100 120 170)
  obtain ⟨rho', vc, m, W', S', rho0', smc', hi, -⟩ := paragraph341_ok h
  obtain ⟨pr, -, rfl, rfl, pa, pr0, ps, pk⟩ := f.alleviation hi
  obtain ⟨_, _, _, _, _, -, -, -, -, -, -, hm, -⟩ := C57_formula X _ _ l k a h
  obtain ⟨e, he, hg⟩ := hm .util .Uc 120 (by simp) rfl
  obtain ⟨rho, rho0, W, S, e1, e2, e3, e4, g⟩ := C141_gust_loads binary64 0 (by norm_num) X _ _ l k a h 9 0.5 rfl rfl
  cases e3
  cases e4
  have d0 : Atmos.dens1 (exFly 10000 0.9 "util").acobj.designatm 0 = .ok 1 := exAtm_dens 0 (by norm_num) (by norm_num)
  rw [d0] at e2
  cases e2
  rw [hi.dens] at e1
  cases e1
  obtain ⟨V, v1, v2⟩ := g (by norm_num) (by norm_num) (by norm_num) pr one_pos pa f.wf (show (0 : ℝ) ≤ 2000 by norm_num) rho' 1 a (Acc.refl _) (Acc.refl _)
    (Acc.refl _) .util e he
  rw [hg] at v1 v2
  cases v1
  refine ⟨l, k, a, rho', h, e, he, hg, ?_⟩
  have := (v2 (by norm_num)).1
  rw [show (6 * ((0 : ℕ) : ℝ) + 79) = 79 by norm_num] at this
  exact this

/-- C141: the minimum design cruising and dive speeds are computed up to 66 and 128 units. -/
theorem C141_design_speeds (W S vc : ℝ) (hW : 0 < W) (hS : 0 < S) (hv : 0 < vc) (cat : Cat) :
    |vcmin_keas F (pa2lbfft2 F (F.rd (W / S))) cat - Airworthiness.vcmin_keas (Units.pa2lbfft2 (W / S)) cat| ≤
      66 * F.u * Airworthiness.vcmin_keas (Units.pa2lbfft2 (W / S)) cat ∧
    |vdmin_keas F vc (pa2lbfft2 F (F.rd (W / S))) cat - Airworthiness.vdmin_keas vc (Units.pa2lbfft2 (W / S)) cat| ≤
      128 * F.u * Airworthiness.vdmin_keas vc (Units.pa2lbfft2 (W / S)) cat := by
  have hp : 0 < Units.pa2lbfft2 (W / S) := by unfold Units.pa2lbfft2; positivity
  have A : Acc F 4 (pa2lbfft2 F (F.rd (W / S))) (Units.pa2lbfft2 (W / S)) :=
    (((Acc.rd F (W / S)).mul (Acc.rd F 0.020885434273039)).round).weaken (by norm_num)
  have e1 := (acc_vc F A hp cat).err 66 (by norm_num) (by norm_num)
  have e2 := (acc_vd F A hp hv cat).err 128 (by norm_num) (by norm_num)
  have p2 : 0 < Airworthiness.vdmin_keas vc (Units.pa2lbfft2 (W / S)) cat := by
    have : 0 < 1.25 * vc := by positivity
    cases cat <;> exact lt_max_of_lt_left this
  rw [abs_of_pos (vc_pos hp cat)] at e1
  rw [abs_of_pos p2] at e2
  exact ⟨e1, e2⟩

example : |vcmin_keas binary64 (pa2lbfft2 binary64 (binary64.rd (10000 / 10))) .aero - Airworthiness.vcmin_keas (Units.pa2lbfft2 (10000 / 10)) .aero| ≤
    66 * binary64.u * Airworthiness.vcmin_keas (Units.pa2lbfft2 (10000 / 10)) .aero :=
  (C141_design_speeds binary64 10000 10 100 (by norm_num) (by norm_num) (by norm_num) .aero).1

/-- C141: the gust penetration speed, the root of a quadratic without cancellation, is computed up to a few units. -/
theorem C141_gust_penetration (j : ℕ) (hj : j ≤ 60) (ah a cl kh k guh gu tlh tl rho0h rho0 wf : ℝ) (hc : 0 < cl) (hwf : 0 < wf) (pa : 0 < a) (pk : 0 < k)
    (pg : 0 < gu) (pt : 0 < tl) (pr : 0 < rho0) (ha : Acc F j ah a) (hk : Acc F j kh k) (hg : Acc F j guh gu) (ht : Acc F j tlh tl)
    (hr : Acc F j rho0h rho0) :
    |vbmin1_keas F M ah cl kh guh tlh rho0h wf - Airworthiness.vbmin1_keas a cl k gu tl rho0 wf| ≤
      (3 * j + 16) * F.u * Airworthiness.vbmin1_keas a cl k gu tl rho0 wf := by
  have b1 := (((ha.div (Acc.refl (F := F) cl)).round.neg.mul hk).round.mul hg).round
  have c1 := ((((Acc.refl (F := F) (-2)).mul ht).round.div ((hr.mul (Acc.refl (F := F) cl)).round)).round.mul (Acc.refl (F := F) wf)).round
  have nb := b1.neg
  have eb : -(-(a / cl) * k * gu) = a / cl * k * gu := by ring
  have pb : 0 < -(-(a / cl) * k * gu) := by rw [eb]; positivity
  have s := Acc.libm_sq M nb pb
  have c2 := ((Acc.refl (F := F) 4).mul c1).round.neg
  have ec : -(4 * (-2 * tl / (rho0 * cl) * wf)) = 8 * tl / (rho0 * cl) * wf := by ring
  have pc : 0 ≤ -(4 * (-2 * tl / (rho0 * cl) * wf)) := by rw [ec]; positivity
  have d1 := (s.add c2 (by positivity) pc).round
  have d2 := Acc.libm_sqrt M (n := 3 * j + 6) (d1.weaken (by omega)) (by
    have : 0 < (-(-(a / cl) * k * gu)) ^ 2 := by positivity
    linarith)
  have hs : ∀ y : ℝ, y ^ (0.5 : ℝ) = √y := fun y => by rw [Real.sqrt_eq_rpow]; norm_num
  rw [hs] at d2
  have r := (((nb.add d2 pb.le (Real.sqrt_nonneg _)).round.div (Acc.refl (F := F) 2)).round.mul (Acc.rd F 1.9438445)).round
  have R : Acc F (3 * j + 14) (vbmin1_keas F M ah cl kh guh tlh rho0h wf) (Airworthiness.vbmin1_keas a cl k gu tl rho0 wf) := by
    have e1 : Airworthiness.vbmin1_keas a cl k gu tl rho0 wf =
        (-(-(a / cl) * k * gu) + √((-(-(a / cl) * k * gu)) ^ 2 + -(4 * (-2 * tl / (rho0 * cl) * wf)))) / 2 * 1.9438445 := by
      unfold Airworthiness.vbmin1_keas Units.mps2kts
      simp only
      rw [show (-(a / cl) * k * gu) ^ 2 - 4 * 1 * (-2 * tl / (rho0 * cl) * wf) =
        (-(-(a / cl) * k * gu)) ^ 2 + -(4 * (-2 * tl / (rho0 * cl) * wf)) by ring, show (2 : ℝ) * 1 = 2 by norm_num]
    rw [e1]
    exact r.weaken (by omega)
  have p : 0 ≤ Airworthiness.vbmin1_keas a cl k gu tl rho0 wf := by
    unfold Airworthiness.vbmin1_keas Units.mps2kts
    simp only
    have := Real.sqrt_nonneg ((-(a / cl) * k * gu) ^ 2 - 4 * 1 * (-2 * tl / (rho0 * cl) * wf))
    have := add_nonneg pb.le this
    positivity
  have := R.err (3 * j + 16) (by push_cast; linarith) (by omega)
  rwa [abs_of_nonneg p] at this

example : |vbmin1_keas binary64 (exactPow binary64) 5 1.5 0.7 15 1000 1.225 0.9 - Airworthiness.vbmin1_keas 5 1.5 0.7 15 1000 1.225 0.9| ≤
    16 * binary64.u * Airworthiness.vbmin1_keas 5 1.5 0.7 15 1000 1.225 0.9 := by
  have := C141_gust_penetration binary64 (exactPow binary64) 0 (by norm_num) 5 5 1.5 0.7 0.7 15 15 1000 1000 1.225 1.225 0.9 (by norm_num) (by norm_num)
    (by norm_num) (by norm_num) (by norm_num) (by norm_num) (by norm_num) (Acc.refl _) (Acc.refl _) (Acc.refl _) (Acc.refl _) (Acc.refl _)
  simpa using this

end

end Verif.Props
