import Verif.Lemmas.Ieee
import Verif.Props.CsFloat

/-
C142: no overflow and no loss of digits in the formulas of the constraint analysis and of CS-23 for data between 2⁻⁴⁰ and 2⁴⁰.
-/

namespace Verif.Props
open Verif.Ieee
open Verif.Fl (rd64 binary64 Acc)

noncomputable section

variable (L : CLib)

/-! ### Lemmas -/

theorem cruisePoint_ok {q cd k w : ℝ} {m n : ℕ} (hq : Mag m q) (hcd : Mag 40 cd) (hk : Mag 40 k) (hw : Mag n w) (h : m + n ≤ 800) :
    Ieee.cruisePoint q cd k w = some (Fl.cruisePoint binary64 q cd k w) ∧ Mag (m + n + 41) (Fl.cruisePoint binary64 q cd k w) := by
  have h1 := mag_one.div hw
  have h2 := h1.rd.mul hq
  have h3 := h2.rd.mul hcd
  have h4 := hk.div hq
  have h5 := h4.rd.mul hw
  have h6 := h3.rd.add h5.rd
  refine ⟨?_, h6.rd.weaken (by omega)⟩
  unfold Ieee.cruisePoint
  simp only [ieee_ok h1 (by omega), ieee_ok h2 (by omega), ieee_ok h3 (by omega), ieee_ok h4 (by omega), ieee_ok h5 (by omega),
    ieee_ok h6 (by omega), Option.bind_eq_bind, Option.bind_some]
  rfl

theorem cruise_ok {ktas d cd k w frac tcorr fact : ℝ} (h1 : Mag 40 ktas) (h2 : Mag 40 d) (h3 : Mag 40 cd) (h4 : Mag 40 k) (h5 : Mag 40 w)
    (h6 : Mag 40 frac) (h7 : Mag 40 tcorr) (h8 : Mag 40 fact) :
    Ieee.cruiseTw L ktas d cd k w frac tcorr fact = some (Fl.cruiseTw binary64 L.lib ktas d cd k w frac tcorr fact) := by
  obtain ⟨ev, hv⟩ := kts2mps_ok h1 (by norm_num)
  obtain ⟨eq, hq⟩ := dynamicpressure_ok L h2 hv (by norm_num)
  have g1 := h5.mul h6
  obtain ⟨ep, hp⟩ := cruisePoint_ok hq h3 h4 g1.rd (by norm_num)
  have g2 := hp.div h7
  have g3 := g2.rd.mul h6
  have g4 := mag_one.div h8
  have g5 := g3.rd.mul g4.rd
  unfold Ieee.cruiseTw
  simp only [ev, eq, ep, ieee_ok g1 (by norm_num), ieee_ok g2 (by norm_num), ieee_ok g3 (by norm_num), ieee_ok g4 (by norm_num),
    ieee_ok g5 (by norm_num), Option.bind_eq_bind, Option.bind_some]
  rfl

theorem ceilingPoint_ok {roc v q cd k w : ℝ} {r m n s : ℕ} (hr : Mag r roc) (hv : Mag s v) (hq : Mag m q) (hcd : Mag 40 cd) (hk : Mag 40 k)
    (hw : Mag n w) (h : m + n + r + s ≤ 800) :
    Ieee.ceilingPoint roc v q cd k w = some (Fl.ceilingPoint binary64 roc v q cd k w) ∧
      Mag (m + n + r + s + 42) (Fl.ceilingPoint binary64 roc v q cd k w) := by
  have h0 := hr.div hv
  have h1 := mag_one.div hw
  have h2 := h1.rd.mul hq
  have h3 := h2.rd.mul hcd
  have h4 := hk.div hq
  have h5 := h4.rd.mul hw
  have h6 := h0.rd.add h3.rd
  have h7 := h6.rd.add h5.rd
  refine ⟨?_, h7.rd.weaken (by omega)⟩
  unfold Ieee.ceilingPoint
  simp only [ieee_ok h0 (by omega), ieee_ok h1 (by omega), ieee_ok h2 (by omega), ieee_ok h3 (by omega), ieee_ok h4 (by omega),
    ieee_ok h5 (by omega), ieee_ok h6 (by omega), ieee_ok h7 (by omega), Option.bind_eq_bind, Option.bind_some]
  rfl

theorem ceiling_ok {kias d d0 cd k w frac tcorr : ℝ} (h1 : Mag 40 kias) (h2 : Mag 40 d) (h20 : Mag 40 d0) (h3 : Mag 40 cd) (h4 : Mag 40 k)
    (h5 : Mag 40 w) (h6 : Mag 40 frac) (h7 : Mag 40 tcorr) :
    Ieee.ceilingTw L kias d d0 cd k w frac tcorr = some (Fl.ceilingTw binary64 L.lib kias d d0 cd k w frac tcorr) := by
  obtain ⟨ek, hk⟩ := kts2mps_ok h1 (by norm_num)
  obtain ⟨ev, hv⟩ := eas2tas_ok h2 h20 hk (by norm_num)
  obtain ⟨eq, hq⟩ := dynamicpressure_ok L h2 hv (by norm_num)
  have c100 : Mag 7 100 := by constructor <;> norm_num
  obtain ⟨ef, hf⟩ := fpm2mps_ok c100 (by norm_num)
  obtain ⟨er, hr⟩ := eas2tas_ok h2 h20 hf (by norm_num)
  have g1 := h5.mul h6
  obtain ⟨ep, hp⟩ := ceilingPoint_ok hr hv hq h3 h4 g1.rd (by norm_num)
  have g2 := hp.div h7
  have g3 := g2.rd.mul h6
  unfold Ieee.ceilingTw
  simp only [ek, ev, eq, ef, er, ep, ieee_ok g1 (by norm_num), ieee_ok g2 (by norm_num), ieee_ok g3 (by norm_num), Option.bind_eq_bind,
    Option.bind_some]
  rfl

theorem climbPoint_ok {roc v q cd k w : ℝ} {r m n s : ℕ} (hr : Mag r roc) (hv : Mag s v) (hq : Mag m q) (hcd : Mag 40 cd) (hk : Mag 40 k)
    (hw : Mag n w) (h : m + n + 2 * (r + s) ≤ 800) (hc : Mag 40 (1 - L.lib.pow (rd64 (roc / v)) 2)) :
    Ieee.climbPoint L roc v q cd k w = some (Fl.climbPoint binary64 L.lib roc v q cd k w) ∧
      Mag (m + n + r + s + 82) (Fl.climbPoint binary64 L.lib roc v q cd k w) := by
  have hp := mag_one.mul hr
  have h0 := hp.rd.div hv
  have h1 := mag_one.div hw
  have h2 := h1.rd.mul hq
  have h3 := h2.rd.mul hcd
  have h4 := hk.div hq
  have h5 := h4.rd.mul hw
  have h6 := h0.rd.add h3.rd
  have t := hr.div hv
  obtain ⟨et, -⟩ := L.sq t.rd (by omega)
  have g := h5.rd.mul hc.rd
  have h7 := h6.rd.add g.rd
  refine ⟨?_, h7.rd.weaken (by omega)⟩
  unfold Ieee.climbPoint
  simp only [ieee_ok hp (by omega), ieee_ok h0 (by omega), ieee_ok h1 (by omega), ieee_ok h2 (by omega), ieee_ok h3 (by omega),
    ieee_ok h4 (by omega), ieee_ok h5 (by omega), ieee_ok h6 (by omega), ieee_ok t (by omega), et, ieee_ok hc (by norm_num),
    ieee_ok g (by omega), ieee_ok h7 (by omega), Option.bind_eq_bind, Option.bind_some]
  rfl

/-- The quotient of rate of climb and speed, up to rounding that of the data. -/
theorem climb_angle {kias fpm d d0 : ℝ} (hk : 0 < kias) (hf : 0 < fpm) (hd : 0 < d) (hd0 : 0 < d0)
    (hangle : 2 * Units.fpm2mps fpm ^ 2 ≤ Units.kts2mps kias ^ 2) :
    Mag 40 (1 - L.lib.pow (rd64 (Fl.atm_eas2tas binary64 d d0 (Fl.fpm2mps binary64 fpm) /
      Fl.atm_eas2tas binary64 d d0 (Fl.kts2mps binary64 kias))) 2) := by
  have hs : 0 < √(d / d0) := Real.sqrt_pos.2 (by positivity)
  have A := acc_eas2tas binary64 (Acc.refl (F := binary64) d) (Acc.refl (F := binary64) d0) (Acc.refl (F := binary64) fpm).fpm2mps hd hd0
  have B := acc_eas2tas binary64 (Acc.refl (F := binary64) d) (Acc.refl (F := binary64) d0) (Acc.refl (F := binary64) kias).kts2mps hd hd0
  have pf : 0 < Units.fpm2mps fpm := by unfold Units.fpm2mps Units.feet2m; positivity
  have pk : 0 < Units.kts2mps kias := by unfold Units.kts2mps; positivity
  have C := (A.div B).round
  have D := Acc.libm_sq L.lib C (by positivity)
  have er : Units.fpm2mps fpm / √(d / d0) / (Units.kts2mps kias / √(d / d0)) = Units.fpm2mps fpm / Units.kts2mps kias := by
    field_simp
  rw [er] at D
  have hr : (Units.fpm2mps fpm / Units.kts2mps kias) ^ 2 ≤ 1 / 2 := by
    rw [div_pow, div_le_iff₀ (by positivity)]
    linarith
  have hr0 : 0 ≤ (Units.fpm2mps fpm / Units.kts2mps kias) ^ 2 := by positivity
  have e := (D.weaken (n := 100) (by norm_num)).le (by norm_num)
  rw [abs_of_nonneg hr0] at e
  have hu : binary64.u ≤ 1 / 1000000 := binary64.u_lt.le
  have hu0 := binary64.u_nonneg
  have e2 : ((100 : ℕ) + 1 : ℝ) * binary64.u * (Units.fpm2mps fpm / Units.kts2mps kias) ^ 2 ≤ 1 / 1000 := by
    calc ((100 : ℕ) + 1 : ℝ) * binary64.u * (Units.fpm2mps fpm / Units.kts2mps kias) ^ 2
        ≤ ((100 : ℕ) + 1 : ℝ) * (1 / 1000000) * (1 / 2) := by
          apply mul_le_mul (by gcongr) hr hr0 (by positivity)
      _ ≤ 1 / 1000 := by norm_num
  have e3 := e.trans e2
  rw [abs_le] at e3
  refine Mag.weaken (k := 2) ⟨?_, ?_⟩ (by norm_num)
  · have := e3.2
    have : (L.lib.pow (rd64 (Fl.atm_eas2tas binary64 d d0 (Fl.fpm2mps binary64 fpm) /
      Fl.atm_eas2tas binary64 d d0 (Fl.kts2mps binary64 kias))) 2) ≤ 0.6 := by
      show (L.lib.pow (binary64.rd (Fl.atm_eas2tas binary64 d d0 (Fl.fpm2mps binary64 fpm) /
        Fl.atm_eas2tas binary64 d d0 (Fl.kts2mps binary64 kias))) 2) ≤ 0.6
      linarith
    linarith
  · have := e3.1
    have : -1 ≤ (L.lib.pow (rd64 (Fl.atm_eas2tas binary64 d d0 (Fl.fpm2mps binary64 fpm) /
      Fl.atm_eas2tas binary64 d d0 (Fl.kts2mps binary64 kias))) 2) := by
      show -1 ≤ (L.lib.pow (binary64.rd (Fl.atm_eas2tas binary64 d d0 (Fl.fpm2mps binary64 fpm) /
        Fl.atm_eas2tas binary64 d d0 (Fl.kts2mps binary64 kias))) 2)
      linarith
    linarith

theorem climb_ok {kias fpm d d0 cd k w frac tcorr : ℝ} (h1 : Mag 40 kias) (hf : Mag 40 fpm) (h2 : Mag 40 d) (h20 : Mag 40 d0) (h3 : Mag 40 cd)
    (h4 : Mag 40 k) (h5 : Mag 40 w) (h6 : Mag 40 frac) (h7 : Mag 40 tcorr)
    (hangle : 2 * Units.fpm2mps fpm ^ 2 ≤ Units.kts2mps kias ^ 2) :
    Ieee.climbTw L kias fpm d d0 cd k w frac tcorr = some (Fl.climbTw binary64 L.lib kias fpm d d0 cd k w frac tcorr) := by
  obtain ⟨ek, hk⟩ := kts2mps_ok h1 (by norm_num)
  obtain ⟨ev, hv⟩ := eas2tas_ok h2 h20 hk (by norm_num)
  obtain ⟨ef, hf'⟩ := fpm2mps_ok hf (by norm_num)
  obtain ⟨er, hr⟩ := eas2tas_ok h2 h20 hf' (by norm_num)
  obtain ⟨eq, hq⟩ := dynamicpressure_ok L h2 hv (by norm_num)
  have g1 := h5.mul h6
  obtain ⟨ep, hp⟩ := climbPoint_ok L hr hv hq h3 h4 g1.rd (by norm_num) (climb_angle L h1.pos hf.pos h2.pos h20.pos hangle)
  have g2 := hp.div h7
  have g3 := g2.rd.mul h6
  unfold Ieee.climbTw
  simp only [ek, ev, eq, ef, er, ep, ieee_ok g1 (by norm_num), ieee_ok g2 (by norm_num), ieee_ok g3 (by norm_num), Option.bind_eq_bind,
    Option.bind_some]
  rfl

theorem takeoff_ok {d clmaxto w groundrun cdto clto mu : ℝ} (h1 : Mag 40 d) (h2 : Mag 40 clmaxto) (h3 : Mag 40 w) (h4 : Mag 40 groundrun)
    (h5 : Mag 40 cdto) (h6 : Mag 40 clto) (h7 : mu = 0 ∨ Mag 40 mu) :
    Ieee.liftoffPoint d clmaxto w = some (Fl.liftoffPoint binary64 d clmaxto w) ∧
    Ieee.takeoffPoint L groundrun cdto clto mu (Fl.liftoffPoint binary64 d clmaxto w) =
      some (Fl.takeoffPoint binary64 L.lib groundrun cdto clto mu (Fl.liftoffPoint binary64 d clmaxto w)) := by
  have c : Mag 1 1.1 := by constructor <;> norm_num
  have c2 : Mag 1 2 := by constructor <;> norm_num
  have a1 := c2.mul h3
  have a2 := h1.mul h2
  have a3 := a1.rd.div a2.rd
  have a4 := (a3.rd.weaken (n := 2 * 61) (by norm_num)).sqrt
  have a5 := c.rd.mul a4.rd
  constructor
  · unfold Ieee.liftoffPoint
    simp only [ieee_ok c (by norm_num), ieee_ok a1 (by norm_num), ieee_ok a2 (by norm_num), ieee_ok a3 (by norm_num), ieee_ok a4 (by norm_num),
      ieee_ok a5 (by norm_num), Option.bind_eq_bind, Option.bind_some]
    rfl
  · have hl : Mag 62 (Fl.liftoffPoint binary64 d clmaxto w) := a5.rd
    obtain ⟨e, p⟩ := L.sq hl (by norm_num)
    have g : Mag 4 9.80665 := by constructor <;> norm_num
    have ch : Mag 1 0.5 := by constructor <;> norm_num
    have b1 := c2.mul g.rd
    have b2 := b1.rd.mul h4
    have b3 := p.div b2.rd
    have b4 := ch.mul h5
    have b5 := b4.rd.div h6
    have b6 := b3.rd.add b5.rd
    unfold Ieee.takeoffPoint
    rcases h7 with h7 | h7
    · have z : rd64 0 = 0 := by simp [rd64]
      have b7 : Mag 400 (rd64 (rd64 (L.lib.pow (Fl.liftoffPoint binary64 d clmaxto w) 2 / rd64 (rd64 (2 * rd64 9.80665) * groundrun)) +
        rd64 (rd64 (0.5 * cdto) / clto)) + 0) := by rw [add_zero]; exact b6.rd.weaken (by norm_num)
      rw [h7]
      simp only [e, ieee_ok g (by norm_num), ieee_ok b1 (by norm_num), ieee_ok b2 (by norm_num), ieee_ok b3 (by norm_num),
        ieee_ok b4 (by norm_num), ieee_ok b5 (by norm_num), ieee_ok b6 (by norm_num), mul_zero, ieee_zero, ieee_ok b7 (by norm_num),
        Option.bind_eq_bind, Option.bind_some]
      unfold Fl.takeoffPoint
      rw [mul_zero]
      show _ = some (rd64 (_ + rd64 0))
      rw [z]
      rfl
    · have b7 := ch.mul h7
      have b8 := b6.rd.add b7.rd
      simp only [e, ieee_ok g (by norm_num), ieee_ok b1 (by norm_num), ieee_ok b2 (by norm_num), ieee_ok b3 (by norm_num),
        ieee_ok b4 (by norm_num), ieee_ok b5 (by norm_num), ieee_ok b6 (by norm_num), ieee_ok b7 (by norm_num), ieee_ok b8 (by norm_num),
        Option.bind_eq_bind, Option.bind_some]
      rfl

theorem turn_ok {q cd n k w ws : ℝ} (h1 : Mag 80 q) (h2 : Mag 40 cd) (h3 : Mag 40 n) (h4 : Mag 40 k) (h5 : Mag 80 w) (h6 : Mag 80 ws) :
    Ieee.turnPoint L q cd n k w ws = some (Fl.turnPoint binary64 L.lib q cd n k w ws) := by
  have a := h2.div h5
  have b := h3.div h1
  obtain ⟨e, p⟩ := L.sq b.rd (by norm_num)
  have c := h4.mul p
  have d := c.rd.mul h6
  have s := a.rd.add d.rd
  have t := h1.mul s.rd
  unfold Ieee.turnPoint
  simp only [e, ieee_ok a (by norm_num), ieee_ok b (by norm_num), ieee_ok c (by norm_num), ieee_ok d (by norm_num), ieee_ok s (by norm_num),
    ieee_ok t (by norm_num), Option.bind_eq_bind, Option.bind_some]
  rfl

theorem power_ok {tow eta tw v : ℝ} (h1 : Mag 40 tow) (h2 : Mag 40 eta) (h3 : Mag 40 tw) (h4 : Mag 40 v) :
    Ieee.powerPoint tow eta tw v = some (Fl.powerPoint binary64 tow eta tw v) := by
  have g : Mag 4 9.80665 := by constructor <;> norm_num
  have t : Mag 10 1000 := by constructor <;> norm_num
  have c : Mag 1 1.34102 := by constructor <;> norm_num
  have a1 := h3.mul h4
  have a2 := a1.rd.div h2
  have a3 := a2.rd.mul g.rd
  have a4 := a3.rd.div t
  have a5 := a4.rd.mul c.rd
  have a6 := a5.rd.mul h1
  unfold Ieee.powerPoint Ieee.wn2hpkg
  simp only [ieee_ok g (by norm_num), ieee_ok c (by norm_num), ieee_ok a1 (by norm_num), ieee_ok a2 (by norm_num), ieee_ok a3 (by norm_num),
    ieee_ok a4 (by norm_num), ieee_ok a5 (by norm_num), ieee_ok a6 (by norm_num), Option.bind_eq_bind, Option.bind_some]
  rfl

theorem vs_ok {n W S r cl : ℝ} (h1 : Mag 40 n) (h2 : Mag 40 W) (h3 : Mag 40 S) (h4 : Mag 40 r) (h5 : Mag 40 cl) :
    Ieee.vs_keas n W S r cl = some (Fl.vs_keas binary64 n W S r cl) := by
  have c : Mag 1 0.5 := by constructor <;> norm_num
  have a1 := h1.mul h2
  have a2 := c.mul h4
  have a3 := a2.rd.mul h3
  have a4 := a3.rd.mul h5
  have a5 := a1.rd.div a4.rd
  have a6 := (a5.rd.weaken (n := 2 * 101) (by norm_num)).sqrt
  obtain ⟨e, -⟩ := mps2kts_ok a6.rd (by norm_num)
  unfold Ieee.vs_keas
  simp only [ieee_ok a1 (by norm_num), ieee_ok a2 (by norm_num), ieee_ok a3 (by norm_num), ieee_ok a4 (by norm_num), ieee_ok a5 (by norm_num),
    ieee_ok a6 (by norm_num), e, Option.bind_eq_bind, Option.bind_some]
  rfl

theorem npos_ok {W : ℝ} (h : Mag 40 W) : Ieee.nposNorm W = some (Fl.nposNorm binary64 W) := by
  have c1 : Mag 2 3.8 := by constructor <;> norm_num
  have c2 : Mag 2 2.1 := by constructor <;> norm_num
  have c3 : Mag 3 0.224809 := by constructor <;> norm_num
  have c4 : Mag 14 10000 := by constructor <;> norm_num
  have c5 : Mag 15 24000 := by constructor <;> norm_num
  have a1 := h.mul c3.rd
  have a2 := a1.rd.add c4
  have a3 := c5.div a2.rd
  have a4 := c2.rd.add a3.rd
  unfold Ieee.nposNorm Ieee.n2lbf
  simp only [ieee_ok c1 (by norm_num), ieee_ok c2 (by norm_num), ieee_ok c3 (by norm_num), ieee_ok a1 (by norm_num), ieee_ok a2 (by norm_num),
    ieee_ok a3 (by norm_num), ieee_ok a4 (by norm_num), Option.bind_eq_bind, Option.bind_some]
  rfl

theorem smc_ok {S AR : ℝ} (h1 : Mag 40 S) (h2 : Mag 40 AR) :
    Ieee.smc S AR = some (Fl.smc binary64 S AR) ∧ Mag 40 (Fl.smc binary64 S AR) := by
  have a1 := h1.div h2
  have a2 := (a1.rd.weaken (n := 2 * 40) (by norm_num)).sqrt
  refine ⟨?_, a2.rd⟩
  unfold Ieee.smc
  simp only [ieee_ok a1 (by norm_num), ieee_ok a2 (by norm_num), Option.bind_eq_bind, Option.bind_some]
  rfl

theorem mac_ok {S AR t : ℝ} (h1 : Mag 40 S) (h2 : Mag 40 AR) (h3 : Mag 40 t) : Ieee.mac L S AR t = some (Fl.mac binary64 L.lib S AR t) := by
  have c2 : Mag 1 2 := by constructor <;> norm_num
  have c3 : Mag 1 (2 / 3) := by constructor <;> norm_num
  obtain ⟨e, s⟩ := smc_ok h1 h2
  have a1 := mag_one.add h3
  have a2 := c2.div a1.rd
  have a3 := a2.rd.mul s
  have a4 := c3.rd.mul a3.rd
  obtain ⟨e2, p⟩ := L.sq h3 (by norm_num)
  have a5 := a1.rd.add p
  have a6 := a4.rd.mul a5.rd
  have a7 := a6.rd.div a1.rd
  unfold Ieee.mac
  simp only [ieee_ok c3 (by norm_num), e, e2, ieee_ok a1 (by norm_num), ieee_ok a2 (by norm_num), ieee_ok a3 (by norm_num),
    ieee_ok a4 (by norm_num), ieee_ok a5 (by norm_num), ieee_ok a6 (by norm_num), ieee_ok a7 (by norm_num), Option.bind_eq_bind, Option.bind_some]
  rfl

theorem gust_ok {W S AR wf rho rho0 a gu V : ℝ} (h1 : Mag 40 W) (h2 : Mag 40 S) (h3 : Mag 40 AR) (h4 : Mag 40 wf) (h5 : Mag 40 rho)
    (h6 : Mag 40 rho0) (h7 : Mag 40 a) (h8 : Mag 40 gu) (h9 : Mag 40 V) :
    Ieee.gustLoad W S AR wf rho rho0 a gu V = some (Fl.gustLoads binary64 W S AR wf rho rho0 a gu V).1 := by
  have c2 : Mag 1 2 := by constructor <;> norm_num
  have cg : Mag 4 9.80665 := by constructor <;> norm_num
  have c88 : Mag 1 0.88 := by constructor <;> norm_num
  have c53 : Mag 3 5.3 := by constructor <;> norm_num
  obtain ⟨e, s⟩ := smc_ok h2 h3
  have a1 := h1.div h2
  have a2 := a1.rd.mul h4
  have m1 := c2.mul a2.rd
  have m2 := h5.mul s
  have m3 := m2.rd.mul h7
  have m4 := m3.rd.mul cg.rd
  have m5 := m1.rd.div m4.rd
  have k1 := c88.rd.mul m5.rd
  have k2 := c53.rd.add m5.rd
  have k3 := k1.rd.div k2.rd
  obtain ⟨ev, v⟩ := kts2mps_ok h9 (by norm_num)
  have q1 := k3.rd.mul h6
  have q2 := q1.rd.mul h8
  have q3 := q2.rd.mul v
  have q4 := q3.rd.mul h7
  have q5 := q4.rd.div m1.rd
  have q6 := q5.rd.div h4
  have q7 := mag_one.add q6.rd
  unfold Ieee.gustLoad Ieee.mu_g Ieee.k_gust Ieee.gustIncrement
  simp only [e, ev, ieee_ok cg (by norm_num), ieee_ok c88 (by norm_num), ieee_ok c53 (by norm_num), ieee_ok a1 (by norm_num),
    ieee_ok a2 (by norm_num), ieee_ok m1 (by norm_num), ieee_ok m2 (by norm_num), ieee_ok m3 (by norm_num), ieee_ok m4 (by norm_num),
    ieee_ok m5 (by norm_num), ieee_ok k1 (by norm_num), ieee_ok k2 (by norm_num), ieee_ok k3 (by norm_num), Option.bind_eq_bind, Option.bind_some]
  simp only [ieee_ok q1 (by norm_num), ieee_ok q2 (by norm_num), ieee_ok q3 (by norm_num), ieee_ok q4 (by norm_num), ieee_ok q5 (by norm_num),
    ieee_ok q6 (by norm_num), ieee_ok q7 (by norm_num), Option.bind_some]
  rfl

/-! ### C142 -/

/-- Data of ordinary size: between 2⁻⁴⁰ (about 10⁻¹²) and 2⁴⁰ (about 10¹²). -/
def Ordinary (x : ℝ) : Prop := (2 : ℝ) ^ (-40 : ℤ) ≤ x ∧ x ≤ (2 : ℝ) ^ 40

theorem Ordinary.mag {x : ℝ} (h : Ordinary x) : Mag 40 x := Mag.mk' (by exact_mod_cast h.1) h.2

/-- C142: the thrust to weight ratio for cruise, computed in binary64 with its bounds of the exponent, is a number, and the exact ratio up
to `3 j + 19` units. -/
theorem C142_cruise (j : ℕ) (hj : j ≤ 100) (ktas cd w frac fact dh d kh k th t : ℝ) (h1 : Ordinary ktas) (h2 : Ordinary dh) (h3 : Ordinary cd)
    (h4 : Ordinary kh) (h5 : Ordinary w) (h6 : Ordinary frac) (h7 : Ordinary th) (h8 : Ordinary fact) (pd : 0 < d) (pk : 0 < k)
    (hd : Acc binary64 j dh d) (hk : Acc binary64 j kh k) (ht : Acc binary64 j th t) :
    let tw := Aircraft.cruisePoint (0.5 * d * Units.kts2mps ktas ^ 2) cd k (w * frac) / t * frac * (1 / fact)
    ∃ y, Ieee.cruiseTw L ktas dh cd kh w frac th fact = some y ∧ |y - tw| ≤ (3 * j + 19) * (2 : ℝ) ^ (-53 : ℤ) * |tw| := by
  intro tw
  exact ⟨_, cruise_ok L h1.mag h2.mag h3.mag h4.mag h5.mag h6.mag h7.mag h8.mag,
    C128_cruise binary64 L.lib j hj ktas cd w frac fact dh d kh k th t h1.mag.pos pd h3.mag.pos h5.mag.pos h6.mag.pos pk hd hk ht⟩

/-- Libraries exist: the exact powers. -/
def exactLib : CLib where
  pow x y := some (x ^ y)
  pow_ok x y hx _ _ := ⟨_, rfl, by rw [sub_self, abs_zero]; have := Real.rpow_nonneg hx.le y; positivity⟩

example : ∃ y, Ieee.cruiseTw exactLib 150 1 0.0254 0.04 900 1 0.8 1 = some y ∧
    |y - Aircraft.cruisePoint (0.5 * 1 * Units.kts2mps 150 ^ 2) 0.0254 0.04 (900 * 1) / 0.8 * 1 * (1 / 1)| ≤
      (3 * (0 : ℕ) + 19) * (2 : ℝ) ^ (-53 : ℤ) * |Aircraft.cruisePoint (0.5 * 1 * Units.kts2mps 150 ^ 2) 0.0254 0.04 (900 * 1) / 0.8 * 1 * (1 / 1)| := by
  refine C142_cruise exactLib 0 (by norm_num) 150 0.0254 900 1 1 1 1 0.04 0.04 0.8 0.8 ?_ ?_ ?_ ?_ ?_ ?_ ?_ ?_ one_pos (by norm_num)
    (Acc.refl _) (Acc.refl _) (Acc.refl _) <;> constructor <;> norm_num

/-- The bounds of the data matter: for a wing loading of 2⁻¹⁰³⁰ the quotient 1 / w is infinite. -/
theorem C142_overflow (q cd k : ℝ) : Ieee.cruisePoint q cd k ((2 : ℝ) ^ (-1030 : ℤ)) = none := by
  have e : rd64 (1 / (2 : ℝ) ^ (-1030 : ℤ)) = (2 : ℝ) ^ (1030 : ℤ) := by
    rw [one_div, ← zpow_neg, neg_neg]
    exact Fl.rd64_exact _ 1 1030 (by simp) (by norm_num)
  have o : ieee (1 / (2 : ℝ) ^ (-1030 : ℤ)) = none := by
    unfold ieee
    rw [e, if_pos]
    rw [abs_of_pos (by positivity)]
    exact zpow_le_zpow_right₀ (by norm_num) (by norm_num)
  unfold Ieee.cruisePoint
  rw [o]
  rfl

example : Ieee.cruisePoint 3000 0.02 0.05 ((2 : ℝ) ^ (-1030 : ℤ)) = none := C142_overflow 3000 0.02 0.05

/-- C142: the same for the service ceiling, up to `5 j + 24` units. -/
theorem C142_ceiling (j : ℕ) (hj : j ≤ 60) (kias cd w frac dh d d0h d0 kh k th t : ℝ) (h1 : Ordinary kias) (h2 : Ordinary dh) (h20 : Ordinary d0h)
    (h3 : Ordinary cd) (h4 : Ordinary kh) (h5 : Ordinary w) (h6 : Ordinary frac) (h7 : Ordinary th) (pd : 0 < d) (pd0 : 0 < d0) (pk : 0 < k)
    (hd : Acc binary64 j dh d) (hd0 : Acc binary64 j d0h d0) (hk : Acc binary64 j kh k) (ht : Acc binary64 j th t) :
    let v := Units.kts2mps kias / √(d / d0)
    let roc := Units.fpm2mps 100 / √(d / d0)
    let tw := Aircraft.ceilingPoint roc v (0.5 * d * v ^ 2) cd k (w * frac) / t * frac
    ∃ y, Ieee.ceilingTw L kias dh d0h cd kh w frac th = some y ∧ |y - tw| ≤ (5 * j + 24) * (2 : ℝ) ^ (-53 : ℤ) * |tw| := by
  intro v roc tw
  exact ⟨_, ceiling_ok L h1.mag h2.mag h20.mag h3.mag h4.mag h5.mag h6.mag h7.mag,
    C128_ceiling binary64 L.lib j hj kias cd w frac dh d d0h d0 kh k th t h1.mag.pos pd pd0 h3.mag.pos h5.mag.pos h6.mag.pos pk hd hd0 hk ht⟩

example : ∃ y, Ieee.ceilingTw exactLib 100 0.5 1 0.0254 0.04 900 0.9 0.4 = some y := by
  obtain ⟨y, h, -⟩ := C142_ceiling exactLib 0 (by norm_num) 100 0.0254 900 0.9 0.5 0.5 1 1 0.04 0.04 0.4 0.4 (by constructor <;> norm_num)
    (by constructor <;> norm_num) (by constructor <;> norm_num) (by constructor <;> norm_num) (by constructor <;> norm_num) (by constructor <;> norm_num)
    (by constructor <;> norm_num) (by constructor <;> norm_num) (by norm_num) one_pos (by norm_num) (Acc.refl _) (Acc.refl _) (Acc.refl _) (Acc.refl _)
  exact ⟨y, h⟩

/-- C142: the same for climb (flight path angles up to 45 degrees), up to `13 j + 78` units. -/
theorem C142_climb (j : ℕ) (hj : j ≤ 60) (kias fpm cd w frac dh d d0h d0 kh k th t : ℝ) (h1 : Ordinary kias) (hf : Ordinary fpm)
    (h2 : Ordinary dh) (h20 : Ordinary d0h) (h3 : Ordinary cd) (h4 : Ordinary kh) (h5 : Ordinary w) (h6 : Ordinary frac) (h7 : Ordinary th)
    (pd : 0 < d) (pd0 : 0 < d0) (pk : 0 < k) (hangle : 2 * Units.fpm2mps fpm ^ 2 ≤ Units.kts2mps kias ^ 2)
    (hd : Acc binary64 j dh d) (hd0 : Acc binary64 j d0h d0) (hk : Acc binary64 j kh k) (ht : Acc binary64 j th t) :
    let v := Units.kts2mps kias / √(d / d0)
    let roc := Units.fpm2mps fpm / √(d / d0)
    let tw := Aircraft.climbPoint roc v (0.5 * d * v ^ 2) cd k (w * frac) / t * frac
    ∃ y, Ieee.climbTw L kias fpm dh d0h cd kh w frac th = some y ∧ |y - tw| ≤ (13 * j + 78) * (2 : ℝ) ^ (-53 : ℤ) * |tw| := by
  intro v roc tw
  exact ⟨_, climb_ok L h1.mag hf.mag h2.mag h20.mag h3.mag h4.mag h5.mag h6.mag h7.mag hangle,
    C128_climb binary64 L.lib j hj kias fpm cd w frac dh d d0h d0 kh k th t h1.mag.pos hf.mag.pos pd pd0 h3.mag.pos h5.mag.pos h6.mag.pos pk
      hangle hd hd0 hk ht⟩

example : ∃ y, Ieee.climbTw exactLib 100 1000 0.9 1 0.0254 0.04 900 0.9 0.4 = some y := by
  obtain ⟨y, h, -⟩ := C142_climb exactLib 0 (by norm_num) 100 1000 0.0254 900 0.9 0.9 0.9 1 1 0.04 0.04 0.4 0.4 (by constructor <;> norm_num)
    (by constructor <;> norm_num) (by constructor <;> norm_num) (by constructor <;> norm_num) (by constructor <;> norm_num) (by constructor <;> norm_num)
    (by constructor <;> norm_num) (by constructor <;> norm_num) (by constructor <;> norm_num) (by norm_num) one_pos (by norm_num)
    (by unfold Units.fpm2mps Units.feet2m Units.kts2mps; norm_num) (Acc.refl _) (Acc.refl _) (Acc.refl _) (Acc.refl _)
  exact ⟨y, h⟩

/-- C142: the same for take-off (also with no rolling resistance), up to `j + 6` units for the lift-off speed and `2 j + 20` for the ratio. -/
theorem C142_takeoff (j : ℕ) (hj : j ≤ 100) (clmaxto w groundrun cdto clto mu dh d : ℝ) (h1 : Ordinary dh) (h2 : Ordinary clmaxto)
    (h3 : Ordinary w) (h4 : Ordinary groundrun) (h5 : Ordinary cdto) (h6 : Ordinary clto) (h7 : mu = 0 ∨ Ordinary mu) (pd : 0 < d)
    (hd : Acc binary64 j dh d) :
    let lof := Aircraft.liftoffPoint d clmaxto w
    let tw := Aircraft.takeoffPoint groundrun cdto clto mu lof
    ∃ v y, Ieee.liftoffPoint dh clmaxto w = some v ∧ |v - lof| ≤ (j + 6) * (2 : ℝ) ^ (-53 : ℤ) * lof ∧
      Ieee.takeoffPoint L groundrun cdto clto mu v = some y ∧ |y - tw| ≤ (2 * j + 20) * (2 : ℝ) ^ (-53 : ℤ) * tw := by
  intro lof tw
  have h7' : mu = 0 ∨ Mag 40 mu := h7.imp id Ordinary.mag
  have pm : 0 ≤ mu := by
    rcases h7' with h | h
    · exact h.ge
    · exact h.pos.le
  obtain ⟨e1, e2⟩ := takeoff_ok L h1.mag h2.mag h3.mag h4.mag h5.mag h6.mag h7'
  obtain ⟨b1, b2⟩ := C128_takeoff binary64 L.lib j hj clmaxto w groundrun cdto clto mu dh d pd h2.mag.pos h3.mag.pos h4.mag.pos h5.mag.pos
    h6.mag.pos pm hd
  exact ⟨_, _, e1, b1, e2, b2⟩

example : ∃ v y, Ieee.liftoffPoint 1 1.5 900 = some v ∧ Ieee.takeoffPoint exactLib 400 0.04 0.6 0 v = some y := by
  obtain ⟨v, y, h1, -, h2, -⟩ := C142_takeoff exactLib 0 (by norm_num) 1.5 900 400 0.04 0.6 0 1 1 (by constructor <;> norm_num)
    (by constructor <;> norm_num) (by constructor <;> norm_num) (by constructor <;> norm_num) (by constructor <;> norm_num)
    (by constructor <;> norm_num) (.inl rfl) one_pos (Acc.refl _)
  exact ⟨v, y, h1, h2⟩

/-- C142: the same for sustained turns, up to `4 j + 10` units, and for the power from the thrust to weight ratio, up to `2 j + 9`. -/
theorem C142_turn_power (j : ℕ) (hj : j ≤ 100) (cd n w ws qh q kh k tow eta twh tw vh v : ℝ) (h1 : Ordinary qh) (h2 : Ordinary cd)
    (h3 : Ordinary n) (h4 : Ordinary kh) (h5 : Ordinary w) (h6 : Ordinary ws) (h7 : Ordinary tow) (h8 : Ordinary eta) (h9 : Ordinary twh)
    (h10 : Ordinary vh) (pq : 0 < q) (pk : 0 < k) (hq : Acc binary64 j qh q) (hk : Acc binary64 j kh k) (ht : Acc binary64 j twh tw)
    (hv : Acc binary64 j vh v) :
    (∃ y, Ieee.turnPoint L qh cd n kh w ws = some y ∧
      |y - Aircraft.turnPoint q cd n k w ws| ≤ (4 * j + 10) * (2 : ℝ) ^ (-53 : ℤ) * Aircraft.turnPoint q cd n k w ws) ∧
    ∃ y, Ieee.powerPoint tow eta twh vh = some y ∧
      |y - Units.wn2hpkg (Aircraft.tw2pw tw v eta) * tow| ≤
        (2 * j + 9) * (2 : ℝ) ^ (-53 : ℤ) * |Units.wn2hpkg (Aircraft.tw2pw tw v eta) * tow| :=
  ⟨⟨_, turn_ok L (h1.mag.weaken (by norm_num)) h2.mag h3.mag h4.mag (h5.mag.weaken (by norm_num)) (h6.mag.weaken (by norm_num)),
    C128_turn binary64 L.lib j hj cd n w ws qh q kh k pq h2.mag.pos h3.mag.pos h5.mag.pos h6.mag.pos pk hq hk⟩,
   ⟨_, power_ok h7.mag h8.mag h9.mag h10.mag, C128_power binary64 j hj tow eta twh tw vh v ht hv⟩⟩

example : ∃ y z, Ieee.turnPoint exactLib 2000 0.0254 2 0.04 900 900 = some y ∧ Ieee.powerPoint 1000 0.8 0.3 50 = some z := by
  obtain ⟨⟨y, h, -⟩, z, h', -⟩ := C142_turn_power exactLib 0 (by norm_num) 0.0254 2 900 900 2000 2000 0.04 0.04 1000 0.8 0.3 0.3 50 50
    (by constructor <;> norm_num) (by constructor <;> norm_num) (by constructor <;> norm_num) (by constructor <;> norm_num)
    (by constructor <;> norm_num) (by constructor <;> norm_num) (by constructor <;> norm_num) (by constructor <;> norm_num)
    (by constructor <;> norm_num) (by constructor <;> norm_num) (by norm_num) (by norm_num) (Acc.refl _) (Acc.refl _) (Acc.refl _) (Acc.refl _)
  exact ⟨y, z, h, h'⟩

/-- C142: the formulas of CS-23 for data of ordinary size: stall speed, limit load, chords and gust load are numbers, and those that C141
bounds. -/
theorem C142_airworthiness (W S AR t n rho rho0 cl a gu V wf : ℝ) (h1 : Ordinary W) (h2 : Ordinary S) (h3 : Ordinary AR) (h4 : Ordinary t)
    (h5 : Ordinary n) (h6 : Ordinary rho) (h7 : Ordinary rho0) (h8 : Ordinary cl) (h9 : Ordinary a) (h10 : Ordinary gu) (h11 : Ordinary V)
    (h12 : Ordinary wf) :
    Ieee.vs_keas n W S rho0 cl = some (Fl.vs_keas binary64 n W S rho0 cl) ∧
    Ieee.nposNorm W = some (Fl.npos_min binary64 W .norm) ∧
    Ieee.smc S AR = some (Fl.smc binary64 S AR) ∧
    Ieee.mac L S AR t = some (Fl.mac binary64 L.lib S AR t) ∧
    Ieee.gustLoad W S AR wf rho rho0 a gu V = some (Fl.gustLoads binary64 W S AR wf rho rho0 a gu V).1 :=
  ⟨vs_ok h5.mag h1.mag h2.mag h7.mag h8.mag, npos_ok h1.mag, (smc_ok h2.mag h3.mag).1, mac_ok L h2.mag h3.mag h4.mag,
    gust_ok h1.mag h2.mag h3.mag h12.mag h6.mag h7.mag h9.mag h10.mag h11.mag⟩

example : Ieee.gustLoad 10000 12 9 0.9 0.9 1.225 5 15.24 120 = some (Fl.gustLoads binary64 10000 12 9 0.9 0.9 1.225 5 15.24 120).1 := by
  refine (C142_airworthiness exactLib 10000 12 9 0.5 1 0.9 1.225 1.5 5 15.24 120 0.9 ?_ ?_ ?_ ?_ ?_ ?_ ?_ ?_ ?_ ?_ ?_ ?_).2.2.2.2 <;>
    constructor <;> norm_num

end

end Verif.Props
