import Verif.Lemmas.VnWarnings
import Verif.Props.Airworthiness3

/-
Property C147: the warnings of the V-n diagram.
-/

namespace Verif.Props
open Verif Verif.Units Verif.Aircraft Verif.Airworthiness

noncomputable section

/-- The diagram is that computed without regard to warnings. -/
theorem C147_values (X : Ext) (o : Cert) (f : FigSize) : (flightenvelopeW X o f).2 = flightenvelope X o := vn_erase X o f

/-- The warnings of a diagram, from the speeds in it. -/
theorem C147_warnings (X : Ext) (o : Cert) (f : FigSize) (E : Envelope) (h : flightenvelope X o = .ok E) (w : Warning) :
    w ∈ (flightenvelopeW X o f).1 ↔ (w = .figureSize ∧ ∃ l, f = .list l ∧ l.length ≠ 2) ∨ (w = .diveAssumed ∧ o.divespeed_keas = none) ∨
      (w = .cruiseAboveLevel ∧ ∃ vh, o.maxlevelspeed_keas = some vh ∧ 0.9 * vh < E.vc) ∨
      (w = .manoeuvreAboveCruise ∧ E.vc < E.va) ∨ (w = .invertedStall ∧ E.vis < E.vs) := by
  rw [vn_warnings h]
  have : f.wrong = true ↔ ∃ l, f = .list l ∧ l.length ≠ 2 := by
    cases f with
    | none => simp [FigSize.wrong]
    | list l => simp [FigSize.wrong]
    | other => simp [FigSize.wrong]
  rw [this]

theorem sqrt_scaled_lt {a b : ℝ} (ha : 0 ≤ a) : 1.9438445 * √a < 1.9438445 * √b ↔ a < b := by
  rw [mul_lt_mul_iff_right₀ (by norm_num), Real.sqrt_lt_sqrt_iff ha]

/-- The warning about the inverted stall speed: exactly when the inverted wing lifts more. -/
theorem C147_inverted (X : Ext) (o : Cert) (f : FigSize) (W S clmax clmin : ℝ) (k : Flyable X o W S clmax clmin) :
    .invertedStall ∈ (flightenvelopeW X o f).1 ↔ clmax < -clmin := by
  obtain ⟨E, h⟩ := k.envelope
  rw [C147_warnings X o f E h]
  obtain ⟨rho0, pr, hr, hs1, hs2⟩ := k.stalls
  obtain ⟨cat, rho, vc0, m, W', S', a, rho0', smc, kg, clmax', clmin', npos, nnegC, nnegD, e⟩ := flightenvelope_ok h
  have hvs := e.vs; rw [hs1] at hvs; replace hvs := (Except.ok.inj hvs).symm
  have hvis := e.vis; rw [hs2] at hvis; replace hvis := (Except.ok.inj hvis).symm
  have pW := k.pW; have pS := k.pS; have pc := k.pmax; have nc := k.nmin; have pw := k.wf
  have e1 : 2 * -o.weightfraction * W / (rho0 * S * clmin) = 2 * o.weightfraction * W / (rho0 * S * -clmin) := by
    rw [show 2 * -o.weightfraction * W = -(2 * o.weightfraction * W) by ring, show rho0 * S * -clmin = -(rho0 * S * clmin) by ring, div_neg, neg_div]
  have pn : 0 < -clmin := by linarith
  have key : E.vis < E.vs ↔ clmax < -clmin := by
    rw [hvs, hvis, e1, sqrt_scaled_lt (by positivity), div_lt_div_iff_of_pos_left (by positivity) (by positivity) (by positivity)]
    constructor
    · intro h
      exact lt_of_mul_lt_mul_left h (by positivity)
    · intro h
      exact mul_lt_mul_of_pos_left h (by positivity)
  rw [key]
  simp

/-- The warning about the manoeuvring speed: exactly when the wing cannot produce the limit load at the cruise speed of the diagram. -/
theorem C147_manoeuvre (X : Ext) (o : Cert) (f : FigSize) (W S clmax clmin rho0 : ℝ) (k : Flyable X o W S clmax clmin)
    (hr : Atmos.dens1 o.acobj.designatm 0 = .ok rho0) (E : Envelope) (h : flightenvelope X o = .ok E) (cat : Cat)
    (hc : parseCat o.category = .ok cat) (l : Cat → ℝ × ℝ) (hl : paragraph337 o = .ok l) :
    .manoeuvreAboveCruise ∈ (flightenvelopeW X o f).1 ↔
      0.5 * rho0 * (E.vc / 1.9438445) ^ 2 * S * clmax < (l cat).1 * (o.weightfraction * W) := by
  rw [C147_warnings X o f E h]
  obtain ⟨rho0', pr, hr', hs1, hs2⟩ := k.stalls
  rw [hr] at hr'; cases hr'
  obtain ⟨cat', rho, vc0, m, W', S', a, rho0', smc, kg, clmax', clmin', npos, nnegC, nnegD, e⟩ := flightenvelope_ok h
  have hvs := e.vs; rw [hs1] at hvs; replace hvs := (Except.ok.inj hvs).symm
  have hva := e.va
  obtain ⟨l', hl', hn, -⟩ := e.limits
  rw [hl] at hl'; cases hl'
  have e' := e.hcat; rw [hc] at e'; cases e'
  have np := e.npos0
  have pW := k.pW; have pS := k.pS; have pc := k.pmax; have pw := k.wf
  have vc0p : 0 ≤ E.vc := by
    obtain ⟨v, hv, hv'⟩ := k.cruise
    have e' := e.gin.cruise; rw [hv'] at e'; cases e'
    rw [e.vc]; exact le_trans hv (le_max_left _ _)
  have key : E.vc < E.va ↔ 0.5 * rho0 * (E.vc / 1.9438445) ^ 2 * S * clmax < npos * (o.weightfraction * W) := by
    have ev : E.va = 1.9438445 * √(npos * (2 * o.weightfraction * W / (rho0 * S * clmax))) := by
      rw [hva, hvs, Real.sqrt_mul np]; ring
    rw [ev]
    have : E.vc < 1.9438445 * √(npos * (2 * o.weightfraction * W / (rho0 * S * clmax))) ↔
        E.vc / 1.9438445 < √(npos * (2 * o.weightfraction * W / (rho0 * S * clmax))) := by
      rw [div_lt_iff₀ (by norm_num), mul_comm]
    rw [this, Real.lt_sqrt (by positivity)]
    have e1 : npos * (2 * o.weightfraction * W / (rho0 * S * clmax)) = npos * (o.weightfraction * W) / (0.5 * rho0 * S * clmax) := by
      rw [show (0.5 : ℝ) = 1 / 2 by norm_num]; field_simp
    rw [e1, lt_div_iff₀ (by positivity)]
    constructor <;> intro h <;> [skip; skip] <;> nlinarith
  rw [key, hn]
  simp

/-- A cruise speed below the regulatory minimum and a dive speed below 1.25 times the cruise speed are replaced in silence: the
diagram is for other speeds than those given, and no warning is issued. -/
theorem C147_raised_violated (X : Ext) (o : Cert) (f : FigSize) (hf : ∀ l, f = .list l → l.length = 2) (W S clmax clmin rho0 v d : ℝ)
    (k : Flyable X o W S clmax clmin) (hr : Atmos.dens1 o.acobj.designatm 0 = .ok rho0) (E : Envelope) (h : flightenvelope X o = .ok E)
    (cat : Cat) (hc : parseCat o.category = .ok cat) (l : Cat → ℝ × ℝ) (hl : paragraph337 o = .ok l)
    (hv : o.cruisespeed_keas = some v) (hd : o.divespeed_keas = some d) (hm : o.maxlevelspeed_keas = none) (hcl : -clmin ≤ clmax)
    (hn : (l cat).1 * (o.weightfraction * W) ≤ 0.5 * rho0 * (E.vc / 1.9438445) ^ 2 * S * clmax) :
    (v < csVcMin cat (W / S * 0.020885434273039) → E.vc ≠ v) ∧ (d < 1.25 * v → E.vd ≠ d) ∧ (flightenvelopeW X o f).1 = [] := by
  obtain ⟨cat', vc0, W', S', h1, h2, h3, h4, h5, h6, -, h7, -⟩ := C58_speeds X o E h
  rw [hc] at h1; cases h1
  rw [hv] at h2; cases h2
  rw [k.weight] at h3; cases h3
  rw [k.area] at h4; cases h4
  refine ⟨fun hv => ?_, fun hd => ?_, ?_⟩
  · intro e; rw [e] at h5; linarith
  · intro e; rw [e] at h7; linarith
  · rw [List.eq_nil_iff_forall_not_mem]
    intro w hw
    have hw' := hw
    rw [C147_warnings X o f E h] at hw
    rcases hw with ⟨-, l', e1, e2⟩ | ⟨-, e1⟩ | ⟨-, vh, e1, -⟩ | ⟨rfl, -⟩ | ⟨rfl, -⟩
    · exact e2 (hf l' e1)
    · rw [hd] at e1; cases e1
    · rw [hm] at e1; cases e1
    · exact absurd ((C147_manoeuvre X o f W S clmax clmin rho0 k hr E h cat hc l hl).mp hw') (not_lt.mpr hn)
    · exact absurd ((C147_inverted X o f W S clmax clmin k).mp hw') (not_lt.mpr hcl)

/-- The warning that the cruise speed need not exceed 0.9 times the level speed is issued for every cruise speed, however low, once the
regulatory minimum exceeds that limit; the limit is not applied. -/
theorem C147_limit_violated (X : Ext) (o : Cert) (f : FigSize) (E : Envelope) (h : flightenvelope X o = .ok E) (cat : Cat)
    (hc : parseCat o.category = .ok cat) (W S vh : ℝ) (hW : o.acobj.weight_n = some W) (hS : o.acobj.wingarea_m2 = some S)
    (hm : o.maxlevelspeed_keas = some vh) (hlow : 0.9 * vh < csVcMin cat (W / S * 0.020885434273039)) :
    .cruiseAboveLevel ∈ (flightenvelopeW X o f).1 ∧ 0.9 * vh < E.vc := by
  obtain ⟨cat', vc0, W', S', h1, h2, h3, h4, h5, -⟩ := C58_speeds X o E h
  rw [hc] at h1; cases h1
  rw [hW] at h3; cases h3
  rw [hS] at h4; cases h4
  have : 0.9 * vh < E.vc := lt_of_lt_of_le hlow h5
  exact ⟨(C147_warnings X o f E h _).mpr (Or.inr (Or.inr (Or.inl ⟨rfl, vh, hm, this⟩))), this⟩

/-- The light aircraft with a dive speed of 140 knots and no level speed. -/
def exRaised : Cert := { exFly 10000 0.9 "util" with maxlevelspeed_keas := none, divespeed_keas := some 140 }

theorem exRaised_ok (X : Ext) : Flyable X exRaised 10000 12 1.5 (-1) := by
  have k := exFly_ok X 10000 0.9 "util" (by norm_num) (by norm_num) ⟨.util, rfl⟩
  exact ⟨k.cat, k.env, k.env0, k.cruise, k.weight, k.area, k.hmax, k.hmin, k.pW, k.pS, k.pmax, k.nmin, k.ar, k.wf, k.slope⟩

theorem exRaised_min : (132:ℝ) ≤ csVcMin .util (10000 / 12 * 0.020885434273039) := by
  have e : (4:ℝ) ≤ √(10000 / 12 * 0.020885434273039) := by apply Real.le_sqrt_of_sq_le; norm_num
  have e1 : csVcMin .util (10000 / 12 * 0.020885434273039) = 33 * √(10000 / 12 * 0.020885434273039) := by
    unfold csVcMin csFactor
    rw [if_pos (by norm_num)]; simp
  rw [e1]; linarith

/-- 120 and 140 knots become more than 132 and more than 140, and nothing is said, whatever pair is given as the figure size. -/
example (X : Ext) (a b : ℝ) : ∃ E, flightenvelope X exRaised = .ok E ∧ E.vc ≠ 120 ∧ E.vd ≠ 140 ∧
    (flightenvelopeW X exRaised (.list [a, b])).1 = [] := by
  have k := exRaised_ok X
  obtain ⟨E, h⟩ := k.envelope
  obtain ⟨l, hl⟩ : ∃ l, paragraph337 exRaised = .ok l := ⟨_, rfl⟩
  have hlow := exRaised_min
  have hvc : (132:ℝ) ≤ E.vc := by
    obtain ⟨cat, vc0, W, S, h1, -, h2, h3, h4, -⟩ := C58_speeds X _ E h
    cases h1
    have h2' : some (10000:ℝ) = some W := h2
    have h3' : some (12:ℝ) = some S := h3
    cases h2'; cases h3'
    linarith
  have hn : (l .util).1 = 4.4 := by
    obtain ⟨W', S, hW', -, h1, h2, h3, h4⟩ := paragraph337_ok hl
    rw [h2]
  obtain ⟨r1, r2, r3⟩ := C147_raised_violated X exRaised (.list [a, b]) (by intro l e; cases e; rfl) 10000 12 1.5 (-1) 1 120 140 k
    (exAtm_dens 0 (by norm_num) (by norm_num)) E h .util rfl l hl rfl rfl rfl (by norm_num) (by
      have e1 : (67:ℝ) ≤ E.vc / 1.9438445 := by rw [le_div_iff₀ (by norm_num)]; linarith
      have e2 : exRaised.weightfraction = 0.9 := rfl
      rw [hn, e2]
      nlinarith [mul_self_le_mul_self (by norm_num) e1])
  exact ⟨E, h, r1 (by linarith), r2 (by norm_num), r3⟩

/-- The light aircraft with a level speed of 130 knots: 117 knots suffice, and the warning comes at the cruise speed of 120 as at any other. -/
example (X : Ext) : ∃ E, flightenvelope X (exFly 10000 0.9 "util") = .ok E ∧
    .cruiseAboveLevel ∈ (flightenvelopeW X (exFly 10000 0.9 "util") .none).1 ∧ 0.9 * 130 < E.vc := by
  obtain ⟨E, h⟩ := (exFly_ok X 10000 0.9 "util" (by norm_num) (by norm_num) ⟨.util, rfl⟩).envelope
  exact ⟨E, h, C147_limit_violated X _ .none E h .util rfl 10000 12 130 rfl rfl rfl (lt_of_lt_of_le (by norm_num) exRaised_min)⟩

/-- No warning about the inverted stall for the light aircraft, whose lift coefficients are 1.5 and -1. -/
example (X : Ext) : .invertedStall ∉ (flightenvelopeW X (exFly 10000 0.9 "util") .none).1 := by
  rw [C147_inverted X _ .none 10000 12 1.5 (-1) (exFly_ok X 10000 0.9 "util" (by norm_num) (by norm_num) ⟨.util, rfl⟩)]
  norm_num

/-- A figure size of three numbers: announced for a list, not for a tuple. -/
example (X : Ext) : .figureSize ∈ (flightenvelopeW X exRaised (.list [1, 2, 3])).1 ∧ .figureSize ∉ (flightenvelopeW X exRaised .other).1 := by
  obtain ⟨E, h⟩ := (exRaised_ok X).envelope
  rw [C147_warnings X _ _ E h, C147_warnings X _ _ E h]
  simp

end

end Verif.Props
