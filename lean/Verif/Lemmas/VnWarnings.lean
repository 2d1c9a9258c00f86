import Verif.Model.VnWarnings
import Verif.Lemmas.Warnings
import Verif.Lemmas.Envelope

/-
The warnings of the V-n diagram: the results are those without warnings.
-/

namespace Verif.Airworthiness
open Verif Verif.Units Verif.Aircraft Verif.Props

open Classical in
theorem vn_erase (X : Ext) (o : Cert) (f : FigSize) : (flightenvelopeW X o f).2 = flightenvelope X o := by
  refine erase_step rfl fun cat => warn_step ?_
  refine erase_step rfl fun rho0 => erase_step rfl fun vc0 => warn_step ?_
  refine erase_step rfl fun clmax => erase_step rfl fun clmin => erase_step rfl fun W => erase_step rfl fun S => ?_
  refine erase_step rfl fun L => erase_step rfl fun ⟨M, G⟩ => warn_step (warn_step ?_)
  refine erase_step rfl fun vs => erase_step rfl fun vis => warn_step ?_
  refine erase_step rfl fun ⟨loads, k, a⟩ => erase_step rfl fun gc => erase_step rfl fun gd => ?_
  rfl

theorem warnIf_mem (p : Prop) [Decidable p] (v w : Warning) : w ∈ (warnIf p v).1 ↔ w = v ∧ p := by
  unfold warnIf
  split
  next h =>
    show w ∈ [v] ↔ _
    simp [h]
  next h =>
    show w ∈ ([] : List Warning) ↔ _
    simp [h]

theorem quiet_none {α : Type} (x : PyM α) : (quiet x).1 = [] := rfl

theorem soft_max {X : Ext} {o : Cert} {L : Cat → Speeds} (h : paragraph335 X o = .ok L) (cat : Cat) :
    (L cat).vcsoftmax = o.maxlevelspeed_keas.map (fun v => 0.9 * v) := by
  unfold paragraph335 at h
  simp only [bind_ok_iff] at h
  obtain ⟨vc, h1, cl, h2, W, h3, S, h4, vs, h5, l, h6, rt, h7, ⟨M, G⟩, h8, ⟨loads, k, a⟩, h9, vs', h10, rho0, h11, h⟩ := h
  have hs := overCats_ok h cat
  unfold speedsAt at hs
  simp only [bind_ok_iff] at hs
  obtain ⟨U, hU, gl, hgl, r, -, hs⟩ := hs
  injection hs with hs
  rw [← hs]

open Classical in
theorem vn_warnings {X : Ext} {o : Cert} {f : FigSize} {E : Envelope} (h : flightenvelope X o = .ok E) (w : Warning) :
    w ∈ (flightenvelopeW X o f).1 ↔ (w = .figureSize ∧ f.wrong = true) ∨ (w = .diveAssumed ∧ o.divespeed_keas = none) ∨
      (w = .cruiseAboveLevel ∧ ∃ vh, o.maxlevelspeed_keas = some vh ∧ 0.9 * vh < E.vc) ∨
      (w = .manoeuvreAboveCruise ∧ E.vc < E.va) ∨ (w = .invertedStall ∧ E.vis < E.vs) := by
  have hr := (vn_erase X o f).trans h
  obtain ⟨cat, h1, k1, e1⟩ := bind_success hr
  obtain ⟨u2, h2, k2, e2⟩ := bind_success k1
  obtain ⟨rho0, h3, k3, e3⟩ := bind_success k2
  obtain ⟨vc0, h4, k4, e4⟩ := bind_success k3
  obtain ⟨u5, h5, k5, e5⟩ := bind_success k4
  obtain ⟨clmax, h6, k6, e6⟩ := bind_success k5
  obtain ⟨clmin, h7, k7, e7⟩ := bind_success k6
  obtain ⟨W, h8, k8, e8⟩ := bind_success k7
  obtain ⟨S, h9, k9, e9⟩ := bind_success k8
  obtain ⟨L, h10, k10, e10⟩ := bind_success k9
  obtain ⟨⟨M, G⟩, h11, k11, e11⟩ := bind_success k10
  obtain ⟨u12, h12, k12, e12⟩ := bind_success k11
  obtain ⟨u13, h13, k13, e13⟩ := bind_success k12
  obtain ⟨vs, h14, k14, e14⟩ := bind_success k13
  obtain ⟨vis, h15, k15, e15⟩ := bind_success k14
  obtain ⟨u16, h16, k16, e16⟩ := bind_success k15
  obtain ⟨⟨loads, k, a⟩, h17, k17, e17⟩ := bind_success k16
  obtain ⟨gc, h18, k18, e18⟩ := bind_success k17
  obtain ⟨gd, h19, k19, e19⟩ := bind_success k18
  have e : (flightenvelopeW X o f).1 = _ := e1
  have e20 := e19.trans (show _ ++ _ = ([] : List Warning) from rfl)
  rw [e, e2, e3, e4, e5, e6, e7, e8, e9, e10, e11, e12, e13, e14, e15, e16, e17, e18, e20]
  have hL : paragraph335 X o = .ok L := h10
  have hs := soft_max hL cat
  have hE : E.vc = max vc0 (L cat).vcmin ∧ E.va = (L cat).vamin ∧ E.vs = vs ∧ E.vis = vis := by
    cases k19; exact ⟨rfl, rfl, rfl, rfl⟩
  obtain ⟨E1, E2, E3, E4⟩ := hE
  have hsoft : aboveSoft (max vc0 (L cat).vcmin) (L cat).vcsoftmax ↔ ∃ vh, o.maxlevelspeed_keas = some vh ∧ 0.9 * vh < E.vc := by
    rw [hs, E1]
    cases o.maxlevelspeed_keas with
    | none => simp [aboveSoft]
    | some v => simp [aboveSoft]
  simp only [List.mem_append, warnIf_mem, quiet_none, List.not_mem_nil, false_or, or_false, hsoft]
  rw [E1, E2, E3, E4]

end Verif.Airworthiness
