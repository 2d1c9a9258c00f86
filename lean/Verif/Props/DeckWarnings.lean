import Verif.Lemmas.DeckWarnings
import Verif.Props.DeckPlots2
import Verif.Props.Propeller2

/-
Property C148: the warnings of the engine decks.
-/

namespace Verif.Props
open Verif Verif.Units Verif.Aircraft Verif.Propulsion

noncomputable section

/-- The results of the queries are those computed without regard to warnings. -/
theorem C148_values (t : TurbopropDeck) (p : PistonDeck) (e : ElectricDeck) (j : JetDeck) (G : Grid) (x y z : NumArg) (r : ℝ)
    (o : PropellerObj) (b : String) (m : PolyArg) :
    ((t.hotthrustW G x y).2 = t.hotthrust G x y ∧ (t.shaftpowerW G x y).2 = t.shaftpower G x y ∧ (t.bsfcW G x y).2 = t.bsfc G x y ∧
      (t.coldthrustW G x y r o).2 = t.coldthrust G x y r o ∧ (t.thrustW G x y r o).2 = t.thrust G x y r o ∧
      (t.tsfcW G x y r o).2 = t.tsfc G x y r o ∧ (t.sl_powercorrW G x y).2 = t.sl_powercorr G x y) ∧
    ((p.shaftpowerW G x y).2 = p.shaftpower G x y ∧ (∀ P, (p.bsfcW G x P b).2 = p.bsfc G x P b) ∧
      (p.thrustW G x y r o).2 = p.thrust G x y r o ∧ (p.tsfcW G x y r o b).2 = p.tsfc G x y r o b ∧
      (p.sl_powercorrW G x y).2 = p.sl_powercorr G x y) ∧
    ((e.efficiencyW G x y).2 = e.efficiency G x y ∧ (e.bsecW G x y).2 = e.bsec G x y ∧ (e.thrustW x y z r o).2 = e.thrust x y z r o) ∧
    ((j.thrustW G x y).2 = j.thrust G x y ∧ (j.tsfcW G x y).2 = j.tsfc G x y ∧ (j.sl_thrustcorrW G x y).2 = j.sl_thrustcorr G x y ∧
      (j.sl_thrustW m).2 = j.sl_thrust m ∧ (j.sl_take_off_thrustW m).2 = j.sl_take_off_thrust m) :=
  ⟨⟨guarded_erase _ _ _ _ _ _, guarded_erase _ _ _ _ _ _, guarded_erase _ _ _ _ _ _, TurbopropDeck.cold_erase _ _ _ _ _ _,
      TurbopropDeck.thrust_erase _ _ _ _ _ _, TurbopropDeck.tsfc_erase _ _ _ _ _ _, TurbopropDeck.corr_erase _ _ _ _⟩,
    ⟨guarded_erase _ _ _ _ _ _, fun P => PistonDeck.bsfc_erase _ _ _ _ _, PistonDeck.thrust_erase _ _ _ _ _ _,
      PistonDeck.tsfc_erase _ _ _ _ _ _ _, PistonDeck.corr_erase _ _ _ _⟩,
    ⟨guarded_erase _ _ _ _ _ _, ElectricDeck.bsec_erase _ _ _ _, propThrust_erase _ _ _ _ _⟩,
    ⟨guarded_erase _ _ _ _ _ _, guarded_erase _ _ _ _ _ _, JetDeck.corr_erase _ _ _ _, sl_erase _ _ _ _, sl_erase _ _ _ _⟩⟩

/-- So are the plots. -/
theorem C148_plots_values (t : TurbopropDeck) (p : PistonDeck) (e : ElectricDeck) (j : JetDeck) (n : String) (G : Grid) (b : String) :
    ((t.demoplot_thrustW n G).2 = t.demoplot_thrust n G ∧ (t.demoplot_shaftpowerW n G).2 = t.demoplot_shaftpower n G ∧
      (t.demoplot_bsfcW n G).2 = t.demoplot_bsfc n G) ∧
    ((p.demoplot_shaftpowerW n G).2 = p.demoplot_shaftpower n G ∧ (p.demoplot_bsfcW n G b).2 = p.demoplot_bsfc n G b) ∧
    (e.demoplot_efficiencyW n G).2 = e.demoplot_efficiency n G ∧
    (j.demoplot_thrustW n G).2 = j.demoplot_thrust n G ∧ (j.demoplot_tsfcW n G b).2 = j.demoplot_tsfc n G b :=
  ⟨TurbopropDeck.plots_erase t n G, ⟨PistonDeck.power_erase p n G, PistonDeck.bsfcplot_erase p n G b⟩, ElectricDeck.plot_erase e n G,
    JetDeck.thrustplot_erase j n G, JetDeck.tsfcplot_erase j n G b⟩

/-- A query says that the quantity is missing exactly when the table is, and then answers None; otherwise it says nothing and does not
answer None. -/
def Announces (missing : Prop) (what : String) (q : Grid → NumArg → NumArg → QueryW) : Prop :=
  ∀ G x y, (missing → (q G x y).1 = [.noData what] ∧ (q G x y).2 = .ok none) ∧ (¬ missing → (q G x y).1 = [] ∧ (q G x y).2 ≠ .ok none)

theorem guarded_announces {dir : Dir} {name role what : String} {r : Option (List Row)} {av : Bool}
    (h1 : ¬ HasTable dir name role → av = false) (h2 : HasTable dir name role → av = true) :
    Announces (¬ HasTable dir name role) what (guardedW av what r) := by
  intro G x y
  constructor
  · intro h
    rw [h1 h]
    exact ⟨rfl, rfl⟩
  · intro h
    rw [h2 (not_not.mp h)]
    refine ⟨rfl, ?_⟩
    show (do let t ← attrOf r; let z ← griddata G t x y; pure (some z) : Query) ≠ _
    intro e
    rw [bind_ok_iff] at e
    obtain ⟨t, -, e⟩ := e
    rw [bind_ok_iff] at e
    obtain ⟨z, -, e⟩ := e
    cases e

/-- Jet decks. -/
theorem C148_jet (dir : Dir) (name : String) (d : JetDeck) (h : mkJet dir name = .ok d) :
    Announces (¬ HasTable dir name "thrust") "Thrust" d.thrustW ∧ Announces (¬ HasTable dir name "tsfc") "TSFC" d.tsfcW := by
  unfold mkJet at h
  simp only [bind_ok_iff, pure_ok_iff] at h
  obtain ⟨S, hS, thr, h1, sfc, h2, rfl⟩ := h
  rw [setup_ok] at hS
  obtain ⟨_, rfl⟩ := hS
  obtain ⟨a1, a2⟩ := assign_closed h1
  obtain ⟨b1, b2⟩ := assign_closed h2
  exact ⟨guarded_announces (fun h => (a1 h).1) (fun h => (a2 h).1), guarded_announces (fun h => (b1 h).1) (fun h => (b2 h).1)⟩

/-- Turboprop decks; the message about the missing table of the power-specific consumption names the thrust-specific one. -/
theorem C148_turboprop (dir : Dir) (name : String) (d : TurbopropDeck) (h : mkTurboprop dir name = .ok d) :
    Announces (¬ HasTable dir name "thrust") "Hot thrust" d.hotthrustW ∧ Announces (¬ HasTable dir name "power") "power" d.shaftpowerW ∧
    Announces (¬ HasTable dir name "bsfc") "TSFC" d.bsfcW := by
  unfold mkTurboprop at h
  simp only [bind_ok_iff, pure_ok_iff] at h
  obtain ⟨S, hS, thr, h1, pwr, h2, sfc, h3, rfl⟩ := h
  rw [setup_ok] at hS
  obtain ⟨_, rfl⟩ := hS
  obtain ⟨a1, a2⟩ := assign_closed h1
  obtain ⟨b1, b2⟩ := assign_closed h2
  obtain ⟨c1, c2⟩ := assign_closed h3
  exact ⟨guarded_announces (fun h => (a1 h).1) (fun h => (a2 h).1), guarded_announces (fun h => (b1 h).1) (fun h => (b2 h).1),
    guarded_announces (fun h => (c1 h).1) (fun h => (c2 h).1)⟩

/-- Electric decks. -/
theorem C148_electric (dir : Dir) (name : String) (d : ElectricDeck) (h : mkElectric dir name = .ok d) :
    Announces (¬ HasTable dir name "efficiency") "efficiency" d.efficiencyW := by
  unfold mkElectric at h
  simp only [bind_ok_iff, pure_ok_iff] at h
  obtain ⟨S, hS, e, h1, rfl⟩ := h
  rw [setup_ok] at hS
  obtain ⟨_, rfl⟩ := hS
  obtain ⟨a1, a2⟩ := assign_closed h1
  exact guarded_announces (fun h => (a1 h).1) (fun h => (a2 h).1)

/-- Piston decks: power, and the consumption with either mixture or with an unknown one. -/
theorem C148_piston (dir : Dir) (name : String) (d : PistonDeck) (h : mkPiston dir name = .ok d) :
    Announces (¬ HasTable dir name "power") "power" d.shaftpowerW ∧
    Announces (¬ HasTable dir name "bsfc") "BSFC for best economy" (fun G x y => d.bsfcW G x (some ((recastArray y).map some)) "economy") ∧
    Announces (¬ HasTable dir name "bsfc_best_power") "BSFC for best power" (fun G x y => d.bsfcW G x (some ((recastArray y).map some)) "power") ∧
    ∀ G x P best, best ≠ "economy" → best ≠ "power" → (d.bsfcW G x P best).1 = [.unknownChoice] ∧ (d.bsfcW G x P best).2 = .ok none := by
  unfold mkPiston at h
  simp only [bind_ok_iff, pure_ok_iff] at h
  obtain ⟨S, hS, pwr, h1, b, h2, bp, h3, rfl⟩ := h
  rw [setup_ok] at hS
  obtain ⟨_, rfl⟩ := hS
  obtain ⟨a1, a2⟩ := assign_closed h1
  obtain ⟨b1, b2⟩ := assign_closed h2
  obtain ⟨c1, c2⟩ := assign_closed h3
  have go : ∀ {role what : String} {r : Option (List Row)} {av : Bool}, (¬ HasTable dir name role → av = false) → (HasTable dir name role → av = true) →
      Announces (¬ HasTable dir name role) what (fun G x y => if av = false then (do warn (.noData what); pure none)
        else quiet (do
          let t ← attrOf r
          let z ← bcast (gridNan G t) (recastArray x) ((some ((recastArray y).map some)).getD [none])
          pure (some z))) := by
    intro role what r av h1 h2 G x y
    constructor
    · intro h
      rw [h1 h]
      exact ⟨rfl, rfl⟩
    · intro h
      rw [h2 (not_not.mp h)]
      refine ⟨rfl, ?_⟩
      intro e
      change (do
          let t ← attrOf r
          let z ← bcast (gridNan G t) (recastArray x) ((some ((recastArray y).map some)).getD [none])
          pure (some z) : Query) = _ at e
      rw [bind_ok_iff] at e
      obtain ⟨t, -, e⟩ := e
      rw [bind_ok_iff] at e
      obtain ⟨z, -, e⟩ := e
      cases e
  refine ⟨guarded_announces (fun h => (a1 h).1) (fun h => (a2 h).1), go (fun h => (b1 h).1) (fun h => (b2 h).1),
    go (fun h => (c1 h).1) (fun h => (c2 h).1), ?_⟩
  intro G x P best n1 n2
  unfold PistonDeck.bsfcW
  dsimp only
  rw [if_neg n1, if_neg n2]
  exact ⟨rfl, rfl⟩

theorem sl_missing (what : String) (f : Option PolyFile) (m : PolyArg) :
    (slQueryW false what f m).1 = [.noData what] ∧ (slQueryW false what f m).2 = .ok none := ⟨rfl, rfl⟩

theorem sl_limits (what : String) (cs : List ℝ) (lo hi x : ℝ) :
    (hi < x → slQueryW true what (some (cs, [lo, hi])) (.num x) = ([.machHigh], .ok none)) ∧
    (x ≤ hi → x < lo → slQueryW true what (some (cs, [lo, hi])) (.num x) = ([.machLow], .ok none)) ∧
    (x ≤ hi → lo ≤ x → slQueryW true what (some (cs, [lo, hi])) (.num x) = ([], .ok (some [evalPoly cs x]))) := by
  have e : slQueryW true what (some (cs, [lo, hi])) (.num x) = if hi < x then ([.machHigh], .ok none) else
      if x < lo then ([.machLow], .ok none) else ([], .ok (some [evalPoly cs x])) := by
    have e1 : slQueryW true what (some (cs, [lo, hi])) (.num x) = (if hi < x then (do warn .machHigh; pure none) else
      (do let lo ← quiet (getIdx [lo, hi] 0)
          if x < lo then do warn .machLow; pure none else pure (some [evalPoly cs x])) : W (Option (List ℝ))) := rfl
    rw [e1]
    split
    · rfl
    · have e2 : (do let lo ← quiet (getIdx [lo, hi] 0)
                    if x < lo then do warn .machLow; pure none else pure (some [evalPoly cs x]) : W (Option (List ℝ))) =
          if x < lo then (do warn .machLow; pure none) else pure (some [evalPoly cs x]) := rfl
      rw [e2]
      split <;> rfl
  refine ⟨fun h => ?_, fun h h' => ?_, fun h h' => ?_⟩
  · rw [e, if_pos h]
  · rw [e, if_neg (not_lt.mpr h), if_pos h']
  · rw [e, if_neg (not_lt.mpr h), if_neg (not_lt.mpr h')]

/-- The sea-level fits of a jet: what is said, and when. -/
theorem C148_fits (d : JetDeck) (x : ℝ) :
    (d.avail.sl = false → (d.sl_thrustW (.num x)) = ([.noData "sea level thrust"], .ok none)) ∧
    (d.avail.slto = false → (d.sl_take_off_thrustW (.num x)) = ([.noData "sea level take off thrust"], .ok none)) ∧
    ∀ cs lo hi, (d.avail.sl = true → d.slPoly = some (cs, [lo, hi]) →
        (hi < x → d.sl_thrustW (.num x) = ([.machHigh], .ok none)) ∧ (x ≤ hi → x < lo → d.sl_thrustW (.num x) = ([.machLow], .ok none)) ∧
        (x ≤ hi → lo ≤ x → d.sl_thrustW (.num x) = ([], .ok (some [evalPoly cs x])))) ∧
      (d.avail.slto = true → d.sltoPoly = some (cs, [lo, hi]) →
        (hi < x → d.sl_take_off_thrustW (.num x) = ([.machHigh], .ok none)) ∧
        (x ≤ hi → x < lo → d.sl_take_off_thrustW (.num x) = ([.machLow], .ok none)) ∧
        (x ≤ hi → lo ≤ x → d.sl_take_off_thrustW (.num x) = ([], .ok (some [evalPoly cs x])))) := by
  unfold JetDeck.sl_thrustW JetDeck.sl_take_off_thrustW
  refine ⟨fun h => ?_, fun h => ?_, fun cs lo hi => ⟨fun h h' => ?_, fun h h' => ?_⟩⟩
  · rw [h]; rfl
  · rw [h]; rfl
  · rw [h, h']; exact sl_limits _ cs lo hi x
  · rw [h, h']; exact sl_limits _ cs lo hi x

theorem choose_says {o : PropellerObj} {m h : NumArg} {rpm : ℝ} {P : Option (List (Option ℝ))} {p : Propeller}
    (hp : (choosePropW o m h rpm P).2 = .ok p) :
    (o = .pyNone → (choosePropW o m h rpm P).1 = [.ansatzAssumed]) ∧ (o ≠ .pyNone → (choosePropW o m h rpm P).1 = []) := by
  cases o with
  | pyNone =>
    refine ⟨fun _ => ?_, fun h => absurd rfl h⟩
    obtain ⟨q, h1, k1, e1⟩ := bind_success hp
    obtain ⟨q', h2, k2, e2⟩ := bind_success k1
    have e : (choosePropW .pyNone m h rpm P).1 = _ := e1
    rw [e, e2]; rfl
  | deck p => exact ⟨(fun h => nomatch h), fun _ => rfl⟩
  | other => exact ⟨(fun h => nomatch h), fun _ => rfl⟩

/-- A computation that succeeds says only that a propeller was assumed, exactly when none was given. -/
def OnlyAnsatz {α : Type} (o : PropellerObj) (q : W α) : Prop :=
  ∀ r, q.2 = .ok r → (o = .pyNone → q.1 = [.ansatzAssumed]) ∧ (o ≠ .pyNone → q.1 = [])

theorem propThrust_says (o : PropellerObj) (m h : List ℝ) (rpm : ℝ) (P : Option (List (Option ℝ))) : OnlyAnsatz o (propThrustW o m h rpm P) := by
  intro r hr
  obtain ⟨p, h1, k1, e1⟩ := bind_success hr
  obtain ⟨eta, h2, k2, e2⟩ := bind_success k1
  obtain ⟨v, h3, k3, e3⟩ := bind_success k2
  have e : (propThrustW o m h rpm P).1 = _ := e1
  rw [e, e2, e3]
  show (_ → _ ++ ([] ++ ([] ++ [])) = _) ∧ (_ → _ ++ ([] ++ ([] ++ [])) = _)
  simp only [List.append_nil]
  exact choose_says h1

theorem propThrust_needs (o : PropellerObj) (m h : List ℝ) (rpm : ℝ) (r : List (Option ℝ)) : (propThrustW o m h rpm none).2 ≠ .ok r := by
  intro hr
  obtain ⟨p, h1, k1, e1⟩ := bind_success hr
  obtain ⟨eta, h2, k2, e2⟩ := bind_success k1
  obtain ⟨v, h3, k3, e3⟩ := bind_success k2
  cases k3

theorem propTsfc_says (o : PropellerObj) (m h : List ℝ) (rpm : ℝ) (P : Option (List (Option ℝ))) (b : QueryW)
    (hb : ∀ z, b.2 = .ok (some z) → b.1 = []) : OnlyAnsatz o (propTsfcW o m h rpm P b) := by
  intro r hr
  obtain ⟨p, h1, k1, e1⟩ := bind_success hr
  obtain ⟨eta, h2, k2, e2⟩ := bind_success k1
  obtain ⟨v, h3, k3, e3⟩ := bind_success k2
  obtain ⟨q, h4, k4, e4⟩ := bind_success k3
  have e : (propTsfcW o m h rpm P b).1 = _ := e1
  rw [e, e2, e3, e4]
  cases q with
  | none => cases k4
  | some z =>
    rw [hb z h4]
    show (_ → _ ++ ([] ++ ([] ++ ([] ++ []))) = _) ∧ (_ → _ ++ ([] ++ ([] ++ ([] ++ []))) = _)
    simp only [List.append_nil]
    exact choose_says h1

theorem propTsfc_needs (o : PropellerObj) (m h : List ℝ) (rpm : ℝ) (b : QueryW) (r : List (Option ℝ)) :
    (propTsfcW o m h rpm none b).2 ≠ .ok r := by
  intro hr
  obtain ⟨p, h1, k1, e1⟩ := bind_success hr
  obtain ⟨eta, h2, k2, e2⟩ := bind_success k1
  change (efficiency p (.array m) (.array h) none rpm).1 = _ at h2
  unfold efficiency at h2
  split at h2 <;> cases h2

theorem guarded_says {av : Bool} {what : String} {data : Option (List Row)} {G : Grid} {x y : NumArg} {z : List (Option ℝ)}
    (h : (guardedW av what data G x y).2 = .ok (some z)) : (guardedW av what data G x y).1 = [] := by
  cases av with
  | false => cases h
  | true => rfl

theorem bsfc_says {d : PistonDeck} {G : Grid} {x : NumArg} {P : Option (List (Option ℝ))} {best : String} {z : List (Option ℝ)}
    (h : (d.bsfcW G x P best).2 = .ok (some z)) : (d.bsfcW G x P best).1 = [] := by
  unfold PistonDeck.bsfcW at h ⊢
  dsimp only at h ⊢
  split_ifs at h ⊢ <;> first | rfl | cases h

theorem after_query {α : Type} {o : PropellerObj} {av : Bool} {what : String} {data : Option (List Row)} {G : Grid} {x y : NumArg}
    {f : Option (List (Option ℝ)) → W α} (h0 : ∀ r, (f none).2 ≠ .ok r) (h1 : ∀ z, OnlyAnsatz o (f (some z))) :
    OnlyAnsatz o (guardedW av what data G x y >>= f) := by
  intro r hr
  obtain ⟨q, k1, k2, e⟩ := bind_success hr
  cases q with
  | none => exact absurd k2 (h0 r)
  | some z =>
    rw [e, guarded_says k1, List.nil_append]
    exact h1 z r k2

/-- Thrust and specific consumption of the propeller engines: when there is an answer, the only warning is that a propeller was
assumed, and it comes exactly when none was given. -/
theorem C148_propeller (t : TurbopropDeck) (p : PistonDeck) (e : ElectricDeck) (G : Grid) (x y z : NumArg) (rpm : ℝ) (o : PropellerObj)
    (best : String) :
    OnlyAnsatz o (t.coldthrustW G x y rpm o) ∧ OnlyAnsatz o (t.thrustW G x y rpm o) ∧ OnlyAnsatz o (t.tsfcW G x y rpm o) ∧
    OnlyAnsatz o (p.thrustW G x y rpm o) ∧ OnlyAnsatz o (p.tsfcW G x y rpm o best) ∧ OnlyAnsatz o (e.thrustW x y z rpm o) := by
  have cold : ∀ x y, OnlyAnsatz o (t.coldthrustW G x y rpm o) := fun x y =>
    after_query (fun r => propThrust_needs _ _ _ _ r) (fun z => propThrust_says _ _ _ _ _)
  refine ⟨cold x y, ?_, ?_, ?_, ?_, propThrust_says _ _ _ _ _⟩
  · refine after_query (fun r hr => ?_) (fun z r hr => ?_)
    · obtain ⟨q, k1, k2, e⟩ := bind_success hr
      cases k2
    · obtain ⟨q, k1, k2, e⟩ := bind_success hr
      rw [e]
      show (_ → _ ++ [] = _) ∧ (_ → _ ++ [] = _)
      simp only [List.append_nil]
      exact cold _ _ q k1
  · exact after_query (fun r => propTsfc_needs _ _ _ _ _ r) (fun z => propTsfc_says _ _ _ _ _ _ fun _ h => guarded_says h)
  · exact after_query (fun r => propThrust_needs _ _ _ _ r) (fun z => propThrust_says _ _ _ _ _)
  · exact after_query (fun r => propTsfc_needs _ _ _ _ _ r) (fun z => propTsfc_says _ _ _ _ _ _ fun _ h => bsfc_says h)

/-- Outside the table a query answers NaN without a word, whereas the sea-level fits say that the Mach number is out of range. -/
theorem C148_outside_violated (dir : Dir) (name : String) (d : JetDeck) (h : mkJet dir name = .ok d) (ht : HasTable dir name "thrust") :
    ∃ rows, FromTable dir name "thrust" "Mach Number" "Altitude (m)" "Thrust (N)" rows ∧ ∀ G m a, G rows m a = none →
      (d.thrustW G (.scalar m) (.scalar a)).1 = [] ∧ (d.thrustW G (.scalar m) (.scalar a)).2 = .ok (some [none]) := by
  obtain ⟨-, a2⟩ := (C79_jet dir name d h).1
  obtain ⟨rows, hr, ha⟩ := a2 ht
  refine ⟨rows, hr, fun G m a hG => ?_⟩
  refine ⟨(((C148_jet dir name d h).1 G _ _).2 (not_not.mpr ht)).1, ?_⟩
  have e := ha G m a
  rw [List.filter_true, hG] at e
  exact (guarded_erase _ _ _ _ _ _).trans e

/-- The plots of turboprop decks and of piston power never say that there are no data, though their code means to: without the table
they raise AttributeError in silence. So does the plot of the consumption of a jet against altitude without a thrust table. -/
theorem C148_plots_violated (dir : Dir) (name e : String) (G : Grid) :
    (∀ t, mkTurboprop dir name = .ok t →
      (¬ HasTable dir name "thrust" → t.demoplot_thrustW e G = ([], .error .attributeError)) ∧
      (¬ HasTable dir name "power" → t.demoplot_shaftpowerW e G = ([], .error .attributeError)) ∧
      (¬ HasTable dir name "bsfc" → t.demoplot_bsfcW e G = ([], .error .attributeError))) ∧
    (∀ p, mkPiston dir name = .ok p → ¬ HasTable dir name "power" → p.demoplot_shaftpowerW e G = ([], .error .attributeError)) ∧
    (∀ j, mkJet dir name = .ok j → HasTable dir name "tsfc" → ¬ HasTable dir name "thrust" →
      j.demoplot_tsfcW e G "alt_m" = ([], .error .attributeError)) := by
  refine ⟨fun t h => ?_, fun p h hn => ?_, fun j h hs hn => ?_⟩
  · unfold mkTurboprop at h
    simp only [bind_ok_iff, pure_ok_iff] at h
    obtain ⟨S, hS, thr, h1, pwr, h2, sfc, h3, rfl⟩ := h
    rw [setup_ok] at hS
    obtain ⟨_, rfl⟩ := hS
    obtain ⟨a1, -⟩ := assign_closed h1
    obtain ⟨b1, -⟩ := assign_closed h2
    obtain ⟨c1, -⟩ := assign_closed h3
    refine ⟨fun hn => ?_, fun hn => ?_, fun hn => ?_⟩
    · obtain ⟨-, rfl⟩ := a1 hn; rfl
    · obtain ⟨-, rfl⟩ := b1 hn; rfl
    · obtain ⟨-, rfl⟩ := c1 hn; rfl
  · unfold mkPiston at h
    simp only [bind_ok_iff, pure_ok_iff] at h
    obtain ⟨S, hS, pwr, h1, b, h2, bp, h3, rfl⟩ := h
    rw [setup_ok] at hS
    obtain ⟨_, rfl⟩ := hS
    obtain ⟨a1, -⟩ := assign_closed h1
    obtain ⟨-, rfl⟩ := a1 hn; rfl
  · unfold mkJet at h
    simp only [bind_ok_iff, pure_ok_iff] at h
    obtain ⟨S, hS, thr, h1, sfc, h2, rfl⟩ := h
    rw [setup_ok] at hS
    obtain ⟨_, rfl⟩ := hS
    obtain ⟨a1, -⟩ := assign_closed h1
    obtain ⟨-, b2⟩ := assign_closed h2
    obtain ⟨-, rfl⟩ := a1 hn
    unfold JetDeck.demoplot_tsfcW
    have hb : ¬ (flagAt (closedSetup dir ["thrust"] ["tsfc"] (engineFiles name dir.listing)).avail.eff 0 = false) := by
      have := (b2 hs).1
      intro h'
      have h'' : (engineFiles name dir.listing).any (isTable "tsfc") = false := h'
      rw [this] at h''; cases h''
    rw [if_neg hb, if_neg (by decide), if_pos rfl]
    rfl

theorem plot_says {data : Option (List Row)} {f : List ℝ → List ℝ → QueryW} (hf : ∀ x y z, (f x y).2 = .ok (some z) → (f x y).1 = [])
    {a b c t : String} {P : Option DemoPlot} (h : (plotW data f a b c t).2 = .ok P) : (plotW data f a b c t).1 = [] ∧ P ≠ none := by
  obtain ⟨l, h1, k1, e1⟩ := bind_success h
  obtain ⟨p, h2, k2, e2⟩ := bind_success k1
  obtain ⟨xs, h3, k3, e3⟩ := bind_success h2
  obtain ⟨ys, h4, k4, e4⟩ := bind_success k3
  obtain ⟨q, h5, k5, e5⟩ := bind_success k4
  have e : (plotW data f a b c t).1 = _ := e1
  have e' : (demoPlotW l f a b c t).1 = _ := e3
  rw [e, e2, e', e4, e5]
  cases q with
  | none => cases k5
  | some z =>
    rw [hf _ _ z h5]
    refine ⟨rfl, ?_⟩
    cases k2; simp

/-- The other plots: a plot is drawn in silence; none is drawn exactly when a warning names the reason. -/
theorem C148_plots (p : PistonDeck) (e : ElectricDeck) (j : JetDeck) (n : String) (G : Grid) (s : String) :
    (∀ P, (e.demoplot_efficiencyW n G).2 = .ok P → (P = none ↔ flagAt e.avail.out 0 = false) ∧
      (e.demoplot_efficiencyW n G).1 = if flagAt e.avail.out 0 = false then [.noData "efficiency"] else []) ∧
    (∀ P, (j.demoplot_thrustW n G).2 = .ok P → (P = none ↔ flagAt j.avail.out 0 = false) ∧
      (j.demoplot_thrustW n G).1 = if flagAt j.avail.out 0 = false then [.noData "thrust"] else []) ∧
    (∀ P, (j.demoplot_tsfcW n G s).2 = .ok P → (P = none ↔ flagAt j.avail.eff 0 = false ∨ (s = "t_n" ∧ flagAt j.avail.out 0 = false) ∨
        (s ≠ "t_n" ∧ s ≠ "alt_m")) ∧
      (j.demoplot_tsfcW n G s).1 = if flagAt j.avail.eff 0 = false then [.noData "TSFC"]
        else if s = "t_n" ∧ flagAt j.avail.out 0 = false then [.noData "thrust"]
        else if s ≠ "t_n" ∧ s ≠ "alt_m" then [.unknownChoice] else []) ∧
    (∀ P, (p.demoplot_bsfcW n G s).2 = .ok P → (P = none ↔ (s = "economy" ∧ flagAt p.avail.eff 0 = false) ∨
        (s = "power" ∧ flagAt p.avail.eff 1 = false) ∨ (s ≠ "economy" ∧ s ≠ "power")) ∧
      (p.demoplot_bsfcW n G s).1 = if s = "economy" ∧ flagAt p.avail.eff 0 = false then [.noData "best economy BSFC"]
        else if s = "power" ∧ flagAt p.avail.eff 1 = false then [.noData "best power BSFC"]
        else if s ≠ "economy" ∧ s ≠ "power" then [.unknownChoice] else []) := by
  refine ⟨fun P h => ?_, fun P h => ?_, fun P h => ?_, fun P h => ?_⟩
  · unfold ElectricDeck.demoplot_efficiencyW at h ⊢
    by_cases hf : flagAt e.avail.out 0 = false
    · rw [if_pos hf] at h ⊢
      cases h
      simp [hf]; rfl
    · rw [if_neg hf] at h ⊢
      obtain ⟨k1, k2⟩ := plot_says (f := fun x y => e.efficiencyW G (.array x) (.array y)) (fun _ _ _ h => guarded_says h) h
      rw [k1]
      simp [hf, k2]
  · unfold JetDeck.demoplot_thrustW at h ⊢
    by_cases hf : flagAt j.avail.out 0 = false
    · rw [if_pos hf] at h ⊢
      cases h
      simp [hf]; rfl
    · rw [if_neg hf] at h ⊢
      obtain ⟨k1, k2⟩ := plot_says (f := fun x y => j.thrustW G (.array x) (.array y)) (fun _ _ _ h => guarded_says h) h
      rw [k1]
      simp [hf, k2]
  · unfold JetDeck.demoplot_tsfcW at h ⊢
    by_cases he : flagAt j.avail.eff 0 = false
    · rw [if_pos he] at h ⊢
      cases h
      simp [he]; rfl
    · rw [if_neg he] at h ⊢
      by_cases hs : s = "t_n"
      · rw [if_pos hs] at h ⊢
        by_cases hf : flagAt j.avail.out 0 = false
        · rw [if_pos hf] at h ⊢
          cases h
          simp [hf, he, hs]; rfl
        · rw [if_neg hf] at h ⊢
          obtain ⟨k1, k2⟩ := plot_says (f := fun x y => j.tsfcW G (.array x) (.array y)) (fun _ _ _ h => guarded_says h) h
          rw [k1]
          simp [hf, he, hs, k2]
      · rw [if_neg hs] at h ⊢
        by_cases ha : s = "alt_m"
        · rw [if_pos ha] at h ⊢
          have hq : ∀ x y z, (j.tsfcAtW G x y).2 = .ok (some z) → (j.tsfcAtW G x y).1 = [] := by
            intro x y z hz
            obtain ⟨q, h1, k1, e1⟩ := bind_success hz
            have e : (j.tsfcAtW G x y).1 = _ := e1
            rw [e]
            cases q with
            | none => cases k1
            | some ts =>
              dsimp only at k1 ⊢
              rw [if_neg he] at k1 ⊢
              have := guarded_says h1
              change (j.thrustW G (.array x) (.array y)).1 ++ [] = []
              rw [List.append_nil]; exact this
          obtain ⟨k1, k2⟩ := plot_says hq h
          rw [k1]
          simp [he, ha, k2]
        · rw [if_neg ha] at h ⊢
          cases h
          simp [he, hs, ha]; rfl
  · unfold PistonDeck.demoplot_bsfcW at h ⊢
    dsimp only at h ⊢
    by_cases hs : s = "economy"
    · rw [if_pos hs] at h ⊢
      by_cases hf : flagAt p.avail.eff 0 = false
      · rw [if_pos hf] at h ⊢
        cases h
        simp [hf, hs]; rfl
      · rw [if_neg hf] at h ⊢
        obtain ⟨k1, k2⟩ := plot_says (fun _ _ _ h => bsfc_says h) h
        rw [k1]
        simp [hf, hs, k2]
    · rw [if_neg hs] at h ⊢
      by_cases ha : s = "power"
      · rw [if_pos ha] at h ⊢
        by_cases hf : flagAt p.avail.eff 1 = false
        · rw [if_pos hf] at h ⊢
          cases h
          simp [hf, ha]; rfl
        · rw [if_neg hf] at h ⊢
          obtain ⟨k1, k2⟩ := plot_says (fun _ _ _ h => bsfc_says h) h
          rw [k1]
          simp [hf, ha, k2]
      · rw [if_neg ha] at h ⊢
        cases h
        simp [hs, ha]; rfl

theorem none_of (name role : String) (h : ∀ f ∈ exDir.listing, ¬ Occurs name.toList f.toList) : ¬ HasTable exDir name role := by
  rintro ⟨f, h1, h2, -⟩
  exact h f h1 h2

theorem no_files : ∀ f ∈ exDir.listing, ¬ Occurs "J57".toList f.toList := by
  intro f hf hc; rw [← pyIn_iff] at hc; revert f; decide

/-- Decks of all kinds for an engine without files: every query says what is missing, the fuel consumption of the turboprop under the
wrong name. -/
example (G : Grid) (x y : NumArg) : ∃ t p e j, mkTurboprop exDir "J57" = .ok t ∧ mkPiston exDir "J57" = .ok p ∧ mkElectric exDir "J57" = .ok e ∧
    mkJet exDir "J57" = .ok j ∧ (t.hotthrustW G x y).1 = [.noData "Hot thrust"] ∧ (t.bsfcW G x y).1 = [.noData "TSFC"] ∧
    (p.shaftpowerW G x y).1 = [.noData "power"] ∧ (e.efficiencyW G x y).1 = [.noData "efficiency"] ∧ (j.thrustW G x y).1 = [.noData "Thrust"] ∧
    (p.bsfcW G x none "rich").1 = [.unknownChoice] ∧ (∀ n, t.demoplot_bsfcW n G = ([], .error .attributeError)) := by
  obtain ⟨⟨t, ht, -⟩, ⟨p, hp, -⟩, ⟨e, he, -⟩, ⟨j, hj, -⟩⟩ := C62_unknown_violated exDir "J57" no_files
  have n := fun role => none_of "J57" role no_files
  obtain ⟨t1, t2, t3⟩ := C148_turboprop exDir "J57" t ht
  obtain ⟨p1, p2, p3, p4⟩ := C148_piston exDir "J57" p hp
  refine ⟨t, p, e, j, ht, hp, he, hj, ((t1 G x y).1 (n _)).1, ((t3 G x y).1 (n _)).1, ((p1 G x y).1 (n _)).1,
    ((C148_electric exDir "J57" e he G x y).1 (n _)).1, (((C148_jet exDir "J57" j hj).1 G x y).1 (n _)).1,
    (p4 G x none "rich" (by decide) (by decide)).1, fun m => ((C148_plots_violated exDir "J57" m G).1 t ht).2.2 (n _)⟩

/-- The J52 with its tables: silence inside, and outside as well. -/
example : ∃ d rows, mkJet j52Dir "J52" = .ok d ∧ FromTable j52Dir "J52" "thrust" "Mach Number" "Altitude (m)" "Thrust (N)" rows ∧
    ∀ G m a, G rows m a = none → (d.thrustW G (.scalar m) (.scalar a)).1 = [] ∧ (d.thrustW G (.scalar m) (.scalar a)).2 = .ok (some [none]) := by
  obtain ⟨rows, h1, h2⟩ := C148_outside_violated j52Dir "J52" _ j52_deck
    ⟨"J52_Thrust_data.csv", by simp [j52Dir], (pyIn_iff _ _).mp (by decide), (pyIn_iff _ _).mp (by decide)⟩
  exact ⟨_, rows, j52_deck, h1, h2⟩

/-- A fit over Mach numbers 0.1 to 0.9. -/
example : ∃ d : JetDeck, d.sl_thrustW (.num 1.2) = ([.machHigh], .ok none) ∧ d.sl_thrustW (.num 0) = ([.machLow], .ok none) ∧
    d.sl_thrustW (.num 0.5) = ([], .ok (some [evalPoly [40000, -5000] 0.5])) ∧
    d.sl_take_off_thrustW (.num 0.5) = ([.noData "sea level take off thrust"], .ok none) := by
  obtain ⟨d, hd⟩ : ∃ d : JetDeck, d = ⟨⟨[false], [false], true, false⟩, none, none, some ([40000, -5000], [0.1, 0.9]), none⟩ := ⟨_, rfl⟩
  have h1 : d.avail.sl = true := by rw [hd]
  have h2 : d.slPoly = some ([40000, -5000], [0.1, 0.9]) := by rw [hd]
  have h3 : d.avail.slto = false := by rw [hd]
  exact ⟨d, (((C148_fits d 1.2).2.2 _ _ _).1 h1 h2).1 (by norm_num), (((C148_fits d 0).2.2 _ _ _).1 h1 h2).2.1 (by norm_num) (by norm_num),
    (((C148_fits d 0.5).2.2 _ _ _).1 h1 h2).2.2 (by norm_num) (by norm_num), (C148_fits d 0.5).2.1 h3⟩

/-- An electric motor without a propeller, at some power: an answer, and the propeller is announced to be assumed. -/
example (e : ElectricDeck) : ∃ P T, e.thrust (.scalar P) (.scalar 0.3) (.scalar 0) 2400 .pyNone = .ok T ∧
    (e.thrustW (.scalar P) (.scalar 0.3) (.scalar 0) 2400 .pyNone).1 = [.ansatzAssumed] := by
  obtain ⟨p0, hp0⟩ : ∃ p, mkPropeller .pyNone = .ok p := ⟨_, rfl⟩
  obtain ⟨P0, h⟩ := C92_limit_violated p0 0.3 0 2400 (by norm_num) (by norm_num) (by norm_num) (by norm_num)
  obtain ⟨p', D, h1, -⟩ := h P0 le_rfl
  have h1' : ansatzprop p0 (.array [0.3]) (.array [0]) 2400 (some [some P0]) = .ok p' := h1
  have ok : ∃ T, e.thrust (.scalar P0) (.scalar 0.3) (.scalar 0) 2400 .pyNone = .ok T := by
    unfold ElectricDeck.thrust propThrust
    simp only [recastArray, List.map_cons, List.map_nil]
    have hc : chooseProp .pyNone (.array [0.3]) (.array [0]) 2400 (some [some P0]) = .ok p' := by
      unfold chooseProp
      rw [hp0, bind_ok, h1']
    rw [hc, bind_ok, efficiency_single _ _ _ _ _ (by norm_num), bind_ok, airspeed_single _ _ (by norm_num), bind_ok]
    exact ⟨_, rfl⟩
  obtain ⟨T, hT⟩ := ok
  refine ⟨P0, T, hT, ?_⟩
  have hW := (propThrust_erase .pyNone [0.3] [0] 2400 (some [some P0])).trans hT
  exact (propThrust_says _ _ _ _ _ T hW).1 rfl

/-- A jet with fuel consumption but no thrust table: the plot against thrust and one against an unknown variable. -/
example (p : PistonDeck) (e : ElectricDeck) (n : String) (G : Grid) (rows : List Row) :
    ((⟨⟨[false], [true], false, false⟩, none, some rows, none, none⟩ : JetDeck).demoplot_tsfcW n G "t_n").1 = [.noData "thrust"] ∧
    ((⟨⟨[false], [true], false, false⟩, none, some rows, none, none⟩ : JetDeck).demoplot_tsfcW n G "mach").1 = [.unknownChoice] := by
  obtain ⟨d, hd⟩ : ∃ d : JetDeck, d = ⟨⟨[false], [true], false, false⟩, none, some rows, none, none⟩ := ⟨_, rfl⟩
  have f1 : flagAt d.avail.eff 0 = true := by rw [hd]; rfl
  have f2 : flagAt d.avail.out 0 = false := by rw [hd]; rfl
  have a := ((C148_plots p e d n G "t_n").2.2.1 none (by rw [hd]; rfl)).2
  have b := ((C148_plots p e d n G "mach").2.2.1 none (by rw [hd]; rfl)).2
  rw [← hd, a, b]
  simp [f1, f2]

end

end Verif.Props
