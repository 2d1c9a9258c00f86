import Verif.Props.Propulsion3
import Verif.Props.Propeller

/-
Fuel flow of turboprop engines (C95) and queries outside the data with the default propeller (C91).
-/

namespace Verif.Propulsion

open Verif Verif.Atmos

noncomputable section

theorem vsound_single (h : ℝ) (hh : h ≤ 50000) : vsound_mps isa0 (.array [h]) = .ok (.scalar (sound h)) :=
  Props.isa_vsound 0 h hh (isa_temp_pos h).le

theorem airspeed_single (m h : ℝ) (hh : h ≤ 50000) : airspeed [m] [h] = .ok [m * sound h] := by
  unfold airspeed
  rw [vsound_single h hh]
  rfl

theorem efficiency_single (p : Propeller) (m h rpm : ℝ) (P : Option ℝ) (hh : h ≤ 50000) :
    (efficiency p (.array [m]) (.array [h]) (some [P]) rpm).1 =
      .ok [etaAt (cacheSolidity p) (flagNum (cacheSolidity p).solidity) (isadens 0 h) (sound h) m rpm P] := by
  rw [eff_eq p [m] [h] [P] rpm (by simp) (by simpa using hh)]
  unfold etaLoop
  show ((do
        let a ← vsound1 isa0 h
        pure (etaAt (cacheSolidity p) (flagNum (cacheSolidity p).solidity) (isadens 0 h) a m rpm P) : PyM (Option ℝ)) >>= fun b =>
          (do pure [b] : PyM (List (Option ℝ)))) = _
  rw [vsound1_isa h hh]
  rfl

theorem propThrust_single {o : PropellerObj} {m h rpm T : ℝ} {power : Option (List (Option ℝ))} (hh : h ≤ 50000)
    (hlen : ∀ ps, power = some ps → ps.length = 1) (k : propThrust o [m] [h] rpm power = .ok [some T]) :
    ∃ p P e, power = some [some P] ∧ chooseProp o (.array [m]) (.array [h]) rpm power = .ok p ∧
      etaAt (cacheSolidity p) (flagNum (cacheSolidity p).solidity) (isadens 0 h) (sound h) m rpm (some P) = some e ∧
      T = e * P / (m * sound h) := by
  unfold propThrust at k
  simp only [bind_ok_iff] at k
  obtain ⟨p, hp, eta, he, v, hv, k⟩ := k
  rw [airspeed_single m h hh] at hv
  cases hv
  cases power with
  | none => cases k
  | some ps =>
    match ps, hlen ps rfl with
    | [P], _ =>
      rw [efficiency_single p m h rpm P hh] at he
      injection he with he
      subst he
      simp only [bind_ok_iff] at k
      obtain ⟨ep, h1, h2⟩ := k
      have e1 : ep = [nmul (etaAt (cacheSolidity p) (flagNum (cacheSolidity p).solidity) (isadens 0 h) (sound h) m rpm P) P] := by
        injection h1 with h1; exact h1.symm
      rw [e1] at h2
      have h3 : Except.ok [ndiv (nmul (etaAt (cacheSolidity p) (flagNum (cacheSolidity p).solidity) (isadens 0 h) (sound h) m rpm P) P)
        (some (m * sound h))] = (Except.ok [some T] : PyM _) := h2
      injection h3 with h3
      injection h3 with h3 _
      cases P with
      | none =>
        cases hx : etaAt (cacheSolidity p) (flagNum (cacheSolidity p).solidity) (isadens 0 h) (sound h) m rpm none <;>
          rw [hx] at h3 <;> cases h3
      | some P =>
        cases hx : etaAt (cacheSolidity p) (flagNum (cacheSolidity p).solidity) (isadens 0 h) (sound h) m rpm (some P) with
        | none => rw [hx] at h3; cases h3
        | some e =>
          rw [hx] at h3
          have h4 : some (e * P / (m * sound h)) = some T := h3
          injection h4 with h4
          exact ⟨p, P, e, rfl, hp, hx, h4.symm⟩

theorem propTsfc_single {o : PropellerObj} {m h rpm f P e : ℝ} {p : Propeller} {q : Query} (hh : h ≤ 50000)
    (hp : chooseProp o (.array [m]) (.array [h]) rpm (some [some P]) = .ok p)
    (he : etaAt (cacheSolidity p) (flagNum (cacheSolidity p).solidity) (isadens 0 h) (sound h) m rpm (some P) = some e)
    (hlen : ∀ bs, q = .ok (some bs) → bs.length = 1)
    (k : propTsfc o [m] [h] rpm (some [some P]) q = .ok [some f]) :
    ∃ b, q = .ok (some [some b]) ∧ f = b / 3600 * (m * sound h) / e := by
  unfold propTsfc at k
  rw [hp, bind_ok, efficiency_single p m h rpm _ hh, bind_ok, airspeed_single m h hh, bind_ok, he] at k
  cases hq : q with
  | error er => rw [hq] at k; cases k
  | ok q' =>
    rw [hq, bind_ok] at k
    cases q' with
    | none => cases k
    | some bs =>
      match bs, hlen bs hq with
      | [b], _ =>
        have k' : Except.ok [ndiv (nmul (ndiv b (some 3600)) (some (m * sound h))) (some e)] = (Except.ok [some f] : PyM _) := k
        injection k' with k'
        injection k' with k' _
        cases b with
        | none => cases k'
        | some b =>
          have k'' : some (b / 3600 * (m * sound h) / e) = some f := k'
          injection k'' with k''
          exact ⟨b, rfl, k''.symm⟩

theorem guarded_single (av : Bool) (data : Option (List Row)) (G : Grid) (x y : ℝ) (ps : List (Option ℝ))
    (h : guarded av data G (.array [x]) (.array [y]) = .ok (some ps)) : ps.length = 1 := by
  unfold guarded at h
  split_ifs at h
  · cases h
  · rw [bind_ok_iff] at h
    obtain ⟨t, _, h⟩ := h
    have h' : Except.ok (some [G t x y]) = (Except.ok (some ps) : Query) := h
    injection h' with h'
    injection h' with h'
    rw [← h']; rfl

/-- Fuel flow, thrust-specific consumption times propeller thrust, is brake-specific consumption times
shaft power, whichever propeller is used. -/
theorem C95_fuel_flow (d : TurbopropDeck) (G : Grid) (m h rpm : ℝ) (o : PropellerObj) (T f : ℝ) (hh : h ≤ 50000)
    (hT : d.coldthrust G (.scalar m) (.scalar h) rpm o = .ok [some T]) (hT0 : T ≠ 0)
    (hf : d.tsfc G (.scalar m) (.scalar h) rpm o = .ok [some f]) :
    ∃ P b, d.shaftpower G (.scalar m) (.scalar h) = .ok (some [some P]) ∧
      d.bsfc G (.scalar m) (.scalar h) = .ok (some [some b]) ∧ f * T = b / 3600 * P := by
  unfold TurbopropDeck.coldthrust at hT
  unfold TurbopropDeck.tsfc at hf
  rw [bind_ok_iff] at hT hf
  obtain ⟨power, h1, h2⟩ := hT
  obtain ⟨power', h1', h2'⟩ := hf
  rw [h1] at h1'
  injection h1' with h1'
  subst h1'
  obtain ⟨p, P, e, rfl, hp, he, hTe⟩ := propThrust_single hh
    (fun ps hps => guarded_single _ _ G m h ps (by rw [hps] at h1; exact h1)) h2
  obtain ⟨b, hb, hfe⟩ := propTsfc_single hh hp he (fun bs hbs => guarded_single _ _ G m h bs hbs) h2'
  refine ⟨P, b, h1, hb, ?_⟩
  have hv : m * sound h ≠ 0 := by
    intro hc; rw [hc, div_zero] at hTe; exact hT0 hTe
  have he0 : e ≠ 0 := by
    intro hc; rw [hc, zero_mul, zero_div] at hTe; exact hT0 hTe
  rw [hTe, hfe]
  obtain ⟨v, hve⟩ : ∃ v, v = m * sound h := ⟨_, rfl⟩
  rw [← hve] at hv ⊢
  field_simp

/-- For the total thrust, which includes the jet thrust of the exhaust, it is not: the consumption is per unit
of propeller thrust only. -/
theorem C95_total_violated (d : TurbopropDeck) (G : Grid) (m h rpm : ℝ) (o : PropellerObj) (T f H : ℝ) (hh : h ≤ 50000)
    (hT : d.coldthrust G (.scalar m) (.scalar h) rpm o = .ok [some T]) (hT0 : T ≠ 0)
    (hf : d.tsfc G (.scalar m) (.scalar h) rpm o = .ok [some f]) (hf0 : f ≠ 0)
    (hH : d.hotthrust G (.scalar m) (.scalar h) = .ok (some [some H])) (hH0 : H ≠ 0) :
    ∃ X P b, d.thrust G (.scalar m) (.scalar h) rpm o = .ok [some X] ∧
      d.shaftpower G (.scalar m) (.scalar h) = .ok (some [some P]) ∧
      d.bsfc G (.scalar m) (.scalar h) = .ok (some [some b]) ∧ X = H + T ∧ f * X ≠ b / 3600 * P := by
  obtain ⟨P, b, h1, h2, h3⟩ := C95_fuel_flow d G m h rpm o T f hh hT hT0 hf
  refine ⟨H + T, P, b, ?_, h1, h2, rfl, ?_⟩
  · unfold TurbopropDeck.thrust
    have e1 : d.hotthrust G (.array (recastArray (.scalar m))) (.array (recastArray (.scalar h)))
        = d.hotthrust G (.scalar m) (.scalar h) := rfl
    have e2 : d.coldthrust G (.array (recastArray (.scalar m))) (.array (recastArray (.scalar h))) rpm o
        = d.coldthrust G (.scalar m) (.scalar h) rpm o := rfl
    simp only [e1, e2, hH, hT, bind_ok]
    rfl
  · rw [← h3]
    intro hc
    have : f * H = 0 := by linarith
    rcases mul_eq_zero.mp this with h | h
    · exact hf0 h
    · exact hH0 h

/-- A deck with all three tables. -/
def exTurboprop : TurbopropDeck :=
  ⟨⟨[true, true], [true], false, false⟩, some [(some 0.3, some 0, some 2000)], some [(some 0.3, some 0, some 1500000)],
    some [(some 0.3, some 0, some 300)]⟩

/-- Interpolation that returns the first value of the table. -/
def firstGrid : Grid := fun t _ _ => (t.head?.bind (fun r => r.2.2))

/-- A propeller used with its start value of the efficiency (no solver turn). -/
def exFixed : Propeller := ⟨some 3, some 4, some 120, none, some 0.5, 6, 0⟩

theorem exFixed_eta (sigma rho a m rpm P : ℝ) : etaAt (cacheSolidity exFixed) sigma rho a m rpm (some P) = some 0.87 := by
  have : ∀ rnd, solve 0 6 rnd = 0.87 := by
    intro rnd
    obtain ⟨k, _, h2, _, _, h5⟩ := C68_result 0 6 rnd
    rw [h2, h5 le_rfl]; rfl
  show some (solve 0 6 _) = _
  rw [this]

example : ∃ T f, exTurboprop.coldthrust firstGrid (.scalar 0.3) (.scalar 0) 1000 (.deck exFixed) = .ok [some T] ∧ T ≠ 0 ∧
    exTurboprop.tsfc firstGrid (.scalar 0.3) (.scalar 0) 1000 (.deck exFixed) = .ok [some f] ∧ f ≠ 0 ∧
    exTurboprop.hotthrust firstGrid (.scalar 0.3) (.scalar 0) = .ok (some [some 2000]) := by
  have hs := sound_pos 0
  refine ⟨0.87 * 1500000 / (0.3 * sound 0), 300 / 3600 * (0.3 * sound 0) / 0.87, ?_, by positivity, ?_, by positivity, rfl⟩
  · unfold TurbopropDeck.coldthrust
    have e : exTurboprop.shaftpower firstGrid (.array (recastArray (.scalar 0.3))) (.array (recastArray (.scalar 0)))
      = .ok (some [some 1500000]) := rfl
    simp only [e, bind_ok]
    unfold propThrust
    rw [show chooseProp (.deck exFixed) _ _ _ _ = .ok exFixed from rfl, bind_ok]
    simp only [recastArray]
    rw [efficiency_single _ _ _ _ _ (by norm_num), bind_ok, airspeed_single _ _ (by norm_num), bind_ok, exFixed_eta]
    rfl
  · unfold TurbopropDeck.tsfc
    have e : exTurboprop.shaftpower firstGrid (.array (recastArray (.scalar 0.3))) (.array (recastArray (.scalar 0)))
      = .ok (some [some 1500000]) := rfl
    have e2 : exTurboprop.bsfc firstGrid (.array (recastArray (.scalar 0.3))) (.array (recastArray (.scalar 0)))
      = .ok (some [some 300]) := by
      rfl
    simp only [e, e2, bind_ok]
    unfold propTsfc
    rw [show chooseProp (.deck exFixed) _ _ _ _ = .ok exFixed from rfl, bind_ok]
    simp only [recastArray]
    rw [efficiency_single _ _ _ _ _ (by norm_num), bind_ok, airspeed_single _ _ (by norm_num), bind_ok, exFixed_eta]
    rfl

/-! ### C91 -/

/-- Without a given propeller a query with any point outside the power table (NaN) fails as a whole with
ValueError: thrust and fuel consumption of turboprop decks. -/
theorem C91_deck_violated (d : TurbopropDeck) (G : Grid) (ms hs : List ℝ) (rpm : ℝ) (ps : List (Option ℝ)) (hm : ms ≠ [])
    (hne : hs ≠ []) (hh : ∀ h ∈ hs, h ≤ 50000)
    (hP : d.shaftpower G (.array ms) (.array hs) = .ok (some ps)) (hn : none ∈ ps) :
    d.coldthrust G (.array ms) (.array hs) rpm .pyNone = .error .valueError ∧
    d.tsfc G (.array ms) (.array hs) rpm .pyNone = .error .valueError := by
  have k : chooseProp .pyNone (.array ms) (.array hs) rpm (some ps) = .error .valueError := by
    show (mkPropeller .pyNone >>= _) = _
    show ansatzprop (ofDict {}) (.array ms) (.array hs) rpm (some ps) = _
    exact C91_generic_violated _ ms hs rpm ps hm hne hh hn
  constructor
  · unfold TurbopropDeck.coldthrust
    simp only [recastArray, hP, bind_ok]
    unfold propThrust
    rw [k]; rfl
  · unfold TurbopropDeck.tsfc
    simp only [recastArray, hP, bind_ok]
    unfold propTsfc
    rw [k]; rfl

example : exTurboprop.shaftpower (fun _ x _ => if x < 0.5 then some 1500000 else none) (.array [0.3, 0.6]) (.array [0, 0])
    = .ok (some [some 1500000, none]) := by
  show Except.ok (some [if (0.3:ℝ) < 0.5 then some 1500000 else none, if (0.6:ℝ) < 0.5 then some 1500000 else none]) = _
  norm_num

end

end Verif.Propulsion
