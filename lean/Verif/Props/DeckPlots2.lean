import Verif.Props.DeckPlots

/-
The demonstration plots of the engine decks (C113) and their availability checks (C79).
-/

namespace Verif.Propulsion

open Verif Verif.Atmos

noncomputable section

/-- A plot shows a table: over the range of the rows it draws at every point what the query gives there. -/
def ShowsTable (dir : Dir) (name role x y z : String) (keep : Row → Bool) (q : Grid → ℝ → ℝ → Query)
    (labels : String × String × String × String) (plot : Grid → PyM (Option DemoPlot)) : Prop :=
  HasTable dir name role → ∃ rows, FromTable dir name role x y z rows ∧
    (∀ G u v, q G u v = .ok (some [G (rows.filter keep) u v])) ∧
    Draws rows (fun G => G (rows.filter keep)) labels plot

theorem plot_never {data : Option (List Row)} {f : List ℝ → List ℝ → Query} {x y z t : String} : (do
      let lims ← plotLimits data
      let p ← demoPlot lims f x y z t
      pure (some p) : PyM (Option DemoPlot)) ≠ .ok none := by
  intro h
  simp only [bind_ok_iff] at h
  obtain ⟨_, _, _, _, h⟩ := h
  cases h

theorem guarded_rows (rows : List Row) (G : Grid) (a b : List ℝ) (h : a.length = b.length) :
    guarded true (some rows) G (.array a) (.array b) = .ok (some (List.zipWith (G rows) a b)) := by
  show (do let z ← griddata G rows (.array a) (.array b); pure (some z) : Query) = _
  unfold griddata bcast
  rw [if_pos (by exact h)]; rfl

theorem filter_all (rows : List Row) : rows.filter (fun _ => true) = rows := List.filter_true rows

theorem shows_plain {dir : Dir} {name role x y z xl yl zl tl : String} {r : Option (List Row)} {av : Bool}
    (h2 : HasTable dir name role → av = true ∧ ∃ rows, FromTable dir name role x y z rows ∧ r = some rows) :
    ShowsTable dir name role x y z (fun _ => true) (fun G u v => guarded av r G (.scalar u) (.scalar v)) (xl, yl, zl, tl) (fun G => do
      let lims ← plotLimits r
      let p ← demoPlot lims (fun x y => guarded av r G (.array x) (.array y)) xl yl zl tl
      pure (some p)) := by
  intro h
  obtain ⟨rfl, rows, hr, rfl⟩ := h2 h
  refine ⟨rows, hr, fun G u v => by rw [filter_all]; rfl, ?_⟩
  rw [filter_all]
  exact draws_of rows _ _ _ _ _ (fun G x y => guarded true (some rows) G (.array x) (.array y)) (fun G a b hab => guarded_rows rows G a b hab)

theorem shows_full {dir : Dir} {name role x y z xl yl zl tl : String} {r : Option (List Row)} {av : Bool}
    (h2 : HasTable dir name role → av = true ∧ ∃ rows, FromTable dir name role x y z rows ∧ r = some rows) :
    ShowsTable dir name role x y z full (fun G u v => guarded av (r.map dropNan) G (.scalar u) (.scalar v)) (xl, yl, zl, tl) (fun G => do
      let lims ← plotLimits r
      let p ← demoPlot lims (fun x y => guarded av (r.map dropNan) G (.array x) (.array y)) xl yl zl tl
      pure (some p)) := by
  intro h
  obtain ⟨rfl, rows, hr, rfl⟩ := h2 h
  refine ⟨rows, hr, fun G u v => rfl, ?_⟩
  exact draws_of rows _ _ _ _ _ (fun G x y => guarded true ((some rows).map dropNan) G (.array x) (.array y))
    (fun G a b hab => guarded_rows (dropNan rows) G a b hab)

/-- Turboprop decks: hot thrust, shaft power and fuel consumption against Mach number and altitude. -/
theorem C113_turboprop (dir : Dir) (name : String) (d : TurbopropDeck) (h : mkTurboprop dir name = .ok d) :
    ShowsTable dir name "thrust" "Mach Number" "Altitude (m)" "Thrust (N)" (fun _ => true) (fun G u v => d.hotthrust G (.scalar u) (.scalar v))
      ("Mach Number", "Altitude (m)", "Core/hot Thrust (N)", name ++ " core/hot thrust (N) for Mach number and altitude (m)")
      (d.demoplot_thrust name) ∧
    ShowsTable dir name "power" "Mach Number" "Altitude (m)" "Power (W)" (fun _ => true) (fun G u v => d.shaftpower G (.scalar u) (.scalar v))
      ("Mach Number", "Altitude (m)", "Power (W)", name ++ " shaft power (W) for Mach Number and altitude (m)")
      (d.demoplot_shaftpower name) ∧
    ShowsTable dir name "bsfc" "Mach Number" "Altitude (m)" "BSFC (g/(kWh))" full (fun G u v => d.bsfc G (.scalar u) (.scalar v))
      ("Mach Number", "Altitude (m)", "BSFC (g/(kWh))", name ++ " BSFC (g/(kWh)) for Mach Number and altitude (m)")
      (d.demoplot_bsfc name) := by
  unfold mkTurboprop at h
  simp only [bind_ok_iff, pure_ok_iff] at h
  obtain ⟨S, hS, thr, h1, pwr, h2, sfc, h3, rfl⟩ := h
  rw [setup_ok] at hS
  obtain ⟨_, rfl⟩ := hS
  obtain ⟨a1, a2⟩ := assign_closed h1
  obtain ⟨b1, b2⟩ := assign_closed h2
  obtain ⟨c1, c2⟩ := assign_closed h3
  exact ⟨shows_plain a2, shows_plain b2, shows_full c2⟩

theorem best_title (name best whole : String) (h : " BSFC (g/(kWh)) at best " ++ best ++ " for Engine speed (RPM) and shaft power (W)" = whole) :
    name ++ " BSFC (g/(kWh)) at best " ++ best ++ " for Engine speed (RPM) and shaft power (W)" = name ++ whole := by
  rw [← h, String.append_assoc, String.append_assoc, String.append_assoc]

theorem zip_through (f : ℝ → ℝ → Option ℝ) (g : ℝ → Option ℝ → Option ℝ) : ∀ a b : List ℝ,
    List.zipWith g a (List.zipWith f a b) = List.zipWith (fun x y => g x (f x y)) a b
  | [], _ => by simp
  | _ :: _, [] => by simp
  | x :: a, y :: b => by
    rw [List.zipWith_cons_cons, List.zipWith_cons_cons, List.zipWith_cons_cons, zip_through f g a b]

theorem bsfc_shows {dir : Dir} {name role x y z xl yl zl tl best : String} (d : PistonDeck) (plot : Grid → PyM (Option DemoPlot))
    (r : Option (List Row)) (av : Bool)
    (hq : ∀ G rpm P, d.bsfc G rpm P best = if av = false then .ok none else do
      let t ← attrOf r
      let z ← bcast (gridNan G t) (recastArray rpm) (P.getD [none])
      pure (some z))
    (hp : ∀ G, plot G = if av = false then pure none else do
      let lims ← plotLimits r
      let p ← demoPlot lims (fun x y => d.bsfc G (.array x) (some (y.map some)) best) xl yl zl tl
      pure (some p))
    (h2 : HasTable dir name role → av = true ∧ ∃ rows, FromTable dir name role x y z rows ∧ r = some rows) :
    ShowsTable dir name role x y z (fun _ => true) (fun G u v => d.bsfc G (.scalar u) (some [some v]) best) (xl, yl, zl, tl) plot := by
  intro h
  obtain ⟨rfl, rows, hr, rfl⟩ := h2 h
  refine ⟨rows, hr, fun G u v => ?_, ?_⟩
  · show d.bsfc G (.scalar u) (some [some v]) best = _
    rw [filter_all, hq, if_neg (by decide)]; rfl
  · rw [filter_all]
    have := draws_of rows (fun G => G rows) xl yl zl tl (fun G x y => d.bsfc G (.array x) (some (y.map some)) best)
      (fun G a b hab => by rw [hq, if_neg (by decide)]; exact bsfc_rows G rows a b hab)
    rw [show plot = fun G => _ from funext hp]
    exact this

/-- Piston decks: shaft power against speed and altitude, fuel consumption of either mixture against speed and power. -/
theorem C113_piston (dir : Dir) (name : String) (d : PistonDeck) (h : mkPiston dir name = .ok d) :
    ShowsTable dir name "power" "Speed (RPM)" "Altitude (m)" "Power (W)" (fun _ => true) (fun G u v => d.shaftpower G (.scalar u) (.scalar v))
      ("Engine Speed (RPM)", "Altitude (m)", "Shaft power (W)", name ++ " shaft power (W) for Engine speed (RPM) and altitude (m)")
      (d.demoplot_shaftpower name) ∧
    ShowsTable dir name "bsfc" "Speed (RPM)" "Power (W)" "BSFC (g/(kWh))" (fun _ => true) (fun G u v => d.bsfc G (.scalar u) (some [some v]) "economy")
      ("Engine Speed (RPM)", "Shaft power (W)", "BSFC (g/(kWh))", name ++ " BSFC (g/(kWh)) at best economy for Engine speed (RPM) and shaft power (W)")
      (fun G => d.demoplot_bsfc name G "economy") ∧
    ShowsTable dir name "bsfc_best_power" "Speed (RPM)" "Power (W)" "BSFC (g/(kWh))" (fun _ => true)
      (fun G u v => d.bsfc G (.scalar u) (some [some v]) "power")
      ("Engine Speed (RPM)", "Shaft power (W)", "BSFC (g/(kWh))", name ++ " BSFC (g/(kWh)) at best power for Engine speed (RPM) and shaft power (W)")
      (fun G => d.demoplot_bsfc name G "power") := by
  unfold mkPiston at h
  simp only [bind_ok_iff, pure_ok_iff] at h
  obtain ⟨S, hS, pwr, h1, b, h2, bp, h3, rfl⟩ := h
  rw [setup_ok] at hS
  obtain ⟨_, rfl⟩ := hS
  obtain ⟨a1, a2⟩ := assign_closed h1
  obtain ⟨b1, b2⟩ := assign_closed h2
  obtain ⟨c1, c2⟩ := assign_closed h3
  refine ⟨shows_plain a2, ?_, ?_⟩
  · exact bsfc_shows _ _ _ _ (fun _ _ _ => rfl) (fun G => by
      rw [← best_title name "economy" " BSFC (g/(kWh)) at best economy for Engine speed (RPM) and shaft power (W)" (by decide)]; rfl) b2
  · exact bsfc_shows _ _ _ _ (fun _ _ _ => rfl) (fun G => by
      rw [← best_title name "power" " BSFC (g/(kWh)) at best power for Engine speed (RPM) and shaft power (W)" (by decide)]; rfl) c2

/-- Electric motors: efficiency against speed and torque. -/
theorem C113_electric (dir : Dir) (name : String) (d : ElectricDeck) (h : mkElectric dir name = .ok d) :
    ShowsTable dir name "efficiency" "Speed (RPM)" "Torque (Nm)" "Efficiency" (fun _ => true) (fun G u v => d.efficiency G (.scalar u) (.scalar v))
      ("Motor Speed (RPM)", "Torque (Nm)", "Efficiency", name ++ " efficiency for Motor speed (RPM) and torque (Nm)")
      (d.demoplot_efficiency name) := by
  unfold mkElectric at h
  simp only [bind_ok_iff, pure_ok_iff] at h
  obtain ⟨S, hS, e, h1, rfl⟩ := h
  rw [setup_ok] at hS
  obtain ⟨_, rfl⟩ := hS
  obtain ⟨a1, a2⟩ := assign_closed h1
  intro hh
  have := shows_plain (xl := "Motor Speed (RPM)") (yl := "Torque (Nm)") (zl := "Efficiency")
    (tl := name ++ " efficiency for Motor speed (RPM) and torque (Nm)") a2 hh
  obtain ⟨rows, hr, hq, hd⟩ := this
  refine ⟨rows, hr, hq, ?_⟩
  convert hd using 1
  funext G
  unfold ElectricDeck.demoplot_efficiency
  refine (if_neg ?_).trans rfl
  show ¬ ((engineFiles name dir.listing).any (isTable "efficiency") = false)
  rw [(a2 hh).1]; exact Bool.noConfusion

/-- Jet decks: thrust against Mach number and altitude, fuel consumption against Mach number and thrust, or against Mach number and
altitude, where it is the consumption at the thrust available there (NaN where that is NaN). -/
theorem C113_jet (dir : Dir) (name : String) (d : JetDeck) (h : mkJet dir name = .ok d) :
    ShowsTable dir name "thrust" "Mach Number" "Altitude (m)" "Thrust (N)" (fun _ => true) (fun G u v => d.thrust G (.scalar u) (.scalar v))
      ("Mach Number", "Altitude (m)", "Thrust (N)", name ++ " thrust (N) for Mach number and altitude (m)")
      (d.demoplot_thrust name) ∧
    (HasTable dir name "thrust" → ShowsTable dir name "tsfc" "Mach Number" "Thrust (N)" "TSFC (g/(kNs))" full
      (fun G u v => d.tsfc G (.scalar u) (.scalar v))
      ("Mach Number", "Thrust (N)", "TSFC (g/(kNs))", name ++ " TSFC (g/(kNs)) for Mach number and Thrust (N)")
      (fun G => d.demoplot_tsfc name G "t_n")) ∧
    (HasTable dir name "thrust" → HasTable dir name "tsfc" → ∃ rows sfc, FromTable dir name "thrust" "Mach Number" "Altitude (m)" "Thrust (N)" rows ∧
      FromTable dir name "tsfc" "Mach Number" "Thrust (N)" "TSFC (g/(kNs))" sfc ∧
      (∀ G u v, d.thrust G (.scalar u) (.scalar v) = .ok (some [G rows u v])) ∧
      (∀ G u v, d.tsfc G (.scalar u) (.scalar v) = .ok (some [G (sfc.filter full) u v])) ∧
      Draws rows (fun G u v => match G rows u v with
        | none => none
        | some T => G (sfc.filter full) u T)
        ("Mach Number", "Altitude (m)", "TSFC (g/(kNs))", name ++ " TSFC (g/(kNs)) for Mach number and altitude (m)")
        (fun G => d.demoplot_tsfc name G "alt_m")) := by
  unfold mkJet at h
  simp only [bind_ok_iff, pure_ok_iff] at h
  obtain ⟨S, hS, thr, h1, sfc, h2, rfl⟩ := h
  rw [setup_ok] at hS
  obtain ⟨_, rfl⟩ := hS
  obtain ⟨a1, a2⟩ := assign_closed h1
  obtain ⟨b1, b2⟩ := assign_closed h2
  refine ⟨fun hh => ?_, fun hh hs => ?_, fun hh hs => ?_⟩
  · obtain ⟨rows, hr, hq, hd⟩ := shows_plain (xl := "Mach Number") (yl := "Altitude (m)") (zl := "Thrust (N)")
      (tl := name ++ " thrust (N) for Mach number and altitude (m)") a2 hh
    refine ⟨rows, hr, hq, ?_⟩
    convert hd using 1
    funext G
    unfold JetDeck.demoplot_thrust
    refine (if_neg ?_).trans rfl
    show ¬ ((engineFiles name dir.listing).any (isTable "thrust") = false)
    rw [(a2 hh).1]; exact Bool.noConfusion
  · obtain ⟨rows, hr, hq, hd⟩ := shows_full (xl := "Mach Number") (yl := "Thrust (N)") (zl := "TSFC (g/(kNs))")
      (tl := name ++ " TSFC (g/(kNs)) for Mach number and Thrust (N)") b2 hs
    refine ⟨rows, hr, hq, ?_⟩
    convert hd using 1
    funext G
    unfold JetDeck.demoplot_tsfc
    refine (if_neg ?_).trans ((if_pos rfl).trans ((if_neg ?_).trans rfl))
    · show ¬ ((engineFiles name dir.listing).any (isTable "tsfc") = false)
      rw [(b2 hs).1]; exact Bool.noConfusion
    · show ¬ ((engineFiles name dir.listing).any (isTable "thrust") = false)
      rw [(a2 hh).1]; exact Bool.noConfusion
  · obtain ⟨ea, rows, hr, rfl⟩ := a2 hh
    obtain ⟨eb, rows2, hr2, rfl⟩ := b2 hs
    have fa : flagAt (closedSetup dir ["thrust"] ["tsfc"] (engineFiles name dir.listing)).avail.out 0 = true := ea
    have fb : flagAt (closedSetup dir ["thrust"] ["tsfc"] (engineFiles name dir.listing)).avail.eff 0 = true := eb
    refine ⟨rows, rows2, hr, hr2, fun G u v => ?_, fun G u v => ?_, ?_⟩
    · unfold JetDeck.thrust; dsimp only; rw [fa]; rfl
    · unfold JetDeck.tsfc; dsimp only; rw [fb]; rfl
    · convert draws_of rows (fun G u v => match G rows u v with
        | none => none
        | some T => G (rows2.filter full) u T) "Mach Number" "Altitude (m)" "TSFC (g/(kNs))" (name ++ " TSFC (g/(kNs)) for Mach number and altitude (m)")
        (JetDeck.tsfcAt ⟨(closedSetup dir ["thrust"] ["tsfc"] (engineFiles name dir.listing)).avail, some rows, some rows2,
          (closedSetup dir ["thrust"] ["tsfc"] (engineFiles name dir.listing)).slPoly,
          (closedSetup dir ["thrust"] ["tsfc"] (engineFiles name dir.listing)).sltoPoly⟩) ?_ using 1
      · funext G
        unfold JetDeck.demoplot_tsfc
        rw [if_neg (show ¬ (flagAt (closedSetup dir ["thrust"] ["tsfc"] (engineFiles name dir.listing)).avail.eff 0 = false) by
          rw [fb]; exact Bool.noConfusion), if_neg (by decide), if_pos rfl]
      · intro G a b hab
        unfold JetDeck.tsfcAt JetDeck.thrust
        dsimp only
        rw [fa, guarded_rows rows G a b hab, bind_ok]
        dsimp only
        rw [fb, if_neg (by decide)]
        show (do let z ← bcast (gridNan G (dropNan rows2)) a (List.zipWith (G rows) a b); pure (some z) : Query) = _
        unfold bcast
        rw [if_pos (by rw [List.length_zipWith, hab, min_self]), zip_through,
          show (fun x y => gridNan G (dropNan rows2) x (G rows x y)) = (fun u v => match G rows u v with
            | none => none
            | some T => G (rows2.filter full) u T) from by funext u v; cases G rows u v <;> rfl]
        rfl

/-- Where the checks do fire: the piston consumption plots, the motor efficiency plot and the jet plots give the warning exactly when
the engine lacks the table (the jet consumption plot against thrust: one of both tables); other choices give no plot. -/
theorem C79_plots (dir : Dir) (name e : String) (G : Grid) :
    (∀ d, mkPiston dir name = .ok d →
      (d.demoplot_bsfc e G "economy" = .ok none ↔ ¬ HasTable dir name "bsfc") ∧
      (d.demoplot_bsfc e G "power" = .ok none ↔ ¬ HasTable dir name "bsfc_best_power") ∧
      ∀ best, best ≠ "economy" → best ≠ "power" → d.demoplot_bsfc e G best = .ok none) ∧
    (∀ d, mkElectric dir name = .ok d → (d.demoplot_efficiency e G = .ok none ↔ ¬ HasTable dir name "efficiency")) ∧
    (∀ d, mkJet dir name = .ok d →
      (d.demoplot_thrust e G = .ok none ↔ ¬ HasTable dir name "thrust") ∧
      (d.demoplot_tsfc e G "t_n" = .ok none ↔ ¬ (HasTable dir name "tsfc" ∧ HasTable dir name "thrust")) ∧
      (d.demoplot_tsfc e G "alt_m" = .ok none ↔ ¬ HasTable dir name "tsfc") ∧
      ∀ y, y ≠ "t_n" → y ≠ "alt_m" → d.demoplot_tsfc e G y = .ok none) := by
  have key : ∀ {role : String} {av : Bool} {r : Option (List Row)} {f : List ℝ → List ℝ → Query} {x y z t : String},
      (¬ HasTable dir name role → av = false) → (HasTable dir name role → av = true) →
      ((if av = false then pure none else do
        let lims ← plotLimits r
        let p ← demoPlot lims f x y z t
        pure (some p) : PyM (Option DemoPlot)) = .ok none ↔ ¬ HasTable dir name role) := by
    intro role av r f x y z t k1 k2
    constructor
    · intro h hh
      rw [if_neg (by rw [k2 hh]; exact Bool.noConfusion)] at h
      exact plot_never h
    · intro hn
      rw [if_pos (k1 hn)]; rfl
  refine ⟨fun d h => ?_, fun d h => ?_, fun d h => ?_⟩
  · unfold mkPiston at h
    simp only [bind_ok_iff, pure_ok_iff] at h
    obtain ⟨S, hS, pwr, h1, b, h2, bp, h3, rfl⟩ := h
    rw [setup_ok] at hS
    obtain ⟨_, rfl⟩ := hS
    obtain ⟨b1, b2⟩ := assign_closed h2
    obtain ⟨c1, c2⟩ := assign_closed h3
    refine ⟨key (fun h => (b1 h).1) (fun h => (b2 h).1), key (fun h => (c1 h).1) (fun h => (c2 h).1), fun best n1 n2 => ?_⟩
    unfold PistonDeck.demoplot_bsfc
    dsimp only
    rw [if_neg n1, if_neg n2]; rfl
  · unfold mkElectric at h
    simp only [bind_ok_iff, pure_ok_iff] at h
    obtain ⟨S, hS, e, h1, rfl⟩ := h
    rw [setup_ok] at hS
    obtain ⟨_, rfl⟩ := hS
    obtain ⟨a1, a2⟩ := assign_closed h1
    exact key (fun h => (a1 h).1) (fun h => (a2 h).1)
  · unfold mkJet at h
    simp only [bind_ok_iff, pure_ok_iff] at h
    obtain ⟨S, hS, thr, h1, sfc, h2, rfl⟩ := h
    rw [setup_ok] at hS
    obtain ⟨_, rfl⟩ := hS
    obtain ⟨a1, a2⟩ := assign_closed h1
    obtain ⟨b1, b2⟩ := assign_closed h2
    refine ⟨key (fun h => (a1 h).1) (fun h => (a2 h).1), ?_, key (fun h => (b1 h).1) (fun h => (b2 h).1), fun y n1 n2 => ?_⟩
    · obtain ⟨av, hav⟩ : ∃ av, av = (engineFiles name dir.listing).any (isTable "tsfc") := ⟨_, rfl⟩
      have k := key (role := "thrust") (av := (engineFiles name dir.listing).any (isTable "thrust")) (r := sfc)
        (f := fun x y => JetDeck.tsfc ⟨(closedSetup dir ["thrust"] ["tsfc"] (engineFiles name dir.listing)).avail, thr, sfc,
          (closedSetup dir ["thrust"] ["tsfc"] (engineFiles name dir.listing)).slPoly,
          (closedSetup dir ["thrust"] ["tsfc"] (engineFiles name dir.listing)).sltoPoly⟩ G (.array x) (.array y))
        (x := "Mach Number") (y := "Thrust (N)") (z := "TSFC (g/(kNs))") (t := e ++ " TSFC (g/(kNs)) for Mach number and Thrust (N)")
        (fun h => (a1 h).1) (fun h => (a2 h).1)
      show (if (engineFiles name dir.listing).any (isTable "tsfc") = false then pure none else
        if (engineFiles name dir.listing).any (isTable "thrust") = false then pure none else do
          let lims ← plotLimits sfc
          let p ← demoPlot lims (fun x y => JetDeck.tsfc ⟨(closedSetup dir ["thrust"] ["tsfc"] (engineFiles name dir.listing)).avail, thr, sfc,
            (closedSetup dir ["thrust"] ["tsfc"] (engineFiles name dir.listing)).slPoly,
            (closedSetup dir ["thrust"] ["tsfc"] (engineFiles name dir.listing)).sltoPoly⟩ G (.array x) (.array y)) "Mach Number" "Thrust (N)"
            "TSFC (g/(kNs))" (e ++ " TSFC (g/(kNs)) for Mach number and Thrust (N)")
          pure (some p) : PyM (Option DemoPlot)) = .ok none ↔ _
      by_cases hs : HasTable dir name "tsfc"
      · rw [if_neg (by rw [(b2 hs).1]; exact Bool.noConfusion), k]
        tauto
      · rw [if_pos (b1 hs).1]
        exact iff_of_true rfl (fun h => hs h.1)
    · unfold JetDeck.demoplot_tsfc
      rw [if_neg n1, if_neg n2]
      split_ifs <;> rfl

/-- A blank in the first row spoils the plot: the least and largest value come out as NaN, and the fuel consumption plot of a jet engine raises
ValueError, although the query itself drops incomplete rows and answers. -/
theorem C113_blank_violated (dir : Dir) (name : String) (d : JetDeck) (h : mkJet dir name = .ok d) (ht : HasTable dir name "thrust")
    (hs : HasTable dir name "tsfc")
    (hb : ∀ f ∈ dir.listing, Occurs ("tsfc".toList ++ "_data.csv".toList) (f.toList.map Char.toLower) → ∀ a, Column (dir.csv f) "Mach Number" a →
      a.head? = some none) :
    (∀ G, d.demoplot_tsfc name G "t_n" = .error .valueError) ∧ ∃ rows, ∀ G u v, d.tsfc G (.scalar u) (.scalar v) = .ok (some [G rows u v]) := by
  obtain ⟨rows, ⟨f, hf, -, h2, a, b, c, ha, -, -, rfl⟩, hq, hd⟩ := (C113_jet dir name d h).2.1 ht hs
  refine ⟨hd.2 (Or.inl ?_), _, hq⟩
  match a, hb f hf h2 a ha with
  | none :: a, _ =>
    match b, c with
    | [], _ => exact Or.inr (by simp [known])
    | _ :: _, [] => exact Or.inr (by simp [known])
    | _ :: _, _ :: _ => exact Or.inl rfl

/-- The first rows of the J52 tables of the package: the first Mach number of the consumption table is blank. -/
def j52 (f : String) : Frame :=
  if f = "J52_TSFC_data.csv" then
    [("TSFC (g/(kNs))", [some 24.07676, some 24.07676]), ("Velocity (m/s)", [some 56.14903724, some 58.21359174]),
      ("Thrust (N)", [some 33578.08071, some 30619.97489]), ("Mach Number", [none, some 0.173263931])]
  else [("Mach Number", [some 0, some 0.5]), ("Altitude (m)", [some 0, some 3000]), ("Thrust (N)", [some 36000, some 25000])]

/-- The directory of the package, reduced to this engine. -/
def j52Dir : Dir := ⟨["J52_TSFC_data.csv", "J52_Thrust_data.csv"], j52, fun _ => .ok ([1], [0, 1])⟩

theorem j52_deck : mkJet j52Dir "J52" = .ok ⟨⟨[true], [true], false, false⟩,
    some [(some 0, some 0, some 36000), (some 0.5, some 3000, some 25000)],
    some [(none, some 33578.08071, some 24.07676), (some 0.173263931, some 30619.97489, some 24.07676)], none, none⟩ := by
  have hf : engineFiles "J52" j52Dir.listing = ["J52_TSFC_data.csv", "J52_Thrust_data.csv"] := by decide
  have n1 : ∀ f ∈ ["J52_TSFC_data.csv", "J52_Thrust_data.csv"], polyFile ["thrust"] f = true → ∃ p, j52Dir.poly f = .ok p :=
    fun f _ _ => ⟨_, rfl⟩
  unfold mkJet
  rw [(setup_ok j52Dir "J52" ["thrust"] ["tsfc"] _).mpr ⟨by rw [hf]; exact n1, rfl⟩, bind_ok, hf]
  have o : (closedSetup j52Dir ["thrust"] ["tsfc"] ["J52_TSFC_data.csv", "J52_Thrust_data.csv"]).output_data = [some (j52 "J52_Thrust_data.csv")] := by
    show [Option.map _ (lastWhere (isTable "thrust") ["J52_TSFC_data.csv", "J52_Thrust_data.csv"])] = _
    rw [show lastWhere (isTable "thrust") ["J52_TSFC_data.csv", "J52_Thrust_data.csv"] = some "J52_Thrust_data.csv" by decide]; rfl
  have o2 : (closedSetup j52Dir ["thrust"] ["tsfc"] ["J52_TSFC_data.csv", "J52_Thrust_data.csv"]).eta_data = [some (j52 "J52_TSFC_data.csv")] := by
    show [Option.map _ (lastWhere (isTable "tsfc") ["J52_TSFC_data.csv", "J52_Thrust_data.csv"])] = _
    rw [show lastWhere (isTable "tsfc") ["J52_TSFC_data.csv", "J52_Thrust_data.csv"] = some "J52_TSFC_data.csv" by decide]; rfl
  have av : (closedSetup j52Dir ["thrust"] ["tsfc"] ["J52_TSFC_data.csv", "J52_Thrust_data.csv"]).avail = ⟨[true], [true], false, false⟩ := by
    decide
  have p1 : (closedSetup j52Dir ["thrust"] ["tsfc"] ["J52_TSFC_data.csv", "J52_Thrust_data.csv"]).slPoly = none := by
    unfold closedSetup
    dsimp only
    rw [show lastWhere (fun f => ["thrust"].any (fun o => isSlPoly o f)) ["J52_TSFC_data.csv", "J52_Thrust_data.csv"] = none by decide]; rfl
  have p2 : (closedSetup j52Dir ["thrust"] ["tsfc"] ["J52_TSFC_data.csv", "J52_Thrust_data.csv"]).sltoPoly = none := by
    unfold closedSetup
    dsimp only
    rw [show lastWhere (fun f => ["thrust"].any (fun o => isSltoPoly o f)) ["J52_TSFC_data.csv", "J52_Thrust_data.csv"] = none by decide]; rfl
  rw [o, o2, av, p1, p2]
  have k1 : j52 "J52_Thrust_data.csv" = [("Mach Number", [some 0, some 0.5]), ("Altitude (m)", [some 0, some 3000]), ("Thrust (N)", [some 36000, some 25000])] := by
    unfold j52; rw [if_neg (by decide)]
  have k2 : j52 "J52_TSFC_data.csv" = [("TSFC (g/(kNs))", [some 24.07676, some 24.07676]), ("Velocity (m/s)", [some 56.14903724, some 58.21359174]),
      ("Thrust (N)", [some 33578.08071, some 30619.97489]), ("Mach Number", [none, some 0.173263931])] := by
    unfold j52; rw [if_pos rfl]
  rw [k1, k2]
  rfl

theorem j52_has : HasTable j52Dir "J52" "thrust" ∧ HasTable j52Dir "J52" "tsfc" := by
  refine ⟨⟨"J52_Thrust_data.csv", by simp [j52Dir], ?_, ?_⟩, ⟨"J52_TSFC_data.csv", by simp [j52Dir], ?_, ?_⟩⟩
  · exact (pyIn_iff _ _).mp (by decide)
  · exact (pyIn_iff _ _).mp (by decide)
  · exact (pyIn_iff _ _).mp (by decide)
  · exact (pyIn_iff _ _).mp (by decide)

/-- The consumption plot of this engine cannot be drawn. -/
example : ∃ d, mkJet j52Dir "J52" = .ok d ∧ ∀ G, d.demoplot_tsfc "J52" G "t_n" = .error .valueError := by
  refine ⟨_, j52_deck, (C113_blank_violated _ _ _ j52_deck j52_has.1 j52_has.2 ?_).1⟩
  intro f hf ho a ha
  have hf : f ∈ ["J52_TSFC_data.csv", "J52_Thrust_data.csv"] := hf
  simp only [List.mem_cons, List.not_mem_nil, or_false] at hf
  rcases hf with rfl | rfl
  · rw [← col_iff] at ha
    have k : col (j52 "J52_TSFC_data.csv") "Mach Number" = .ok [none, some 0.173263931] := by
      unfold j52; rw [if_pos rfl]; rfl
    have e : col (j52 "J52_TSFC_data.csv") "Mach Number" = .ok a := ha
    rw [k] at e
    rw [← Except.ok.inj e]; rfl
  · exact absurd ((pyIn_iff _ _).mpr ho) (by decide)

/-- Its thrust plot and its consumption plot against altitude are drawn: in the middle of the first there is what the query gives at Mach 0.25 and 1500 m. -/
example (G : Grid) : ∃ d P, mkJet j52Dir "J52" = .ok d ∧ d.demoplot_thrust "J52" G = .ok (some P) ∧
    P.xs[500]? = some (0.25 : ℝ) ∧ P.ys[500]? = some (1500 : ℝ) ∧ P.title = "J52 thrust (N) for Mach number and altitude (m)" ∧
    ∃ z, P.z[500 * 1001 + 500]? = some z ∧ d.thrust G (.scalar 0.25) (.scalar 1500) = .ok (some [z]) := by
  obtain ⟨rows, hr, hq, hd⟩ := (C113_jet _ _ _ j52_deck).1 j52_has.1
  have q := draws_of [(some 0, some 0, some 36000), (some 0.5, some 3000, some 25000)] (fun G => G [(some 0, some 0, some 36000), (some 0.5, some 3000, some 25000)])
    "Mach Number" "Altitude (m)" "Thrust (N)" ("J52" ++ " thrust (N) for Mach number and altitude (m)")
    (fun G a b => JetDeck.thrust ⟨⟨[true], [true], false, false⟩,
      some [(some 0, some 0, some 36000), (some 0.5, some 3000, some 25000)],
      some [(none, some 33578.08071, some 24.07676), (some 0.173263931, some 30619.97489, some 24.07676)], none, none⟩ G (.array a) (.array b))
    (fun G a b hab => guarded_rows _ G a b hab)
  have s1 : Spans [some (0:ℝ), some 0.5] 0 0.5 := by
    refine ⟨⟨0, rfl⟩, by simp [known], by simp [known], fun v hv => ?_⟩
    simp only [known, List.filterMap_cons, id, List.filterMap_nil, List.mem_cons, List.not_mem_nil, or_false] at hv
    rcases hv with rfl | rfl <;> norm_num
  have s2 : Spans [some (0:ℝ), some 3000] 0 3000 := by
    refine ⟨⟨0, rfl⟩, by simp [known], by simp [known], fun v hv => ?_⟩
    simp only [known, List.filterMap_cons, id, List.filterMap_nil, List.mem_cons, List.not_mem_nil, or_false] at hv
    rcases hv with rfl | rfl <;> norm_num
  obtain ⟨P, h1, ⟨-, -, -, h2⟩, h3⟩ := q.1 0 0.5 0 3000 s1 s2 (by norm_num) (by norm_num) G
  obtain ⟨k1, k2, k3⟩ := h2 500 500 (by norm_num) (by norm_num)
  have e1 : (0:ℝ) + (500 : ℕ) / 1000 * (0.5 - 0) = 0.25 := by norm_num
  have e2 : (0:ℝ) + (500 : ℕ) / 1000 * (3000 - 0) = 1500 := by norm_num
  rw [e1] at k1 k3
  rw [e2] at k2 k3
  refine ⟨_, P, j52_deck, h1, k1, k2, ?_, _, k3, rfl⟩
  have : P.title = "J52" ++ " thrust (N) for Mach number and altitude (m)" := congrArg (fun l => l.2.2.2) h3
  rw [this]; decide

end

end Verif.Propulsion
