import Verif.Props.SensPlot2
import Verif.Props.Shared2
import Verif.Props.PropArg
import Verif.Props.DeckReq
import Verif.Props.SuperSlope

/-!
Concrete cases for theorems whose own file has none: the worked cases of other files meet their
hypotheses, here the theorems are applied to them. There are no new claims in this file.
-/

namespace Verif.Props

open Verif Verif.Aircraft Verif.Units

noncomputable section

/-! ### The constructor and the study (C32, C54, C84) -/

/-- The worked case with a range of weights, 9 to 11 kN in place of one weight. -/
def wtDesign : Dict :=
  [("aspectratio", .num 9), ("sweep_le_deg", .num 0), ("sweep_mt_deg", .num 0), ("sweep_25_deg", .num 0),
   ("roottaperratio", .num 0.5), ("wingarea_m2", .num 12), ("wingheightratio", .num 0.1), ("bpr", .num (-1)),
   ("spooluptime_s", .num 5), ("totalstaticthrust_n", .flag), ("tr", .num 1), ("weight_n", .list [9000, 11000]),
   ("weightfractions", .sub [("climb", some 1), ("cruise", some 1), ("servceil", some 1), ("turn", some 1)]),
   ("runwayalpha_deg", .num 0), ("runwayalpha_max_deg", .flag)]

/-- what the constructor makes of it -/
def wtBuilt : Built := ⟨stBriefAvg, stDesign, stPerf, (stBriefAvg, wtDesign, stPerf), false, shC⟩

theorem wt_built : construct stBriefAvg wtDesign stPerf (some exAtm) (.obj .other) = .ok wtBuilt := by
  obtain ⟨-, -, f3⟩ := st_fill
  obtain ⟨-, -, a3⟩ := st_average
  have f1 : fill default_brief stBriefAvg = .ok stBriefAvg := by
    simp [fill, fillKey, dget, dset, stBrief, stBriefAvg, default_brief, bind, Except.bind, pure, Except.pure]
  have f2 : fill default_design wtDesign = .ok wtDesign := by
    simp [fill, fillKey, dget, dset, fillSub, wtDesign, default_design, bind, Except.bind, pure, Except.pure]
  have a1 : average default_brief stBriefAvg = .ok stBriefAvg := by
    simp [average, averageKey, dgetE, dget, dset, stBrief, stBriefAvg, default_brief, bind, Except.bind, pure, Except.pure]
  have a2 : average default_design wtDesign = .ok stDesign := by
    simp [average, averageKey, dgetE, dget, dset, wtDesign, stDesign, default_design, bind, Except.bind, pure, Except.pure, pyMean]
    norm_num
  have k4 : leDefault wtDesign = .ok wtDesign := by simp [leDefault, dgetE, dget, wtDesign, bind, Except.bind, pure, Except.pure]
  have k5 : mtDefault wtDesign = .ok wtDesign := by simp [mtDefault, dgetE, dget, wtDesign, bind, Except.bind, pure, Except.pure]
  have k6 : sweep25Default wtDesign = .ok wtDesign := by
    simp [sweep25Default, dgetE, dget, wtDesign, bind, Except.bind, pure, Except.pure]
  have k7 : taperDefault wtDesign = .ok (wtDesign, false) := by
    simp [taperDefault, dgetE, dget, wtDesign, bind, Except.bind, pure, Except.pure]
  have k8 : etaDefault stPerf = .ok (stPerf, 0) := by
    simp [etaDefault, etaLoop, dgetE, dget, dset, stPerf, bind, Except.bind, pure, Except.pure]
  have hat : AttrsFrom stBriefAvg stDesign stPerf shC := by
    obtain ⟨a0, a1, a2, a3, a4, a5, a6, a7, a8, a9, a10, a11, a12, a13, a14, a15, a16, a17, a18, a19, a20, a21, a22, a23, a24, a25, a26, a27, a28, a29, a30, a31, a32, a33, a34, a35, a36, a37, a38, a39, a40⟩ := st_attrs
    exact ⟨a0, a1, a2, a3, a4, a5, a6, a7, a8, a9, a10, a11, a12, a13, a14, a15, a16, a17, a18, a19, a20, a21, a22, a23, a24, a25, a26, a27, a28, a29, a30, a31, a32, a33, a34, a35, a36, a37, a38, a39, a40⟩
  unfold construct
  simp only [f1, f2, f3, k4, k5, k6, k7, k8, a1, a2, a3, bind_ok]
  rw [show (some exAtm).getD (.isa 0) = shC.designatm from rfl, show parsePropulsion (.obj .other) = shC.propulsion from rfl,
    readConcept_of hat 0]
  rfl

theorem wt_distinct : KeysDistinct (spaceOf wtBuilt) := by
  unfold KeysDistinct spaceOf wtBuilt stBriefAvg stBrief wtDesign stPerf dset
  decide

theorem wt_ranged (i : Fin 3) (k : String) (xs : List ℝ) (h : (k, Val.list xs) ∈ dictNo (spaceOf wtBuilt) i) :
    i = 1 ∧ k = "weight_n" ∧ xs = [9000, 11000] := by
  match i with
  | 0 => simp [dictNo, spaceOf, wtBuilt, stBriefAvg, stBrief, dset] at h
  | 1 => simpa [dictNo, spaceOf, wtBuilt, wtDesign] using h
  | 2 => simp [dictNo, spaceOf, wtBuilt, stPerf] at h

theorem wt_ready (v : ℝ) : Ready (varied (studied shC) 1 "weight_n" v) := by
  refine ⟨?_, ?_, ?_, ?_, ?_, ?_, trivial⟩
  · exact exAtm_env 0 (by norm_num) (by norm_num)
  · exact exAtm_env 0 (by norm_num) (by norm_num)
  · exact exAtm_env 0 (by norm_num) (by norm_num)
  · exact exAtm_env 1000 (by norm_num) (by norm_num)
  · intro alt h; cases h; exact exAtm_env 3000 (by norm_num) (by norm_num)
  · intro alt h; cases h; exact exAtm_env 6000 (by norm_num) (by norm_num)

theorem wt_study (X : Ext) (power : Bool) : ∃ R nom, study X wtBuilt (.array [500, 1000]) power = .ok (R, nom) := by
  have hne : recastArray (.array [500, 1000]) ≠ [] := by simp [recastArray]
  refine C85_succeeds wt_built X _ power (by simp [recastArray]) wt_distinct 10000 rfl ?_ ?_ ?_ ?_
  · intro i k xs h
    obtain ⟨-, -, rfl⟩ := wt_ranged i k xs h
    simp
  · simp [ranged, spaceOf, wtBuilt, stBriefAvg, stBrief, wtDesign, stPerf, dset]
  · exact st_req X power _ _ hne _ st_ready (by simp [Missing, wtBuilt, shC, stC, studied, exC])
  · intro i k xs h v _
    obtain ⟨rfl, rfl, -⟩ := wt_ranged i k xs h
    exact st_req X power _ _ hne _ (wt_ready v) (by simp [Missing, wtBuilt, shC, stC, studied, exC, varied])

/-- C84: 9 to 11 kN have no recorded effect on any constraint, for thrust and for power. -/
example (X : Ext) (power : Bool) : ∃ R nom, study X wtBuilt (.array [500, 1000]) power = .ok (R, nom) ∧
    ∀ q, dget (R.prime q) "weight_n" = none := by
  obtain ⟨R, nom, h⟩ := wt_study X power
  exact ⟨R, nom, h, fun q => C84_weight_violated wt_built X _ power (by simp [recastArray]) wt_distinct h [9000, 11000]
    (by simp [spaceOf, wtBuilt, wtDesign]) q⟩

/-- C54: with a propulsion system given, the nominal line is the requirement of the concept itself. -/
example (X : Ext) (power : Bool) : ∃ R nom W, study X wtBuilt (.array [500, 1000]) power = .ok (R, nom) ∧
    seaLevelReq X power (W / gAcc) [500, 1000] shC = .ok nom := by
  obtain ⟨R, nom, h⟩ := wt_study X power
  obtain ⟨W, -, hn⟩ := C54_nominal_given wt_built X _ power (by simp [wtBuilt, shC, studied, stC, handedOn]) h
  exact ⟨R, nom, W, h, hn⟩

/-- C32: a dictionary with the cruise fraction only. -/
example : ∃ r, construct [] [("weightfractions", .sub [("cruise", some 0.9)])] [] none .pyNone = .ok r ∧
    SubEntry r.design "weightfractions" "cruise" (some 0.9) ∧ SubEntry r.design "weightfractions" "turn" (some 1) := by
  obtain ⟨r, h⟩ := (C35_outcome [] [("weightfractions", .sub [("cruise", some 0.9)])] [] none .pyNone (by
    constructor
    · intro k hk s h
      simp [dget] at h
    · intro k hk hw s h
      have := dget_some_mem _ _ _ h
      simp at this
      exact hw this.1
    · intro k hk hw s h
      simp [dget] at h
    · simp [dget]
    · simp [dget, given]
    · intro _ xs; simp [dget])).1 (by
    refine ⟨fun k hk h => ?_, fun k hk h => ?_, fun k hk h => ?_⟩ <;>
    · have := dget_some_mem _ _ _ h
      simp at this)
  exact ⟨r, h, C32_weightfractions h _ rfl "cruise" (by simp), C32_weightfractions h _ rfl "turn" (by simp)⟩

/-! ### Decks inside the analysis (C118) -/

section

open Verif.Propulsion


/-- An engine with one tabulated speed. -/
example (G : Propulsion.Grid) : deckCorr G (.piston ⟨⟨[true], [false, false], false, false⟩, some [(some 2400, some 0, some 100000),
    (some 2400, some 3000, some 70000)], none, none⟩) [0.2] 3000 = .error .valueError :=
  C118_piston_single (x := 2400) rfl
    (by
      refine ⟨⟨2400, by simp⟩, by simp [known], by simp [known], fun v hv => ?_⟩
      simp [known] at hv
      subst hv; norm_num) G [0.2] 3000

/-- An engine whose power grows with its speed. -/
def growRows : List Row := [(some 2000, some 0, some 90000), (some 2700, some 0, some 104000)]

def growDeck : PistonDeck := ⟨⟨[true], [false, false], false, false⟩, some growRows, none, none⟩

/-- linear interpolation in its table, and in altitude -/
def growGrid : Propulsion.Grid := fun _ x y => some (90000 + 20 * (x - 2000) - 10 * y)

theorem grow_complete : Complete growRows := by
  intro r hr
  simp only [growRows, List.mem_cons, List.not_mem_nil, or_false] at hr
  rcases hr with rfl | rfl <;> exact ⟨_, rfl⟩

theorem grow_largest : Propulsion.Largest 104000 growRows := by
  refine ⟨⟨_, List.mem_cons_of_mem _ List.mem_cons_self, rfl⟩, fun r hr v hv => ?_⟩
  simp only [growRows, List.mem_cons, List.not_mem_nil, or_false] at hr
  rcases hr with rfl | rfl <;> cases hv <;> norm_num

theorem grow_spans : Spans (growRows.map (fun r => r.1)) 2000 2700 := by
  refine ⟨⟨2000, by simp [growRows]⟩, by simp [growRows, known], by simp [growRows, known], fun v hv => ?_⟩
  rw [show known (growRows.map (fun r => r.1)) = [2000, 2700] from rfl] at hv
  simp only [List.mem_cons, List.not_mem_nil, or_false] at hv
  rcases hv with rfl | rfl <;> norm_num

/-- C118: at 3000 m the correction is that of the greatest power considered; at sea level it is below one. -/
example : Reproduces growGrid growRows ∧
    (∃ t c, deckCorr growGrid (.piston growDeck) [0.2] 3000 = .ok (t, .array [some c]) ∧
      ∀ x, Considered 2000 2700 x → 90000 + 20 * (x - 2000) - 10 * 3000 ≤ c * 104000) ∧
    ∃ t c, deckCorr growGrid (.piston growDeck) [0.2] 0 = .ok (t, .array [some c]) ∧ c < 1 := by
  refine ⟨?_, ?_, ?_⟩
  · intro x y z h
    simp only [growRows, List.mem_cons, List.not_mem_nil, or_false, Prod.mk.injEq, Option.some.injEq] at h
    rcases h with ⟨rfl, rfl, rfl⟩ | ⟨rfl, rfl, rfl⟩ <;> (unfold growGrid; norm_num)
  · obtain ⟨t, c, h1, -, h3⟩ := C118_piston_rising (d := growDeck) rfl rfl grow_complete grow_largest (by norm_num) grow_spans (by norm_num)
      growGrid 3000 (fun x => 90000 + 20 * (x - 2000) - 10 * 3000) (fun x _ => rfl) (fun x y _ _ h => by linarith) [0.2]
    exact ⟨t, c, h1, h3⟩
  · exact C118_sealevel_violated (d := growDeck) rfl rfl grow_complete grow_largest (by norm_num) grow_spans (by norm_num)
      growGrid (fun x => 90000 + 20 * (x - 2000) - 10 * 0) (fun x _ => rfl) (fun x hx => by linarith [hx.1]) [0.2]

/-- C118: a jet deck at two Mach numbers, and a turboprop deck, each with one correction per Mach number. -/
example (alt : ℝ) : deckCorr lowGrid (.jet lowJet) [0.2, 0.4] alt =
      .ok (.array [relative lowGrid lowRows 20000 0.2 alt, relative lowGrid lowRows 20000 0.4 alt], .array [some 1, some 1]) ∧
    deckCorr lowGrid (.turboprop lowProp) [0.2, 0.4] alt =
      .ok (.array [some 1, some 1], .array [relative lowGrid lowRows 20000 0.2 alt, relative lowGrid lowRows 20000 0.4 alt]) := by
  obtain ⟨h1, h2, -⟩ := C118_others lowGrid lowRows 20000 low_complete low_largest [0.2, 0.4] alt
  exact ⟨h2 lowJet rfl rfl, h1 lowProp rfl rfl⟩

/-- C118: the growing engine is a piston engine of the requirement model, at one of its speeds. -/
example : ∃ s, Considered 2000 2700 s ∧ deckCorr growGrid (.piston growDeck) [0.2] 3000 =
    .ok (toNan (engineCorr (.piston s (fun x y => (90000 + 20 * (x - 2000) - 10 * y) / 104000)) [0.2] 3000).1,
      toNan (engineCorr (.piston s (fun x y => (90000 + 20 * (x - 2000) - 10 * y) / 104000)) [0.2] 3000).2) :=
  (C118_link growGrid growRows 104000 grow_complete grow_largest (fun x y => (90000 + 20 * (x - 2000) - 10 * y) / 104000) [0.2] 3000).2.2.2
    growDeck 2000 2700 rfl rfl grow_spans (by norm_num) (fun x _ => rfl)

end

/-! ### Others -/

/-- C109: an aspect ratio of ten. -/
example : ∃ x, Grid x ∧ slopepeak_mach 10 ^ 2 = 1 + 0.05 ^ ((2 : ℝ) / 3) * speedParam x := by
  obtain ⟨x, h1, -, h2, -⟩ := C109_peak_beyond (ar := 10) (by
    have : (0.15 : ℝ) < 0.05 ^ ((1 : ℝ) / 3) := by
      have h := Real.rpow_lt_rpow (z := (1 : ℝ) / 3) (x := 0.15 ^ 3) (y := 0.05) (by norm_num) (by norm_num) (by norm_num)
      have e : ((1 : ℝ) / 3) = ((3 : ℕ) : ℝ)⁻¹ := by norm_num
      rw [e, Real.pow_rpow_inv_natCast (by norm_num) (by norm_num), ← e] at h
      exact h
    linarith)
  exact ⟨x, h1, h2⟩

/-- C137: the example concept keeps its requirements while its brief is changed. -/
example (X : Ext) : ∃ M1 M2 o, newConcept shM (fun _ => 0) (some exAtm) (.obj .other) = .ok M1 ∧
    exec X M1 (.write 0 0 "groundrun_m" (.num 800)) = .ok M2 ∧ M2.objs[0]? = some o ∧
    ∀ w m s, twrequired X o.concept w m s = twrequired X shBuilt.concept w m s := by
  obtain ⟨M1, h1⟩ := sh_new
  obtain ⟨M2, h2⟩ : ∃ M2, exec X M1 (.write 0 0 "groundrun_m" (.num 800)) = .ok M2 := ⟨_, rfl⟩
  obtain ⟨r, o, hr, ho, -, h⟩ := C137_requirements (X := X) (ops := [.write 0 0 "groundrun_m" (.num 800)]) sh_lt h1
    (by simp [SparesAttrs]) (run_cons.mpr ⟨M2, h2, rfl⟩)
  have e : construct stBriefAvg stDesign stPerf (some exAtm) (.obj .other) = .ok r := hr
  rw [sh_built] at e
  injection e with e
  exact ⟨M1, M2, o, h1, h2, ho, by rw [e]; exact h⟩

/-- C145: a concept with a jet deck at 3000 m and 100 m/s is corrected by the deck. -/
example (f : ℝ → ℝ → ℝ) (X : Ext) : ∃ r E ms, construct exBrief exDesign exPerf none (PyVal.toArg (.deck (.jet f))) = .ok r ∧
    slcorr X r.concept (.scalar 100) 3000 = .ok ((Corr.deck (.jet f)).values X E 3000 ms) := by
  obtain ⟨r, h⟩ := ex_construct none (PyVal.toArg (.deck (.jet f)))
  have ha : r.concept.designatm = .isa 0 := by
    obtain ⟨fb, fd, fp, d1, d2, d3, d4, p1, n, -, -, -, -, -, -, -, -, -, -, -, -, h12⟩ := construct_ok h
    exact (readConcept_ok h12).2.2.1
  have he : EnvOK r.concept.designatm 3000 := by rw [ha]; exact isa_env _ _ (by norm_num) (by norm_num)
  obtain ⟨T, hT⟩ := he.tempc
  obtain ⟨P, hP⟩ := he.press
  obtain ⟨d, _, hd⟩ := he.dens
  obtain ⟨cs, hcs⟩ := he.vsound
  exact ⟨r, _, _, h, C145_deck (.deck _) (by simp) h X _ _ T P d _ ((C18_ratio _ _ cs hcs).1 100) hT hP hd⟩

end

end Verif.Props
