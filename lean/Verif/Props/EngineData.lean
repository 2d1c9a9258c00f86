import Verif.Props.EngineTables
import Verif.Props.DeckPlots2

/-
The engine tables that come with the code (C131).
-/

namespace Verif.Propulsion

open Verif Verif.Atmos Verif.Aircraft

noncomputable section

/-! ### Specification -/

/-- The interpolation has no value left or right of all rows, nor below or above them. (scipy's griddata has none outside the convex
hull of the points.) -/
def NanOutside (G : Grid) : Prop :=
  ∀ rows x y, (∀ r ∈ rows, ∀ u, r.1 = some u → x < u) ∨ (∀ r ∈ rows, ∀ u, r.1 = some u → u < x) ∨
    (∀ r ∈ rows, ∀ u, r.2.1 = some u → y < u) ∨ (∀ r ∈ rows, ∀ u, r.2.1 = some u → u < y) → G rows x y = none

/-! ### Lemmas -/

theorem Sound.outside {rows : List Row} {x0 x1 y0 y1 z0 z1 : ℝ} (h : Sound rows x0 x1 y0 y1 z0 z1) {G : Grid} (hG : NanOutside G) (x y : ℝ)
    (ho : x < x0 ∨ x1 < x ∨ y < y0 ∨ y1 < y) : G rows x y = none := by
  apply hG
  rcases ho with ho | ho | ho | ho
  · left
    intro r hr u hu
    obtain ⟨x', y', z', rfl, ⟨h1, h2⟩, ⟨h3, h4⟩, _⟩ := h.row r hr
    have : x' = u := Option.some.inj hu
    linarith
  · right; left
    intro r hr u hu
    obtain ⟨x', y', z', rfl, ⟨h1, h2⟩, ⟨h3, h4⟩, _⟩ := h.row r hr
    have : x' = u := Option.some.inj hu
    linarith
  · right; right; left
    intro r hr u hu
    obtain ⟨x', y', z', rfl, ⟨h1, h2⟩, ⟨h3, h4⟩, _⟩ := h.row r hr
    have : y' = u := Option.some.inj hu
    linarith
  · right; right; right
    intro r hr u hu
    obtain ⟨x', y', z', rfl, ⟨h1, h2⟩, ⟨h3, h4⟩, _⟩ := h.row r hr
    have : y' = u := Option.some.inj hu
    linarith

theorem jet_query {d : JetDeck} {rows : List Row} (ha : d.avail.out = [true]) (hd : d.thr_data = some rows) (G : Grid) (m y : ℝ) :
    d.thrust G (.scalar m) (.scalar y) = .ok (some [G rows m y]) := by
  unfold JetDeck.thrust guarded
  rw [ha, hd]
  rfl

theorem jet_ratio {d : JetDeck} {rows : List Row} {M : ℝ} (ha : d.avail.out = [true]) (hd : d.thr_data = some rows) (hc : Complete rows)
    (hM : Largest M rows) (G : Grid) (m y : ℝ) :
    d.sl_thrustcorr G (.scalar m) (.scalar y) = .ok [(G rows m y).map (fun z => z / M)] := by
  unfold JetDeck.sl_thrustcorr
  rw [jet_query ha hd, bind_ok, hd, overMax_some hc hM]
  simp only [List.map_cons, List.map_nil, ndiv_some]

theorem turboprop_power {d : TurbopropDeck} {rows : List Row} (ha : d.avail.out = [true, true]) (hd : d.pwr_data = some rows) (G : Grid)
    (m y : ℝ) : d.shaftpower G (.scalar m) (.scalar y) = .ok (some [G rows m y]) := by
  unfold TurbopropDeck.shaftpower guarded
  rw [ha, hd]
  rfl

theorem turboprop_ratio {d : TurbopropDeck} {rows : List Row} {M : ℝ} (ha : d.avail.out = [true, true]) (hd : d.pwr_data = some rows)
    (hc : Complete rows) (hM : Largest M rows) (G : Grid) (m y : ℝ) :
    d.sl_powercorr G (.scalar m) (.scalar y) = .ok [(G rows m y).map (fun z => z / M)] := by
  have := powercorr_turboprop (d := d) (by rw [ha]; rfl) hd hc hM G [m] y
  rw [show d.sl_powercorr G (.scalar m) (.scalar y) = d.sl_powercorr G (.array [m]) (.scalar y) from rfl, this]
  rfl

theorem piston_power {d : PistonDeck} {rows : List Row} (ha : d.avail.out = [true]) (hd : d.pwr_data = some rows) (G : Grid) (n y : ℝ) :
    d.shaftpower G (.scalar n) (.scalar y) = .ok (some [G rows n y]) := by
  unfold PistonDeck.shaftpower guarded
  rw [ha, hd]
  rfl

theorem spans_of_sound {rows : List Row} {x0 x1 y0 y1 z0 z1 a b c e : ℝ} (h : Sound rows x0 x1 y0 y1 z0 z1)
    (h0 : (some x0, some a, some b) ∈ rows) (h1 : (some x1, some c, some e) ∈ rows) : Spans (rows.map (fun r => r.1)) x0 x1 := by
  refine ⟨?_, ?_, ?_, ?_⟩
  · cases hr : rows with
    | nil => exact absurd hr h.nonempty
    | cons r rs =>
      obtain ⟨x, y, z, rfl, _⟩ := h.row r (by rw [hr]; simp)
      exact ⟨x, rfl⟩
  · unfold known
    rw [List.mem_filterMap]
    exact ⟨some x0, List.mem_map.mpr ⟨_, h0, rfl⟩, rfl⟩
  · unfold known
    rw [List.mem_filterMap]
    exact ⟨some x1, List.mem_map.mpr ⟨_, h1, rfl⟩, rfl⟩
  · intro v hv
    unfold known at hv
    rw [List.mem_filterMap] at hv
    obtain ⟨o, ho, rfl⟩ := hv
    rw [List.mem_map] at ho
    obtain ⟨r, hr, e⟩ := ho
    obtain ⟨x, y, z, rfl, hx, _⟩ := h.row r hr
    have : x = v := Option.some.inj e
    rw [← this]
    exact hx

/-! ### The data directories, and an interpolation -/

/-- The file of a name. -/
def fileOf {α : Type} (l : List (String × α)) (f : String) : Option α := (l.find? (fun e => e.1 = f)).map Prod.snd

theorem fileOf_mem {α : Type} {l : List (String × α)} (hd : (l.map Prod.fst).Nodup) {e : String × α} (he : e ∈ l) : fileOf l e.1 = some e.2 := by
  induction l with
  | nil => cases he
  | cons x l ih =>
    rw [List.map_cons, List.nodup_cons] at hd
    unfold fileOf
    rw [List.find?_cons]
    rcases List.mem_cons.mp he with rfl | he
    · simp
    · have : x.1 ≠ e.1 := fun q => hd.1 (q ▸ List.mem_map.mpr ⟨e, he, rfl⟩)
      simp only [this, decide_false]
      exact ih hd.2 he

/-- A directory with files of given contents. -/
def holding (files : List String) (tables : List (String × RawTable)) (polys : List (String × RawPoly)) : Dir :=
  ⟨files, fun f => ((fileOf tables f).map RawTable.frame).getD [], fun f => match fileOf polys f with
    | some p => .ok p.file
    | none => .error .keyError⟩

theorem holding_ships (files : List String) (tables : List (String × RawTable)) (polys : List (String × RawPoly))
    (h1 : (tables.map Prod.fst).Nodup) (h2 : (polys.map Prod.fst).Nodup) : Ships files tables polys (holding files tables polys) where
  listing _ := Iff.rfl
  csv e he := by
    show ((fileOf tables e.1).map RawTable.frame).getD [] = _
    rw [fileOf_mem h1 he]
    rfl
  poly e he := by
    show (match fileOf polys e.1 with
    | some p => Except.ok p.file
    | none => Except.error PyErr.keyError) = _
    rw [fileOf_mem h2 he]

theorem jet_ships : Ships jetFiles jetTables jetPolys (holding jetFiles jetTables jetPolys) :=
  holding_ships _ _ _ (by decide +kernel) (by decide +kernel)

theorem turboprop_ships : Ships turbopropFiles turbopropTables [] (holding turbopropFiles turbopropTables []) :=
  holding_ships _ _ _ (by decide +kernel) (by decide)

theorem electric_ships : Ships electricFiles electricTables [] (holding electricFiles electricTables []) :=
  holding_ships _ _ _ (by decide +kernel) (by decide)

theorem piston_ships : Ships pistonFiles pistonTables [] (holding pistonFiles pistonTables []) :=
  holding_ships _ _ _ (by decide +kernel) (by decide)

/-- The value tabulated at a point, NaN elsewhere. -/
def lookup : Grid := fun rows x y => (rows.find? (fun r => r.1 = some x ∧ r.2.1 = some y)).bind (fun r => r.2.2)

theorem lookup_outside : NanOutside lookup := by
  intro rows x y h
  unfold lookup
  have : rows.find? (fun r => r.1 = some x ∧ r.2.1 = some y) = none := by
    rw [List.find?_eq_none]
    intro r hr
    simp only [decide_eq_true_eq]
    rintro ⟨e1, e2⟩
    rcases h with h | h | h | h
    · exact lt_irrefl _ (h r hr x e1)
    · exact lt_irrefl _ (h r hr x e1)
    · exact lt_irrefl _ (h r hr y e2)
    · exact lt_irrefl _ (h r hr y e2)
  rw [this]
  rfl

theorem lookup_reproduces {rows : List Row} (h : (rows.map (fun r => (r.1, r.2.1))).Nodup) : Reproduces lookup rows := by
  intro x y z hm
  unfold lookup
  cases hf : rows.find? (fun r => r.1 = some x ∧ r.2.1 = some y) with
  | none =>
    rw [List.find?_eq_none] at hf
    exact absurd (by simp) (hf _ hm)
  | some r =>
    have h1 := List.mem_of_find?_eq_some hf
    have h2 := List.find?_some hf
    simp only [decide_eq_true_eq] at h2
    have : r = (some x, some y, some z) := List.inj_on_of_nodup_map h h1 hm (Prod.ext h2.1 h2.2)
    rw [this]
    rfl

theorem select_nodup (t : RawTable) (a b c : ℕ) (h : ((t.triples a b c).map (fun r => (r.1, r.2.1))).Nodup) :
    ((t.select a b c).map (fun r => (r.1, r.2.1))).Nodup := by
  unfold RawTable.select
  rw [List.map_map]
  have inj : Function.Injective (dec t.scale) := by
    intro u v e
    unfold dec at e
    match u, v with
    | none, none => rfl
    | none, some v => simp at e
    | some u, none => simp at e
    | some u, some v =>
      simp only [Option.map_some, Option.some.injEq] at e
      have p : (10 : ℝ) ^ t.scale ≠ 0 := by positivity
      rw [div_left_inj' p] at e
      rw [Int.cast_injective e]
  have e : ((fun r : Row => (r.1, r.2.1)) ∘ fun r : Option ℤ × Option ℤ × Option ℤ => (dec t.scale r.1, dec t.scale r.2.1, dec t.scale r.2.2)) =
      (fun q : Option ℤ × Option ℤ => (dec t.scale q.1, dec t.scale q.2)) ∘ (fun r => (r.1, r.2.1)) := rfl
  rw [e, ← List.map_map]
  refine h.map ?_
  rintro ⟨u1, u2⟩ ⟨v1, v2⟩ e
  simp only [Prod.mk.injEq] at e
  rw [inj e.1, inj e.2]

/-! ### All engines -/

/-- **C131** Every jet of the data directory builds, in whatever order the files are listed. Its thrust table has no blanks: Mach numbers
between -0.001 and 2, altitudes between 0 and 19812 m, thrusts between 1.4 kN and 148 kN. The rows that a fuel consumption query uses
have TSFC between 14 and 39 g/(kNs). -/
theorem C131_jets {dir : Dir} (h : Ships jetFiles jetTables jetPolys dir) (name : String)
    (hn : name ∈ ["ATF3-6A", "F404-400", "FJ-44", "JT8D-9", "JT9D-3", "TF30", "TFE731-2", "TFE731-5", "J52", "J60"]) :
    ∃ d rows, mkJet dir name = .ok d ∧ d.avail.out = [true] ∧ d.thr_data = some rows ∧ Sound rows (-0.001) 2 0 19812 1400 148000 ∧
      ∀ sfc, d.tsfc_data = some sfc → Sound (sfc.filter full) 0 2 1400 98000 14 39 := by
  simp only [List.mem_cons, List.not_mem_nil, or_false] at hn
  rcases hn with rfl | rfl | rfl | rfl | rfl | rfl | rfl | rfl | rfl | rfl
  · exact ⟨_, _, jet_ATF36A h, rfl, rfl, ATF3_6A_Thrust_data_sound.weaken (by norm_num) (by norm_num) (by norm_num) (by norm_num) (by norm_num) (by norm_num),
      by intro sfc hs; cases hs; exact (ATF3_6A_TSFC_data_sound.filter).weaken (by norm_num) (by norm_num) (by norm_num) (by norm_num) (by norm_num) (by norm_num)⟩
  · exact ⟨_, _, jet_F404400 h, rfl, rfl, F404_400_Thrust_data_sound.weaken (by norm_num) (by norm_num) (by norm_num) (by norm_num) (by norm_num) (by norm_num),
      by intro sfc hs; cases hs⟩
  · exact ⟨_, _, jet_FJ44 h, rfl, rfl, FJ_44_Thrust_data_sound.weaken (by norm_num) (by norm_num) (by norm_num) (by norm_num) (by norm_num) (by norm_num),
      by intro sfc hs; cases hs; exact (FJ_44_TSFC_data_sound.filter).weaken (by norm_num) (by norm_num) (by norm_num) (by norm_num) (by norm_num) (by norm_num)⟩
  · exact ⟨_, _, jet_JT8D9 h, rfl, rfl, JT8D_9_Thrust_data_sound.weaken (by norm_num) (by norm_num) (by norm_num) (by norm_num) (by norm_num) (by norm_num),
      by intro sfc hs; cases hs; exact (JT8D_9_TSFC_data_sound.filter).weaken (by norm_num) (by norm_num) (by norm_num) (by norm_num) (by norm_num) (by norm_num)⟩
  · exact ⟨_, _, jet_JT9D3 h, rfl, rfl, JT9D_3_Thrust_data_sound.weaken (by norm_num) (by norm_num) (by norm_num) (by norm_num) (by norm_num) (by norm_num),
      by intro sfc hs; cases hs; exact (JT9D_3_TSFC_data_sound.filter).weaken (by norm_num) (by norm_num) (by norm_num) (by norm_num) (by norm_num) (by norm_num)⟩
  · exact ⟨_, _, jet_TF30 h, rfl, rfl, TF30_Thrust_data_sound.weaken (by norm_num) (by norm_num) (by norm_num) (by norm_num) (by norm_num) (by norm_num),
      by intro sfc hs; cases hs; exact (TF30_TSFC_data_sound.filter).weaken (by norm_num) (by norm_num) (by norm_num) (by norm_num) (by norm_num) (by norm_num)⟩
  · exact ⟨_, _, jet_TFE7312 h, rfl, rfl, TFE731_2_Thrust_data_sound.weaken (by norm_num) (by norm_num) (by norm_num) (by norm_num) (by norm_num) (by norm_num),
      by intro sfc hs; cases hs⟩
  · exact ⟨_, _, jet_TFE7315 h, rfl, rfl, TFE731_5_Thrust_data_sound.weaken (by norm_num) (by norm_num) (by norm_num) (by norm_num) (by norm_num) (by norm_num),
      by intro sfc hs; cases hs; exact (TFE731_5_TSFC_data_sound.filter).weaken (by norm_num) (by norm_num) (by norm_num) (by norm_num) (by norm_num) (by norm_num)⟩
  · exact ⟨_, _, jet_J52 h, rfl, rfl, J52_Thrust_data_sound.weaken (by norm_num) (by norm_num) (by norm_num) (by norm_num) (by norm_num) (by norm_num),
      by intro sfc hs; cases hs; exact (J52_TSFC_data_sound).weaken (by norm_num) (by norm_num) (by norm_num) (by norm_num) (by norm_num) (by norm_num)⟩
  · exact ⟨_, _, jet_J60 h, rfl, rfl, J60_Thrust_data_sound.weaken (by norm_num) (by norm_num) (by norm_num) (by norm_num) (by norm_num) (by norm_num),
      by intro sfc hs; cases hs; exact (J60_TSFC_data_sound).weaken (by norm_num) (by norm_num) (by norm_num) (by norm_num) (by norm_num) (by norm_num)⟩

example : ∃ d rows, mkJet (holding jetFiles jetTables jetPolys) "J60" = .ok d ∧ d.thr_data = some rows ∧ Sound rows (-0.001) 2 0 19812 1400 148000 := by
  obtain ⟨d, rows, h1, _, h3, h4, _⟩ := C131_jets jet_ships "J60" (by simp)
  exact ⟨d, rows, h1, h3, h4⟩

/-- **C131** Both turboprops build; their core thrust, shaft power and fuel consumption tables have no blanks: powers between 650 kW and
3.7 MW, BSFC between 258 and 327 g/(kWh). -/
theorem C131_turboprops {dir : Dir} (h : Ships turbopropFiles turbopropTables [] dir) (name : String) (hn : name ∈ ["T56-A", "Tyne_RTy11"]) :
    ∃ d thr pwr sfc, mkTurboprop dir name = .ok d ∧ d.avail.out = [true, true] ∧ d.avail.eff = [true] ∧ d.thr_data = some thr ∧
      d.pwr_data = some pwr ∧ d.bsfc_data = some sfc ∧ Sound thr (-0.001) 1.11 0 15240 480 4300 ∧ Sound pwr 0 1.04 0 15240 650000 3700000 ∧
      Sound sfc 0 1.01 0 10668 258 327 := by
  simp only [List.mem_cons, List.not_mem_nil, or_false] at hn
  rcases hn with rfl | rfl
  · obtain ⟨d, h1, h2, h3, h4, h5, h6⟩ := turboprop_T56A h
    exact ⟨d, _, _, _, h1, h2, h3, h4, h5, h6, T56_A_Thrust_data_sound.weaken (by norm_num) (by norm_num) (by norm_num) (by norm_num) (by norm_num) (by norm_num),
      T56_A_Power_data_sound.weaken (by norm_num) (by norm_num) (by norm_num) (by norm_num) (by norm_num) (by norm_num), T56_A_BSFC_data_sound.weaken (by norm_num) (by norm_num) (by norm_num) (by norm_num) (by norm_num) (by norm_num)⟩
  · obtain ⟨d, h1, h2, h3, h4, h5, h6⟩ := turboprop_TyneRTy11 h
    exact ⟨d, _, _, _, h1, h2, h3, h4, h5, h6, Tyne_RTy11_Thrust_data_sound.weaken (by norm_num) (by norm_num) (by norm_num) (by norm_num) (by norm_num) (by norm_num),
      Tyne_RTy11_Power_data_sound.weaken (by norm_num) (by norm_num) (by norm_num) (by norm_num) (by norm_num) (by norm_num), Tyne_RTy11_BSFC_data_sound.weaken (by norm_num) (by norm_num) (by norm_num) (by norm_num) (by norm_num) (by norm_num)⟩

example : ∃ d sfc, mkTurboprop (holding turbopropFiles turbopropTables []) "T56-A" = .ok d ∧ d.bsfc_data = some sfc ∧ Sound sfc 0 1.01 0 10668 258 327 := by
  obtain ⟨d, _, _, sfc, h1, _, _, _, _, h6, _, _, h9⟩ := C131_turboprops turboprop_ships "T56-A" (by simp)
  exact ⟨d, sfc, h1, h6, h9⟩

/-- **C131** Both motors build; their efficiencies lie between 0.5 and 0.97, below one, at positive speeds and torques. -/
theorem C131_motors {dir : Dir} (h : Ships electricFiles electricTables [] dir) (name : String) (hn : name ∈ ["JMX57", "YASA_750R"]) :
    ∃ d eta, mkElectric dir name = .ok d ∧ d.avail.out = [true] ∧ d.eta_data = some eta ∧ Sound eta 120 3300 7 801 0.5 0.97 := by
  simp only [List.mem_cons, List.not_mem_nil, or_false] at hn
  rcases hn with rfl | rfl
  · obtain ⟨d, h1, h2, h3, _⟩ := electric_JMX57 h
    exact ⟨d, _, h1, h2, h3, JMX57_Efficiency_data_sound.weaken (by norm_num) (by norm_num) (by norm_num) (by norm_num) (by norm_num) (by norm_num)⟩
  · obtain ⟨d, h1, h2, h3, _⟩ := electric_YASA750R h
    exact ⟨d, _, h1, h2, h3, YASA_750R_Efficiency_data_sound.weaken (by norm_num) (by norm_num) (by norm_num) (by norm_num) (by norm_num) (by norm_num)⟩

example : ∃ d eta, mkElectric (holding electricFiles electricTables []) "YASA_750R" = .ok d ∧ d.eta_data = some eta ∧ Sound eta 120 3300 7 801 0.5 0.97 := by
  obtain ⟨d, eta, h1, _, h3, h4⟩ := C131_motors electric_ships "YASA_750R" (by simp)
  exact ⟨d, eta, h1, h3, h4⟩

/-- **C131** The Wasp Major builds, with the power table of the file named after power. The IO-540 builds with the right table or, the
files listed in another order, raises KeyError (C63): it never takes the wrong table without saying so. -/
theorem C131_pistons {dir : Dir} (h : Ships pistonFiles pistonTables [] dir) :
    (∃ d pwr sfc, mkPiston dir "Wasp_Major_B13" = .ok d ∧ d.avail.out = [true] ∧ d.avail.eff = [true, false] ∧ d.pwr_data = some pwr ∧
      d.bsfc_data = some sfc ∧ d.bsfc_pwr_data = none ∧ Sound pwr 1200 2700 1.02 10304 594000 2475000 ∧
      Sound sfc 1238 2551 595000 1976000 273 438) ∧
    ((∃ d pwr sfc best, mkPiston dir "IO-540" = .ok d ∧ d.avail.out = [true] ∧ d.avail.eff = [true, true] ∧ d.pwr_data = some pwr ∧
      d.bsfc_data = some sfc ∧ d.bsfc_pwr_data = some best ∧ Sound pwr 2000 2575 (-11) 6868 74000 186000 ∧
      Sound sfc 2000 2700 97000 167000 294 390 ∧ Sound best 2000 2700 97000 218000 339 463) ∨ mkPiston dir "IO-540" = .error .keyError) := by
  constructor
  · obtain ⟨d, h1, h2, h3, h4, h5, h6⟩ := piston_Wasp h
    exact ⟨d, _, _, h1, h2, h3, h4, h5, h6, Wasp_Major_B13_Power_data_sound.weaken (by norm_num) (by norm_num) (by norm_num) (by norm_num) (by norm_num) (by norm_num),
      Wasp_Major_B13_BSFC_data_sound.weaken (by norm_num) (by norm_num) (by norm_num) (by norm_num) (by norm_num) (by norm_num)⟩
  · rcases piston_IO540 h with ⟨d, h1, h2, h3, h4, h5, h6⟩ | e
    · exact .inl ⟨d, _, _, _, h1, h2, h3, h4, h5, h6, IO_540_Power_data_sound.weaken (by norm_num) (by norm_num) (by norm_num) (by norm_num) (by norm_num) (by norm_num),
        IO_540_BSFC_data_sound.weaken (by norm_num) (by norm_num) (by norm_num) (by norm_num) (by norm_num) (by norm_num), IO_540_BSFC_best_power_data_sound.weaken (by norm_num) (by norm_num) (by norm_num) (by norm_num) (by norm_num) (by norm_num)⟩
    · exact .inr e

example : ∃ d, mkPiston (holding pistonFiles pistonTables []) "Wasp_Major_B13" = .ok d ∧ d.bsfc_pwr_data = none := by
  obtain ⟨⟨d, _, _, h1, _, _, _, _, h6, _⟩, _⟩ := C131_pistons piston_ships
  exact ⟨d, h1, h6⟩

/-- With the files in the order of their names, the IO-540 builds. -/
theorem io540_holding : ∃ d, mkPiston (holding pistonFiles pistonTables []) "IO-540" = .ok d := by
  have h := piston_ships
  refine ⟨_, ((mkPiston_ships h.listing "IO-540" "IO-540_BSFC_data.csv" (some "IO-540_BSFC_best_power_data.csv") (filter_role piston_chars (qTable "IO-540" "bsfc") (some _) (by decide +kernel))
    (filter_role piston_chars (qTable "IO-540" "bsfc_best_power") (some _) (by decide +kernel)) (no_polys piston_chars _ (by decide +kernel) _)
    (ships_table h ("IO-540_BSFC_data.csv", IO_540_BSFC_data) (List.mem_of_getElem? (i := 1) rfl) _ _ _ 0 1 2 (by decide +kernel) (by decide +kernel) (by decide +kernel)) (ships_assign h ("IO-540_BSFC_best_power_data.csv", IO_540_BSFC_best_power_data) (List.mem_of_getElem? (i := 0) rfl) _ _ _ 0 1 2 (by decide +kernel) (by decide +kernel) (by decide +kernel)) "IO-540_Power_data.csv" (by decide +kernel)).1 (ships_table h ("IO-540_Power_data.csv", IO_540_Power_data) (List.mem_of_getElem? (i := 2) rfl) _ _ _ 2 0 1 (by decide +kernel) (by decide +kernel) (by decide +kernel))).choose_spec.1⟩

/-! ### Sea level static thrust -/

theorem static_ratio {d : JetDeck} {rows : List Row} {x0 x1 y0 y1 z0 z1 m y : ℝ} (ha : d.avail.out = [true]) (hd : d.thr_data = some rows)
    (hs : Sound rows x0 x1 y0 y1 z0 z1) (hm : (some m, some y, some z1) ∈ rows) (h0 : z1 ≠ 0) {G : Grid}
    (hG : ∀ rows, d.thr_data = some rows → Reproduces G rows) :
    d.sl_thrustcorr G (.scalar m) (.scalar y) = .ok [some 1] ∧
    ∀ x v t, d.thrust G (.scalar x) (.scalar v) = .ok (some [some t]) → d.sl_thrustcorr G (.scalar x) (.scalar v) = .ok [some (t / z1)] := by
  have hL := hs.largest hm
  constructor
  · rw [jet_ratio ha hd hs.complete hL, hG rows hd _ _ _ hm, Option.map_some, div_self h0]
  · intro x v t ht
    rw [jet_query ha hd] at ht
    have : G rows x v = some t := by simpa using ht
    rw [jet_ratio ha hd hs.complete hL, this]
    rfl

/-- **C131** Eight jets: the thrust a correction is relative to is the one tabulated at sea level next to Mach zero (within 0.011), so
the correction is one there, and everywhere the thrust over that thrust. -/
theorem C131_static {dir : Dir} (h : Ships jetFiles jetTables jetPolys dir) (name : String)
    (hn : name ∈ ["ATF3-6A", "FJ-44", "JT8D-9", "JT9D-3", "TF30", "TFE731-2", "J52", "J60"]) :
    ∃ d m T, mkJet dir name = .ok d ∧ |m| ≤ (0.011 : ℝ) ∧ 0 < T ∧ ∀ G, (∀ rows, d.thr_data = some rows → Reproduces G rows) →
      d.sl_thrustcorr G (.scalar m) (.scalar 0) = .ok [some 1] ∧
      ∀ x v t, d.thrust G (.scalar x) (.scalar v) = .ok (some [some t]) → d.sl_thrustcorr G (.scalar x) (.scalar v) = .ok [some (t / T)] := by
  simp only [List.mem_cons, List.not_mem_nil, or_false] at hn
  rcases hn with rfl | rfl | rfl | rfl | rfl | rfl | rfl | rfl
  · refine ⟨_, 0.00265161, 19931.47164, jet_ATF36A h, by rw [abs_le]; constructor <;> norm_num, by norm_num, fun G hG => ?_⟩
    have hm : (some 0.00265161, some 0, some 19931.47164) ∈ ATF3_6A_Thrust_data.select 1 0 2 :=
      (select_at 9 rfl 2651610 0 19931471640000 (by decide +kernel) (by norm_num) (by norm_num) (by norm_num))
    exact static_ratio (d := _) rfl rfl ATF3_6A_Thrust_data_sound hm (by norm_num) hG
  · refine ⟨_, 0.005901338, 8460.993858, jet_FJ44 h, by rw [abs_le]; constructor <;> norm_num, by norm_num, fun G hG => ?_⟩
    have hm : (some 0.005901338, some 0, some 8460.993858) ∈ FJ_44_Thrust_data.select 1 0 2 :=
      (select_at 9 rfl 5901338 0 8460993858000 (by decide +kernel) (by norm_num) (by norm_num) (by norm_num))
    exact static_ratio (d := _) rfl rfl FJ_44_Thrust_data_sound hm (by norm_num) hG
  · refine ⟨_, (-0.000262337), 51848.32163, jet_JT8D9 h, by rw [abs_le]; constructor <;> norm_num, by norm_num, fun G hG => ?_⟩
    have hm : (some (-0.000262337), some 0, some 51848.32163) ∈ JT8D_9_Thrust_data.select 1 0 2 :=
      (select_at 9 rfl (-262337) 0 51848321630000 (by decide +kernel) (by norm_num) (by norm_num) (by norm_num))
    exact static_ratio (d := _) rfl rfl JT8D_9_Thrust_data_sound hm (by norm_num) hG
  · refine ⟨_, (-0.000779147), 147005.2033, jet_JT9D3 h, by rw [abs_le]; constructor <;> norm_num, by norm_num, fun G hG => ?_⟩
    have hm : (some (-0.000779147), some 0, some 147005.2033) ∈ JT9D_3_Thrust_data.select 1 0 2 :=
      (select_at 9 rfl (-779147) 0 147005203300000 (by decide +kernel) (by norm_num) (by norm_num) (by norm_num))
    exact static_ratio (d := _) rfl rfl JT9D_3_Thrust_data_sound hm (by norm_num) hG
  · refine ⟨_, 0.010080432, 52688.79076, jet_TF30 h, by rw [abs_le]; constructor <;> norm_num, by norm_num, fun G hG => ?_⟩
    have hm : (some 0.010080432, some 0, some 52688.79076) ∈ TF30_Thrust_data.select 1 0 2 :=
      (select_at 9 rfl 10080432 0 52688790760000 (by decide +kernel) (by norm_num) (by norm_num) (by norm_num))
    exact static_ratio (d := _) rfl rfl TF30_Thrust_data_sound hm (by norm_num) hG
  · refine ⟨_, 0.000218776, 12993.92928, jet_TFE7312 h, by rw [abs_le]; constructor <;> norm_num, by norm_num, fun G hG => ?_⟩
    have hm : (some 0.000218776, some 0, some 12993.92928) ∈ TFE731_2_Thrust_data.select 1 0 2 :=
      (select_at 9 rfl 218776 0 12993929280000 (by decide +kernel) (by norm_num) (by norm_num) (by norm_num))
    exact static_ratio (d := _) rfl rfl TFE731_2_Thrust_data_sound hm (by norm_num) hG
  · refine ⟨_, (-0.0005426092334779769), 36674.15568, jet_J52 h, by rw [abs_le]; constructor <;> norm_num, by norm_num, fun G hG => ?_⟩
    have hm : (some (-0.0005426092334779769), some 0, some 36674.15568) ∈ J52_Thrust_data.select 3 0 2 :=
      (select_at 19 rfl (-5426092334779769) 0 366741556800000000000000 (by decide +kernel) (by norm_num) (by norm_num) (by norm_num))
    exact static_ratio (d := _) rfl rfl J52_Thrust_data_sound hm (by norm_num) hG
  · refine ⟨_, 0.006208217742119012, 11397.27695, jet_J60 h, by rw [abs_le]; constructor <;> norm_num, by norm_num, fun G hG => ?_⟩
    have hm : (some 0.006208217742119012, some 0, some 11397.27695) ∈ J60_Thrust_data.select 3 2 1 :=
      (select_at 19 rfl 62082177421190120 0 113972769500000000000000 (by decide +kernel) (by norm_num) (by norm_num) (by norm_num))
    exact static_ratio (d := _) rfl rfl J60_Thrust_data_sound hm (by norm_num) hG

example : ∃ d m, mkJet (holding jetFiles jetTables jetPolys) "JT8D-9" = .ok d ∧ |m| ≤ (0.011 : ℝ) ∧
    d.sl_thrustcorr lookup (.scalar m) (.scalar 0) = .ok [some 1] := by
  obtain ⟨d, m, T, h1, h2, _, h4⟩ := C131_static jet_ships "JT8D-9" (by simp)
  refine ⟨d, m, h1, h2, (h4 lookup fun rows hr => ?_).1⟩
  rw [jet_JT8D9 jet_ships] at h1
  cases h1
  cases hr
  exact lookup_reproduces (select_nodup _ _ _ _ (by decide +kernel))

/-- **C131 (violated)** The F404-400: the correction is documented as relative to the sea level static thrust, and is relative to the
thrust at Mach 1.26 and 3048 m. It is one there, 0.807 in the lowest row at sea level, and below 0.989 in all sea level rows. -/
theorem C131_f404_violated {dir : Dir} (h : Ships jetFiles jetTables jetPolys dir) :
    ∃ d rows, mkJet dir "F404-400" = .ok d ∧ d.thr_data = some rows ∧ ∀ G, Reproduces G rows →
      d.sl_thrustcorr G (.scalar 1.255384205) (.scalar 3048) = .ok [some 1] ∧
      (∃ c, d.sl_thrustcorr G (.scalar 0.034139646) (.scalar 0) = .ok [some c] ∧ c < 0.807) ∧
      ∀ m t, (some m, some 0, some t) ∈ rows → ∃ c, d.sl_thrustcorr G (.scalar m) (.scalar 0) = .ok [some c] ∧ c < 0.989 := by
  refine ⟨_, _, jet_F404400 h, rfl, fun G hG => ?_⟩
  have hm : (some 1.255384205, some 3048, some 75554.34133) ∈ F404_400_Thrust_data.select 1 0 2 :=
    (select_at 9 rfl 1255384205 3048000000000 75554341330000 (by decide +kernel) (by norm_num) (by norm_num) (by norm_num))
  have hm0 : (some 0.034139646, some 0, some 60914.17901) ∈ F404_400_Thrust_data.select 1 0 2 :=
    (select_at 9 rfl 34139646 0 60914179010000 (by decide +kernel) (by norm_num) (by norm_num) (by norm_num))
  have hL := F404_400_Thrust_data_sound.largest hm
  have hc := F404_400_Thrust_data_sound.complete
  refine ⟨?_, ⟨60914.17901 / 75554.34133, ?_, by norm_num⟩, fun m t ht => ⟨t / 75554.34133, ?_, ?_⟩⟩
  · rw [jet_ratio rfl rfl hc hL, hG _ _ _ hm, Option.map_some, div_self (by norm_num)]
  · rw [jet_ratio rfl rfl hc hL, hG _ _ _ hm0, Option.map_some]
  · rw [jet_ratio rfl rfl hc hL, hG _ _ _ ht, Option.map_some]
  · obtain ⟨x, y, z, hp, e⟩ := select_passes F404_400_Thrust_data 1 0 2
      (fun _ y z => y != 0 || decide (z ≤ 74664371630000)) (by decide +kernel) _ ht
    rw [show F404_400_Thrust_data.scale = 9 from rfl] at e
    simp only [Prod.mk.injEq, Option.some.injEq] at e
    obtain ⟨_, e2, e3⟩ := e
    have hy : y = 0 := by
      by_contra hne
      have : (y : ℝ) ≠ 0 := by exact_mod_cast hne
      apply this
      have p10 : (0 : ℝ) < 10 ^ 9 := by positivity
      have := (div_eq_iff p10.ne').mp e2.symm
      linarith
    subst hy
    simp only [bne_self_eq_false, Bool.false_or, decide_eq_true_eq] at hp
    have hz : (z : ℝ) ≤ 74664371630000 := by exact_mod_cast hp
    rw [e3, div_lt_iff₀ (by norm_num), div_lt_iff₀ (by norm_num)]
    refine lt_of_le_of_lt hz (by norm_num)

example : ∃ d, mkJet (holding jetFiles jetTables jetPolys) "F404-400" = .ok d ∧
    d.sl_thrustcorr lookup (.scalar 1.255384205) (.scalar 3048) = .ok [some 1] := by
  obtain ⟨d, rows, h1, h2, h3⟩ := C131_f404_violated jet_ships
  refine ⟨d, h1, (h3 lookup ?_).1⟩
  rw [jet_F404400 jet_ships] at h1
  cases h1
  cases h2
  exact lookup_reproduces (select_nodup _ _ _ _ (by decide +kernel))

/-- **C131 (violated)** The Tyne: "The maximum possible engine power is assumed to occur at SL", and it occurs at 1524 m. The correction
is one there and 0.887 at rest at sea level. -/
theorem C131_tyne_violated {dir : Dir} (h : Ships turbopropFiles turbopropTables [] dir) :
    ∃ d rows, mkTurboprop dir "Tyne_RTy11" = .ok d ∧ d.pwr_data = some rows ∧ ∀ G, Reproduces G rows →
      d.sl_powercorr G (.scalar 0.615375539) (.scalar 1524) = .ok [some 1] ∧
      ∃ c, d.sl_powercorr G (.scalar 0) (.scalar 0) = .ok [some c] ∧ c < 0.887 := by
  obtain ⟨d, h1, h2, _, _, h5, _⟩ := turboprop_TyneRTy11 h
  refine ⟨d, _, h1, h5, fun G hG => ?_⟩
  have hm : (some 0.615375539, some 1524, some 3434056.292) ∈ Tyne_RTy11_Power_data.select 3 0 2 :=
    (select_at 9 rfl 615375539 1524000000000 3434056292000000 (by decide +kernel) (by norm_num) (by norm_num) (by norm_num))
  have hm0 : (some 0, some 0, some 3042596.842) ∈ Tyne_RTy11_Power_data.select 3 0 2 :=
    (select_at 9 rfl 0 0 3042596842000000 (by decide +kernel) (by norm_num) (by norm_num) (by norm_num))
  have hL := Tyne_RTy11_Power_data_sound.largest hm
  have hc := Tyne_RTy11_Power_data_sound.complete
  refine ⟨?_, 3042596.842 / 3434056.292, ?_, by norm_num⟩
  · rw [turboprop_ratio h2 h5 hc hL, hG _ _ _ hm, Option.map_some, div_self (by norm_num)]
  · rw [turboprop_ratio h2 h5 hc hL, hG _ _ _ hm0, Option.map_some]

example : ∃ d c, mkTurboprop (holding turbopropFiles turbopropTables []) "Tyne_RTy11" = .ok d ∧
    d.sl_powercorr lookup (.scalar 0) (.scalar 0) = .ok [some c] ∧ c < 0.887 := by
  obtain ⟨d, rows, h1, h2, h3⟩ := C131_tyne_violated turboprop_ships
  obtain ⟨_, c, hc⟩ := h3 lookup (by
    obtain ⟨d', k1, _, _, _, k5, _⟩ := turboprop_TyneRTy11 turboprop_ships
    have : d = d' := by rw [h1] at k1; exact Except.ok.inj k1
    rw [this, k5] at h2
    cases h2
    exact lookup_reproduces (select_nodup _ _ _ _ (by decide +kernel)))
  exact ⟨d, c, h1, hc⟩

/-! ### Flight conditions without data -/

theorem no_value {d : JetDeck} {rows : List Row} {x0 x1 y0 y1 z0 z1 m y : ℝ} (ha : d.avail.out = [true]) (hd : d.thr_data = some rows)
    (hs : Sound rows x0 x1 y0 y1 z0 z1) (hm : (some m, some y, some z1) ∈ rows) {G : Grid} (hG : NanOutside G) (x v : ℝ)
    (ho : x < x0 ∨ x1 < x ∨ v < y0 ∨ y1 < v) :
    d.thrust G (.scalar x) (.scalar v) = .ok (some [none]) ∧ d.sl_thrustcorr G (.scalar x) (.scalar v) = .ok [none] ∧
    ∃ p, deckCorr G (.jet d) [x] v = .ok (.array [none], p) := by
  have e := hs.outside hG x v ho
  have hL := hs.largest hm
  refine ⟨?_, ?_, ?_⟩
  · rw [jet_query ha hd, e]
  · rw [jet_ratio ha hd hs.complete hL, e]
    rfl
  · have := (C118_others G rows z1 hs.complete hL [x] v).2.1 d (by rw [ha]; rfl) hd
    rw [this]
    unfold relative
    simp only [List.map_cons, List.map_nil, e, Option.map_none]
    exact ⟨_, rfl⟩

/-- **C131 (violated)** Six jets have no thrust at rest: their tables start above Mach zero, so the static thrust, its correction, and the
correction inside the constraint analysis are NaN at every altitude. -/
theorem C131_rest_violated {dir : Dir} (h : Ships jetFiles jetTables jetPolys dir) (name : String)
    (hn : name ∈ ["ATF3-6A", "F404-400", "FJ-44", "TF30", "TFE731-5", "J60"]) :
    ∃ d, mkJet dir name = .ok d ∧ ∀ G, NanOutside G → ∀ y, d.thrust G (.scalar 0) (.scalar y) = .ok (some [none]) ∧
      d.sl_thrustcorr G (.scalar 0) (.scalar y) = .ok [none] ∧ ∃ p, deckCorr G (.jet d) [0] y = .ok (.array [none], p) := by
  simp only [List.mem_cons, List.not_mem_nil, or_false] at hn
  rcases hn with rfl | rfl | rfl | rfl | rfl | rfl
  · refine ⟨_, jet_ATF36A h, fun G hG y => ?_⟩
    have hm : (some 0.00265161, some 0, some 19931.47164) ∈ ATF3_6A_Thrust_data.select 1 0 2 :=
      (select_at 9 rfl 2651610 0 19931471640000 (by decide +kernel) (by norm_num) (by norm_num) (by norm_num))
    exact no_value (d := _) rfl rfl ATF3_6A_Thrust_data_sound hm hG 0 y (.inl (by norm_num))
  · refine ⟨_, jet_F404400 h, fun G hG y => ?_⟩
    have hm : (some 1.255384205, some 3048, some 75554.34133) ∈ F404_400_Thrust_data.select 1 0 2 :=
      (select_at 9 rfl 1255384205 3048000000000 75554341330000 (by decide +kernel) (by norm_num) (by norm_num) (by norm_num))
    exact no_value (d := _) rfl rfl F404_400_Thrust_data_sound hm hG 0 y (.inl (by norm_num))
  · refine ⟨_, jet_FJ44 h, fun G hG y => ?_⟩
    have hm : (some 0.005901338, some 0, some 8460.993858) ∈ FJ_44_Thrust_data.select 1 0 2 :=
      (select_at 9 rfl 5901338 0 8460993858000 (by decide +kernel) (by norm_num) (by norm_num) (by norm_num))
    exact no_value (d := _) rfl rfl FJ_44_Thrust_data_sound hm hG 0 y (.inl (by norm_num))
  · refine ⟨_, jet_TF30 h, fun G hG y => ?_⟩
    have hm : (some 0.010080432, some 0, some 52688.79076) ∈ TF30_Thrust_data.select 1 0 2 :=
      (select_at 9 rfl 10080432 0 52688790760000 (by decide +kernel) (by norm_num) (by norm_num) (by norm_num))
    exact no_value (d := _) rfl rfl TF30_Thrust_data_sound hm hG 0 y (.inl (by norm_num))
  · refine ⟨_, jet_TFE7315 h, fun G hG y => ?_⟩
    have hm : (some 0.237197832, some 6096, some 9673.770209) ∈ TFE731_5_Thrust_data.select 1 0 2 :=
      (select_at 9 rfl 237197832 6096000000000 9673770209000 (by decide +kernel) (by norm_num) (by norm_num) (by norm_num))
    exact no_value (d := _) rfl rfl TFE731_5_Thrust_data_sound hm hG 0 y (.inl (by norm_num))
  · refine ⟨_, jet_J60 h, fun G hG y => ?_⟩
    have hm : (some 0.006208217742119012, some 0, some 11397.27695) ∈ J60_Thrust_data.select 3 2 1 :=
      (select_at 19 rfl 62082177421190120 0 113972769500000000000000 (by decide +kernel) (by norm_num) (by norm_num) (by norm_num))
    exact no_value (d := _) rfl rfl J60_Thrust_data_sound hm hG 0 y (.inl (by norm_num))

example : ∃ d, mkJet (holding jetFiles jetTables jetPolys) "TF30" = .ok d ∧ d.thrust lookup (.scalar 0) (.scalar 0) = .ok (some [none]) := by
  obtain ⟨d, h1, h2⟩ := C131_rest_violated jet_ships "TF30" (by simp)
  exact ⟨d, h1, (h2 lookup lookup_outside 0).1⟩

/-- **C131 (violated)** The TFE731-5 has no thrust below 6096 m at any Mach number, so no correction for take-off or climb; its "sea level"
thrust is that at Mach 0.237 and 6096 m. -/
theorem C131_tfe7315_violated {dir : Dir} (h : Ships jetFiles jetTables jetPolys dir) :
    ∃ d rows, mkJet dir "TFE731-5" = .ok d ∧ d.thr_data = some rows ∧
      (∀ G, NanOutside G → ∀ x y, y < 6096 → d.thrust G (.scalar x) (.scalar y) = .ok (some [none]) ∧
        d.sl_thrustcorr G (.scalar x) (.scalar y) = .ok [none] ∧ ∃ p, deckCorr G (.jet d) [x] y = .ok (.array [none], p)) ∧
      ∀ G, Reproduces G rows → d.sl_thrustcorr G (.scalar 0.237197832) (.scalar 6096) = .ok [some 1] := by
  have hm : (some 0.237197832, some 6096, some 9673.770209) ∈ TFE731_5_Thrust_data.select 1 0 2 :=
    (select_at 9 rfl 237197832 6096000000000 9673770209000 (by decide +kernel) (by norm_num) (by norm_num) (by norm_num))
  refine ⟨_, _, jet_TFE7315 h, rfl, fun G hG x y hy => ?_, fun G hG => ?_⟩
  · exact no_value (d := _) rfl rfl TFE731_5_Thrust_data_sound hm hG x y (.inr (.inr (.inl hy)))
  · exact (static_ratio (d := _) rfl rfl TFE731_5_Thrust_data_sound hm (by norm_num) (fun rows e => by cases e; exact hG)).1

example : ∃ d, mkJet (holding jetFiles jetTables jetPolys) "TFE731-5" = .ok d ∧ d.thrust lookup (.scalar 0.3) (.scalar 500) = .ok (some [none]) := by
  obtain ⟨d, _, h1, _, h2, _⟩ := C131_tfe7315_violated jet_ships
  exact ⟨d, h1, (h2 lookup lookup_outside 0.3 500 (by norm_num)).1⟩

/-- **C131 (violated)** The T56-A: no shaft power at rest at any altitude, and no fuel consumption below 3048 m (or above 9144 m), though
power goes from sea level to 15240 m. -/
theorem C131_t56_violated {dir : Dir} (h : Ships turbopropFiles turbopropTables [] dir) :
    ∃ d, mkTurboprop dir "T56-A" = .ok d ∧ ∀ G, NanOutside G →
      (∀ y, d.shaftpower G (.scalar 0) (.scalar y) = .ok (some [none])) ∧
      ∀ x y, y < 3048 ∨ 9144 < y → d.bsfc G (.scalar x) (.scalar y) = .ok (some [none]) := by
  obtain ⟨d, h1, h2, h3, _, h5, h6⟩ := turboprop_T56A h
  refine ⟨d, h1, fun G hG => ⟨fun y => ?_, fun x y hy => ?_⟩⟩
  · rw [turboprop_power h2 h5, T56_A_Power_data_sound.outside hG 0 y (.inl (by norm_num))]
  · have e := T56_A_BSFC_data_sound.filter.outside hG x y (.inr (.inr hy))
    unfold TurbopropDeck.bsfc guarded
    rw [h3, h6]
    show Except.ok (some [G _ x y]) = _
    exact congrArg (fun z => Except.ok (some [z])) e

example : ∃ d, mkTurboprop (holding turbopropFiles turbopropTables []) "T56-A" = .ok d ∧ d.bsfc lookup (.scalar 0.3) (.scalar 0) = .ok (some [none]) := by
  obtain ⟨d, h1, h2⟩ := C131_t56_violated turboprop_ships
  exact ⟨d, h1, (h2 lookup lookup_outside).2 0.3 0 (by norm_num)⟩

/-- **C131 (violated)** The Wasp Major has no power at altitude zero at any engine speed (its lowest row is at 1.02 m): `shaftpower` and the
correction of the constraint analysis are NaN there. -/
theorem C131_wasp_violated {dir : Dir} (h : Ships pistonFiles pistonTables [] dir) :
    ∃ d, mkPiston dir "Wasp_Major_B13" = .ok d ∧ ∀ G, NanOutside G →
      (∀ n, d.shaftpower G (.scalar n) (.scalar 0) = .ok (some [none])) ∧
      ∀ ms, ∃ t, deckCorr G (.piston d) ms 0 = .ok (t, .array [none]) := by
  obtain ⟨d, h1, h2, _, h4, _⟩ := piston_Wasp h
  refine ⟨d, h1, fun G hG => ?_⟩
  have e : ∀ x, G _ x 0 = none := fun x => Wasp_Major_B13_Power_data_sound.outside hG x 0 (.inr (.inr (.inl (by norm_num))))
  refine ⟨fun n => by rw [piston_power h2 h4, e], fun ms => ?_⟩
  have hm : (some 2700, some 12.43316147, some 2474623.543) ∈ Wasp_Major_B13_Power_data.select 0 1 2 :=
    (select_at 9 rfl 2700000000000 12433161470 2474623543000000 (by decide +kernel) (by norm_num) (by norm_num) (by norm_num))
  have hm1 : (some 1200, some 6.485369977, some 704170.1617) ∈ Wasp_Major_B13_Power_data.select 0 1 2 :=
    (select_at 9 rfl 1200000000000 6485369977 704170161700000 (by decide +kernel) (by norm_num) (by norm_num) (by norm_num))
  have hsp : Spans ((Wasp_Major_B13_Power_data.select 0 1 2).map (fun r => r.1)) 1200 2700 := spans_of_sound Wasp_Major_B13_Power_data_sound hm1 hm
  obtain ⟨s, _, _, hs⟩ := C118_piston (d := d) (by rw [h2]; rfl) h4 Wasp_Major_B13_Power_data_sound.complete
    (Wasp_Major_B13_Power_data_sound.largest hm) hsp (by norm_num)
  rw [hs]
  unfold relative
  rw [e]
  exact ⟨_, rfl⟩

example : ∃ d, mkPiston (holding pistonFiles pistonTables []) "Wasp_Major_B13" = .ok d ∧ d.shaftpower lookup (.scalar 2700) (.scalar 0) = .ok (some [none]) := by
  obtain ⟨d, h1, h2⟩ := C131_wasp_violated piston_ships
  exact ⟨d, h1, (h2 lookup lookup_outside).1 2700⟩

/-- **C131 (violated)** The IO-540 has a power table up to 2575 rpm and fuel consumption tables up to 2700 rpm: at more than 2575 rpm it has
fuel consumption per unit of power and no power. -/
theorem C131_io540_violated {dir : Dir} (h : Ships pistonFiles pistonTables [] dir) (d : PistonDeck) (hd : mkPiston dir "IO-540" = .ok d)
    (G : Grid) (hG : NanOutside G) : (∀ n y, 2575 < n → d.shaftpower G (.scalar n) (.scalar y) = .ok (some [none])) ∧
      ∃ sfc p b, d.bsfc_data = some sfc ∧ (some 2700, some p, some b) ∈ sfc := by
  rcases piston_IO540 h with ⟨d', h1, h2, _, h4, h5, _⟩ | e
  · have : d' = d := by rw [h1] at hd; exact Except.ok.inj hd
    subst this
    refine ⟨fun n y hn => ?_, _, _, _, h5, (select_at (x := 2700) (y := 98420.49665) (z := 389.7327106) 7 rfl 27000000000 984204966500 3897327106 (by decide +kernel) (by norm_num) (by norm_num) (by norm_num))⟩
    rw [piston_power h2 h4, IO_540_Power_data_sound.outside hG n y (.inr (.inl hn))]
  · rw [e] at hd
    cases hd

example : ∃ d, mkPiston (holding pistonFiles pistonTables []) "IO-540" = .ok d ∧ d.shaftpower lookup (.scalar 2700) (.scalar 0) = .ok (some [none]) := by
  obtain ⟨d, h1⟩ := io540_holding
  exact ⟨d, h1, (C131_io540_violated piston_ships d h1 lookup lookup_outside).1 2700 0 (by norm_num)⟩

/-- **C131 (violated)** The J52: the first Mach number of its fuel consumption table is blank, so the plot of consumption against Mach number
and thrust raises ValueError for it, while the query answers from the complete rows. -/
theorem C131_j52_violated {dir : Dir} (h : Ships jetFiles jetTables jetPolys dir) :
    ∃ d sfc, mkJet dir "J52" = .ok d ∧ d.tsfc_data = some sfc ∧ (∀ G, d.demoplot_tsfc "J52" G "t_n" = .error .valueError) ∧
      (∀ G u v, d.tsfc G (.scalar u) (.scalar v) = .ok (some [G (sfc.filter full) u v])) ∧ sfc.filter full ≠ [] := by
  refine ⟨_, _, jet_J52 h, rfl, fun G => ?_, fun G u v => rfl, J52_TSFC_data_sound.nonempty⟩
  have hd := draws_of (J52_TSFC_data.select 3 2 0) (fun G => G ((J52_TSFC_data.select 3 2 0).filter full)) "Mach Number" "Thrust (N)" "TSFC (g/(kNs))"
    ("J52" ++ " TSFC (g/(kNs)) for Mach number and Thrust (N)") (fun G a b => guarded true ((some (J52_TSFC_data.select 3 2 0)).map dropNan) G (.array a) (.array b))
    (fun G a b hab => guarded_rows _ G a b hab)
  have hflat : Flat ((J52_TSFC_data.select 3 2 0).map (fun r => r.1)) := by
    left
    have k : (J52_TSFC_data.triples 3 2 0)[0]?.map (fun r => r.1) = some none := by decide +kernel
    unfold RawTable.select
    rw [List.getElem?_map, List.getElem?_map]
    cases hk : (J52_TSFC_data.triples 3 2 0)[0]? with
    | none => rw [hk] at k; simp at k
    | some r =>
      rw [hk] at k
      have : r.1 = none := by simpa using k
      simp only [Option.map_some, this]
      rfl
  exact hd.2 (.inl hflat) G

example : ∃ d, mkJet (holding jetFiles jetTables jetPolys) "J52" = .ok d ∧ d.demoplot_tsfc "J52" lookup "t_n" = .error .valueError := by
  obtain ⟨d, _, h1, _, h2, _⟩ := C131_j52_violated jet_ships
  exact ⟨d, h1, h2 lookup⟩

end

end Verif.Propulsion
