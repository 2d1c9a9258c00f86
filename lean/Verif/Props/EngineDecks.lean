import Verif.Lemmas.EngineData
import Verif.Props.DeckCorr

/-
Decks built from the engine data that comes with the code (used for C131 and C132).
-/

namespace Verif.Propulsion

open Verif

noncomputable section

/-- The directory holds the given files, listed in any order, with these contents. -/
structure Ships (files : List String) (tables : List (String × RawTable)) (polys : List (String × RawPoly)) (dir : Dir) : Prop where
  listing : ∀ f, f ∈ dir.listing ↔ f ∈ files
  csv : ∀ e ∈ tables, dir.csv e.1 = e.2.frame
  poly : ∀ e ∈ polys, dir.poly e.1 = .ok e.2.file

theorem ships_polys {tables : List (String × RawTable)} {dir : Dir} (h : Ships jetFiles tables jetPolys dir) :
    ∀ f ∈ jetFiles, polyFile ["thrust"] f = true → ∃ p, dir.poly f = .ok p := by
  intro f hf hp
  have k : jetFiles.filter (polyFile ["thrust"]) = jetPolys.map Prod.fst := by decide +kernel
  have : f ∈ jetPolys.map Prod.fst := by rw [← k]; exact List.mem_filter.mpr ⟨hf, hp⟩
  rw [List.mem_map] at this
  obtain ⟨e, he, rfl⟩ := this
  exact ⟨_, h.poly e he⟩

theorem ships_table {files : List String} {tables : List (String × RawTable)} {polys : List (String × RawPoly)} {dir : Dir}
    (h : Ships files tables polys dir) (e : String × RawTable) (he : e ∈ tables) (x y z : String) (a b c : ℕ)
    (hx : e.2.names.idxOf? x = some a) (hy : e.2.names.idxOf? y = some b) (hz : e.2.names.idxOf? z = some c) :
    table (dir.csv e.1) x y z = .ok (e.2.select a b c) := by
  rw [h.csv e he]
  exact table_frame e.2 x y z a b c hx hy hz

theorem ships_assign {files : List String} {tables : List (String × RawTable)} {polys : List (String × RawPoly)} {dir : Dir}
    (h : Ships files tables polys dir) (e : String × RawTable) (he : e ∈ tables) (x y z : String) (a b c : ℕ)
    (hx : e.2.names.idxOf? x = some a) (hy : e.2.names.idxOf? y = some b) (hz : e.2.names.idxOf? z = some c) :
    assign (some e.1).isSome ((some e.1).map dir.csv) x y z = .ok (some (e.2.select a b c)) := by
  unfold assign
  simp only [Option.isSome_some, if_true, Option.map_some, ships_table h e he x y z a b c hx hy hz]
  rfl

theorem ships_poly {files : List String} {tables : List (String × RawTable)} {polys : List (String × RawPoly)} {dir : Dir}
    (h : Ships files tables polys dir) (e : String × RawPoly) (he : e ∈ polys) : polyOf dir e.1 = e.2.file := by
  unfold polyOf
  rw [h.poly e he]

theorem jet_ATF36A {dir : Dir} (h : Ships jetFiles jetTables jetPolys dir) : mkJet dir "ATF3-6A" =
    .ok ⟨⟨[true], [true], true, false⟩, some (ATF3_6A_Thrust_data.select 1 0 2), some (ATF3_6A_TSFC_data.select 1 3 2), some ATF3_6A_Sea_level_thrust_polynomial.file, none⟩ := by
  have e := mkJet_ships h.listing "ATF3-6A" (some "ATF3-6A_Thrust_data.csv") (some "ATF3-6A_TSFC_data.csv") (some "ATF3-6A_Sea_level_thrust_polynomial.csv") none
    (filter_role jet_chars (qTable "ATF3-6A" "thrust") _ (by decide +kernel)) (filter_role jet_chars (qTable "ATF3-6A" "tsfc") _ (by decide +kernel))
    (filter_role jet_chars (qSl "ATF3-6A") _ (by decide +kernel)) (filter_role jet_chars (qSlto "ATF3-6A") _ (by decide +kernel))
    (ships_polys h) (thr := some (ATF3_6A_Thrust_data.select 1 0 2)) (sfc := some (ATF3_6A_TSFC_data.select 1 3 2))
    (ships_assign h ("ATF3-6A_Thrust_data.csv", ATF3_6A_Thrust_data) (List.mem_of_getElem? (i := 1) rfl) _ _ _ 1 0 2 (by decide +kernel) (by decide +kernel) (by decide +kernel))
    (ships_assign h ("ATF3-6A_TSFC_data.csv", ATF3_6A_TSFC_data) (List.mem_of_getElem? (i := 0) rfl) _ _ _ 1 3 2 (by decide +kernel) (by decide +kernel) (by decide +kernel))
  rw [e]
  simp only [Option.map_some, Option.map_none, Option.isSome_some, Option.isSome_none,
    ships_poly h ("ATF3-6A_Sea_level_thrust_polynomial.csv", ATF3_6A_Sea_level_thrust_polynomial) (List.mem_of_getElem? (i := 0) rfl)]

theorem jet_F404400 {dir : Dir} (h : Ships jetFiles jetTables jetPolys dir) : mkJet dir "F404-400" =
    .ok ⟨⟨[true], [false], true, false⟩, some (F404_400_Thrust_data.select 1 0 2), none, some F404_400_Sea_level_thrust_polynomial.file, none⟩ := by
  have e := mkJet_ships h.listing "F404-400" (some "F404-400_Thrust_data.csv") none (some "F404-400_Sea_level_thrust_polynomial.csv") none
    (filter_role jet_chars (qTable "F404-400" "thrust") _ (by decide +kernel)) (filter_role jet_chars (qTable "F404-400" "tsfc") _ (by decide +kernel))
    (filter_role jet_chars (qSl "F404-400") _ (by decide +kernel)) (filter_role jet_chars (qSlto "F404-400") _ (by decide +kernel))
    (ships_polys h) (thr := some (F404_400_Thrust_data.select 1 0 2)) (sfc := none)
    (ships_assign h ("F404-400_Thrust_data.csv", F404_400_Thrust_data) (List.mem_of_getElem? (i := 2) rfl) _ _ _ 1 0 2 (by decide +kernel) (by decide +kernel) (by decide +kernel))
    rfl
  rw [e]
  simp only [Option.map_some, Option.map_none, Option.isSome_some, Option.isSome_none,
    ships_poly h ("F404-400_Sea_level_thrust_polynomial.csv", F404_400_Sea_level_thrust_polynomial) (List.mem_of_getElem? (i := 1) rfl)]

theorem jet_FJ44 {dir : Dir} (h : Ships jetFiles jetTables jetPolys dir) : mkJet dir "FJ-44" =
    .ok ⟨⟨[true], [true], true, false⟩, some (FJ_44_Thrust_data.select 1 0 2), some (FJ_44_TSFC_data.select 1 2 0), some FJ_44_Sea_level_thrust_polynomial.file, none⟩ := by
  have e := mkJet_ships h.listing "FJ-44" (some "FJ-44_Thrust_data.csv") (some "FJ-44_TSFC_data.csv") (some "FJ-44_Sea_level_thrust_polynomial.csv") none
    (filter_role jet_chars (qTable "FJ-44" "thrust") _ (by decide +kernel)) (filter_role jet_chars (qTable "FJ-44" "tsfc") _ (by decide +kernel))
    (filter_role jet_chars (qSl "FJ-44") _ (by decide +kernel)) (filter_role jet_chars (qSlto "FJ-44") _ (by decide +kernel))
    (ships_polys h) (thr := some (FJ_44_Thrust_data.select 1 0 2)) (sfc := some (FJ_44_TSFC_data.select 1 2 0))
    (ships_assign h ("FJ-44_Thrust_data.csv", FJ_44_Thrust_data) (List.mem_of_getElem? (i := 4) rfl) _ _ _ 1 0 2 (by decide +kernel) (by decide +kernel) (by decide +kernel))
    (ships_assign h ("FJ-44_TSFC_data.csv", FJ_44_TSFC_data) (List.mem_of_getElem? (i := 3) rfl) _ _ _ 1 2 0 (by decide +kernel) (by decide +kernel) (by decide +kernel))
  rw [e]
  simp only [Option.map_some, Option.map_none, Option.isSome_some, Option.isSome_none,
    ships_poly h ("FJ-44_Sea_level_thrust_polynomial.csv", FJ_44_Sea_level_thrust_polynomial) (List.mem_of_getElem? (i := 2) rfl)]

theorem jet_JT8D9 {dir : Dir} (h : Ships jetFiles jetTables jetPolys dir) : mkJet dir "JT8D-9" =
    .ok ⟨⟨[true], [true], true, true⟩, some (JT8D_9_Thrust_data.select 1 0 2), some (JT8D_9_TSFC_data.select 1 2 0), some JT8D_9_Sea_level_thrust_polynomial.file, some JT8D_9_Sea_level_take_off_thrust_polynomial.file⟩ := by
  have e := mkJet_ships h.listing "JT8D-9" (some "JT8D-9_Thrust_data.csv") (some "JT8D-9_TSFC_data.csv") (some "JT8D-9_Sea_level_thrust_polynomial.csv") (some "JT8D-9_Sea_level_take_off_thrust_polynomial.csv")
    (filter_role jet_chars (qTable "JT8D-9" "thrust") _ (by decide +kernel)) (filter_role jet_chars (qTable "JT8D-9" "tsfc") _ (by decide +kernel))
    (filter_role jet_chars (qSl "JT8D-9") _ (by decide +kernel)) (filter_role jet_chars (qSlto "JT8D-9") _ (by decide +kernel))
    (ships_polys h) (thr := some (JT8D_9_Thrust_data.select 1 0 2)) (sfc := some (JT8D_9_TSFC_data.select 1 2 0))
    (ships_assign h ("JT8D-9_Thrust_data.csv", JT8D_9_Thrust_data) (List.mem_of_getElem? (i := 11) rfl) _ _ _ 1 0 2 (by decide +kernel) (by decide +kernel) (by decide +kernel))
    (ships_assign h ("JT8D-9_TSFC_data.csv", JT8D_9_TSFC_data) (List.mem_of_getElem? (i := 9) rfl) _ _ _ 1 2 0 (by decide +kernel) (by decide +kernel) (by decide +kernel))
  rw [e]
  simp only [Option.map_some, Option.map_none, Option.isSome_some, Option.isSome_none,
    ships_poly h ("JT8D-9_Sea_level_thrust_polynomial.csv", JT8D_9_Sea_level_thrust_polynomial) (List.mem_of_getElem? (i := 6) rfl),
    ships_poly h ("JT8D-9_Sea_level_take_off_thrust_polynomial.csv", JT8D_9_Sea_level_take_off_thrust_polynomial) (List.mem_of_getElem? (i := 5) rfl)]

theorem jet_JT9D3 {dir : Dir} (h : Ships jetFiles jetTables jetPolys dir) : mkJet dir "JT9D-3" =
    .ok ⟨⟨[true], [true], true, true⟩, some (JT9D_3_Thrust_data.select 1 0 2), some (JT9D_3_TSFC_data.select 1 2 0), some JT9D_3_Sea_level_thrust_polynomial.file, some JT9D_3_Sea_level_take_off_thrust_polynomial.file⟩ := by
  have e := mkJet_ships h.listing "JT9D-3" (some "JT9D-3_Thrust_data.csv") (some "JT9D-3_TSFC_data.csv") (some "JT9D-3_Sea_level_thrust_polynomial.csv") (some "JT9D-3_Sea_level_take_off_thrust_polynomial.csv")
    (filter_role jet_chars (qTable "JT9D-3" "thrust") _ (by decide +kernel)) (filter_role jet_chars (qTable "JT9D-3" "tsfc") _ (by decide +kernel))
    (filter_role jet_chars (qSl "JT9D-3") _ (by decide +kernel)) (filter_role jet_chars (qSlto "JT9D-3") _ (by decide +kernel))
    (ships_polys h) (thr := some (JT9D_3_Thrust_data.select 1 0 2)) (sfc := some (JT9D_3_TSFC_data.select 1 2 0))
    (ships_assign h ("JT9D-3_Thrust_data.csv", JT9D_3_Thrust_data) (List.mem_of_getElem? (i := 14) rfl) _ _ _ 1 0 2 (by decide +kernel) (by decide +kernel) (by decide +kernel))
    (ships_assign h ("JT9D-3_TSFC_data.csv", JT9D_3_TSFC_data) (List.mem_of_getElem? (i := 12) rfl) _ _ _ 1 2 0 (by decide +kernel) (by decide +kernel) (by decide +kernel))
  rw [e]
  simp only [Option.map_some, Option.map_none, Option.isSome_some, Option.isSome_none,
    ships_poly h ("JT9D-3_Sea_level_thrust_polynomial.csv", JT9D_3_Sea_level_thrust_polynomial) (List.mem_of_getElem? (i := 8) rfl),
    ships_poly h ("JT9D-3_Sea_level_take_off_thrust_polynomial.csv", JT9D_3_Sea_level_take_off_thrust_polynomial) (List.mem_of_getElem? (i := 7) rfl)]

theorem jet_TF30 {dir : Dir} (h : Ships jetFiles jetTables jetPolys dir) : mkJet dir "TF30" =
    .ok ⟨⟨[true], [true], true, false⟩, some (TF30_Thrust_data.select 1 0 2), some (TF30_TSFC_data.select 1 2 0), some TF30_Sea_level_thrust_polynomial.file, none⟩ := by
  have e := mkJet_ships h.listing "TF30" (some "TF30_Thrust_data.csv") (some "TF30_TSFC_data.csv") (some "TF30_Sea_level_thrust_polynomial.csv") none
    (filter_role jet_chars (qTable "TF30" "thrust") _ (by decide +kernel)) (filter_role jet_chars (qTable "TF30" "tsfc") _ (by decide +kernel))
    (filter_role jet_chars (qSl "TF30") _ (by decide +kernel)) (filter_role jet_chars (qSlto "TF30") _ (by decide +kernel))
    (ships_polys h) (thr := some (TF30_Thrust_data.select 1 0 2)) (sfc := some (TF30_TSFC_data.select 1 2 0))
    (ships_assign h ("TF30_Thrust_data.csv", TF30_Thrust_data) (List.mem_of_getElem? (i := 16) rfl) _ _ _ 1 0 2 (by decide +kernel) (by decide +kernel) (by decide +kernel))
    (ships_assign h ("TF30_TSFC_data.csv", TF30_TSFC_data) (List.mem_of_getElem? (i := 15) rfl) _ _ _ 1 2 0 (by decide +kernel) (by decide +kernel) (by decide +kernel))
  rw [e]
  simp only [Option.map_some, Option.map_none, Option.isSome_some, Option.isSome_none,
    ships_poly h ("TF30_Sea_level_thrust_polynomial.csv", TF30_Sea_level_thrust_polynomial) (List.mem_of_getElem? (i := 9) rfl)]

theorem jet_TFE7312 {dir : Dir} (h : Ships jetFiles jetTables jetPolys dir) : mkJet dir "TFE731-2" =
    .ok ⟨⟨[true], [false], true, false⟩, some (TFE731_2_Thrust_data.select 1 0 2), none, some TFE731_2_Sea_level_thrust_polynomial.file, none⟩ := by
  have e := mkJet_ships h.listing "TFE731-2" (some "TFE731-2_Thrust_data.csv") none (some "TFE731-2_Sea_level_thrust_polynomial.csv") none
    (filter_role jet_chars (qTable "TFE731-2" "thrust") _ (by decide +kernel)) (filter_role jet_chars (qTable "TFE731-2" "tsfc") _ (by decide +kernel))
    (filter_role jet_chars (qSl "TFE731-2") _ (by decide +kernel)) (filter_role jet_chars (qSlto "TFE731-2") _ (by decide +kernel))
    (ships_polys h) (thr := some (TFE731_2_Thrust_data.select 1 0 2)) (sfc := none)
    (ships_assign h ("TFE731-2_Thrust_data.csv", TFE731_2_Thrust_data) (List.mem_of_getElem? (i := 17) rfl) _ _ _ 1 0 2 (by decide +kernel) (by decide +kernel) (by decide +kernel))
    rfl
  rw [e]
  simp only [Option.map_some, Option.map_none, Option.isSome_some, Option.isSome_none,
    ships_poly h ("TFE731-2_Sea_level_thrust_polynomial.csv", TFE731_2_Sea_level_thrust_polynomial) (List.mem_of_getElem? (i := 10) rfl)]

theorem jet_TFE7315 {dir : Dir} (h : Ships jetFiles jetTables jetPolys dir) : mkJet dir "TFE731-5" =
    .ok ⟨⟨[true], [true], false, true⟩, some (TFE731_5_Thrust_data.select 1 0 2), some (TFE731_5_TSFC_data.select 1 2 3), none, some TFE731_5_Sea_level_take_off_thrust_polynomial.file⟩ := by
  have e := mkJet_ships h.listing "TFE731-5" (some "TFE731-5_Thrust_data.csv") (some "TFE731-5_TSFC_data.csv") none (some "TFE731-5_Sea_level_take_off_thrust_polynomial.csv")
    (filter_role jet_chars (qTable "TFE731-5" "thrust") _ (by decide +kernel)) (filter_role jet_chars (qTable "TFE731-5" "tsfc") _ (by decide +kernel))
    (filter_role jet_chars (qSl "TFE731-5") _ (by decide +kernel)) (filter_role jet_chars (qSlto "TFE731-5") _ (by decide +kernel))
    (ships_polys h) (thr := some (TFE731_5_Thrust_data.select 1 0 2)) (sfc := some (TFE731_5_TSFC_data.select 1 2 3))
    (ships_assign h ("TFE731-5_Thrust_data.csv", TFE731_5_Thrust_data) (List.mem_of_getElem? (i := 20) rfl) _ _ _ 1 0 2 (by decide +kernel) (by decide +kernel) (by decide +kernel))
    (ships_assign h ("TFE731-5_TSFC_data.csv", TFE731_5_TSFC_data) (List.mem_of_getElem? (i := 18) rfl) _ _ _ 1 2 3 (by decide +kernel) (by decide +kernel) (by decide +kernel))
  rw [e]
  simp only [Option.map_some, Option.map_none, Option.isSome_some, Option.isSome_none,
    ships_poly h ("TFE731-5_Sea_level_take_off_thrust_polynomial.csv", TFE731_5_Sea_level_take_off_thrust_polynomial) (List.mem_of_getElem? (i := 11) rfl)]

theorem jet_J52 {dir : Dir} (h : Ships jetFiles jetTables jetPolys dir) : mkJet dir "J52" =
    .ok ⟨⟨[true], [true], true, false⟩, some (J52_Thrust_data.select 3 0 2), some (J52_TSFC_data.select 3 2 0), some J52_Sea_level_thrust_polynomial.file, none⟩ := by
  have e := mkJet_ships h.listing "J52" (some "J52_Thrust_data.csv") (some "J52_TSFC_data.csv") (some "J52_Sea_level_thrust_polynomial.csv") none
    (filter_role jet_chars (qTable "J52" "thrust") _ (by decide +kernel)) (filter_role jet_chars (qTable "J52" "tsfc") _ (by decide +kernel))
    (filter_role jet_chars (qSl "J52") _ (by decide +kernel)) (filter_role jet_chars (qSlto "J52") _ (by decide +kernel))
    (ships_polys h) (thr := some (J52_Thrust_data.select 3 0 2)) (sfc := some (J52_TSFC_data.select 3 2 0))
    (ships_assign h ("J52_Thrust_data.csv", J52_Thrust_data) (List.mem_of_getElem? (i := 6) rfl) _ _ _ 3 0 2 (by decide +kernel) (by decide +kernel) (by decide +kernel))
    (ships_assign h ("J52_TSFC_data.csv", J52_TSFC_data) (List.mem_of_getElem? (i := 5) rfl) _ _ _ 3 2 0 (by decide +kernel) (by decide +kernel) (by decide +kernel))
  rw [e]
  simp only [Option.map_some, Option.map_none, Option.isSome_some, Option.isSome_none,
    ships_poly h ("J52_Sea_level_thrust_polynomial.csv", J52_Sea_level_thrust_polynomial) (List.mem_of_getElem? (i := 3) rfl)]

theorem jet_J60 {dir : Dir} (h : Ships jetFiles jetTables jetPolys dir) : mkJet dir "J60" =
    .ok ⟨⟨[true], [true], true, false⟩, some (J60_Thrust_data.select 3 2 1), some (J60_TSFC_data.select 3 2 0), some J60_Sea_level_thrust_polynomial.file, none⟩ := by
  have e := mkJet_ships h.listing "J60" (some "J60_Thrust_data.csv") (some "J60_TSFC_data.csv") (some "J60_Sea_level_thrust_polynomial.csv") none
    (filter_role jet_chars (qTable "J60" "thrust") _ (by decide +kernel)) (filter_role jet_chars (qTable "J60" "tsfc") _ (by decide +kernel))
    (filter_role jet_chars (qSl "J60") _ (by decide +kernel)) (filter_role jet_chars (qSlto "J60") _ (by decide +kernel))
    (ships_polys h) (thr := some (J60_Thrust_data.select 3 2 1)) (sfc := some (J60_TSFC_data.select 3 2 0))
    (ships_assign h ("J60_Thrust_data.csv", J60_Thrust_data) (List.mem_of_getElem? (i := 8) rfl) _ _ _ 3 2 1 (by decide +kernel) (by decide +kernel) (by decide +kernel))
    (ships_assign h ("J60_TSFC_data.csv", J60_TSFC_data) (List.mem_of_getElem? (i := 7) rfl) _ _ _ 3 2 0 (by decide +kernel) (by decide +kernel) (by decide +kernel))
  rw [e]
  simp only [Option.map_some, Option.map_none, Option.isSome_some, Option.isSome_none,
    ships_poly h ("J60_Sea_level_thrust_polynomial.csv", J60_Sea_level_thrust_polynomial) (List.mem_of_getElem? (i := 4) rfl)]

theorem no_polys {files : List String} {chars : List (List Char × List Char)}
    (hc : files.map (fun f => (f.toList, f.toList.map Char.toLower)) = chars) (outs : List String)
    (h : chars.filter (fun f => outs.any (fun o => pyIn ("sea_level_".toList ++ o.toList ++ "_polynomial.csv".toList) f.2) ||
      outs.any (fun o => pyIn ("sea_level_take_off_".toList ++ o.toList ++ "_polynomial.csv".toList) f.2)) = []) (name : String) :
    ∀ f ∈ files, pyIn name.toList f.toList = true → polyFile outs f = false := by
  intro f hf _
  have e := filter_role hc (fun _ b => outs.any (fun o => pyIn ("sea_level_".toList ++ o.toList ++ "_polynomial.csv".toList) b) ||
      outs.any (fun o => pyIn ("sea_level_take_off_".toList ++ o.toList ++ "_polynomial.csv".toList) b)) none h
  rw [Option.toList_none, List.filter_eq_nil_iff] at e
  have := e f hf
  rw [Bool.not_eq_true] at this
  exact this

theorem turboprop_T56A {dir : Dir} (h : Ships turbopropFiles turbopropTables [] dir) :
    ∃ d, mkTurboprop dir "T56-A" = .ok d ∧ d.avail.out = [true, true] ∧ d.avail.eff = [true] ∧
      d.thr_data = some (T56_A_Thrust_data.select 3 0 2) ∧ d.pwr_data = some (T56_A_Power_data.select 3 0 2) ∧
      d.bsfc_data = some (T56_A_BSFC_data.select 3 0 2) :=
  mkTurboprop_ships h.listing "T56-A" "T56-A_Thrust_data.csv" "T56-A_Power_data.csv" "T56-A_BSFC_data.csv"
    (filter_role turboprop_chars (qTable "T56-A" "thrust") (some _) (by decide +kernel)) (filter_role turboprop_chars (qTable "T56-A" "power") (some _) (by decide +kernel))
    (filter_role turboprop_chars (qTable "T56-A" "bsfc") (some _) (by decide +kernel)) (no_polys turboprop_chars _ (by decide +kernel) _)
    (ships_table h ("T56-A_Thrust_data.csv", T56_A_Thrust_data) (List.mem_of_getElem? (i := 2) rfl) _ _ _ 3 0 2 (by decide +kernel) (by decide +kernel) (by decide +kernel))
    (ships_table h ("T56-A_Power_data.csv", T56_A_Power_data) (List.mem_of_getElem? (i := 1) rfl) _ _ _ 3 0 2 (by decide +kernel) (by decide +kernel) (by decide +kernel))
    (ships_table h ("T56-A_BSFC_data.csv", T56_A_BSFC_data) (List.mem_of_getElem? (i := 0) rfl) _ _ _ 3 0 2 (by decide +kernel) (by decide +kernel) (by decide +kernel))

theorem turboprop_TyneRTy11 {dir : Dir} (h : Ships turbopropFiles turbopropTables [] dir) :
    ∃ d, mkTurboprop dir "Tyne_RTy11" = .ok d ∧ d.avail.out = [true, true] ∧ d.avail.eff = [true] ∧
      d.thr_data = some (Tyne_RTy11_Thrust_data.select 3 0 2) ∧ d.pwr_data = some (Tyne_RTy11_Power_data.select 3 0 2) ∧
      d.bsfc_data = some (Tyne_RTy11_BSFC_data.select 3 0 2) :=
  mkTurboprop_ships h.listing "Tyne_RTy11" "Tyne_RTy11_Thrust_data.csv" "Tyne_RTy11_Power_data.csv" "Tyne_RTy11_BSFC_data.csv"
    (filter_role turboprop_chars (qTable "Tyne_RTy11" "thrust") (some _) (by decide +kernel)) (filter_role turboprop_chars (qTable "Tyne_RTy11" "power") (some _) (by decide +kernel))
    (filter_role turboprop_chars (qTable "Tyne_RTy11" "bsfc") (some _) (by decide +kernel)) (no_polys turboprop_chars _ (by decide +kernel) _)
    (ships_table h ("Tyne_RTy11_Thrust_data.csv", Tyne_RTy11_Thrust_data) (List.mem_of_getElem? (i := 6) rfl) _ _ _ 3 0 2 (by decide +kernel) (by decide +kernel) (by decide +kernel))
    (ships_table h ("Tyne_RTy11_Power_data.csv", Tyne_RTy11_Power_data) (List.mem_of_getElem? (i := 5) rfl) _ _ _ 3 0 2 (by decide +kernel) (by decide +kernel) (by decide +kernel))
    (ships_table h ("Tyne_RTy11_BSFC_data.csv", Tyne_RTy11_BSFC_data) (List.mem_of_getElem? (i := 4) rfl) _ _ _ 3 0 2 (by decide +kernel) (by decide +kernel) (by decide +kernel))

theorem electric_JMX57 {dir : Dir} (h : Ships electricFiles electricTables [] dir) :
    ∃ d, mkElectric dir "JMX57" = .ok d ∧ d.avail.out = [true] ∧ d.eta_data = some (JMX57_Efficiency_data.select 1 2 0) ∧
      d.sft_pwr = (JMX57_Efficiency_data.select 1 2 0).map mapPower :=
  mkElectric_ships h.listing "JMX57" "JMX57_Efficiency_data.csv" (filter_role electric_chars (qTable "JMX57" "efficiency") (some _) (by decide +kernel))
    (no_polys electric_chars _ (by decide +kernel) _)
    (ships_table h ("JMX57_Efficiency_data.csv", JMX57_Efficiency_data) (List.mem_of_getElem? (i := 0) rfl) _ _ _ 1 2 0 (by decide +kernel) (by decide +kernel) (by decide +kernel))

theorem electric_YASA750R {dir : Dir} (h : Ships electricFiles electricTables [] dir) :
    ∃ d, mkElectric dir "YASA_750R" = .ok d ∧ d.avail.out = [true] ∧ d.eta_data = some (YASA_750R_Efficiency_data.select 1 2 0) ∧
      d.sft_pwr = (YASA_750R_Efficiency_data.select 1 2 0).map mapPower :=
  mkElectric_ships h.listing "YASA_750R" "YASA_750R_Efficiency_data.csv" (filter_role electric_chars (qTable "YASA_750R" "efficiency") (some _) (by decide +kernel))
    (no_polys electric_chars _ (by decide +kernel) _)
    (ships_table h ("YASA_750R_Efficiency_data.csv", YASA_750R_Efficiency_data) (List.mem_of_getElem? (i := 1) rfl) _ _ _ 1 2 0 (by decide +kernel) (by decide +kernel) (by decide +kernel))

theorem piston_Wasp {dir : Dir} (h : Ships pistonFiles pistonTables [] dir) :
    ∃ d, mkPiston dir "Wasp_Major_B13" = .ok d ∧ d.avail.out = [true] ∧ d.avail.eff = [true, false] ∧
      d.pwr_data = some (Wasp_Major_B13_Power_data.select 0 1 2) ∧ d.bsfc_data = some (Wasp_Major_B13_BSFC_data.select 2 1 0) ∧ d.bsfc_pwr_data = none :=
  (mkPiston_ships h.listing "Wasp_Major_B13" "Wasp_Major_B13_BSFC_data.csv" none (filter_role piston_chars (qTable "Wasp_Major_B13" "bsfc") (some _) (by decide +kernel))
    (filter_role piston_chars (qTable "Wasp_Major_B13" "bsfc_best_power") none (by decide +kernel)) (no_polys piston_chars _ (by decide +kernel) _)
    (ships_table h ("Wasp_Major_B13_BSFC_data.csv", Wasp_Major_B13_BSFC_data) (List.mem_of_getElem? (i := 3) rfl) _ _ _ 2 1 0 (by decide +kernel) (by decide +kernel) (by decide +kernel)) rfl "Wasp_Major_B13_Power_data.csv"
    (lastWhere_ships h.listing _ _ (some _) (filter_role piston_chars (qTable "Wasp_Major_B13" "power") (some _) (by decide +kernel))).1).1
    (ships_table h ("Wasp_Major_B13_Power_data.csv", Wasp_Major_B13_Power_data) (List.mem_of_getElem? (i := 4) rfl) _ _ _ 0 1 2 (by decide +kernel) (by decide +kernel) (by decide +kernel))

theorem piston_IO540 {dir : Dir} (h : Ships pistonFiles pistonTables [] dir) :
    (∃ d, mkPiston dir "IO-540" = .ok d ∧ d.avail.out = [true] ∧ d.avail.eff = [true, true] ∧
      d.pwr_data = some (IO_540_Power_data.select 2 0 1) ∧ d.bsfc_data = some (IO_540_BSFC_data.select 0 1 2) ∧
      d.bsfc_pwr_data = some (IO_540_BSFC_best_power_data.select 0 1 2)) ∨ mkPiston dir "IO-540" = .error .keyError := by
  have key := fun f1 => mkPiston_ships h.listing "IO-540" "IO-540_BSFC_data.csv" (some "IO-540_BSFC_best_power_data.csv") (filter_role piston_chars (qTable "IO-540" "bsfc") (some _) (by decide +kernel))
    (filter_role piston_chars (qTable "IO-540" "bsfc_best_power") (some _) (by decide +kernel)) (no_polys piston_chars _ (by decide +kernel) _)
    (ships_table h ("IO-540_BSFC_data.csv", IO_540_BSFC_data) (List.mem_of_getElem? (i := 1) rfl) _ _ _ 0 1 2 (by decide +kernel) (by decide +kernel) (by decide +kernel))
    (ships_assign h ("IO-540_BSFC_best_power_data.csv", IO_540_BSFC_best_power_data) (List.mem_of_getElem? (i := 0) rfl) _ _ _ 0 1 2 (by decide +kernel) (by decide +kernel) (by decide +kernel)) f1
    (pwr := IO_540_Power_data.select 2 0 1)
  cases hl : lastWhere (isTable "power") (engineFiles "IO-540" dir.listing) with
  | none =>
    unfold lastWhere at hl
    rw [List.getLast?_eq_none_iff, List.filter_eq_nil_iff] at hl
    have hm : "IO-540_Power_data.csv" ∈ engineFiles "IO-540" dir.listing := by
      unfold engineFiles
      rw [List.mem_filter, h.listing]
      exact ⟨by decide +kernel, by decide +kernel⟩
    exact absurd (by decide +kernel) (hl _ hm)
  | some f1 =>
    have hm : f1 = "IO-540_Power_data.csv" ∨ f1 = "IO-540_BSFC_best_power_data.csv" := by
      obtain ⟨m1, m2⟩ := lastWhere_mem hl
      unfold engineFiles at m1
      rw [List.mem_filter, h.listing] at m1
      have : f1 ∈ pistonFiles.filter (fun f => pyIn "IO-540".toList f.toList && isTable "power" f) := by
        rw [List.mem_filter]
        exact ⟨m1.1, by rw [m1.2, m2]; rfl⟩
      have e : pistonFiles.filter (fun f => pyIn "IO-540".toList f.toList && isTable "power" f) = ["IO-540_BSFC_best_power_data.csv", "IO-540_Power_data.csv"] := by decide +kernel
      rw [e] at this
      simp only [List.mem_cons, List.not_mem_nil, or_false] at this
      tauto
    rcases hm with rfl | rfl
    · left
      exact (key _ hl).1 (ships_table h ("IO-540_Power_data.csv", IO_540_Power_data) (List.mem_of_getElem? (i := 2) rfl) _ _ _ 2 0 1 (by decide +kernel) (by decide +kernel) (by decide +kernel))
    · right
      refine (key _ hl).2 ?_
      rw [show dir.csv "IO-540_BSFC_best_power_data.csv" = _ from h.csv ("IO-540_BSFC_best_power_data.csv", IO_540_BSFC_best_power_data) (List.mem_of_getElem? (i := 0) rfl)]
      unfold table
      rw [col_frame _ _ 0 (by decide +kernel), col_frame_missing _ "Altitude (m)" (by decide +kernel)]
      rfl

end

end Verif.Propulsion
