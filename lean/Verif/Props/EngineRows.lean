import Verif.Props.EngineData

/-
No line of the engine tables is lost on the way into a deck (C131).
-/

namespace Verif.Propulsion

open Verif Verif.Atmos Verif.Aircraft

noncomputable section

/-! ### Lemmas -/

theorem select_length (t : RawTable) (a b c : ℕ) : (t.select a b c).length = t.rows := by
  simp [RawTable.select, RawTable.triples, RawTable.column]

/-! ### C131 -/

/-- **C131** A jet deck holds every line of its thrust and fuel consumption files: the number of lines below the header, for each
engine. -/
theorem C131_jet_rows {dir : Dir} (h : Ships jetFiles jetTables jetPolys dir) (name : String) (n : ℕ) (k : Option ℕ)
    (hn : (name, n, k) ∈ [("ATF3-6A", 46, some 50), ("F404-400", 374, none), ("FJ-44", 238, some 76), ("JT8D-9", 99, some 96),
      ("JT9D-3", 54, some 67), ("TF30", 238, some 102), ("TFE731-2", 145, none), ("TFE731-5", 63, some 57), ("J52", 272, some 113),
      ("J60", 278, some 147)]) :
    ∃ d, mkJet dir name = .ok d ∧ d.thr_data.map List.length = some n ∧ d.tsfc_data.map List.length = k := by
  simp only [List.mem_cons, List.not_mem_nil, or_false, Prod.mk.injEq] at hn
  rcases hn with ⟨rfl, rfl, rfl⟩ | ⟨rfl, rfl, rfl⟩ | ⟨rfl, rfl, rfl⟩ | ⟨rfl, rfl, rfl⟩ | ⟨rfl, rfl, rfl⟩ | ⟨rfl, rfl, rfl⟩ |
    ⟨rfl, rfl, rfl⟩ | ⟨rfl, rfl, rfl⟩ | ⟨rfl, rfl, rfl⟩ | ⟨rfl, rfl, rfl⟩
  · exact ⟨_, jet_ATF36A h, congrArg some (select_length _ _ _ _), congrArg some (select_length _ _ _ _)⟩
  · exact ⟨_, jet_F404400 h, congrArg some (select_length _ _ _ _), rfl⟩
  · exact ⟨_, jet_FJ44 h, congrArg some (select_length _ _ _ _), congrArg some (select_length _ _ _ _)⟩
  · exact ⟨_, jet_JT8D9 h, congrArg some (select_length _ _ _ _), congrArg some (select_length _ _ _ _)⟩
  · exact ⟨_, jet_JT9D3 h, congrArg some (select_length _ _ _ _), congrArg some (select_length _ _ _ _)⟩
  · exact ⟨_, jet_TF30 h, congrArg some (select_length _ _ _ _), congrArg some (select_length _ _ _ _)⟩
  · exact ⟨_, jet_TFE7312 h, congrArg some (select_length _ _ _ _), rfl⟩
  · exact ⟨_, jet_TFE7315 h, congrArg some (select_length _ _ _ _), congrArg some (select_length _ _ _ _)⟩
  · exact ⟨_, jet_J52 h, congrArg some (select_length _ _ _ _), congrArg some (select_length _ _ _ _)⟩
  · exact ⟨_, jet_J60 h, congrArg some (select_length _ _ _ _), congrArg some (select_length _ _ _ _)⟩

example : ∃ d, mkJet (holding jetFiles jetTables jetPolys) "J60" = .ok d ∧ d.thr_data.map List.length = some 278 ∧
    d.tsfc_data.map List.length = some 147 := C131_jet_rows jet_ships "J60" 278 (some 147) (by simp)

/-- **C131** So do the decks of the turboprops, the motors and the piston engines. -/
theorem C131_prop_rows {td ed pd : Dir} (ht : Ships turbopropFiles turbopropTables [] td) (he : Ships electricFiles electricTables [] ed)
    (hp : Ships pistonFiles pistonTables [] pd) :
    (∃ d, mkTurboprop td "T56-A" = .ok d ∧ d.thr_data.map List.length = some 147 ∧ d.pwr_data.map List.length = some 160 ∧
      d.bsfc_data.map List.length = some 48) ∧
    (∃ d, mkTurboprop td "Tyne_RTy11" = .ok d ∧ d.thr_data.map List.length = some 38 ∧ d.pwr_data.map List.length = some 38 ∧
      d.bsfc_data.map List.length = some 38) ∧
    (∃ d, mkElectric ed "JMX57" = .ok d ∧ d.eta_data.map List.length = some 1030 ∧ d.sft_pwr.length = 1030) ∧
    (∃ d, mkElectric ed "YASA_750R" = .ok d ∧ d.eta_data.map List.length = some 1426 ∧ d.sft_pwr.length = 1426) ∧
    (∃ d, mkPiston pd "Wasp_Major_B13" = .ok d ∧ d.pwr_data.map List.length = some 262 ∧ d.bsfc_data.map List.length = some 374) ∧
    ∀ d, mkPiston pd "IO-540" = .ok d → d.pwr_data.map List.length = some 79 ∧ d.bsfc_data.map List.length = some 59 ∧
      d.bsfc_pwr_data.map List.length = some 120 := by
  refine ⟨?_, ?_, ?_, ?_, ?_, ?_⟩
  · obtain ⟨d, h1, -, -, h4, h5, h6⟩ := turboprop_T56A ht
    exact ⟨d, h1, by rw [h4]; exact congrArg some (select_length _ _ _ _), by rw [h5]; exact congrArg some (select_length _ _ _ _),
      by rw [h6]; exact congrArg some (select_length _ _ _ _)⟩
  · obtain ⟨d, h1, -, -, h4, h5, h6⟩ := turboprop_TyneRTy11 ht
    exact ⟨d, h1, by rw [h4]; exact congrArg some (select_length _ _ _ _), by rw [h5]; exact congrArg some (select_length _ _ _ _),
      by rw [h6]; exact congrArg some (select_length _ _ _ _)⟩
  · obtain ⟨d, h1, -, h3, h4⟩ := electric_JMX57 he
    exact ⟨d, h1, by rw [h3]; exact congrArg some (select_length _ _ _ _), by rw [h4, List.length_map]; exact select_length _ _ _ _⟩
  · obtain ⟨d, h1, -, h3, h4⟩ := electric_YASA750R he
    exact ⟨d, h1, by rw [h3]; exact congrArg some (select_length _ _ _ _), by rw [h4, List.length_map]; exact select_length _ _ _ _⟩
  · obtain ⟨d, h1, -, -, h4, h5, -⟩ := piston_Wasp hp
    exact ⟨d, h1, by rw [h4]; exact congrArg some (select_length _ _ _ _), by rw [h5]; exact congrArg some (select_length _ _ _ _)⟩
  · intro d hd
    rcases piston_IO540 hp with ⟨d', h1, -, -, h4, h5, h6⟩ | e
    · rw [hd] at h1
      cases h1
      exact ⟨by rw [h4]; exact congrArg some (select_length _ _ _ _), by rw [h5]; exact congrArg some (select_length _ _ _ _),
        by rw [h6]; exact congrArg some (select_length _ _ _ _)⟩
    · rw [hd] at e
      cases e

example : ∃ d, mkElectric (holding electricFiles electricTables []) "JMX57" = .ok d ∧ d.sft_pwr.length = 1030 := by
  obtain ⟨d, h1, -, h3⟩ := (C131_prop_rows turboprop_ships electric_ships piston_ships).2.2.1
  exact ⟨d, h1, h3⟩

end

end Verif.Propulsion
