import Verif.Props.DeckFiles

/-
C115: the list of engine data printed by `local_data`.
-/

namespace Verif.Propulsion

open Verif

/-! ### Printed data -/

/-- The readable names of the data files, as documented: engine type, part of the file name, description. -/
def readable : List (String × String × String) :=
  [("turboprop", "Thrust_data", "Core/hot thrust (N) versus Mach Number and altitude (m)"),
   ("turboprop", "Power_data", "Shaft power (W) versus Mach Number and altitude (m)"),
   ("turboprop", "BSFC_data", "BSFC (g/(kWh)) versus Mach Number and altitude (m)"),
   ("jet", "Thrust_SL_TO_data", "Take-off thrust (N) versus Mach number at SL"),
   ("jet", "Thrust_data", "Thrust (N) versus Mach number and altitude (m)"),
   ("jet", "TSFC_data", "TSFC (g/(kNs)) versus Mach number and engine thrust (N)"),
   ("electric", "Efficiency_data", "Efficiency versus Engine speed (RPM) and torque (Nm)"),
   ("piston", "Power_data", "Shaft power (W) versus Engine Speed (RPM) and altitude (m)"),
   ("piston", "BSFC_data", "BSFC (g/(kWh)) Engine Speed (RPM) and shaft power (W)")]

theorem names_iff (t : String) (ht : t ∈ ["turboprop", "jet", "electric", "piston"]) (k v : String) :
    (k, v) ∈ dataNames t.toList ↔ (t, k, v) ∈ readable := by
  simp only [List.mem_cons, List.not_mem_nil, or_false] at ht
  rcases ht with rfl | rfl | rfl | rfl
  · rw [dataNames, if_pos rfl]; simp [readable]
  · rw [dataNames, if_neg (by decide), if_pos rfl]; simp [readable]
  · rw [dataNames, if_neg (by decide), if_neg (by decide), if_pos rfl]; simp [readable]
  · rw [dataNames, if_neg (by decide), if_neg (by decide), if_neg (by decide), if_pos rfl]; simp [readable]

theorem mapM_forall₂ {α β : Type} {f : α → PyM β} {R : α → β → Prop} (hf : ∀ a b, f a = .ok b → R a b) :
    ∀ (l : List α) (r : List β), l.mapM f = .ok r → List.Forall₂ R l r
  | [], r, h => by
      have : r = [] := (Except.ok.inj h).symm
      rw [this]; exact .nil
  | a :: l, r, h => by
      rw [List.mapM_cons, bind_ok_iff] at h
      obtain ⟨b, hb, h⟩ := h
      rw [bind_ok_iff] at h
      obtain ⟨bs, hbs, h⟩ := h
      have : r = b :: bs := (Except.ok.inj h).symm
      rw [this]
      exact .cons (hf a b hb) (mapM_forall₂ hf l bs hbs)

/-- How many times a description is listed. -/
theorem count_parsed (listing : List String) (name v : String) : ∀ (N : List (String × String)), (N.map Prod.snd).Nodup → ∀ k, (k, v) ∈ N →
    (N.flatMap (fun kv => ((engineFiles name listing).filter (fun f => pyIn kv.1.toList f.toList)).map (fun _ => kv.2))).count v =
      listing.countP (fun f => pyIn name.toList f.toList && pyIn k.toList f.toList)
  | [], _, k, h => by simp at h
  | (k', v') :: N, hn, k, h => by
      rw [List.flatMap_cons, List.count_append]
      rw [List.map_cons, List.nodup_cons] at hn
      rcases List.mem_cons.mp h with h | h
      · obtain ⟨rfl, rfl⟩ := Prod.mk.inj h
        have z : (N.flatMap (fun kv => ((engineFiles name listing).filter (fun f => pyIn kv.1.toList f.toList)).map (fun _ => kv.2))).count v = 0 := by
          rw [List.count_eq_zero]
          intro hm
          rw [List.mem_flatMap] at hm
          obtain ⟨kv, hkv, hm⟩ := hm
          rw [List.mem_map] at hm
          obtain ⟨_, _, rfl⟩ := hm
          exact hn.1 (List.mem_map.mpr ⟨kv, hkv, rfl⟩)
        rw [z, add_zero]
        rw [List.map_const', List.count_replicate_self, engineFiles, List.filter_filter, List.countP_eq_length_filter]
        simp only [Bool.and_comm]
      · have z : (((engineFiles name listing).filter (fun f => pyIn k'.toList f.toList)).map (fun _ => v')).count v = 0 := by
          rw [List.count_eq_zero]
          intro hm
          rw [List.mem_map] at hm
          obtain ⟨_, _, rfl⟩ := hm
          exact hn.1 (List.mem_map.mpr ⟨_, h, rfl⟩)
        dsimp only
        rw [z, zero_add]
        exact count_parsed listing name v N hn.2 k h

/-- The list printed for an engine type: one entry per row of the metadata file, in order, with the notes and the reference of that row ("-" for an
empty one). A description is listed as many times as the directory has files with the name of the engine and the corresponding part in their name, and
nothing else is listed. -/
theorem C115_printed (dirs : List Char → List String) (rows : List Char → List (List String)) (s t : String)
    (ht : t ∈ ["turboprop", "jet", "electric", "piston"]) (hs : s.toList.map Char.toLower = t.toList) (P : List Printed)
    (h : local_print dirs rows s = .ok P) :
    List.Forall₂ (fun row p => ∃ name notes ref, row = [name, notes, ref] ∧ p.engine = name ∧ p.notes = (if notes = "" then "-" else notes) ∧
      p.reference = (if ref = "" then "-" else ref) ∧
      (∀ k v, (t, k, v) ∈ readable →
        p.data.count v = (dirs t.toList).countP (fun f => decide (name.toList <:+: f.toList ∧ k.toList <:+: f.toList))) ∧
      ∀ v ∈ p.data, ∃ k, (t, k, v) ∈ readable)
      (rows t.toList) P := by
  unfold local_print at h
  dsimp only at h
  have hl : lower s = t.toList := hs
  have hm : t.toList ∈ engineTypes.map String.toList := List.mem_map.mpr ⟨t, ht, rfl⟩
  rw [hl, if_pos hm] at h
  refine mapM_forall₂ ?_ _ _ h
  intro row p hp
  unfold printRow at hp
  split at hp
  · rename_i name notes ref
    have := Except.ok.inj hp
    subst this
    have hlen : ∀ x : String, (if x.length ≠ 0 then x else "-") = if x = "" then "-" else x := by
      intro x
      by_cases hx : x = ""
      · subst hx; simp
      · have : x.length ≠ 0 := by simpa using hx
        rw [if_pos this, if_neg hx]
    refine ⟨name, notes, ref, rfl, rfl, hlen _, hlen _, ?_, ?_⟩
    · intro k v hkv
      have hN : ((dataNames t.toList).map Prod.snd).Nodup := by
        simp only [List.mem_cons, List.not_mem_nil, or_false] at ht
        rcases ht with rfl | rfl | rfl | rfl <;> decide
      refine (count_parsed _ name v _ hN k ((names_iff t ht k v).mpr hkv)).trans ?_
      apply List.countP_congr
      intro f _
      simp [pyIn]
    · intro v hv
      unfold parsedData at hv
      rw [List.mem_flatMap] at hv
      obtain ⟨kv, hkv, hv⟩ := hv
      rw [List.mem_map] at hv
      obtain ⟨_, _, rfl⟩ := hv
      exact ⟨kv.1, (names_iff t ht _ _).mp hkv⟩
  · exact absurd hp (by simp)

/-- The list is printed exactly when the type is one of the four, whatever the capitals, and every row of its metadata file has three fields; an unknown
type raises LookupError, another row ValueError (Python's unpacking). -/
theorem C115_answers (dirs : List Char → List String) (rows : List Char → List (List String)) (s : String) :
    (s.toList.map Char.toLower ∉ ["turboprop", "jet", "electric", "piston"].map String.toList → local_print dirs rows s = .error .lookupError) ∧
    (s.toList.map Char.toLower ∈ ["turboprop", "jet", "electric", "piston"].map String.toList →
      ((∀ row ∈ rows (s.toList.map Char.toLower), row.length = 3) → ∃ P, local_print dirs rows s = .ok P) ∧
      ((∃ row ∈ rows (s.toList.map Char.toLower), row.length ≠ 3) → local_print dirs rows s = .error .unpackError)) := by
  unfold local_print
  dsimp only
  have e : engineTypes.map String.toList = ["turboprop", "jet", "electric", "piston"].map String.toList := rfl
  have el : s.toList.map Char.toLower = lower s := rfl
  rw [e, el]
  refine ⟨fun h => if_neg h, fun h => ?_⟩
  rw [if_pos h]
  generalize rows (lower s) = R
  have three : ∀ row : List String, row.length = 3 → ∃ p, printRow (lower s) (dirs (lower s)) row = .ok p := by
    intro row hr
    match row, hr with
    | [a, b, c], _ => exact ⟨_, rfl⟩
  have other : ∀ row : List String, row.length ≠ 3 → printRow (lower s) (dirs (lower s)) row = .error .unpackError := by
    intro row hr
    match row, hr with
    | [], _ => rfl
    | [_], _ => rfl
    | [_, _], _ => rfl
    | [_, _, _], h => exact absurd rfl h
    | _ :: _ :: _ :: _ :: _, _ => rfl
  constructor
  · intro hR
    induction R with
    | nil => exact ⟨[], rfl⟩
    | cons row R ih =>
      obtain ⟨p, hp⟩ := three row (hR row (by simp))
      obtain ⟨P, hP⟩ := ih (fun r hr => hR r (by simp [hr]))
      exact ⟨p :: P, by rw [List.mapM_cons, hp, bind_ok, hP, bind_ok]; rfl⟩
  · rintro ⟨row, hm, hr⟩
    induction R with
    | nil => simp at hm
    | cons row' R ih =>
      rw [List.mapM_cons]
      by_cases h3 : row'.length = 3
      · obtain ⟨p, hp⟩ := three row' h3
        have : row ∈ R := by
          rcases List.mem_cons.mp hm with rfl | h'
          · exact absurd h3 hr
          · exact h'
        rw [hp, bind_ok, ih this]
        rfl
      · rw [other row' h3]
        rfl

/-- The directory of the shipped piston engines. -/
def pistonListing : List String :=
  ["IO-540_BSFC_best_power_data.csv", "IO-540_BSFC_data.csv", "IO-540_Power_data.csv", "Wasp_Major_B13_BSFC_data.csv",
   "Wasp_Major_B13_Power_data.csv", "_piston_metadata.csv"]

/-- Both shipped piston engines: the notes are printed, the empty reference as a dash. -/
example : (local_print (fun _ => pistonListing) (fun _ => [["IO-540", "Lycoming", ""], ["Wasp_Major_B13", "", "NACA"]]) "Piston" =
    .ok [⟨"IO-540", ["Shaft power (W) versus Engine Speed (RPM) and altitude (m)", "BSFC (g/(kWh)) Engine Speed (RPM) and shaft power (W)"],
          "Lycoming", "-"⟩,
         ⟨"Wasp_Major_B13", ["Shaft power (W) versus Engine Speed (RPM) and altitude (m)",
          "BSFC (g/(kWh)) Engine Speed (RPM) and shaft power (W)"], "-", "NACA"⟩]) ∧
    local_print (fun _ => pistonListing) (fun _ => []) "rocket" = .error .lookupError ∧
    local_print (fun _ => pistonListing) (fun _ => [["IO-540", "Lycoming"]]) "Piston" = .error .unpackError := by
  refine ⟨?_, (C115_answers _ _ _).1 (by decide), ((C115_answers _ _ _).2 (by decide)).2 ⟨["IO-540", "Lycoming"], by simp, by decide⟩⟩
  have e : engineFiles "IO-540" pistonListing = ["IO-540_BSFC_best_power_data.csv", "IO-540_BSFC_data.csv", "IO-540_Power_data.csv"] := by decide
  have e2 : engineFiles "Wasp_Major_B13" pistonListing = ["Wasp_Major_B13_BSFC_data.csv", "Wasp_Major_B13_Power_data.csv"] := by decide
  unfold local_print
  dsimp only
  rw [if_pos (by decide), List.mapM_cons, List.mapM_cons, List.mapM_nil]
  unfold printRow
  dsimp only
  rw [e, e2]
  have l : lower "Piston" = "piston".toList := by decide
  rw [l]
  have p1 : parsedData "piston".toList ["IO-540_BSFC_best_power_data.csv", "IO-540_BSFC_data.csv", "IO-540_Power_data.csv"] =
    ["Shaft power (W) versus Engine Speed (RPM) and altitude (m)", "BSFC (g/(kWh)) Engine Speed (RPM) and shaft power (W)"] := by decide
  have p2 : parsedData "piston".toList ["Wasp_Major_B13_BSFC_data.csv", "Wasp_Major_B13_Power_data.csv"] =
    ["Shaft power (W) versus Engine Speed (RPM) and altitude (m)", "BSFC (g/(kWh)) Engine Speed (RPM) and shaft power (W)"] := by decide
  rw [p1, p2]
  rfl

/-- The tables the decks use, under the spelling of the package: type, part of the name, role. -/
def spelt : List (String × String × String) :=
  [("turboprop", "Thrust_data", "thrust"), ("turboprop", "Power_data", "power"), ("turboprop", "BSFC_data", "bsfc"),
   ("jet", "Thrust_data", "thrust"), ("jet", "TSFC_data", "tsfc"), ("electric", "Efficiency_data", "efficiency"),
   ("piston", "Power_data", "power"), ("piston", "BSFC_data", "bsfc")]

/-- A table file spelt as in the package is both listed for its engine and found by the deck of that engine. -/
theorem C115_listed (dir : Dir) (dirs : List Char → List String) (rows : List Char → List (List String)) (s t : String)
    (hs : s.toList.map Char.toLower = t.toList) (hd : dirs t.toList = dir.listing) (P : List Printed) (h : local_print dirs rows s = .ok P)
    (p : Printed) (hp : p ∈ P) (f k v role : String) (hf : f ∈ dir.listing) (hn : Occurs p.engine.toList f.toList)
    (hk : Occurs (k.toList ++ ".csv".toList) f.toList) (hv : (t, k, v) ∈ readable) (hr : (t, k, role) ∈ spelt) :
    v ∈ p.data ∧ HasTable dir p.engine role := by
  have ht : t ∈ ["turboprop", "jet", "electric", "piston"] := by
    have : ∀ x ∈ readable, x.1 ∈ ["turboprop", "jet", "electric", "piston"] := by decide
    exact this _ hv
  have hP := C115_printed dirs rows s t ht hs P h
  obtain ⟨i, hi, rfl⟩ := List.getElem_of_mem hp
  rw [List.forall₂_iff_get] at hP
  obtain ⟨name, notes, ref, _, hname, _, _, hc, _⟩ := hP.2 i (hP.1 ▸ hi) hi
  change P[i].engine = name at hname
  have hc' := hc k v hv
  change P[i].data.count v = _ at hc'
  constructor
  · rw [← List.count_pos_iff, hc', List.countP_pos_iff]
    refine ⟨f, hd ▸ hf, ?_⟩
    rw [decide_eq_true_iff]
    obtain ⟨a, b, e⟩ := hn
    obtain ⟨a', b', e'⟩ := hk
    exact ⟨⟨a, b, by rw [← hname]; exact e.symm⟩, ⟨a', ".csv".toList ++ b', by rw [e']; simp⟩⟩
  · refine ⟨f, hf, hn, ?_⟩
    obtain ⟨a', b', e'⟩ := hk
    refine ⟨a'.map Char.toLower, b'.map Char.toLower, ?_⟩
    rw [e', List.map_append, List.map_append]
    have : ∀ x ∈ spelt, (x.2.1.toList ++ ".csv".toList).map Char.toLower = x.2.2.toList ++ "_data.csv".toList := by decide
    rw [this _ hr]

/-- The power table of the IO-540. -/
example (csv : String → Frame) (poly : String → PyM PolyFile) (P : List Printed)
    (h : local_print (fun _ => pistonListing) (fun _ => [["IO-540", "Lycoming", ""]]) "Piston" = .ok P) (p : Printed) (hp : p ∈ P)
    (he : p.engine = "IO-540") :
    "Shaft power (W) versus Engine Speed (RPM) and altitude (m)" ∈ p.data ∧ HasTable ⟨pistonListing, csv, poly⟩ "IO-540" "power" := by
  have := C115_listed ⟨pistonListing, csv, poly⟩ (fun _ => pistonListing) _ "Piston" "piston" (by decide) rfl P h p hp "IO-540_Power_data.csv"
    "Power_data" "Shaft power (W) versus Engine Speed (RPM) and altitude (m)" "power" (by simp [pistonListing])
    (by rw [he]; exact (pyIn_iff _ _).mp (by decide)) ((pyIn_iff _ _).mp (by decide)) (by decide) (by decide)
  rwa [he] at this

/-- The wording of the list and what the decks use do not agree in general. A best power consumption table of a piston engine is used by its deck but never
listed; the take-off thrust table of a jet is listed but no deck uses it; sea level polynomials are used but not listed. -/
theorem C115_violated (notes ref : String) (csv : String → Frame) (poly : String → PyM PolyFile) :
    (HasTable ⟨["IO-540_BSFC_best_power_data.csv"], csv, poly⟩ "IO-540" "bsfc_best_power" ∧
      ∃ p, local_print (fun _ => ["IO-540_BSFC_best_power_data.csv"]) (fun _ => [["IO-540", notes, ref]]) "piston" = .ok [p] ∧ p.data = []) ∧
    ((∀ role ∈ ["thrust", "tsfc"], ¬ HasTable ⟨["JT8D-9_Thrust_SL_TO_data.csv"], csv, poly⟩ "JT8D-9" role) ∧
      ∃ p, local_print (fun _ => ["JT8D-9_Thrust_SL_TO_data.csv"]) (fun _ => [["JT8D-9", notes, ref]]) "jet" = .ok [p] ∧
        p.data = ["Take-off thrust (N) versus Mach number at SL"]) ∧
    (∀ P, poly "J52_Sea_level_thrust_polynomial.csv" = .ok P →
      (∃ d, mkJet ⟨["J52_Sea_level_thrust_polynomial.csv"], csv, poly⟩ "J52" = .ok d ∧ d.avail.sl = true) ∧
      ∃ p, local_print (fun _ => ["J52_Sea_level_thrust_polynomial.csv"]) (fun _ => [["J52", notes, ref]]) "jet" = .ok [p] ∧ p.data = []) := by
  refine ⟨⟨⟨"IO-540_BSFC_best_power_data.csv", by simp, (pyIn_iff _ _).mp (by decide), (pyIn_iff _ _).mp (by decide)⟩, ?_⟩, ⟨?_, ?_⟩, fun P hP => ⟨?_, ?_⟩⟩
  · refine ⟨_, rfl, ?_⟩
    show parsedData (lower "piston") (engineFiles "IO-540" _) = []
    decide
  · rintro role hr ⟨f, hf, _, ho⟩
    have : f = "JT8D-9_Thrust_SL_TO_data.csv" := by simpa using hf
    subst this
    rw [← pyIn_iff] at ho
    simp only [List.mem_cons, List.not_mem_nil, or_false] at hr
    rcases hr with rfl | rfl
    · exact absurd ho (by decide)
    · exact absurd ho (by decide)
  · refine ⟨_, rfl, ?_⟩
    show parsedData (lower "jet") (engineFiles "JT8D-9" _) = _
    decide
  · obtain ⟨D, hD⟩ : ∃ D : Dir, D = ⟨["J52_Sea_level_thrust_polynomial.csv"], csv, poly⟩ := ⟨_, rfl⟩
    have hf : engineFiles "J52" D.listing = ["J52_Sea_level_thrust_polynomial.csv"] := by rw [hD]; dsimp only; decide
    rw [← hD]
    unfold mkJet
    rw [(setup_ok D "J52" ["thrust"] ["tsfc"] _).mpr ⟨fun f hf' _ => by
      have : f = "J52_Sea_level_thrust_polynomial.csv" := by rw [hf] at hf'; simpa using hf'
      rw [hD, this]; exact ⟨P, hP⟩, rfl⟩, bind_ok, hf]
    have av : (closedSetup D ["thrust"] ["tsfc"] ["J52_Sea_level_thrust_polynomial.csv"]).avail = ⟨[false], [false], true, false⟩ := by
      unfold closedSetup; dsimp only; decide
    rw [av]
    exact ⟨_, rfl, rfl⟩
  · refine ⟨_, rfl, ?_⟩
    show parsedData (lower "jet") (engineFiles "J52" _) = _
    decide

end Verif.Propulsion
