import Verif.Lemmas.Setup
import Verif.Lemmas.Tac
import Mathlib.Algebra.BigOperators.Fin

/-
Engine data: unknown engines (C62), listing order (C63), name matching (C89), polynomial fits (C65) and
the local data query (C66).
-/

namespace Verif.Propulsion

open Verif Verif.Atmos

noncomputable section

/-! ### Specification of the file naming, independent of the model -/

/-- The text `t` occurs in `s`. -/
def Occurs (t s : List Char) : Prop := ∃ a b, s = a ++ t ++ b

theorem pyIn_iff (t s : List Char) : pyIn t s = true ↔ Occurs t s := by
  unfold pyIn Occurs
  rw [decide_eq_true_iff]
  constructor
  · rintro ⟨a, b, h⟩; exact ⟨a, b, h.symm⟩
  · rintro ⟨a, b, h⟩; exact ⟨a, b, h.symm⟩

theorem mem_engineFiles (name : String) (l : List String) (f : String) :
    f ∈ engineFiles name l ↔ f ∈ l ∧ Occurs name.toList f.toList := by
  unfold engineFiles
  rw [List.mem_filter, pyIn_iff]

theorem engineFiles_nil {name : String} {l : List String} (h : ∀ f ∈ l, ¬ Occurs name.toList f.toList) :
    engineFiles name l = [] := by
  rw [List.eq_nil_iff_forall_not_mem]
  intro f hf
  rw [mem_engineFiles] at hf
  exact h f hf.1 hf.2

/-! ### C62 -/

/-- An engine name that occurs in no file name is accepted by all four decks; every table, every
polynomial is missing and every direct query gives None (after a warning). -/
theorem C62_unknown_violated (d : Dir) (name : String) (h : ∀ f ∈ d.listing, ¬ Occurs name.toList f.toList) :
    (∃ t, mkTurboprop d name = .ok t ∧ (∀ G m a, t.hotthrust G m a = .ok none) ∧
      (∀ G m a, t.shaftpower G m a = .ok none) ∧ ∀ G m a, t.bsfc G m a = .ok none) ∧
    (∃ t, mkPiston d name = .ok t ∧ (∀ G r a, t.shaftpower G r a = .ok none) ∧
      ∀ G r p b, t.bsfc G r p b = .ok none) ∧
    (∃ t, mkElectric d name = .ok t ∧ ∀ G r q, t.efficiency G r q = .ok none) ∧
    (∃ t, mkJet d name = .ok t ∧ (∀ G m a, t.thrust G m a = .ok none) ∧ (∀ G m a, t.tsfc G m a = .ok none) ∧
      (∀ m, t.sl_thrust m = .ok none) ∧ ∀ m, t.sl_take_off_thrust m = .ok none) := by
  have hs : ∀ outs effs, setup d name outs effs = .ok (closedSetup d outs effs []) := by
    intro outs effs
    rw [setup_ok, engineFiles_nil h]
    exact ⟨by simp, rfl⟩
  refine ⟨⟨_, by unfold mkTurboprop; rw [hs]; rfl, fun _ _ _ => rfl, fun _ _ _ => rfl, fun _ _ _ => rfl⟩,
    ⟨_, by unfold mkPiston; rw [hs]; rfl, fun _ _ _ => rfl, ?_⟩,
    ⟨_, by unfold mkElectric; rw [hs]; rfl, fun _ _ _ => rfl⟩,
    ⟨_, by unfold mkJet; rw [hs]; rfl, fun _ _ _ => rfl, fun _ _ _ => rfl, fun _ => rfl, fun _ => rfl⟩⟩
  intro G r p b
  unfold PistonDeck.bsfc
  by_cases h1 : b = "economy"
  · simp only [h1, if_true]; rfl
  · by_cases h2 : b = "power"
    · simp only [h1, h2, if_true]; rfl
    · simp only [h1, h2, if_false]

/-- Whatever the directory holds, `_setup` itself never raises NameError. -/
theorem C62_check_violated (d : Dir) (name : String) (outs effs : List String)
    (hp : ∀ f, d.poly f ≠ .error .nameError) : setup d name outs effs ≠ .error .nameError := by
  intro hc
  unfold setup at hc
  generalize hF : (engineFiles name d.listing) = F at hc
  have key : ∀ (l : List String) (S : Setup), l.foldlM (takeFile d outs effs) S ≠ .error .nameError := by
    intro l
    induction l with
    | nil => intro S h; cases h
    | cons f l ih =>
      intro S
      rw [List.foldlM_cons]
      have hr : ∀ (os : List (String × ℕ)) (S : Setup), os.foldlM (takeRole d f) S ≠ .error .nameError := by
        intro os
        induction os with
        | nil => intro S h; cases h
        | cons o os iho =>
          intro S
          rw [List.foldlM_cons]
          by_cases ho : (isSlPoly o.1 f || isSltoPoly o.1 f) = true
          · cases hd : d.poly f with
            | ok p => rw [takeRole_eq d f S o p (fun _ => hd)]; exact iho _
            | error e =>
              rw [takeRole_err d f S o e ho hd]
              intro h; cases h; exact hp f hd
          · rw [takeRole_eq d f S o ([], []) (fun h => absurd h ho)]; exact iho _
      unfold takeFile
      cases hx : outs.zipIdx.foldlM (takeRole d f) S with
      | error e => intro h; cases h; exact hr _ _ hx
      | ok S' => exact ih _
  cases hx : F.foldlM (takeFile d outs effs) (setupInit outs effs) with
  | error e => rw [hx] at hc; cases hc; exact key _ _ hx
  | ok S =>
    rw [hx, bind_ok, if_neg (by simp [Avail.items, AvItem.isFalse])] at hc
    cases hc

/-- The jet directory of the package. -/
def jetListing : List String :=
  ["ATF3-6A_Sea_level_thrust_polynomial.csv", "ATF3-6A_TSFC_data.csv", "ATF3-6A_Thrust_data.csv",
   "J52_Sea_level_thrust_polynomial.csv", "J52_TSFC_data.csv", "J52_Thrust_data.csv",
   "JT8D-9_Sea_level_take_off_thrust_polynomial.csv", "JT8D-9_Sea_level_thrust_polynomial.csv",
   "JT8D-9_TSFC_data.csv", "JT8D-9_Thrust_SL_TO_data.csv", "JT8D-9_Thrust_data.csv",
   "TFE731-2_Sea_level_thrust_polynomial.csv", "TFE731-2_Thrust_data.csv",
   "TFE731-5_Sea_level_take_off_thrust_polynomial.csv", "TFE731-5_TSFC_data.csv",
   "TFE731-5_Thrust_SL_TO_data.csv", "TFE731-5_Thrust_data.csv", "_jet_metadata.csv"]

example : ∀ f ∈ jetListing, ¬ Occurs "RB211".toList f.toList := by
  intro f hf hc
  rw [← pyIn_iff] at hc
  revert f; decide

/-! ### C63 -/

/-- At most one of the engine's files matches each role. -/
structure OnePerRole (outs effs files : List String) : Prop where
  table : ∀ r ∈ outs ++ effs, (files.filter (isTable r)).length ≤ 1
  sl : (files.filter (fun f => outs.any (fun o => isSlPoly o f))).length ≤ 1
  slto : (files.filter (fun f => outs.any (fun o => isSltoPoly o f))).length ≤ 1

theorem perm_short {l l' : List String} (h : l.Perm l') (hl : l.length ≤ 1) : l = l' := by
  match l, hl with
  | [], _ => exact (List.nil_perm.mp h).symm
  | [a], _ => exact (List.singleton_perm.mp h).symm ▸ rfl

theorem lastWhere_perm {p : String → Bool} {l l' : List String} (h : l.Perm l')
    (hl : (l.filter p).length ≤ 1) : lastWhere p l = lastWhere p l' := by
  unfold lastWhere
  rw [perm_short (h.filter p) hl]

theorem any_perm {p : String → Bool} {l l' : List String} (h : l.Perm l') : l.any p = l'.any p := by
  rw [Bool.eq_iff_iff, List.any_eq_true, List.any_eq_true]
  constructor
  · rintro ⟨x, hx, hp⟩; exact ⟨x, h.mem_iff.mp hx, hp⟩
  · rintro ⟨x, hx, hp⟩; exact ⟨x, h.mem_iff.mpr hx, hp⟩

theorem setup_perm (d d' : Dir) (hcsv : d'.csv = d.csv) (hpoly : d'.poly = d.poly)
    (hl : d.listing.Perm d'.listing) (name : String) (outs effs : List String)
    (h1 : OnePerRole outs effs (engineFiles name d.listing)) (S : Setup) :
    setup d name outs effs = .ok S ↔ setup d' name outs effs = .ok S := by
  have hp : (engineFiles name d.listing).Perm (engineFiles name d'.listing) := hl.filter _
  rw [setup_ok, setup_ok]
  have e : closedSetup d outs effs (engineFiles name d.listing)
      = closedSetup d' outs effs (engineFiles name d'.listing) := by
    unfold closedSetup
    congr 1
    · refine List.map_congr_left (fun o ho => ?_)
      rw [lastWhere_perm hp (h1.table o (by simp [ho])), hcsv]
    · refine List.map_congr_left (fun o ho => ?_)
      rw [lastWhere_perm hp (h1.table o (by simp [ho])), hcsv]
    · rw [lastWhere_perm hp h1.sl]
      congr 1
      funext f; unfold polyOf; rw [hpoly]
    · rw [lastWhere_perm hp h1.slto]
      congr 1
      funext f; unfold polyOf; rw [hpoly]
    · congr 1
      · exact List.map_congr_left (fun o _ => any_perm hp)
      · exact List.map_congr_left (fun o _ => any_perm hp)
      · exact any_perm hp
      · exact any_perm hp
  rw [e, hpoly]
  constructor
  · rintro ⟨h, h2⟩; exact ⟨fun f hf => h f (hp.mem_iff.mpr hf), h2⟩
  · rintro ⟨h, h2⟩; exact ⟨fun f hf => h f (hp.mem_iff.mp hf), h2⟩

theorem bind_congr_ok {α β : Type} {a a' : PyM α} (h : ∀ x, a = .ok x ↔ a' = .ok x) (f : α → PyM β) (r : β) :
    (a >>= f) = .ok r ↔ (a' >>= f) = .ok r := by
  rw [bind_ok_iff, bind_ok_iff]
  exact exists_congr fun x => and_congr_left' (h x)

/-- When at most one of the engine's files matches each role, all decks are built from the same data
whatever the order in which the directory is listed. -/
theorem C63_order (d d' : Dir) (hcsv : d'.csv = d.csv) (hpoly : d'.poly = d.poly)
    (hl : d.listing.Perm d'.listing) (name : String) :
    (OnePerRole ["thrust", "power"] ["bsfc"] (engineFiles name d.listing) →
      ∀ t, mkTurboprop d name = .ok t ↔ mkTurboprop d' name = .ok t) ∧
    (OnePerRole ["power"] ["bsfc", "bsfc_best_power"] (engineFiles name d.listing) →
      ∀ t, mkPiston d name = .ok t ↔ mkPiston d' name = .ok t) ∧
    (OnePerRole ["efficiency"] [""] (engineFiles name d.listing) →
      ∀ t, mkElectric d name = .ok t ↔ mkElectric d' name = .ok t) ∧
    (OnePerRole ["thrust"] ["tsfc"] (engineFiles name d.listing) →
      ∀ t, mkJet d name = .ok t ↔ mkJet d' name = .ok t) := by
  refine ⟨fun h t => ?_, fun h t => ?_, fun h t => ?_, fun h t => ?_⟩
  · exact bind_congr_ok (setup_perm d d' hcsv hpoly hl name _ _ h) _ t
  · exact bind_congr_ok (setup_perm d d' hcsv hpoly hl name _ _ h) _ t
  · exact bind_congr_ok (setup_perm d d' hcsv hpoly hl name _ _ h) _ t
  · exact bind_congr_ok (setup_perm d d' hcsv hpoly hl name _ _ h) _ t

example : OnePerRole ["thrust"] ["tsfc"] (engineFiles "JT8D-9" jetListing) :=
  ⟨by decide, by decide, by decide⟩

example : OnePerRole ["power"] ["bsfc", "bsfc_best_power"] (engineFiles "Wasp_Major_B13"
    ["Wasp_Major_B13_BSFC_data.csv", "Wasp_Major_B13_Power_data.csv", "_piston_metadata.csv"]) :=
  ⟨by decide, by decide, by decide⟩

theorem pyIn_append {t s u : List Char} (h : pyIn t s = true) : pyIn t (u ++ s) = true := by
  rw [pyIn_iff] at h ⊢
  obtain ⟨a, b, rfl⟩ := h
  exact ⟨u ++ a, b, by simp⟩

theorem isTable_append (role name s : String) (h : pyIn (role.toList ++ "_data.csv".toList) (lower s) = true) :
    isTable role (name ++ s) = true := by
  unfold isTable
  have : lower (name ++ s) = lower name ++ lower s := by
    unfold lower; rw [String.toList_append, List.map_append]
  rw [this]
  exact pyIn_append h

/-- A piston engine of any name with a power table and a best-power consumption table, named like those
of the package: the table used as shaft power is whichever is listed last. -/
theorem C63_piston_violated (name : String) (csv : String → Frame) (poly : String → PyM PolyFile) (S S' : Setup)
    (h : setup ⟨[name ++ "_BSFC_best_power_data.csv", name ++ "_Power_data.csv"], csv, poly⟩ name
      ["power"] ["bsfc", "bsfc_best_power"] = .ok S)
    (h' : setup ⟨[name ++ "_Power_data.csv", name ++ "_BSFC_best_power_data.csv"], csv, poly⟩ name
      ["power"] ["bsfc", "bsfc_best_power"] = .ok S') :
    S.output_data = [some (csv (name ++ "_Power_data.csv"))] ∧
    S'.output_data = [some (csv (name ++ "_BSFC_best_power_data.csv"))] := by
  obtain ⟨fb, hfb⟩ : ∃ fb, fb = name ++ "_BSFC_best_power_data.csv" := ⟨_, rfl⟩
  obtain ⟨fp, hfp⟩ : ∃ fp, fp = name ++ "_Power_data.csv" := ⟨_, rfl⟩
  have ob : pyIn name.toList fb.toList = true := by
    rw [hfb, pyIn_iff, String.toList_append]; exact ⟨[], _, by rw [List.nil_append]⟩
  have op : pyIn name.toList fp.toList = true := by
    rw [hfp, pyIn_iff, String.toList_append]; exact ⟨[], _, by rw [List.nil_append]⟩
  have t1 : isTable "power" fb = true := by rw [hfb]; exact isTable_append _ _ _ (by decide)
  have t2 : isTable "power" fp = true := by rw [hfp]; exact isTable_append _ _ _ (by decide)
  rw [← hfb, ← hfp] at h h' ⊢
  have F1 : engineFiles name [fb, fp] = [fb, fp] := by simp [engineFiles, ob, op]
  have F2 : engineFiles name [fp, fb] = [fp, fb] := by simp [engineFiles, ob, op]
  rw [setup_ok] at h h'
  rw [h.2, h'.2]
  simp [closedSetup, F1, F2, lastWhere, t1, t2]

example (csv : String → Frame) : ∃ S, setup ⟨["X_Power_data.csv", "X_BSFC_best_power_data.csv"], csv, fun _ => .ok ([1, 2], [0, 1])⟩ "X"
    ["power"] ["bsfc", "bsfc_best_power"] = .ok S := ⟨_, (setup_ok _ _ _ _ _).mpr ⟨fun _ _ _ => ⟨_, rfl⟩, rfl⟩⟩

/-- Files of the engine IO-540 as they come with the package (columns in this order, any numbers). -/
def io540 (s1 p1 b1 s2 p2 b2 a3 p3 s3 : List (Option ℝ)) (f : String) : Frame :=
  if f = "IO-540_BSFC_best_power_data.csv" then [("Speed (RPM)", s1), ("Power (W)", p1), ("BSFC (g/(kWh))", b1)]
  else if f = "IO-540_BSFC_data.csv" then [("Speed (RPM)", s2), ("Power (W)", p2), ("BSFC (g/(kWh))", b2)]
  else if f = "IO-540_Power_data.csv" then [("Altitude (m)", a3), ("Power (W)", p3), ("Speed (RPM)", s3)]
  else []

/-- The deck of the package's IO-540 is built correctly when the directory is listed alphabetically; when
the best-power file is listed last the constructor raises KeyError. -/
theorem C63_io540_violated (s1 p1 b1 s2 p2 b2 a3 p3 s3 : List (Option ℝ)) (poly : String → PyM PolyFile) :
    (∃ t, mkPiston ⟨["IO-540_BSFC_best_power_data.csv", "IO-540_BSFC_data.csv", "IO-540_Power_data.csv"],
        io540 s1 p1 b1 s2 p2 b2 a3 p3 s3, poly⟩ "IO-540" = .ok t ∧
      t.pwr_data = some (s3.zip (a3.zip p3)) ∧ t.bsfc_data = some (s2.zip (p2.zip b2)) ∧
      t.bsfc_pwr_data = some (s1.zip (p1.zip b1))) ∧
    mkPiston ⟨["IO-540_Power_data.csv", "IO-540_BSFC_data.csv", "IO-540_BSFC_best_power_data.csv"],
        io540 s1 p1 b1 s2 p2 b2 a3 p3 s3, poly⟩ "IO-540" = .error .keyError := by
  obtain ⟨csv, hcsv⟩ : ∃ csv, csv = io540 s1 p1 b1 s2 p2 b2 a3 p3 s3 := ⟨_, rfl⟩
  rw [← hcsv]
  have k1 : csv "IO-540_BSFC_best_power_data.csv" = [("Speed (RPM)", s1), ("Power (W)", p1), ("BSFC (g/(kWh))", b1)] := by
    rw [hcsv]; rfl
  have k2 : csv "IO-540_BSFC_data.csv" = [("Speed (RPM)", s2), ("Power (W)", p2), ("BSFC (g/(kWh))", b2)] := by
    rw [hcsv]; unfold io540; rw [if_neg (by decide), if_pos rfl]
  have k3 : csv "IO-540_Power_data.csv" = [("Altitude (m)", a3), ("Power (W)", p3), ("Speed (RPM)", s3)] := by
    rw [hcsv]; unfold io540; rw [if_neg (by decide), if_neg (by decide), if_pos rfl]
  have S : ∀ L : List String, engineFiles "IO-540" L = L → (L.any (polyFile ["power"])) = false →
      setup ⟨L, csv, poly⟩ "IO-540" ["power"] ["bsfc", "bsfc_best_power"]
        = .ok (closedSetup ⟨L, csv, poly⟩ ["power"] ["bsfc", "bsfc_best_power"] L) := by
    intro L h1 h2
    rw [setup_ok]
    refine ⟨fun f hf h => ?_, by rw [h1]⟩
    rw [h1] at hf
    rw [List.any_eq_false] at h2
    exact absurd h (by simpa using h2 f hf)
  have l1 : ∀ L (f : String), (L.filter (isTable "power")).getLast? = some f →
      (closedSetup ⟨L, csv, poly⟩ ["power"] ["bsfc", "bsfc_best_power"] L).output_data = [some (csv f)] := by
    intro L f h
    show [Option.map csv (lastWhere (isTable "power") L)] = _
    unfold lastWhere; rw [h]; rfl
  have l2 : ∀ L (f g : String), (L.filter (isTable "bsfc")).getLast? = some f →
      (L.filter (isTable "bsfc_best_power")).getLast? = some g →
      (closedSetup ⟨L, csv, poly⟩ ["power"] ["bsfc", "bsfc_best_power"] L).eta_data = [some (csv f), some (csv g)] := by
    intro L f g h h'
    show [Option.map csv (lastWhere (isTable "bsfc") L), Option.map csv (lastWhere (isTable "bsfc_best_power") L)] = _
    unfold lastWhere; rw [h, h']; rfl
  have l3 : ∀ L, (closedSetup ⟨L, csv, poly⟩ ["power"] ["bsfc", "bsfc_best_power"] L).avail
      = ⟨[L.any (isTable "power")], [L.any (isTable "bsfc"), L.any (isTable "bsfc_best_power")],
          L.any (fun f => ["power"].any (fun o => isSlPoly o f)),
          L.any (fun f => ["power"].any (fun o => isSltoPoly o f))⟩ := fun L => rfl
  constructor
  · refine ⟨⟨⟨[true], [true, true], false, false⟩, some (s3.zip (a3.zip p3)), some (s2.zip (p2.zip b2)),
      some (s1.zip (p1.zip b1))⟩, ?_, rfl, rfl, rfl⟩
    unfold mkPiston
    rw [S _ (by decide) (by decide), bind_ok, l1 _ "IO-540_Power_data.csv" (by decide),
      l2 _ "IO-540_BSFC_data.csv" "IO-540_BSFC_best_power_data.csv" (by decide) (by decide), l3]
    rw [show (Avail.mk [["IO-540_BSFC_best_power_data.csv", "IO-540_BSFC_data.csv", "IO-540_Power_data.csv"].any (isTable "power")]
      [["IO-540_BSFC_best_power_data.csv", "IO-540_BSFC_data.csv", "IO-540_Power_data.csv"].any (isTable "bsfc"),
        ["IO-540_BSFC_best_power_data.csv", "IO-540_BSFC_data.csv", "IO-540_Power_data.csv"].any (isTable "bsfc_best_power")]
      (["IO-540_BSFC_best_power_data.csv", "IO-540_BSFC_data.csv", "IO-540_Power_data.csv"].any (fun f => ["power"].any (fun o => isSlPoly o f)))
      (["IO-540_BSFC_best_power_data.csv", "IO-540_BSFC_data.csv", "IO-540_Power_data.csv"].any (fun f => ["power"].any (fun o => isSltoPoly o f))))
      = ⟨[true], [true, true], false, false⟩ by decide, k1, k2, k3]
    rfl
  · unfold mkPiston
    rw [S _ (by decide) (by decide), bind_ok, l1 _ "IO-540_BSFC_best_power_data.csv" (by decide), l3]
    rw [show ["IO-540_Power_data.csv", "IO-540_BSFC_data.csv", "IO-540_BSFC_best_power_data.csv"].any (isTable "power") = true
      by decide, k1]
    rfl

end

end Verif.Propulsion
