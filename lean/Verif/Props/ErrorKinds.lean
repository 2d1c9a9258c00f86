import Verif.Model.Atmosphere
import Verif.Model.Runway
import Verif.Model.Airworthiness
import Verif.Model.EnvelopePlot
import Verif.Model.Propulsion
import Verif.Lemmas.Tac
import Verif.Lemmas.PyM
import Verif.Lemmas.EnvelopeOk

/-!
C121: the exception a user has to catch. A script that iterates over altitudes, categories, airports or engine
tables and skips the bad ones does so with `except ValueError` or `except TypeError`; which of the two is raised is
part of what it relies on.
-/

namespace Verif.Props

open Verif Verif.Atmos

noncomputable section

/-! ### Standard atmospheres -/

/-- Below absolute zero (an offset larger than the temperature) there is no speed of sound and no Mach number:
ValueError, whatever the speed. -/
theorem C121_cold (off h : ℝ) (hh : h ≤ 50000) (ht : isatemp off h < 0) :
    vsound_mps (.isa off) (.scalar h) = .error .valueError ∧
    vsound_mps (.isa off) (.array [h]) = .error .valueError ∧
    ∀ v, mach (.isa off) v (.scalar h) = .error .valueError := by
  have hn : ¬ (h > Level5) := by unfold Level5; linarith
  have k (r : NumArg) (hr : recastArray r = [h]) : alttest (.isa off) r = .ok [h] := by
    simp only [alttest, hr, List.any_cons, List.any_nil, Bool.or_false, decide_eq_true_eq, if_neg hn]
  have t (r : NumArg) (hr : recastArray r = [h]) : airtemp_k (.isa off) r = .ok (.scalar (isatemp off h)) := by
    unfold airtemp_k
    rw [k r hr]
    rfl
  have s (r : NumArg) (hr : recastArray r = [h]) : vsound_mps (.isa off) r = .error .valueError := by
    unfold vsound_mps
    rw [k r hr, bind_ok, t (.array [h]) rfl, bind_ok]
    simp only [vsoundE, if_pos ht]
    rfl
  refine ⟨s _ rfl, s _ rfl, fun v => ?_⟩
  unfold mach
  simp only []
  rw [k (.scalar h) rfl, bind_ok, s (.array [h]) rfl]
  rfl

/-- An ISA 80 degrees colder would need a temperature of 216.65 K to fall further; one 220 degrees colder is below
absolute zero in the stratosphere. -/
example : vsound_mps (.isa (-220)) (.scalar 15000) = .error .valueError :=
  (C121_cold (-220) 15000 (by norm_num) (by
    unfold isatemp
    norm_num [Level1, Level2, Level3, Level4, A1, B1, A2, B2])).1

/-- Asking an ISA for its properties at no altitude at all: ValueError from each of the queries. -/
theorem C121_empty (off : ℝ) :
    airtemp_k (.isa off) (.array []) = .error .valueError ∧
    airpress_pa (.isa off) (.array []) = .error .valueError ∧
    airdens_kgpm3 (.isa off) (.array []) = .error .valueError ∧
    vsound_mps (.isa off) (.array []) = .error .valueError ∧
    ∀ v, mach (.isa off) v (.array []) = .error .valueError := ⟨rfl, rfl, rfl, rfl, fun _ => rfl⟩

/-- A profile without points can be built, and then refuses every query with ValueError. -/
theorem C121_noprofile :
    ∃ o, obsprofile (some []) (some []) (some []) none = .ok o ∧
      ∀ r, airtemp_k (.profile o) r = .error .valueError ∧ airpress_pa (.profile o) r = .error .valueError ∧
        airdens_kgpm3 (.profile o) r = .error .valueError ∧ vsound_mps (.profile o) r = .error .valueError :=
  ⟨⟨[], [], [], [], []⟩, by unfold obsprofile; simp [npSize], fun _ => ⟨rfl, rfl, rfl, rfl⟩⟩

/-- Speeds and altitudes given as arrays of different lengths, neither of length one: ValueError. -/
theorem C121_mach (off : ℝ) (vs hs : List ℝ) (hl : vs.length ≠ hs.length) (h1 : vs.length ≠ 1) (h2 : hs.length ≠ 1)
    (hh : ∀ h ∈ hs, h ≤ 50000) : mach (.isa off) (.array vs) (.array hs) = .error .valueError := by
  have e : alttest (.isa off) (.array hs) = .ok hs := by
    have : ¬ (hs.any (fun x => decide (x > Level5)) = true) := by
      simp only [List.any_eq_true, not_exists, not_and]
      intro x hx hc
      have := of_decide_eq_true hc
      unfold Level5 at this
      exact absurd (hh x hx) (not_le.mpr this)
    exact if_neg this
  unfold mach
  simp only []
  rw [e, bind_ok]
  cases hv : vsound_mps (.isa off) (.array hs) with
  | error x =>
    match hs, h2, e, hv with
    | [], _, _, hv => cases hv; rfl
    | a :: b :: l, _, e, hv =>
      unfold vsound_mps at hv
      rw [e, bind_ok] at hv
      unfold airtemp_k at hv
      rw [e, bind_ok] at hv
      simp only [nditer, bind_ok, List.map_cons, revert] at hv
      change ((isatemp off a :: isatemp off b :: l.map (isatemp off)).mapM vsoundE >>= _) = _ at hv
      have g : ∀ (m : List ℝ) y, m.mapM vsoundE = .error y → y = .valueError := by
        intro m
        induction m with
        | nil => intro y hy; cases hy
        | cons c m ih =>
          intro y hy
          rw [List.mapM_cons] at hy
          unfold vsoundE at hy
          split_ifs at hy with hc
          · rw [bind_error] at hy; exact (Except.error.inj hy).symm
          · rw [bind_ok] at hy
            cases hm : m.mapM (fun t => if t < 0 then (Except.error PyErr.valueError : PyM ℝ) else .ok (vsound t)) with
            | error z =>
              rw [hm, bind_error] at hy
              rw [← Except.error.inj hy]
              exact ih z hm
            | ok z => rw [hm, bind_ok] at hy; cases hy
      cases hm : (isatemp off a :: isatemp off b :: l.map (isatemp off)).mapM vsoundE with
      | error z =>
        rw [hm, bind_error] at hv
        rw [bind_error, ← Except.error.inj hv, g _ z hm]
      | ok z => rw [hm, bind_ok] at hv; cases hv
  | ok r =>
    rw [bind_ok]
    have hr : (recastArray r).length = hs.length := by
      match hs, h2, e, hv with
      | [], _, _, hv => cases hv
      | a :: b :: l, _, e, hv =>
        unfold vsound_mps at hv
        rw [e, bind_ok] at hv
        unfold airtemp_k at hv
        rw [e, bind_ok] at hv
        simp only [nditer, bind_ok, List.map_cons, revert] at hv
        change ((isatemp off a :: isatemp off b :: l.map (isatemp off)).mapM vsoundE >>= _) = _ at hv
        have g : ∀ (m : List ℝ) y, m.mapM vsoundE = .ok y → y.length = m.length := by
          intro m
          induction m with
          | nil => intro y hy; rw [← Except.ok.inj hy]; rfl
          | cons c m ih =>
            intro y hy
            rw [List.mapM_cons] at hy
            obtain ⟨u, _, hy⟩ := bind_ok_iff.mp hy
            obtain ⟨w, hw, hy⟩ := bind_ok_iff.mp hy
            rw [← Except.ok.inj hy, List.length_cons, List.length_cons, ih w hw]
        obtain ⟨z, hz, hv⟩ := bind_ok_iff.mp hv
        have hzl := g _ z hz
        rw [← Except.ok.inj hv]
        match z, hzl with
        | p :: q :: z, hzl =>
          simp only [recastArray]
          simpa using hzl
    have hb : ∀ (f : ℝ → ℝ → ℝ) (xs ys : List ℝ), xs.length ≠ ys.length → xs.length ≠ 1 → ys.length ≠ 1 →
        broadcast2 f xs ys = .error .valueError := by
      intro f xs ys h h1 h2
      unfold broadcast2
      rw [if_neg h]
      split
      · simp at h1
      · simp at h2
      · rfl
    have hx : ∀ (c : Prop) [Decidable c], (if c then (recastArray (.array vs)).map abs else recastArray (.array vs)).length
        = vs.length := by
      intro c _
      split_ifs
      · rw [List.length_map]; rfl
      · rfl
    exact hb _ _ _ (by rw [hx, hr]; exact hl) (by rw [hx]; exact h1) (by rw [hr]; exact h2)

example : mach (.isa 0) (.array [100, 200, 300]) (.array [0, 5000]) = .error .valueError :=
  C121_mach 0 _ _ (by simp) (by simp) (by simp) (by
    intro h hh
    rcases List.mem_pair.mp hh with rfl | rfl <;> norm_num)

/-! ### Observed profiles -/

/-- Building a profile. Temperatures left out, or altitudes left out beside sensible temperatures: TypeError. A
temperature below absolute zero, temperatures of another number than the altitudes, neither density nor pressure,
densities of another number without pressures: ValueError. -/
theorem C121_profile (a t : List ℝ) (rho p : Option (List ℝ)) :
    (∀ alt, obsprofile alt none rho p = .error .typeError) ∧
    ((∀ x ∈ t, 0 ≤ x) → obsprofile none (some t) rho p = .error .typeError) ∧
    (a.length ≠ t.length → obsprofile (some a) (some t) rho p = .error .valueError) ∧
    (a.length ≠ 1 → (∃ x ∈ t, x < 0) → obsprofile (some a) (some t) rho p = .error .valueError) ∧
    (a.length ≠ 1 → obsprofile (some a) (some t) none none = .error .valueError) ∧
    (a.length ≠ 1 → ∀ r : List ℝ, r.length ≠ a.length → obsprofile (some a) (some t) (some r) none = .error .valueError) := by
  refine ⟨fun alt => ?_, fun h => ?_, fun h => ?_, fun h1 h => ?_, fun h1 => ?_, fun h1 r h => ?_⟩
  · unfold obsprofile
    dsimp only
    split_ifs <;> cases rho <;> cases p <;> rfl
  · have : ¬ (t.any (fun x => decide (x < 0)) = true) := by
      simp only [List.any_eq_true, decide_eq_true_eq, not_exists, not_and, not_lt]
      exact h
    unfold obsprofile
    dsimp only
    cases rho <;> cases p <;> split_ifs <;> first | rfl | (dsimp only; rw [if_neg this])
  · unfold obsprofile
    dsimp only
    rw [if_neg (fun hc => h hc.1), if_neg (fun hc => h hc.1)]
    dsimp only
    split_ifs
    · rfl
    · cases rho <;> cases p <;> first | rfl | (dsimp only; rw [if_neg (fun hc => h hc.1)])
  · have : t.any (fun x => decide (x < 0)) = true := by
      simp only [List.any_eq_true, decide_eq_true_eq]
      exact h
    unfold obsprofile
    cases rho with
    | none =>
      dsimp only
      rw [if_neg (fun hc => h1 (hc.1.trans hc.2))]
      cases p with
      | none => dsimp only; rw [if_neg (fun hc => h1 (hc.1.trans hc.2))]; dsimp only; rw [if_pos this]
      | some p => dsimp only; split_ifs <;> dsimp only <;> rw [if_pos this]
    | some r =>
      cases p with
      | none =>
        dsimp only
        split_ifs with _ h3
        · rfl
        · exact absurd (h3.1.trans h3.2) h1
        · rfl
      | some p =>
        dsimp only
        split_ifs <;> dsimp only <;> rw [if_pos this]
  · unfold obsprofile
    dsimp only
    rw [if_neg (fun hc => h1 (hc.1.trans hc.2)), if_neg (fun hc => h1 (hc.1.trans hc.2))]
    dsimp only
    split_ifs <;> rfl
  · unfold obsprofile
    dsimp only
    rw [if_neg (fun hc => h (hc.1.trans hc.2).symm), if_neg (fun hc => h1 (hc.1.trans hc.2))]
    dsimp only
    split_ifs <;> rfl

/-- A profile of three altitudes and two temperatures. -/
example : obsprofile (some [0, 1000, 2000]) (some [288, 281]) (some [1.2, 1.1, 1]) none = .error .valueError :=
  (C121_profile [0, 1000, 2000] [288, 281] (some [1.2, 1.1, 1]) none).2.2.1 (by simp)

/-- A profile of one altitude with a pressure but no density: the missing density counts as a column of length one, so
the wrong branch is taken and the complete data are refused with TypeError. -/
theorem C121_single_violated (a t p : ℝ) :
    obsprofile (some [a]) (some [t]) none (some [p]) = .error .typeError := by
  unfold obsprofile
  simp [npSize]

/-! ### Runways -/

/-- The columns of the database that must hold a number (length, width, elevations and headings of both ends). -/
def numericCols : List ℕ := [3, 4, 11, 12, 17, 18]

/-- A database row with an empty or unreadable length, width, elevation or heading: ValueError. -/
theorem C121_runway (parse : String → Option ℝ) (db : List (List String)) (code : String) (n : ℕ) (i : ℕ)
    (row : List String) (hw : ∀ r ∈ db, 3 ≤ r.length) (hi : (rindlst db code).head? = some i)
    (hn : n < (rindlst db code).length) (hr : db[i + n]? = some row) (hl : 20 ≤ row.length)
    (c : ℕ) (hc : c ∈ numericCols) (hbad : (row[c]?).bind parse = none) :
    runwayDb parse db code n = .error .valueError := by
  unfold runwayDb
  rw [if_neg (by simpa using hw)]
  simp only []
  rw [if_neg (by omega)]
  obtain ⟨l, hl'⟩ := List.head?_eq_some_iff.mp hi
  rw [hl']
  simp only []
  have e : pyIndex db ((i : ℤ) + n) = .ok row := by
    unfold pyIndex
    rw [if_pos (by omega), show ((i : ℤ) + n).toNat = i + n by omega, hr]
  rw [e]
  simp only []
  obtain ⟨f, hf⟩ : ∃ f : ℕ → String, ∀ k < 20, row[k]? = some (f k) :=
    ⟨fun k => row.getD k "", fun k hk => by
      have hk' : k < row.length := by omega
      simp [hk']⟩
  have g : ∀ k : ℕ, k < 20 → pyIndex row (k : ℤ) = .ok (f k) := by
    intro k hk
    unfold pyIndex
    rw [if_pos (by omega), show ((k : ℤ)).toNat = k by omega, hf k hk]
  have q : ∀ s, pyFloat parse s = .error .valueError ∨ ∃ x, pyFloat parse s = .ok x := by
    intro s
    unfold pyFloat
    cases parse s
    · left; rfl
    · right; exact ⟨_, rfl⟩
  have hcl : c < 20 := by
    simp only [numericCols, List.mem_cons, List.not_mem_nil, or_false] at hc
    omega
  have hb : pyFloat parse (f c) = .error .valueError := by
    rw [hf c hcl] at hbad
    unfold pyFloat
    rw [show parse (f c) = none from hbad]
  have g0 := g 0 (by norm_num); have g1 := g 1 (by norm_num); have g2 := g 2 (by norm_num)
  have g3 := g 3 (by norm_num); have g4 := g 4 (by norm_num); have g5 := g 5 (by norm_num)
  have g6 := g 6 (by norm_num); have g7 := g 7 (by norm_num); have g8 := g 8 (by norm_num)
  have g9 := g 9 (by norm_num); have g10 := g 10 (by norm_num); have g11 := g 11 (by norm_num)
  have g12 := g 12 (by norm_num); have g13 := g 13 (by norm_num); have g14 := g 14 (by norm_num)
  have g15 := g 15 (by norm_num); have g16 := g 16 (by norm_num); have g17 := g 17 (by norm_num)
  have g18 := g 18 (by norm_num); have g19 := g 19 (by norm_num)
  norm_num at g0 g1 g2 g3 g4 g5 g6 g7 g8 g9 g10 g11 g12 g13 g14 g15 g16 g17 g18 g19
  unfold runwayOfRow
  simp only [g0, g1, g2, g3, g4, g5, g6, g7, g8, g9, g10, g11, g12, g13, g14, g15, g16, g17, g18, g19, bind_ok]
  rcases q (f 3) with h3 | ⟨x3, h3⟩
  · rw [h3]; rfl
  rw [h3, bind_ok]
  rcases q (f 4) with h4 | ⟨x4, h4⟩
  · rw [h4]; rfl
  rw [h4, bind_ok]
  rcases q (f 11) with h11 | ⟨x11, h11⟩
  · rw [h11]; rfl
  rw [h11, bind_ok]
  rcases q (f 12) with h12 | ⟨x12, h12⟩
  · rw [h12]; rfl
  rw [h12, bind_ok]
  rcases q (f 17) with h17 | ⟨x17, h17⟩
  · rw [h17]; rfl
  rw [h17, bind_ok]
  rcases q (f 18) with h18 | ⟨x18, h18⟩
  · rw [h18]; rfl
  exfalso
  simp only [numericCols, List.mem_cons, List.not_mem_nil, or_false] at hc
  rcases hc with rfl | rfl | rfl | rfl | rfl | rfl
  · rw [h3] at hb; cases hb
  · rw [h4] at hb; cases hb
  · rw [h11] at hb; cases hb
  · rw [h12] at hb; cases hb
  · rw [h17] at hb; cases hb
  · rw [h18] at hb; cases hb

/-- The only runway of an airport has no elevation recorded. -/
def ekRow : List String :=
  ["1", "2", "AAAA", "3000", "45", "ASP", "1", "0", "09", "50", "0", "", "90", "", "27", "50", "1", "11", "270", ""]

example : runwayDb (fun s => if s = "" then none else some 1) [ekRow] "AAAA" 0 = .error .valueError :=
  C121_runway _ [ekRow] "AAAA" 0 0 ekRow (by simp [ekRow]) (by simp [rindlst, ekRow]) (by simp [rindlst, ekRow])
    rfl (by simp [ekRow]) 11 (by simp [numericCols]) (by simp [ekRow])

/-! ### Certification categories -/

/-- Any category but the four of the documentation stops the flight envelope and its drawing with ValueError, whatever
else is missing from the brief. -/
theorem C121_category (X : Aircraft.Ext) (o : Airworthiness.Cert)
    (hc : ∀ s ∈ ["norm", "util", "comm", "aero"], o.category ≠ .str s) :
    Airworthiness.flightenvelope X o = .error .valueError ∧ Airworthiness.vnPlot X o = .error .valueError := by
  have k : Airworthiness.parseCat o.category = .error .valueError := by
    unfold Airworthiness.parseCat
    split
    · next h => exact absurd h (hc "norm" (by simp))
    · next h => exact absurd h (hc "util" (by simp))
    · next h => exact absurd h (hc "comm" (by simp))
    · next h => exact absurd h (hc "aero" (by simp))
    · rfl
  have e : Airworthiness.flightenvelope X o = .error .valueError := by
    unfold Airworthiness.flightenvelope
    rw [k]; rfl
  refine ⟨e, ?_⟩
  unfold Airworthiness.vnPlot
  rw [e]; rfl

/-- A complete brief for a category that does not exist: the same aircraft flies in the category `norm`. -/
example (X : Aircraft.Ext) : Airworthiness.flightenvelope X (exFly 9000 1 "glider") = .error .valueError :=
  (C121_category X _ (by
    intro s hs
    simp only [List.mem_cons, List.not_mem_nil, or_false] at hs
    rcases hs with rfl | rfl | rfl | rfl <;> simp [exFly])).1

/-! ### Engine tables -/

open Propulsion in
/-- Queries of a deck that has the table, with arrays of different lengths, neither of length one: ValueError. Without
the table: None whatever the arguments. -/
theorem C121_decks (G : Grid) (xs ys : List ℝ) (hl : xs.length ≠ ys.length) (h1 : xs.length ≠ 1) (h2 : ys.length ≠ 1) :
    (∀ d : TurbopropDeck, flagAt d.avail.out 0 = true → d.thr_data ≠ none →
      d.hotthrust G (.array xs) (.array ys) = .error .valueError) ∧
    (∀ d : TurbopropDeck, flagAt d.avail.out 1 = true → d.pwr_data ≠ none →
      d.shaftpower G (.array xs) (.array ys) = .error .valueError) ∧
    (∀ d : TurbopropDeck, flagAt d.avail.eff 0 = true → d.bsfc_data ≠ none →
      d.bsfc G (.array xs) (.array ys) = .error .valueError) ∧
    (∀ d : PistonDeck, flagAt d.avail.out 0 = true → d.pwr_data ≠ none →
      d.shaftpower G (.array xs) (.array ys) = .error .valueError) ∧
    (∀ d : ElectricDeck, d.shaftpower (.array xs) (.array ys) = .error .valueError) ∧
    (∀ d : JetDeck, flagAt d.avail.out 0 = true → d.thr_data ≠ none →
      d.thrust G (.array xs) (.array ys) = .error .valueError) := by
  have hb : ∀ {γ : Type} (f : ℝ → ℝ → γ), bcast f xs ys = .error .valueError := by
    intro γ f
    unfold bcast
    rw [if_neg hl]
    split
    · simp at h1
    · simp at h2
    · rfl
  have hg : ∀ data, data ≠ none → guarded true data G (.array xs) (.array ys) = .error .valueError := by
    intro data hd
    cases data with
    | none => exact absurd rfl hd
    | some t =>
      unfold guarded
      rw [if_neg (by simp)]
      change (griddata G t (.array xs) (.array ys) >>= _) = _
      unfold griddata
      rw [show bcast (G t) (recastArray (.array xs)) (recastArray (.array ys)) = _ from hb (G t)]
      rfl
  refine ⟨fun d hd hx => ?_, fun d hd hx => ?_, fun d hd hx => ?_, fun d hd hx => ?_, fun d => hb _, fun d hd hx => ?_⟩
  · unfold TurbopropDeck.hotthrust; rw [hd]; exact hg _ hx
  · unfold TurbopropDeck.shaftpower; rw [hd]; exact hg _ hx
  · unfold TurbopropDeck.bsfc; rw [hd]; exact hg _ (by cases h : d.bsfc_data <;> simp_all)
  · unfold PistonDeck.shaftpower; rw [hd]; exact hg _ hx
  · unfold JetDeck.thrust; rw [hd]; exact hg _ hx

open Propulsion in
/-- A jet deck with a thrust table, three Mach numbers and two altitudes. -/
example (G : Grid) : (⟨⟨[true], [false], false, false⟩, some [(some 0.1, some 0, some 1000)], none, none, none⟩ : JetDeck).thrust G
    (.array [0.1, 0.2, 0.3]) (.array [0, 1000]) = .error .valueError :=
  (C121_decks G [0.1, 0.2, 0.3] [0, 1000] (by simp) (by simp) (by simp)).2.2.2.2.2 _ rfl (by simp)

end

end Verif.Props
