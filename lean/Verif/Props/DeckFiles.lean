import Verif.Model.DeckFiles
import Verif.Props.DeckPlots2

/-
Polynomial files (C114) and the printed list of engine data (C115).
-/

namespace Verif.Propulsion

open Verif

noncomputable section

/-- A field of a csv file: no separator, line end or byte order mark. -/
def Field (s : List Char) : Prop := ',' ∉ s ∧ '\n' ∉ s ∧ '\r' ∉ s ∧ '\ufeff' ∉ s

/-- Fields joined by commas. -/
def csvLine : List (List Char) → List Char
  | [] => []
  | [s] => s
  | s :: t => s ++ ',' :: csvLine t

/-- The line ends of the usual systems. -/
def LineEnd (e : List Char) : Prop := e = ['\n'] ∨ e = ['\r', '\n'] ∨ e = ['\r']

theorem split_none {sep : Char} : ∀ {s : List Char}, sep ∉ s → pySplit sep s = [s]
  | [], _ => rfl
  | c :: s, h => by
    rw [List.mem_cons, not_or] at h
    rw [pySplit, if_neg (fun e => h.1 e.symm), split_none h.2]

theorem split_at {sep : Char} : ∀ {s : List Char} (t : List Char), sep ∉ s → pySplit sep (s ++ sep :: t) = s :: pySplit sep t
  | [], t, _ => by rw [List.nil_append, pySplit, if_pos rfl]
  | c :: s, t, h => by
    rw [List.mem_cons, not_or] at h
    rw [List.cons_append, pySplit, if_neg (fun e => h.1 e.symm), split_at t h.2]

theorem split_csv : ∀ {fs : List (List Char)}, fs ≠ [] → (∀ f ∈ fs, Field f) → pySplit ',' (csvLine fs) = fs
  | [], h, _ => absurd rfl h
  | [s], _, h => split_none (h s (by simp)).1
  | s :: t :: l, _, h => by
    show pySplit ',' (s ++ ',' :: csvLine (t :: l)) = _
    rw [split_at _ (h s (by simp)).1, split_csv (by simp) (fun f hf => h f (List.mem_cons_of_mem _ hf))]

theorem csv_clean (c : Char) (hc : c ≠ ',') : ∀ {fs : List (List Char)}, (∀ f ∈ fs, c ∉ f) → c ∉ csvLine fs
  | [], _ => by simp [csvLine]
  | [s], h => h s (by simp)
  | s :: t :: l, h => by
    show c ∉ s ++ ',' :: csvLine (t :: l)
    rw [List.mem_append, List.mem_cons, not_or, not_or]
    exact ⟨h s (by simp), hc, csv_clean c hc (fun f hf => h f (List.mem_cons_of_mem _ hf))⟩

theorem newlines_clean : ∀ {s : List Char} (t : List Char), '\r' ∉ s → newlines (s ++ t) = s ++ newlines t
  | [], _, _ => rfl
  | c :: s, t, h => by
    rw [List.mem_cons, not_or] at h
    have ih := newlines_clean t h.2
    rw [List.cons_append, newlines, ih, List.cons_append]
    · intro s' exNum_e1 exNum_e2; exact h.1 exNum_e1.symm
    · intro exNum_e1; exact h.1 exNum_e1.symm

theorem newlines_end {e : List Char} (he : LineEnd e) (t : List Char) (ht : e = ['\r'] → t.head? ≠ some '\n') :
    newlines (e ++ t) = '\n' :: newlines t := by
  rcases he with rfl | rfl | rfl
  · rw [List.cons_append, List.nil_append, newlines]
    · intro _ e _; exact absurd e (by decide)
    · intro e; exact absurd e (by decide)
  · rw [List.cons_append, List.cons_append, List.nil_append, newlines]
  · match t, ht rfl with
    | [], _ => rfl
    | c :: t, h =>
      rw [List.cons_append, List.nil_append, newlines]
      intro s' e; injection e with exNum_e1 _; rw [exNum_e1] at h; exact h rfl

theorem bom_none {s t : List Char} (hs : '\ufeff' ∉ s) (ht : t.head? ≠ some '\ufeff') : dropBom (s ++ t) = s ++ t := by
  match s, t with
  | [], [] => rfl
  | [], c :: t =>
    rw [List.nil_append, dropBom]
    intro s' e; injection e with exNum_e1 _; rw [exNum_e1] at ht; exact ht rfl
  | c :: s, t =>
    rw [List.cons_append, dropBom]
    intro s' e; injection e with exNum_e1 _; rw [exNum_e1] at hs; exact hs (by simp)

theorem mapM_ok {α β : Type} (f : α → PyM β) : ∀ {l : List α} {m : List β}, List.Forall₂ (fun a b => f a = .ok b) l m → l.mapM f = .ok m
  | [], [], _ => rfl
  | a :: l, b :: m, h => by
    cases h with
    | cons h1 h2 =>
      rw [List.mapM_cons, h1, bind_ok, mapM_ok f h2]; rfl

/-- The first failure counts. -/
theorem mapM_error {α β : Type} (f : α → PyM β) (e : PyErr) : ∀ {l : List α} {m : List β} (a : α) (r : List α),
    List.Forall₂ (fun a b => f a = .ok b) l m → f a = .error e → (l ++ a :: r).mapM f = .error e
  | [], [], a, r, _, h => by rw [List.nil_append, List.mapM_cons, h]; rfl
  | x :: l, y :: m, a, r, h, he => by
    cases h with
    | cons h1 h2 =>
      rw [List.cons_append, List.mapM_cons, h1, bind_ok, mapM_error f e a r h2 he]; rfl

/-- What is read of a file: the two lines. -/
theorem poly_lines (num : List Char → PyM ℝ) (bom eol rest : List Char) (cf lf : List (List Char)) (hb : bom = [] ∨ bom = ['\ufeff']) (he : LineEnd eol)
    (hr : rest = [] ∨ ∃ more, rest = eol ++ more) (hc : cf ≠ []) (hcf : ∀ f ∈ cf, Field f) (hl : lf ≠ []) (hlf : ∀ f ∈ lf, Field f) :
    polyProcess num (bom ++ csvLine cf ++ eol ++ csvLine lf ++ rest) = (do
      let cs ← cf.mapM num
      let ls ← (lf.filter (fun l => l.length ≠ 0)).mapM num
      pure (cs, ls)) := by
  have hn0 : '\n' ∉ csvLine cf := csv_clean _ (by decide) (fun f hf => (hcf f hf).2.1)
  have hr0 : '\r' ∉ csvLine cf := csv_clean _ (by decide) (fun f hf => (hcf f hf).2.2.1)
  have hb0 : '\ufeff' ∉ csvLine cf := csv_clean _ (by decide) (fun f hf => (hcf f hf).2.2.2)
  have hn1 : '\n' ∉ csvLine lf := csv_clean _ (by decide) (fun f hf => (hlf f hf).2.1)
  have hr1 : '\r' ∉ csvLine lf := csv_clean _ (by decide) (fun f hf => (hlf f hf).2.2.1)
  have d : dropBom (bom ++ csvLine cf ++ eol ++ csvLine lf ++ rest) = csvLine cf ++ (eol ++ (csvLine lf ++ rest)) := by
    have e : bom ++ csvLine cf ++ eol ++ csvLine lf ++ rest = bom ++ (csvLine cf ++ (eol ++ (csvLine lf ++ rest))) := by simp
    rw [e]
    rcases hb with rfl | rfl
    · rw [List.nil_append]
      refine bom_none hb0 ?_
      rcases he with rfl | rfl | rfl <;> simp
    · rfl
  have h0 : eol = ['\r'] → (csvLine lf ++ rest).head? ≠ some '\n' := by
    intro h
    cases hx : csvLine lf with
    | nil =>
      rcases hr with rfl | ⟨more, rfl⟩
      · simp
      · rw [h]; simp
    | cons c t =>
      intro hc2
      have : c = '\n' := by simpa using hc2
      rw [hx, this] at hn1
      exact hn1 (by simp)
  have lines : pySplit '\n' (newlines (dropBom (bom ++ csvLine cf ++ eol ++ csvLine lf ++ rest))) =
      csvLine cf :: pySplit '\n' (csvLine lf ++ newlines rest) := by
    rw [d, newlines_clean _ hr0, newlines_end he _ h0, newlines_clean _ hr1, split_at _ hn0]
  have l2 : ∃ tl, pySplit '\n' (csvLine lf ++ newlines rest) = csvLine lf :: tl := by
    rcases hr with rfl | ⟨more, rfl⟩
    · exact ⟨[], by rw [newlines, List.append_nil]; exact split_none hn1⟩
    · have : ∃ t', newlines (eol ++ more) = '\n' :: t' := by
        rcases he with rfl | rfl | rfl
        · exact ⟨_, newlines_end (Or.inl rfl) _ (fun h => absurd h (by decide))⟩
        · exact ⟨_, newlines_end (Or.inr (Or.inl rfl)) _ (fun h => absurd h (by decide))⟩
        · by_cases hm : more.head? = some '\n'
          · match more, hm with
            | c :: m, hm =>
              have : c = '\n' := by simpa using hm
              subst this
              exact ⟨newlines m, by rw [List.cons_append, List.nil_append, newlines]⟩
          · exact ⟨_, newlines_end (Or.inr (Or.inr rfl)) _ (fun _ => hm)⟩
      obtain ⟨t', ht'⟩ := this
      exact ⟨_, by rw [ht']; exact split_at _ hn1⟩
  obtain ⟨tl, l2⟩ := l2
  unfold polyProcess
  dsimp only
  rw [lines, l2]
  simp only [getIdx, List.getElem?_cons_zero, List.getElem?_cons_succ, bind_ok]
  rw [split_csv hc hcf, split_csv hl hlf]

/-- A file with the coefficients on its first line and the limits on its second is read as written: with or without a byte order mark, with any of
the usual line ends, whatever lines follow, and with any number of empty fields on the line of the limits. -/
theorem C114_read (num : List Char → PyM ℝ) (bom eol rest : List Char) (cf lf : List (List Char)) (cs ls : List ℝ) (hb : bom = [] ∨ bom = ['\ufeff'])
    (he : LineEnd eol) (hr : rest = [] ∨ ∃ more, rest = eol ++ more) (hc : cf ≠ []) (hcf : ∀ f ∈ cf, Field f) (hl : lf ≠ []) (hlf : ∀ f ∈ lf, Field f)
    (hcs : List.Forall₂ (fun f x => num f = .ok x) cf cs) (hls : List.Forall₂ (fun f x => num f = .ok x) (lf.filter (fun f => f ≠ [])) ls) :
    polyProcess num (bom ++ csvLine cf ++ eol ++ csvLine lf ++ rest) = .ok (cs, ls) := by
  rw [poly_lines num bom eol rest cf lf hb he hr hc hcf hl hlf, mapM_ok num hcs, bind_ok]
  rw [show lf.filter (fun l => l.length ≠ 0) = lf.filter (fun f => f ≠ []) from List.filter_congr (fun f _ => by cases f <;> simp), mapM_ok num hls]
  rfl

/-- Files that are not read: an unreadable coefficient field (also an empty one, where `float` raises) or an unreadable limit raises the error of
`float`; a single line raises IndexError. -/
theorem C114_errors (num : List Char → PyM ℝ) (bom eol rest : List Char) (good tail lf : List (List Char)) (bad : List Char) (cs : List ℝ) (e : PyErr)
    (hb : bom = [] ∨ bom = ['\ufeff']) (he : LineEnd eol) (hr : rest = [] ∨ ∃ more, rest = eol ++ more)
    (hcs : List.Forall₂ (fun f x => num f = .ok x) good cs) (hbad : num bad = .error e) (hg : ∀ f ∈ good ++ bad :: tail, Field f) (hl : lf ≠ [])
    (hlf : ∀ f ∈ lf, Field f) :
    polyProcess num (bom ++ csvLine (good ++ bad :: tail) ++ eol ++ csvLine lf ++ rest) = .error e ∧
    (∀ (cf : List (List Char)) (ds : List ℝ), cf ≠ [] → (∀ f ∈ cf, Field f) → List.Forall₂ (fun f x => num f = .ok x) cf ds → bad ≠ [] → [] ∉ good →
      polyProcess num (bom ++ csvLine cf ++ eol ++ csvLine (good ++ bad :: tail) ++ rest) = .error e ∧
      polyProcess num (bom ++ csvLine cf) = .error .indexError) := by
  refine ⟨?_, fun cf ds hc hcf hds hne hng => ⟨?_, ?_⟩⟩
  · rw [poly_lines num bom eol rest _ lf hb he hr (by simp) hg hl hlf, mapM_error num e bad tail hcs hbad]; rfl
  · rw [poly_lines num bom eol rest cf _ hb he hr hc hcf (by simp) hg, mapM_ok num hds, bind_ok]
    have fg : good.filter (fun l => l.length ≠ 0) = good := by
      rw [List.filter_eq_self]
      intro f hf
      cases f with
      | nil => exact absurd hf hng
      | cons c f => simp
    have fb : (bad :: tail).filter (fun l => l.length ≠ 0) = bad :: tail.filter (fun l => l.length ≠ 0) := by
      rw [List.filter_cons_of_pos]
      cases bad with
      | nil => exact absurd rfl hne
      | cons c f => simp
    rw [List.filter_append, fg, fb, mapM_error num e bad _ hcs hbad]; rfl
  · have hn0 : '\n' ∉ csvLine cf := csv_clean _ (by decide) (fun f hf => (hcf f hf).2.1)
    have hr0 : '\r' ∉ csvLine cf := csv_clean _ (by decide) (fun f hf => (hcf f hf).2.2.1)
    have hb0 : '\ufeff' ∉ csvLine cf := csv_clean _ (by decide) (fun f hf => (hcf f hf).2.2.2)
    have d : dropBom (bom ++ csvLine cf) = csvLine cf := by
      rcases hb with rfl | rfl
      · have := bom_none (t := []) hb0 (by simp)
        rwa [List.append_nil] at this
      · rfl
    have n : newlines (csvLine cf) = csvLine cf := by
      have := newlines_clean [] hr0
      rwa [List.append_nil, newlines, List.append_nil] at this
    unfold polyProcess
    dsimp only
    rw [d, n, split_none hn0]
    simp only [getIdx, List.getElem?_cons_zero, List.getElem?_cons_succ, List.getElem?_nil, bind_ok]
    rw [split_csv hc hcf, mapM_ok num hds]; rfl

/-- Conversion of the six strings of the example. -/
def exNum (s : List Char) : PyM ℝ :=
  if s = "32223.1".toList then .ok 32223.1 else if s = "139.2".toList then .ok 139.2 else if s = "-2386.2".toList then .ok (-2386.2)
  else if s = "0".toList then .ok 0 else if s = "0.95".toList then .ok 0.95 else .error .valueError

theorem exNum_e1 : exNum "32223.1".toList = .ok 32223.1 := by unfold exNum; rw [if_pos rfl]
theorem exNum_e2 : exNum "139.2".toList = .ok 139.2 := by unfold exNum; rw [if_neg (by decide), if_pos rfl]
theorem exNum_e4 : exNum "0".toList = .ok 0 := by unfold exNum; rw [if_neg (by decide), if_neg (by decide), if_neg (by decide), if_pos rfl]
theorem exNum_e5 : exNum "0.95".toList = .ok 0.95 := by
  unfold exNum; rw [if_neg (by decide), if_neg (by decide), if_neg (by decide), if_neg (by decide), if_pos rfl]

theorem exNum_clean (l : List (List Char)) (hl : (l.all fun f => !f.contains ',' && !f.contains '\n' && !f.contains '\r' && !f.contains '\ufeff') = true) :
    ∀ f ∈ l, Field f := by
  intro f hf
  rw [List.all_eq_true] at hl
  have := hl f hf
  simpa [Field, and_assoc] using this

/-- A file like those of the package: padded with commas, lines ended by carriage return and line feed, with a byte order mark; and a file whose
coefficients are padded instead, which is not read. -/
example : polyProcess exNum "\ufeff32223.1,139.2,-2386.2\r\n0,0.95,,,\r\n".toList = .ok ([32223.1, 139.2, -2386.2], [0, 0.95]) ∧
    polyProcess exNum "32223.1,,\n0,0.95,0\n".toList = .error .valueError ∧ polyProcess exNum "32223.1,139.2".toList = .error .indexError := by
  have e3 : exNum "-2386.2".toList = .ok (-2386.2) := by unfold exNum; rw [if_neg (by decide), if_neg (by decide), if_pos rfl]
  have e6 : exNum [] = .error .valueError := by
    unfold exNum; rw [if_neg (by decide), if_neg (by decide), if_neg (by decide), if_neg (by decide), if_neg (by decide)]
  refine ⟨?_, ?_, ?_⟩
  · have := C114_read exNum ['\ufeff'] ['\r', '\n'] ['\r', '\n'] ["32223.1".toList, "139.2".toList, "-2386.2".toList] ["0".toList, "0.95".toList, [], [], []]
      [32223.1, 139.2, -2386.2] [0, 0.95] (Or.inr rfl) (Or.inr (Or.inl rfl)) (Or.inr ⟨[], rfl⟩) (by simp) (exNum_clean _ (by decide)) (by simp) (exNum_clean _ (by decide))
      (.cons exNum_e1 (.cons exNum_e2 (.cons e3 .nil))) (.cons exNum_e4 (.cons exNum_e5 .nil))
    exact this
  · have := (C114_errors exNum [] ['\n'] ['\n'] ["32223.1".toList] [[]] ["0".toList, "0.95".toList, "0".toList] [] [32223.1] .valueError (Or.inl rfl)
      (Or.inl rfl) (Or.inr ⟨[], rfl⟩) (.cons exNum_e1 .nil) e6 (exNum_clean _ (by decide)) (by simp) (exNum_clean _ (by decide))).1
    exact this
  · have := ((C114_errors exNum [] ['\n'] [] [] [] [[]] "x".toList [] .valueError (Or.inl rfl)
      (Or.inl rfl) (Or.inl rfl) .nil (by
        unfold exNum; rw [if_neg (by decide), if_neg (by decide), if_neg (by decide), if_neg (by decide), if_neg (by decide)]) (exNum_clean _ (by decide)) (by simp)
      (exNum_clean _ (by decide))).2 ["32223.1".toList, "139.2".toList] [32223.1, 139.2] (by simp) (exNum_clean _ (by decide)) (.cons exNum_e1 (.cons exNum_e2 .nil)) (by decide)
      (by simp)).2
    exact this

/-- From the characters of the file to the thrust: the sea-level thrust of a jet deck whose directory has one file of that kind for the engine is the
polynomial with the coefficients of its first line, between the limits of its second line, and None outside. -/
theorem C114_deck (listing : List String) (csv : String → Frame) (num : List Char → PyM ℝ) (text : String → List Char) (name : String) (d : JetDeck)
    (h : mkJet (textDir listing csv num text) name = .ok d) (f : String) (hf : f ∈ listing) (hn : Occurs name.toList f.toList)
    (hs : Occurs "sea_level_thrust_polynomial.csv".toList (f.toList.map Char.toLower))
    (hu : ∀ g ∈ listing, Occurs name.toList g.toList → Occurs "sea_level_thrust_polynomial.csv".toList (g.toList.map Char.toLower) → g = f)
    (bom eol rest : List Char) (cf lf : List (List Char)) (cs : List ℝ) (lo hi : ℝ) (hb : bom = [] ∨ bom = ['\ufeff'])
    (he : LineEnd eol) (hr : rest = [] ∨ ∃ more, rest = eol ++ more) (hc : cf ≠ []) (hcf : ∀ f ∈ cf, Field f) (hl : lf ≠ []) (hlf : ∀ f ∈ lf, Field f)
    (hcs : List.Forall₂ (fun f x => num f = .ok x) cf cs) (hls : List.Forall₂ (fun f x => num f = .ok x) (lf.filter (fun f => f ≠ [])) [lo, hi])
    (ht : text f = bom ++ csvLine cf ++ eol ++ csvLine lf ++ rest) (x : ℝ) :
    (lo ≤ x → x ≤ hi → d.sl_thrust (.num x) = .ok (some [polySum cs x])) ∧ (x < lo ∨ hi < x → d.sl_thrust (.num x) = .ok none) := by
  obtain ⟨h1, p, h2, h3⟩ := C65_built (textDir listing csv num text) name d h f hf hn hs hu
  have : polyProcess num (text f) = .ok p := h2
  rw [ht, C114_read num bom eol rest cf lf cs [lo, hi] hb he hr hc hcf hl hlf hcs hls] at this
  rw [← Except.ok.inj this] at h3
  exact (C65_range d cs [] lo hi x).1 h1 h3

/-- The directory with only such a file. -/
example : ∃ d, mkJet (textDir ["J52_Sea_level_thrust_polynomial.csv"] (fun _ => []) exNum
    (fun _ => "32223.1,139.2\n0,0.95,,\n".toList)) "J52" = .ok d ∧ d.sl_thrust (.num 0.5) = .ok (some [32292.7]) := by
  have hr : polyProcess exNum "32223.1,139.2\n0,0.95,,\n".toList = .ok ([32223.1, 139.2], [0, 0.95]) :=
    C114_read exNum [] ['\n'] ['\n'] ["32223.1".toList, "139.2".toList] ["0".toList, "0.95".toList, [], []] [32223.1, 139.2] [0, 0.95]
      (Or.inl rfl) (Or.inl rfl) (Or.inr ⟨[], rfl⟩) (by simp) (exNum_clean _ (by decide)) (by simp) (exNum_clean _ (by decide))
      (.cons exNum_e1 (.cons exNum_e2 .nil)) (.cons exNum_e4 (.cons exNum_e5 .nil))
  obtain ⟨D, hD⟩ : ∃ D, D = textDir ["J52_Sea_level_thrust_polynomial.csv"] (fun _ => []) exNum (fun _ => "32223.1,139.2\n0,0.95,,\n".toList) := ⟨_, rfl⟩
  have hdeck : ∃ d, mkJet D "J52" = .ok d := by
    have hf : engineFiles "J52" D.listing = ["J52_Sea_level_thrust_polynomial.csv"] := by rw [hD]; decide
    unfold mkJet
    rw [(setup_ok D "J52" ["thrust"] ["tsfc"] _).mpr ⟨fun _ _ _ => by rw [hD]; exact ⟨_, hr⟩, rfl⟩, bind_ok, hf]
    have av : (closedSetup D ["thrust"] ["tsfc"] ["J52_Sea_level_thrust_polynomial.csv"]).avail = ⟨[false], [false], true, false⟩ := by
      unfold closedSetup; dsimp only; decide
    rw [av]
    exact ⟨_, rfl⟩
  obtain ⟨d, hd⟩ := hdeck
  rw [← hD]
  refine ⟨d, hd, ?_⟩
  rw [hD] at hd
  have := (C114_deck _ _ _ _ _ d hd "J52_Sea_level_thrust_polynomial.csv" (by simp) ((pyIn_iff _ _).mp (by decide)) ((pyIn_iff _ _).mp (by decide))
    (fun g hg _ _ => by simpa using hg) [] ['\n'] ['\n'] ["32223.1".toList, "139.2".toList] ["0".toList, "0.95".toList, [], []] [32223.1, 139.2] 0 0.95
    (Or.inl rfl) (Or.inl rfl) (Or.inr ⟨[], rfl⟩) (by simp) (exNum_clean _ (by decide)) (by simp) (exNum_clean _ (by decide))
    (.cons exNum_e1 (.cons exNum_e2 .nil)) (.cons exNum_e4 (.cons exNum_e5 .nil)) rfl 0.5).1 (by norm_num) (by norm_num)
  rw [this]
  have : polySum [32223.1, 139.2] 0.5 = 32292.7 := by
    unfold polySum
    refine (Fin.sum_univ_two (fun i : Fin 2 => [32223.1, 139.2][i] * (0.5 : ℝ) ^ (i : ℕ))).trans ?_
    norm_num
  rw [this]


end

end Verif.Propulsion
