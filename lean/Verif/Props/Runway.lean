import Verif.Lemmas.PyM
import Verif.Model.Runway
import Verif.Lemmas.Tac

/-
Property C10: runway lookup.
-/

namespace Verif.Props
open Verif.Atmos Verif.Units

noncomputable section

/-- The airport code of row `i` of a database (third field), if there is one. -/
def codeAt (db : List (List String)) (i : ℕ) : Option String := db[i]?.bind (fun r => r[2]?)

/-- The rows of the airport stand next to each other. -/
def Contiguous (db : List (List String)) (code : String) : Prop :=
  ∀ i j k, i ≤ j → j ≤ k → codeAt db i = some code → codeAt db k = some code → codeAt db j = some code

/-- All rows have at least the three leading fields. -/
def Wide (db : List (List String)) : Prop := ∀ r ∈ db, 3 ≤ r.length

/-- Number of rows with the code. -/
def count (db : List (List String)) (code : String) : ℕ :=
  db.countP (fun r => decide (r[2]? = some code))

theorem mem_rindlst (db : List (List String)) (code : String) (i : ℕ) :
    i ∈ rindlst db code ↔ codeAt db i = some code := by
  unfold rindlst codeAt
  rw [List.mem_filter, List.mem_range]
  constructor
  · rintro ⟨_, h⟩; simpa using h
  · intro h
    refine ⟨?_, by simpa using h⟩
    by_contra hc
    rw [List.getElem?_eq_none (by omega)] at h
    simp at h

theorem rindlst_sorted (db : List (List String)) (code : String) :
    (rindlst db code).Pairwise (· < ·) :=
  List.Pairwise.filter _ List.pairwise_lt_range

theorem rindlst_length (db : List (List String)) (code : String) :
    (rindlst db code).length = count db code := by
  unfold rindlst count
  rw [← List.countP_eq_length_filter]
  induction db using List.reverseRecOn with
  | nil => simp
  | append_singleton l r ih =>
    rw [List.length_append, List.length_singleton, List.range_succ, List.countP_append, List.countP_append]
    congr 1
    · rw [← ih]
      apply List.countP_congr
      intro i hi
      rw [List.mem_range] at hi
      rw [List.getElem?_append_left hi]
    · simp

theorem nth_ge (l : List ℕ) (hs : l.Pairwise (· < ·)) (f : ℕ) (t : List ℕ) (hl : l = f :: t) (m : ℕ)
    (hm : m < l.length) : f + m ≤ l[m] := by
  induction m with
  | zero => simp [hl]
  | succ m ih =>
    have := ih (by omega)
    have h2 := (List.pairwise_iff_getElem.mp hs) m (m + 1) (by omega) hm (by omega)
    omega

/-- Consecutive elements: a sorted list of indices that is contiguous lists first, first+1, ... -/
theorem contiguous_nth (l : List ℕ) (hs : l.Pairwise (· < ·)) (hc : ∀ i ∈ l, ∀ k ∈ l, ∀ j, i ≤ j → j ≤ k → j ∈ l)
    (f : ℕ) (t : List ℕ) (hl : l = f :: t) (n : ℕ) (hn : n < l.length) : f + n ∈ l :=
  hc f (by simp [hl]) l[n] (List.getElem_mem _) (f + n) (by omega) (nth_ge l hs f t hl n hn)

theorem pyIndex_ok_iff {α : Type} {l : List α} {k : ℕ} {x : α} :
    pyIndex l (k : ℤ) = .ok x ↔ l[k]? = some x := by
  unfold pyIndex
  rw [if_pos (by omega)]
  simp only [Int.toNat_natCast]
  cases l[k]? <;> simp

theorem pyFloat_ok_iff {parse : String → Option ℝ} {s : String} {x : ℝ} :
    pyFloat parse s = .ok x ↔ parse s = some x := by
  unfold pyFloat
  cases parse s <;> simp

/-- What the attributes of a runway say about the row they come from. -/
def FromRow (parse : String → Option ℝ) (row : List String) (r : Runway) : Prop :=
  row[0]? = some r.ident ∧ row[1]? = some r.airport_ref ∧ row[2]? = some r.airport_ident ∧
  (∃ s, row[3]? = some s ∧ parse s = some r.length_ft) ∧
  (∃ s, row[4]? = some s ∧ parse s = some r.width_ft) ∧
  row[5]? = some r.surface ∧ (∃ s, row[6]? = some s ∧ r.lighted = .str s) ∧
  (∃ s, row[7]? = some s ∧ r.closed = .str s) ∧
  row[8]? = some r.le_ident ∧ (∃ s, row[9]? = some s ∧ r.le_latitude_deg = .str s) ∧
  (∃ s, row[10]? = some s ∧ r.le_longitude_deg = .str s) ∧
  (∃ s, row[11]? = some s ∧ parse s = some r.le_elevation_ft) ∧
  (∃ s, row[12]? = some s ∧ parse s = some r.le_heading_degt) ∧
  (∃ s, row[13]? = some s ∧ parse s = r.le_displaced_threshold_ft) ∧
  row[14]? = some r.he_ident ∧ (∃ s, row[15]? = some s ∧ r.he_latitude_deg = .str s) ∧
  (∃ s, row[16]? = some s ∧ r.he_longitude_deg = .str s) ∧
  (∃ s, row[17]? = some s ∧ parse s = some r.he_elevation_ft) ∧
  (∃ s, row[18]? = some s ∧ parse s = some r.he_heading_degt) ∧
  (∃ s, row[19]? = some s ∧ parse s = r.he_displaced_threshold_ft) ∧
  r.length_m = r.length_ft * 0.3048 ∧ r.width_m = r.width_ft * 0.3048 ∧
  r.le_elevation_m = r.le_elevation_ft * 0.3048 ∧ r.he_elevation_m = r.he_elevation_ft * 0.3048 ∧
  r.le_displaced_threshold_m = r.le_displaced_threshold_ft.map (· * 0.3048) ∧
  r.he_displaced_threshold_m = r.he_displaced_threshold_ft.map (· * 0.3048)

theorem runwayOfRow_ok {parse : String → Option ℝ} {k : ℕ} {row : List String} {r : Runway}
    (h : runwayOfRow parse k row = .ok r) : r.nrways = some k ∧ FromRow parse row r := by
  unfold runwayOfRow at h
  rw [show (0:ℤ) = ((0:ℕ):ℤ) from rfl, show (1:ℤ) = ((1:ℕ):ℤ) from rfl, show (2:ℤ) = ((2:ℕ):ℤ) from rfl,
    show (3:ℤ) = ((3:ℕ):ℤ) from rfl,
    show (4:ℤ) = ((4:ℕ):ℤ) from rfl,
    show (5:ℤ) = ((5:ℕ):ℤ) from rfl,
    show (6:ℤ) = ((6:ℕ):ℤ) from rfl,
    show (7:ℤ) = ((7:ℕ):ℤ) from rfl,
    show (8:ℤ) = ((8:ℕ):ℤ) from rfl,
    show (9:ℤ) = ((9:ℕ):ℤ) from rfl,
    show (10:ℤ) = ((10:ℕ):ℤ) from rfl,
    show (11:ℤ) = ((11:ℕ):ℤ) from rfl,
    show (12:ℤ) = ((12:ℕ):ℤ) from rfl,
    show (13:ℤ) = ((13:ℕ):ℤ) from rfl,
    show (14:ℤ) = ((14:ℕ):ℤ) from rfl,
    show (15:ℤ) = ((15:ℕ):ℤ) from rfl,
    show (16:ℤ) = ((16:ℕ):ℤ) from rfl,
    show (17:ℤ) = ((17:ℕ):ℤ) from rfl,
    show (18:ℤ) = ((18:ℕ):ℤ) from rfl,
    show (19:ℤ) = ((19:ℕ):ℤ) from rfl] at h
  simp only [bind_ok_iff, pyIndex_ok_iff, pyFloat_ok_iff] at h
  obtain ⟨s0, h0, s1, h1, s2, h2, s3, h3, v3, p3, s4, h4, v4, p4, s5, h5, s6, h6, s7, h7, s8, h8, s9, h9, s10, h10, s11, h11, v11, p11, s12, h12, v12, p12, s13, h13, s14, h14, s15, h15, s16, h16, s17, h17, v17, p17, s18, h18, v18, p18, s19, h19, hr⟩ := h
  cases hr
  exact ⟨rfl, h0, h1, h2, ⟨_, h3, p3⟩, ⟨_, h4, p4⟩, h5, ⟨_, h6, rfl⟩, ⟨_, h7, rfl⟩, h8, ⟨_, h9, rfl⟩,
    ⟨_, h10, rfl⟩, ⟨_, h11, p11⟩, ⟨_, h12, p12⟩, ⟨_, h13, rfl⟩, h14, ⟨_, h15, rfl⟩, ⟨_, h16, rfl⟩,
    ⟨_, h17, p17⟩, ⟨_, h18, p18⟩, ⟨_, h19, rfl⟩, rfl, rfl, rfl, rfl, rfl, rfl⟩

/-- A nonnegative request succeeds only if the number is below the number of rows with that code; the
result reports that number and every attribute comes from a row of this airport, which is the row with
exactly `n` rows of the airport before it (the airport's rows start at index `f`), provided the
airport's rows are contiguous. -/
theorem C10_lookup (parse : String → Option ℝ) (db : List (List String)) (code : String) (n : ℕ) (r : Runway)
    (hc : Contiguous db code) (h : runwayDb parse db code n = .ok r) :
    n < count db code ∧ r.nrways = some (count db code) ∧ r.airport_ident = code ∧
    ∃ (f : ℕ) (row : List String), (∀ i, codeAt db i = some code → f ≤ i) ∧
      (∀ j, j ≤ n → codeAt db (f + j) = some code) ∧
      db[f + n]? = some row ∧ FromRow parse row r := by
  unfold runwayDb at h
  split_ifs at h with hw
  simp only at h
  split_ifs at h with hn
  cases hl : rindlst db code with
  | nil => rw [hl] at h; cases h
  | cons f t =>
    rw [hl] at h
    simp only at h
    rw [show ((f:ℤ) + (n:ℤ)) = ((f + n : ℕ) : ℤ) by push_cast; rfl] at h
    cases hp : pyIndex db ((f + n : ℕ) : ℤ) with
    | error e => rw [hp] at h; cases h
    | ok row =>
      rw [hp] at h
      simp only at h
      rw [pyIndex_ok_iff] at hp
      obtain ⟨g1, g2⟩ := runwayOfRow_ok h
      have hlen : n < (rindlst db code).length := by omega
      rw [rindlst_length] at hlen
      have hmem : ∀ j, j ≤ n → codeAt db (f + j) = some code := by
        intro j hj
        rw [← mem_rindlst]
        refine contiguous_nth _ (rindlst_sorted db code) ?_ f t hl j (by rw [rindlst_length]; omega)
        intro i hi k hk j hij hjk
        rw [mem_rindlst] at *
        exact hc i j k hij hjk hi hk
      have hcode := hmem n le_rfl
      have h2 : row[2]? = some code := by
        unfold codeAt at hcode; rw [hp] at hcode; simpa using hcode
      refine ⟨hlen, ?_, ?_, f, row, ?_, hmem, hp, g2⟩
      · rw [g1, ← hl, rindlst_length]
      · have := g2.2.2.1
        rw [h2] at this
        exact (Option.some.inj this).symm
      · intro i hi
        rw [← mem_rindlst, hl] at hi
        have hs := rindlst_sorted db code
        rw [hl, List.pairwise_cons] at hs
        rcases List.mem_cons.mp hi with rfl | hi
        · exact le_rfl
        · exact (hs.1 i hi).le

/-- A number at or above the number of the airport's rows raises ValueError; in particular every
nonnegative number for a code that does not occur. -/
theorem C10_too_large (parse : String → Option ℝ) (db : List (List String)) (code : String) (n : ℤ)
    (hw : Wide db) (hn : (count db code : ℤ) ≤ n) : runwayDb parse db code n = .error .valueError := by
  unfold runwayDb
  rw [if_neg]
  · simp only
    rw [if_pos]
    rw [rindlst_length]; omega
  · simp only [List.any_eq_true, decide_eq_true_eq, not_exists, not_and, not_lt]
    exact hw

/-- Conversely, a request in range for an airport with contiguous rows of 20 or more fields, whose
numeric fields are numbers, succeeds. -/
theorem C10_succeeds (parse : String → Option ℝ) (db : List (List String)) (code : String) (n : ℕ)
    (hw : ∀ r ∈ db, 20 ≤ r.length) (hn : n < count db code)
    (hp : ∀ r ∈ db, ∀ i ∈ [3, 4, 11, 12, 17, 18], ∀ s, r[i]? = some s → ∃ x, parse s = some x) :
    ∃ r, runwayDb parse db code n = .ok r := by
  rw [← rindlst_length] at hn
  have hne : rindlst db code ≠ [] := by intro h; rw [h] at hn; simp at hn
  obtain ⟨f, t, hl⟩ := List.exists_cons_of_ne_nil hne
  have hge := nth_ge _ (rindlst_sorted db code) f t hl n hn
  have hmem := (mem_rindlst db code _).mp (List.getElem_mem hn)
  have hlt : f + n < db.length := by
    by_contra hc
    unfold codeAt at hmem
    rw [List.getElem?_eq_none (by omega)] at hmem
    simp at hmem
  have hrow : db[f + n] ∈ db := List.getElem_mem hlt
  have hlen := hw _ hrow
  have hpr := hp _ hrow
  have hpi : pyIndex db ((f + n : ℕ) : ℤ) = .ok db[f + n] := by
    rw [pyIndex_ok_iff]; exact List.getElem?_eq_getElem hlt
  generalize db[f + n] = row at *
  have hi : ∀ (k : ℕ) (hk : k < row.length), pyIndex row (k : ℤ) = .ok row[k] := by
    intro k hk; rw [pyIndex_ok_iff]; exact List.getElem?_eq_getElem hk
  have hfl : ∀ k, k ∈ [3, 4, 11, 12, 17, 18] → ∀ hk : k < row.length, ∃ x, pyFloat parse row[k] = .ok x := by
    intro k hk hk'
    obtain ⟨x, hx⟩ := hpr k hk row[k] (List.getElem?_eq_getElem hk')
    exact ⟨x, pyFloat_ok_iff.mpr hx⟩
  obtain ⟨v3, p3⟩ := hfl 3 (by simp) (by omega)
  obtain ⟨v4, p4⟩ := hfl 4 (by simp) (by omega)
  obtain ⟨v11, p11⟩ := hfl 11 (by simp) (by omega)
  obtain ⟨v12, p12⟩ := hfl 12 (by simp) (by omega)
  obtain ⟨v17, p17⟩ := hfl 17 (by simp) (by omega)
  obtain ⟨v18, p18⟩ := hfl 18 (by simp) (by omega)
  have i0 : pyIndex row 0 = .ok row[0] := hi 0 (by omega)
  have i1 : pyIndex row 1 = .ok row[1] := hi 1 (by omega)
  have i2 : pyIndex row 2 = .ok row[2] := hi 2 (by omega)
  have i3 : pyIndex row 3 = .ok row[3] := hi 3 (by omega)
  have i4 : pyIndex row 4 = .ok row[4] := hi 4 (by omega)
  have i5 : pyIndex row 5 = .ok row[5] := hi 5 (by omega)
  have i6 : pyIndex row 6 = .ok row[6] := hi 6 (by omega)
  have i7 : pyIndex row 7 = .ok row[7] := hi 7 (by omega)
  have i8 : pyIndex row 8 = .ok row[8] := hi 8 (by omega)
  have i9 : pyIndex row 9 = .ok row[9] := hi 9 (by omega)
  have i10 : pyIndex row 10 = .ok row[10] := hi 10 (by omega)
  have i11 : pyIndex row 11 = .ok row[11] := hi 11 (by omega)
  have i12 : pyIndex row 12 = .ok row[12] := hi 12 (by omega)
  have i13 : pyIndex row 13 = .ok row[13] := hi 13 (by omega)
  have i14 : pyIndex row 14 = .ok row[14] := hi 14 (by omega)
  have i15 : pyIndex row 15 = .ok row[15] := hi 15 (by omega)
  have i16 : pyIndex row 16 = .ok row[16] := hi 16 (by omega)
  have i17 : pyIndex row 17 = .ok row[17] := hi 17 (by omega)
  have i18 : pyIndex row 18 = .ok row[18] := hi 18 (by omega)
  have i19 : pyIndex row 19 = .ok row[19] := hi 19 (by omega)
  have hrr : ∃ r, runwayOfRow parse (rindlst db code).length row = .ok r := by
    unfold runwayOfRow
    rw [i0, i1, i2, i3, i4, i5, i6, i7, i8, i9, i10, i11, i12, i13, i14, i15, i16, i17, i18, i19]
    simp only [bind, Except.bind, p3, p4, p11, p12, p17, p18]
    exact ⟨_, rfl⟩
  obtain ⟨r, hr⟩ := hrr
  refine ⟨r, ?_⟩
  unfold runwayDb
  rw [if_neg]
  · simp only
    rw [if_neg (by omega), hl]
    simp only
    rw [show ((f:ℤ) + (n:ℤ)) = ((f + n : ℕ) : ℤ) by push_cast; rfl, hpi]
    rw [hl] at hr
    exact hr
  · simp only [List.any_eq_true, decide_eq_true_eq, not_exists, not_and, not_lt]
    intro x hx; have := hw x hx; omega

/-- Negative runway numbers are not rejected: for an airport whose first row is not the first row of
the database, runway number -1 gives a runway of another airport. -/
theorem C10_negative_violated (parse : String → Option ℝ) (db : List (List String)) (code : String) (r : Runway)
    (f : ℕ) (hf : codeAt db (f + 1) = some code) (hf' : ∀ i, i ≤ f → codeAt db i ≠ some code)
    (h : runwayDb parse db code (-1) = .ok r) : r.airport_ident ≠ code := by
  unfold runwayDb at h
  split_ifs at h with hw
  simp only at h
  split_ifs at h with hn
  cases hl : rindlst db code with
  | nil => rw [hl] at h; cases h
  | cons g t =>
    have hg : g = f + 1 := by
      have hm := (mem_rindlst db code g).mp (by rw [hl]; simp)
      have h1 : f < g := by by_contra hc; exact hf' g (by omega) hm
      have hm2 := (mem_rindlst db code (f + 1)).mpr hf
      rw [hl] at hm2
      have hs := rindlst_sorted db code
      rw [hl, List.pairwise_cons] at hs
      rcases List.mem_cons.mp hm2 with h2 | h2
      · exact h2.symm
      · have := hs.1 _ h2; omega
    rw [hl] at h
    simp only at h
    rw [show ((g:ℤ) + (-1:ℤ)) = ((f : ℕ) : ℤ) by omega] at h
    cases hp : pyIndex db ((f : ℕ) : ℤ) with
    | error e => rw [hp] at h; cases h
    | ok row =>
      rw [hp] at h
      simp only at h
      rw [pyIndex_ok_iff] at hp
      obtain ⟨g1, g2⟩ := runwayOfRow_ok h
      have := g2.2.2.1
      intro hc
      apply hf' f le_rfl
      unfold codeAt
      rw [hp, ← hc]
      simpa using this

/-- ... and for a code that does not occur at all, number -1 raises IndexError instead of the
documented ValueError. -/
theorem C10_negative_unknown_violated (parse : String → Option ℝ) (db : List (List String)) (code : String)
    (hw : Wide db) (hn : count db code = 0) (n : ℤ) (hneg : n < 0) :
    runwayDb parse db code n = .error .indexError := by
  unfold runwayDb
  rw [if_neg]
  · simp only
    rw [if_neg (by omega)]
    rw [← rindlst_length] at hn
    rw [List.eq_nil_of_length_eq_zero hn]
  · simp only [List.any_eq_true, decide_eq_true_eq, not_exists, not_and, not_lt]
    exact hw

/-- The custom branch: the far end has the reciprocal heading and the near end's elevation. -/
theorem C10_custom (label : ℝ → String) (elev hdg : ℝ) (surf : String) (len wid : ℝ)
    (h0 : 0 ≤ hdg) (h1 : hdg ≤ 360) :
    let r := runwayCustom label elev hdg surf len wid
    r.airport_ident = "CUST" ∧ r.le_heading_degt = hdg ∧
    (r.he_heading_degt = hdg + 180 ∨ r.he_heading_degt = hdg - 180) ∧
    0 ≤ r.he_heading_degt ∧ r.he_heading_degt ≤ 360 ∧ r.he_elevation_ft = elev ∧
    r.le_elevation_ft = elev ∧ r.length_ft = len ∧ r.width_ft = wid ∧ r.surface = surf ∧
    r.length_m = len * 0.3048 ∧ r.width_m = wid * 0.3048 ∧ r.le_elevation_m = elev * 0.3048 ∧
    r.he_elevation_m = elev * 0.3048 ∧ r.nrways = none ∧ r.ident = "0000000" ∧ r.airport_ref = "0000" ∧
    r.lighted = .num 1 ∧ r.closed = .num 0 ∧ r.le_latitude_deg = .num 0 ∧ r.le_longitude_deg = .num 0 ∧
    r.he_latitude_deg = .num 0 ∧ r.he_longitude_deg = .num 0 ∧ r.le_displaced_threshold_ft = some 0 ∧
    r.he_displaced_threshold_ft = some 0 ∧ r.le_displaced_threshold_m = some 0 ∧ r.he_displaced_threshold_m = some 0 ∧
    r.le_ident = label (hdg / 10) ∧ r.he_ident = label (r.he_heading_degt / 10) := by
  have z : Units.feet2m 0 = 0 := by norm_num [Units.feet2m]
  refine ⟨rfl, rfl, ?_, ?_, ?_, rfl, rfl, rfl, rfl, rfl, rfl, rfl, rfl, rfl, rfl, rfl, rfl, rfl, rfl, rfl, rfl, rfl, rfl,
    rfl, rfl, congrArg some z, congrArg some z, rfl, rfl⟩ <;>
    simp only [runwayCustom, reciprocalhdg] <;> split_ifs with h
  · right; rfl
  · left; rfl
  all_goals linarith

example : (runwayCustom (fun _ => "27") 400 270 "ASP" 9000 150).he_heading_degt = 270 + 180 ∨
    (runwayCustom (fun _ => "27") 400 270 "ASP" 9000 150).he_heading_degt = 270 - 180 :=
  (C10_custom (fun _ => "27") 400 270 "ASP" 9000 150 (by norm_num) (by norm_num)).2.2.1

/-! A database with two airports meeting the hypotheses. -/

def exRow (code : String) : List String :=
  ["1", "2", code, "3000", "45", "ASP", "1", "0", "09", "50", "0", "10", "90", "", "27", "50", "1", "11",
   "270", ""]
def exDb : List (List String) := [exRow "AAAA", exRow "BBBB", exRow "BBBB"]

example : Contiguous exDb "BBBB" ∧ 1 < count exDb "BBBB" ∧ Wide exDb ∧ codeAt exDb 1 = some "BBBB" ∧
    codeAt exDb 0 ≠ some "BBBB" := by
  refine ⟨?_, by decide, by unfold Wide; decide, by decide, by decide⟩
  intro i j k hij hjk hi hk
  have h3 : ∀ i, codeAt exDb i = some "BBBB" ↔ i = 1 ∨ i = 2 := by
    intro i
    match i with
    | 0 => decide
    | 1 => decide
    | 2 => decide
    | n + 3 => simp [codeAt, exDb]
  rw [h3] at *; omega

theorem exDb_contiguous : Contiguous exDb "BBBB" := by
  intro i j k hij hjk hi hk
  have h3 : ∀ i, codeAt exDb i = some "BBBB" ↔ i = 1 ∨ i = 2 := by
    intro i
    match i with
    | 0 => decide
    | 1 => decide
    | 2 => decide
    | n + 3 => simp [codeAt, exDb]
  rw [h3] at *; omega

/-- Every field reads as the number one. -/
def exParse : String → Option ℝ := fun _ => some 1

theorem exDb_ok (n : ℕ) (hn : n < 2) : ∃ r, runwayDb exParse exDb "BBBB" n = .ok r :=
  C10_succeeds exParse exDb "BBBB" n (by simp [exDb, exRow]) (by
    have : count exDb "BBBB" = 2 := by decide
    omega) (fun _ _ _ _ _ _ => ⟨1, rfl⟩)

example : ∃ r, runwayDb exParse exDb "BBBB" 1 = .ok r ∧ r.airport_ident = "BBBB" ∧ r.nrways = some 2 := by
  obtain ⟨r, hr⟩ := exDb_ok 1 (by norm_num)
  obtain ⟨-, h1, h2, -⟩ := C10_lookup exParse exDb "BBBB" 1 r exDb_contiguous hr
  exact ⟨r, hr, h2, by rw [h1]; congr 1⟩

example : runwayDb exParse exDb "BBBB" 2 = .error .valueError :=
  C10_too_large exParse exDb "BBBB" 2 (by unfold Wide; decide) (by
    have : count exDb "BBBB" = 2 := by decide
    omega)

example : ∃ r, runwayDb exParse exDb "BBBB" (-1) = .ok r ∧ r.airport_ident ≠ "BBBB" := by
  have : ∃ r, runwayDb exParse exDb "BBBB" (-1) = .ok r := by
    have hi : rindlst exDb "BBBB" = [1, 2] := by decide
    have hr : ∃ r, runwayOfRow exParse 2 (exRow "AAAA") = .ok r := ⟨_, rfl⟩
    obtain ⟨r, hr⟩ := hr
    refine ⟨r, ?_⟩
    unfold runwayDb
    rw [if_neg (by decide), hi]
    exact hr
  obtain ⟨r, hr⟩ := this
  exact ⟨r, hr, C10_negative_violated exParse exDb "BBBB" r 0 (by decide) (by
    intro i hi
    obtain rfl : i = 0 := by omega
    decide) hr⟩

example : runwayDb exParse exDb "CCCC" (-1) = .error .indexError :=
  C10_negative_unknown_violated exParse exDb "CCCC" (by unfold Wide; decide) (by decide) (-1) (by norm_num)

end

end Verif.Props
