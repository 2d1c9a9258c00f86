import Verif.Props.Runway
import Verif.Lemmas.RunwayScan
import Mathlib.Data.Finset.Card
import Mathlib.Data.Nat.Digits.Lemmas
import Mathlib.Data.Finset.Image

/-
Property C126: the runway database that comes with the code.
-/

namespace Verif.Props
open Verif Verif.Atmos Verif.Units Verif.RunwayScan
open scoped Classical

noncomputable section

/-- The columns read as numbers that may not be missing (atmospheres.py:154-172). -/
def numericColumns : List ℕ := [3, 4, 11, 12, 17, 18]

/-- A table that agrees with ADRpy/data/runways.csv in the number of rows and fields, in the airport column and in which of the numeric
fields are empty; the other contents are arbitrary. -/
structure Shipped (db : List (List String)) : Prop where
  rows : db.length = runwayRows.length + 1
  header : ∃ r, db[0]? = some r ∧ r.length = 21 ∧ r[2]? = some "airport_ident"
  row : ∀ i x, runwayRows[i]? = some x → ∃ r, db[i + 1]? = some r ∧ r.length = 20 ∧ r[2]? = some (rowIdent x) ∧
    ∀ t c, numericColumns[t]? = some c → (r[c]? = some "" ↔ rowEmpty x t)

/-- Python's `float` fails on the empty string, and reads every other entry of the numeric columns. -/
def Reads (parse : String → Option ℝ) (db : List (List String)) : Prop :=
  parse "" = none ∧ ∀ i r c s, db[i + 1]? = some r → c ∈ numericColumns → r[c]? = some s → s ≠ "" → ∃ v, parse s = some v

theorem rowIdent_inj {x y : ℕ} (h : rowIdent x = rowIdent y) : x / 64 = y / 64 := by
  have h1 := String.ofList_injective h
  have hm : ∀ d : ℕ, d < 128 → (Char.ofNat d).toNat = d := by decide
  have h2 := congrArg (List.map Char.toNat) h1
  rw [List.map_map, List.map_map] at h2
  have e : ∀ a : ℕ, List.map (Char.toNat ∘ Char.ofNat) (Nat.digits 128 a).reverse = (Nat.digits 128 a).reverse := by
    intro a
    conv_rhs => rw [← List.map_id (Nat.digits 128 a).reverse]
    apply List.map_congr_left
    intro d hd
    exact hm d (Nat.digits_lt_base (by norm_num) (List.mem_reverse.mp hd))
  rw [e, e] at h2
  exact Nat.digits_inj_iff.mp (List.reverse_injective h2)

theorem rowIdent_eq_iff {x y : ℕ} : rowIdent x = rowIdent y ↔ x / 64 = y / 64 :=
  ⟨rowIdent_inj, fun h => by unfold rowIdent; rw [h]⟩

theorem rows_pairwise : runwayRows.Pairwise Before := by
  have := found_file.1
  rw [List.isChain_iff_pairwise, List.pairwise_cons] at this
  exact this.2

theorem Shipped.codeAt_succ {db : List (List String)} (h : Shipped db) {i x : ℕ} (hx : runwayRows[i]? = some x) :
    codeAt db (i + 1) = some (rowIdent x) := by
  obtain ⟨r, h1, -, h2, -⟩ := h.row i x hx
  unfold codeAt; rw [h1]; exact h2

theorem Shipped.of_codeAt {db : List (List String)} (h : Shipped db) {code : String} (hc : code ≠ "airport_ident") {i : ℕ}
    (hi : codeAt db i = some code) : ∃ j x, i = j + 1 ∧ runwayRows[j]? = some x ∧ rowIdent x = code := by
  cases i with
  | zero =>
    obtain ⟨r, h1, -, h2⟩ := h.header
    unfold codeAt at hi
    rw [h1, Option.bind_some, h2] at hi
    exact absurd (Option.some.inj hi).symm hc
  | succ j =>
    have hl : j < runwayRows.length := by
      by_contra hl
      unfold codeAt at hi
      rw [List.getElem?_eq_none (by rw [h.rows]; omega)] at hi
      cases hi
    have hx : runwayRows[j]? = some runwayRows[j] := List.getElem?_eq_getElem hl
    refine ⟨j, _, rfl, hx, ?_⟩
    rw [h.codeAt_succ hx] at hi
    exact Option.some.inj hi

/-- The rows of every airport in the file stand next to each other. -/
theorem Shipped.contiguous {db : List (List String)} (h : Shipped db) {code : String} (hc : code ≠ "airport_ident") : Contiguous db code := by
  intro i j k hij hjk hi hk
  rcases Nat.eq_or_lt_of_le hij with rfl | hij
  · exact hi
  rcases Nat.eq_or_lt_of_le hjk with rfl | hjk
  · exact hk
  obtain ⟨i, x, rfl, hx, ex⟩ := h.of_codeAt hc hi
  obtain ⟨k, z, rfl, hz, ez⟩ := h.of_codeAt hc hk
  obtain ⟨j, rfl⟩ : ∃ j', j = j' + 1 := ⟨j - 1, by omega⟩
  obtain ⟨hkl, hz'⟩ := List.getElem?_eq_some_iff.mp hz
  obtain ⟨hil, hx'⟩ := List.getElem?_eq_some_iff.mp hx
  have hjl : j < runwayRows.length := by omega
  have hy : runwayRows[j]? = some runwayRows[j] := List.getElem?_eq_getElem hjl
  have b1 := List.pairwise_iff_getElem.mp rows_pairwise i j hil hjl (by omega)
  have b2 := List.pairwise_iff_getElem.mp rows_pairwise j k hjl hkl (by omega)
  rw [hx'] at b1
  rw [hz'] at b2
  have exz : x / 64 = z / 64 := rowIdent_inj (ex.trans ez.symm)
  rw [h.codeAt_succ hy, ← ex]
  congr 1
  rw [rowIdent_eq_iff]
  rcases b1 with b1 | b1
  · exact b1.symm
  · rcases b2 with b2 | b2
    · rw [b2, exz]
    · rw [exz] at b1; omega

theorem Shipped.wide {db : List (List String)} (h : Shipped db) : ∀ r ∈ db, 20 ≤ r.length := by
  intro r hr
  obtain ⟨i, hi, rfl⟩ := List.mem_iff_getElem.mp hr
  cases i with
  | zero =>
    obtain ⟨r, h1, h2, -⟩ := h.header
    rw [List.getElem?_eq_getElem hi] at h1
    rw [Option.some.inj h1, h2]; omega
  | succ j =>
    have hl : j < runwayRows.length := by have := h.rows; omega
    obtain ⟨r, h1, h2, -⟩ := h.row j _ (List.getElem?_eq_getElem hl)
    rw [List.getElem?_eq_getElem hi] at h1
    rw [Option.some.inj h1, h2]

/-- The number of a row within its airport: the number of earlier rows of the same airport. -/
def numberOf (db : List (List String)) (code : String) (i : ℕ) : ℕ := count (db.take i) code

theorem rowEmpty_none {x : ℕ} : (∀ t < 6, ¬ rowEmpty x t) ↔ x % 64 = 0 := by
  have hx : x % 64 < 64 := Nat.mod_lt _ (by norm_num)
  unfold rowEmpty
  generalize x % 64 = m at *
  constructor
  · intro h
    have h0 := h 0 (by norm_num); have h1 := h 1 (by norm_num); have h2 := h 2 (by norm_num)
    have h3 := h 3 (by norm_num); have h4 := h 4 (by norm_num); have h5 := h 5 (by norm_num)
    norm_num at h0 h1 h2 h3 h4 h5
    omega
  · rintro rfl t -
    simp

/-- The attributes can be read from a row of 20 or more fields, unless one of the six numeric fields cannot be read. -/
theorem runwayOfRow_cases {parse : String → Option ℝ} (k : ℕ) {row : List String} (hl : 20 ≤ row.length) :
    ((∀ c ∈ numericColumns, ∀ s, row[c]? = some s → ∃ v, parse s = some v) → ∃ r, runwayOfRow parse k row = .ok r) ∧
    (∀ c ∈ numericColumns, ∀ s, row[c]? = some s → parse s = none → runwayOfRow parse k row = .error .valueError) := by
  have hi : ∀ (k : ℕ) (hk : k < row.length), pyIndex row (k : ℤ) = .ok row[k] := by
    intro k hk; rw [pyIndex_ok_iff]; exact List.getElem?_eq_getElem hk
  have i0 : pyIndex row 0 = .ok row[0] := hi 0 (by omega)
  have i1 : pyIndex row 1 = .ok row[1] := hi 1 (by omega)
  have i2 : pyIndex row 2 = .ok row[2] := hi 2 (by omega)
  have i3 : pyIndex row 3 = .ok row[3] := hi 3 (by omega)
  have i4 : pyIndex row 4 = .ok row[4] := hi 4 (by omega)
  have i5 : pyIndex row 5 = .ok row[5] := hi 5 (by omega)
  have i6 : pyIndex row 6 = .ok row[6] := hi 6 (by omega)
  have i7 : pyIndex row 7 = .ok row[7] := hi 7 (by omega)
  have i8 : pyIndex row 8 = .ok row[8] := hi 8 (by omega)
  have i9 : pyIndex row 9 = .ok row[9] := hi 9 (by omega)
  have i10 : pyIndex row 10 = .ok row[10] := hi 10 (by omega)
  have i11 : pyIndex row 11 = .ok row[11] := hi 11 (by omega)
  have i12 : pyIndex row 12 = .ok row[12] := hi 12 (by omega)
  have i13 : pyIndex row 13 = .ok row[13] := hi 13 (by omega)
  have i14 : pyIndex row 14 = .ok row[14] := hi 14 (by omega)
  have i15 : pyIndex row 15 = .ok row[15] := hi 15 (by omega)
  have i16 : pyIndex row 16 = .ok row[16] := hi 16 (by omega)
  have i17 : pyIndex row 17 = .ok row[17] := hi 17 (by omega)
  have i18 : pyIndex row 18 = .ok row[18] := hi 18 (by omega)
  have i19 : pyIndex row 19 = .ok row[19] := hi 19 (by omega)
  have g : ∀ c, (hc : c < row.length) → row[c]? = some row[c] := fun c hc => List.getElem?_eq_getElem hc
  unfold runwayOfRow
  rw [i0, i1, i2, i3, i4, i5, i6, i7, i8, i9, i10, i11, i12, i13, i14, i15, i16, i17, i18, i19]
  simp only [numericColumns, List.mem_cons, List.not_mem_nil, or_false, forall_eq_or_imp, forall_eq, g 3 (by omega), g 4 (by omega), g 11 (by omega),
    g 12 (by omega), g 17 (by omega), g 18 (by omega), Option.some.injEq, forall_eq', bind, Except.bind, pyFloat]
  generalize row[3] = s3; generalize row[4] = s4; generalize row[11] = s11; generalize row[12] = s12
  generalize row[17] = s17; generalize row[18] = s18
  constructor
  · rintro ⟨⟨v3, h3⟩, ⟨v4, h4⟩, ⟨v11, h11⟩, ⟨v12, h12⟩, ⟨v17, h17⟩, ⟨v18, h18⟩⟩
    simp only [h3, h4, h11, h12, h17, h18]
    exact ⟨_, rfl⟩
  · cases parse s3 <;> cases parse s4 <;> cases parse s11 <;> cases parse s12 <;> cases parse s17 <;> cases parse s18 <;> simp

/-- The request of a row by its airport and its number there reads this row. -/
theorem Shipped.request {db : List (List String)} (h : Shipped db) (parse : String → Option ℝ) {i x : ℕ} (hx : runwayRows[i]? = some x)
    (hc : rowIdent x ≠ "airport_ident") : ∃ row, db[i + 1]? = some row ∧
      runwayDb parse db (rowIdent x) (numberOf db (rowIdent x) (i + 1)) = runwayOfRow parse (count db (rowIdent x)) row := by
  obtain ⟨row, hr, -⟩ := h.row i x hx
  have hca := h.codeAt_succ hx
  obtain ⟨code, hcode⟩ : ∃ code, code = rowIdent x := ⟨_, rfl⟩
  rw [← hcode] at hc hca ⊢
  refine ⟨row, hr, ?_⟩
  have hmem := (mem_rindlst db code (i + 1)).mpr hca
  have hw := h.wide
  -- the list of indices up to this row
  have hcont : ∀ a ∈ rindlst db code, ∀ k ∈ rindlst db code, ∀ j, a ≤ j → j ≤ k → j ∈ rindlst db code := by
    intro a ha k hk j hij hjk
    rw [mem_rindlst] at *
    exact h.contiguous hc a j k hij hjk ha hk
  have hlen : i + 1 < db.length := by
    by_contra hl; rw [List.getElem?_eq_none (by omega)] at hr; cases hr
  cases hl : rindlst db code with
  | nil => rw [hl] at hmem; cases hmem
  | cons f t =>
    have hfm : f ∈ rindlst db code := by rw [hl]; exact List.mem_cons_self
    have hmin : ∀ j ∈ rindlst db code, f ≤ j := by
      intro j hj
      have hs := rindlst_sorted db code
      rw [hl, List.pairwise_cons] at hs
      rw [hl] at hj
      rcases List.mem_cons.mp hj with rfl | hj
      · exact le_rfl
      · exact (hs.1 j hj).le
    have hfi := hmin _ hmem
    have hnum : numberOf db code (i + 1) = i + 1 - f := by
      unfold numberOf
      rw [← rindlst_length]
      have : rindlst (db.take (i + 1)) code = List.range' f (i + 1 - f) := by
        apply List.Perm.eq_of_pairwise (le := (· < ·))
        · intro a b _ _ h1 h2; omega
        · exact rindlst_sorted _ _
        · exact List.pairwise_lt_range'
        · rw [List.perm_ext_iff_of_nodup]
          · intro a
            rw [mem_rindlst, List.mem_range'_1]
            unfold codeAt
            rw [List.getElem?_take]
            constructor
            · intro ha
              split_ifs at ha with hai
              · have := hmin a ((mem_rindlst db code a).mpr ha); omega
              · cases ha
            · rintro ⟨h1, h2⟩
              rw [if_pos (by omega)]
              exact (mem_rindlst db code a).mp (hcont f hfm _ hmem a h1 (by omega))
          · exact (rindlst_sorted _ _).imp (fun h => by omega)
          · exact List.nodup_range'
      rw [this, List.length_range']
    have hlt : numberOf db code (i + 1) < count db code := by
      unfold numberOf
      unfold count
      conv_rhs => rw [← List.take_append_drop (i + 1) db]
      rw [List.countP_append]
      have : 0 < List.countP (fun r => decide (r[2]? = some code)) (db.drop (i + 1)) := by
        rw [List.countP_pos_iff]
        refine ⟨row, ?_, ?_⟩
        · rw [List.mem_iff_getElem?]; exact ⟨0, by rw [List.getElem?_drop]; exact hr⟩
        · unfold codeAt at hca; rw [hr] at hca; simpa using hca
      omega
    unfold runwayDb
    rw [if_neg]
    · simp only
      rw [if_neg (by rw [rindlst_length]; omega), hl]
      simp only
      rw [hnum, show ((f:ℤ) + ((i + 1 - f : ℕ) : ℤ)) = ((i + 1 : ℕ) : ℤ) by omega, pyIndex_ok_iff.mpr hr]
      simp only
      rw [← hl, rindlst_length]
    · simp only [List.any_eq_true, decide_eq_true_eq, not_exists, not_and, not_lt]
      intro y hy; have := hw y hy; omega

theorem rowIdent_ne_header {i x : ℕ} (hx : runwayRows[i]? = some x) : rowIdent x ≠ "airport_ident" := by
  have hlt : x < 36028797018963968 := by
    have hm := List.mem_of_getElem? hx
    unfold runwayRows at hm
    obtain ⟨b, -, hb⟩ := List.mem_flatMap.mp hm
    generalize b.1 = k at hb
    generalize b.2 = n at hb
    induction k generalizing n with
    | zero => cases hb
    | succ k ih =>
      rw [blockRows] at hb
      rcases List.mem_cons.mp hb with rfl | hb
      · exact Nat.mod_lt _ (by norm_num)
      · exact ih _ hb
  intro h
  have h1 := congrArg (fun s => s.toList.length) h
  simp only [rowIdent, String.toList_ofList, List.length_map, List.length_reverse] at h1
  have h2 : (Nat.digits 128 (x / 64)).length ≤ 7 := by
    rw [Nat.digits_length_le_iff (by norm_num)]
    norm_num
    omega
  rw [h1] at h2
  exact absurd h2 (by decide)

/-- Every attribute of a runway of the file comes from the row with this number among the rows of the airport. -/
theorem C126_lookup (parse : String → Option ℝ) (db : List (List String)) (code : String) (n : ℕ) (r : Runway)
    (hs : Shipped db) (hc : code ≠ "airport_ident") (h : runwayDb parse db code n = .ok r) :
    n < count db code ∧ r.nrways = some (count db code) ∧ r.airport_ident = code ∧
    ∃ (f : ℕ) (row : List String), (∀ i, codeAt db i = some code → f ≤ i) ∧
      (∀ j, j ≤ n → codeAt db (f + j) = some code) ∧
      db[f + n]? = some row ∧ FromRow parse row r :=
  C10_lookup parse db code n r (hs.contiguous hc) h

/-- A row of the file can be used exactly if none of its length, width, elevations and headings is missing. -/
theorem C126_usable (parse : String → Option ℝ) (db : List (List String)) (hs : Shipped db) (hp : Reads parse db) (i x : ℕ)
    (hx : runwayRows[i]? = some x) :
    ∃ row, db[i + 1]? = some row ∧
      ((∀ t < 6, ¬ rowEmpty x t) → ∃ r, runwayDb parse db (rowIdent x) (numberOf db (rowIdent x) (i + 1)) = .ok r ∧ FromRow parse row r ∧
        r.nrways = some (count db (rowIdent x))) ∧
      ((∃ t < 6, rowEmpty x t) → runwayDb parse db (rowIdent x) (numberOf db (rowIdent x) (i + 1)) = .error .valueError) := by
  obtain ⟨row, hr, hq⟩ := hs.request parse hx (rowIdent_ne_header hx)
  obtain ⟨row', hr', hl, -, he⟩ := hs.row i x hx
  rw [hr] at hr'
  cases hr'
  obtain ⟨c1, c2⟩ := runwayOfRow_cases (parse := parse) (count db (rowIdent x)) (row := row) (by omega)
  refine ⟨row, hr, ?_, ?_⟩
  · intro h
    obtain ⟨r, e⟩ := c1 (by
      intro c hc s hs
      obtain ⟨t, ht⟩ := List.mem_iff_getElem?.mp hc
      refine hp.2 i row c s hr hc hs ?_
      rintro rfl
      have ht6 : t < 6 := by
        by_contra h6
        rw [List.getElem?_eq_none (by simp [numericColumns]; omega)] at ht; cases ht
      exact h t ht6 ((he t c ht).mp hs))
    have f := runwayOfRow_ok e
    exact ⟨r, hq.trans e, f.2, f.1⟩
  · rintro ⟨t, ht, h⟩
    rw [hq]
    have : numericColumns[t]? = some (numericColumns[t]'(by simpa [numericColumns] using ht)) := List.getElem?_eq_getElem _
    exact c2 _ (List.mem_of_getElem? this) "" ((he t _ this).mpr h) hp.1

theorem sum_miss (l : List ℕ) : (l.map miss).sum = ((Finset.range l.length).filter (fun i => ∃ x, l[i]? = some x ∧ x % 64 ≠ 0)).card := by
  induction l using List.reverseRecOn with
  | nil => rfl
  | append_singleton l a ih =>
    rw [List.map_append, List.sum_append, ih, List.length_append, List.length_singleton, Finset.range_add_one, Finset.filter_insert]
    have e : (Finset.range l.length).filter (fun i => ∃ x, (l ++ [a])[i]? = some x ∧ x % 64 ≠ 0) =
        (Finset.range l.length).filter (fun i => ∃ x, l[i]? = some x ∧ x % 64 ≠ 0) := by
      apply Finset.filter_congr
      intro i hi
      rw [List.getElem?_append_left (Finset.mem_range.mp hi)]
    rw [e]
    have g : (l ++ [a])[l.length]? = some a := by simp
    rw [g]
    by_cases ha : a % 64 = 0
    · rw [if_neg]
      · simp [miss, ha]
      · rintro ⟨x, hx, hn⟩; cases hx; exact hn ha
    · rw [if_pos ⟨a, rfl, ha⟩, Finset.card_insert_of_notMem]
      · simp [miss, ha]
      · simp

/-- `starts` lists the first rows of the airports, in alphabetical order. -/
theorem starts_spec {p : ℕ} {l : List ℕ} (h : (p :: l).Pairwise Before) :
    (∀ x ∈ starts p l, key (p / 64) < key (x / 64)) ∧
    (starts p l).Pairwise (fun x y => key (x / 64) < key (y / 64)) ∧
    (∀ x ∈ starts p l, ∃ i : ℕ, l[i]? = some x ∧ ∀ j < i, ∀ y, l[j]? = some y → y / 64 ≠ x / 64) ∧
    (∀ y ∈ l, y / 64 = p / 64 ∨ ∃ x ∈ starts p l, y / 64 = x / 64) := by
  induction l generalizing p with
  | nil => simp [starts]
  | cons y l ih =>
    have hpy := (List.pairwise_cons.mp h).1 y List.mem_cons_self
    obtain ⟨i1, i2, i3, i4⟩ := ih (List.pairwise_cons.mp h).2
    have first : ∀ x ∈ starts y l, ∃ i : ℕ, (y :: l)[i]? = some x ∧ ∀ j < i, ∀ z, (y :: l)[j]? = some z → z / 64 ≠ x / 64 := by
      intro x hx
      obtain ⟨i, h1, h2⟩ := i3 x hx
      refine ⟨i + 1, by simpa using h1, ?_⟩
      intro j hj z hz
      cases j with
      | zero =>
        have : y = z := by simpa using hz
        subst this
        intro e
        have := i1 x hx
        rw [e] at this
        exact lt_irrefl _ this
      | succ j => exact h2 j (by omega) z (by simpa using hz)
    rw [starts]
    split_ifs with c
    · refine ⟨?_, i2, first, ?_⟩
      · intro x hx; rw [c]; exact i1 x hx
      · intro z hz
        rcases List.mem_cons.mp hz with rfl | hz
        · exact Or.inl c.symm
        · rw [c]; exact i4 z hz
    · have hk : key (p / 64) < key (y / 64) := by
        rcases hpy with hpy | hpy
        · exact absurd hpy c
        · exact hpy
      refine ⟨?_, ?_, ?_, ?_⟩
      · intro x hx
        rcases List.mem_cons.mp hx with rfl | hx
        · exact hk
        · exact hk.trans (i1 x hx)
      · exact List.pairwise_cons.mpr ⟨i1, i2⟩
      · intro x hx
        rcases List.mem_cons.mp hx with rfl | hx
        · exact ⟨0, rfl, by intro j hj; omega⟩
        · exact first x hx
      · intro z hz
        rcases List.mem_cons.mp hz with rfl | hz
        · exact Or.inr ⟨z, List.mem_cons_self, rfl⟩
        · rcases i4 z hz with h4 | ⟨x, hx, h4⟩
          · exact Or.inr ⟨y, List.mem_cons_self, h4⟩
          · exact Or.inr ⟨x, List.mem_cons_of_mem _ hx, h4⟩

/-- The airports of a table: the third fields of all rows but the first. -/
def airports (db : List (List String)) : Finset String := (db.tail.filterMap (fun r => r[2]?)).toFinset

theorem Shipped.column {db : List (List String)} (h : Shipped db) : db.map (fun r => r[2]?) = some "airport_ident" :: runwayRows.map (fun x => some (rowIdent x)) := by
  apply List.ext_getElem?
  intro i
  cases i with
  | zero =>
    obtain ⟨r, h1, -, h2⟩ := h.header
    rw [List.getElem?_map, h1]; simp [h2]
  | succ i =>
    rw [List.getElem?_map, List.getElem?_cons_succ, List.getElem?_map]
    by_cases hi : i < runwayRows.length
    · have hx : runwayRows[i]? = some runwayRows[i] := List.getElem?_eq_getElem hi
      obtain ⟨r, h1, -, h2, -⟩ := h.row i _ hx
      rw [hx, h1]; simp [h2]
    · rw [List.getElem?_eq_none (by rw [h.rows]; omega), List.getElem?_eq_none (by omega)]; rfl

theorem Shipped.airports_eq {db : List (List String)} (h : Shipped db) : airports db = (runwayRows.map rowIdent).toFinset := by
  unfold airports
  congr 1
  have e : ∀ l : List (List String), l.filterMap (fun r => r[2]?) = (l.map (fun r => r[2]?)).filterMap id := by
    intro l; rw [List.filterMap_map]; rfl
  rw [e, List.map_tail, h.column, List.tail_cons]
  rw [List.filterMap_map]
  rw [← List.filterMap_eq_map]
  rfl

theorem Shipped.first {db : List (List String)} (h : Shipped db) {i x : ℕ} (hx : runwayRows[i]? = some x)
    (hf : ∀ j < i, ∀ y, runwayRows[j]? = some y → y / 64 ≠ x / 64) : numberOf db (rowIdent x) (i + 1) = 0 := by
  unfold numberOf count
  rw [List.countP_eq_zero]
  intro r hr hc
  obtain ⟨j, hj⟩ := List.mem_iff_getElem?.mp hr
  rw [List.getElem?_take] at hj
  split_ifs at hj with hji
  have hcode : codeAt db j = some (rowIdent x) := by unfold codeAt; rw [hj]; simpa using hc
  obtain ⟨k, y, rfl, hy, e⟩ := h.of_codeAt (rowIdent_ne_header hx) hcode
  exact hf k (by omega) y hy (rowIdent_inj e)

theorem rows_nonzero : ∀ y ∈ runwayRows, y / 64 ≠ 0 := by
  intro y hy h0
  obtain ⟨l, hl⟩ : ∃ l, runwayRows = (runways00 % 36028797018963968) :: l := by
    unfold runwayRows runwayBlocks; rw [List.flatMap_cons]; exact ⟨_, rfl⟩
  have hn : key 0 < key (runways00 % 36028797018963968 / 64) := by decide +kernel
  have hp := rows_pairwise
  rw [hl] at hy hp
  generalize runways00 % 36028797018963968 = z at *
  rcases List.mem_cons.mp hy with rfl | hy
  · rw [h0] at hn; exact lt_irrefl _ hn
  · rcases (List.pairwise_cons.mp hp).1 y hy with h | h
    · rw [h, h0] at hn; exact lt_irrefl _ hn
    · rw [h0] at h; exact lt_irrefl _ (h.trans hn)

theorem rowEmpty_some {x : ℕ} : (∃ t < 6, rowEmpty x t) ↔ x % 64 ≠ 0 := by
  rw [Ne, ← rowEmpty_none]
  push Not
  rfl

/-- Of the 40489 runways of the file 30064 cannot be used; of the 34113 airports, 26977 fail with the default runway number. The exception is the
same as that for a number out of range. -/
theorem C126_missing_violated (parse : String → Option ℝ) (db : List (List String)) (hs : Shipped db) (hp : Reads parse db) :
    db.length = 40489 + 1 ∧
    ((Finset.range 40489).filter (fun i => ∃ code, codeAt db (i + 1) = some code ∧
      runwayDb parse db code (numberOf db code (i + 1)) = .error .valueError)).card = 30064 ∧
    (airports db).card = 34113 ∧
    ((airports db).filter (fun code => runwayDb parse db code 0 = .error .valueError)).card = 26977 := by
  obtain ⟨h1, -, h3, h4, h5⟩ := found_file
  rw [List.isChain_iff_pairwise] at h1
  obtain ⟨s1, s2, s3, s4⟩ := starts_spec h1
  have hinj : ((starts 0 runwayRows).map rowIdent).Nodup := by
    unfold List.Nodup
    rw [List.pairwise_map]
    apply s2.imp
    intro x y hxy e
    rw [rowIdent_inj e] at hxy
    exact lt_irrefl _ hxy
  have hair : airports db = ((starts 0 runwayRows).map rowIdent).toFinset := by
    rw [hs.airports_eq]
    ext code
    rw [List.mem_toFinset, List.mem_toFinset, List.mem_map, List.mem_map]
    constructor
    · rintro ⟨y, hy, rfl⟩
      rcases s4 y hy with h0 | ⟨x, hx, e⟩
      · exfalso
        exact rows_nonzero y hy (by rw [h0])
      · exact ⟨x, hx, (rowIdent_eq_iff.mpr e).symm⟩
    · rintro ⟨x, hx, rfl⟩
      obtain ⟨i, hi, -⟩ := s3 x hx
      exact ⟨x, List.mem_of_getElem? hi, rfl⟩
  refine ⟨by rw [hs.rows, rows_length], ?_, ?_, ?_⟩
  · rw [← h3, sum_miss, rows_length]
    refine congrArg Finset.card (Finset.filter_congr (fun i hi => ?_))
    have hl : i < runwayRows.length := by rw [rows_length]; exact Finset.mem_range.mp hi
    have hx : runwayRows[i]? = some runwayRows[i] := List.getElem?_eq_getElem hl
    rw [hs.codeAt_succ hx, hx]
    obtain ⟨row, -, u1, u2⟩ := C126_usable parse db hs hp i _ hx
    constructor
    · rintro ⟨code, hc, he⟩
      cases hc
      refine ⟨_, rfl, ?_⟩
      intro h0
      obtain ⟨r, hr, -⟩ := u1 (rowEmpty_none.mpr h0)
      rw [hr] at he; cases he
    · rintro ⟨x, hc, he⟩
      cases hc
      exact ⟨_, rfl, u2 (rowEmpty_some.mpr he)⟩
  · rw [hair, List.toFinset_card_of_nodup hinj, List.length_map, h4]
  · rw [hair, ← h5]
    rw [show ((starts 0 runwayRows).map miss).sum = ((starts 0 runwayRows).filter (fun x => decide (x % 64 ≠ 0))).length by
      generalize starts 0 runwayRows = l
      induction l with
      | nil => rfl
      | cons a l ih => rw [List.map_cons, List.sum_cons, ih, List.filter_cons]; by_cases ha : a % 64 = 0 <;> simp [miss, ha, add_comm]]
    rw [← List.length_map (f := rowIdent), ← List.toFinset_card_of_nodup]
    · refine congrArg Finset.card (Finset.ext (fun code => ?_))
      rw [Finset.mem_filter, List.mem_toFinset, List.mem_toFinset, List.mem_map, List.mem_map]
      have key1 : ∀ x ∈ starts 0 runwayRows, (runwayDb parse db (rowIdent x) 0 = .error .valueError ↔ x % 64 ≠ 0) := by
        intro x hx
        obtain ⟨i, hi, hf⟩ := s3 x hx
        obtain ⟨row, -, u1, u2⟩ := C126_usable parse db hs hp i x hi
        rw [hs.first hi hf] at u1 u2
        constructor
        · intro he h0
          obtain ⟨r, hr, -⟩ := u1 (rowEmpty_none.mpr h0)
          have hr' : runwayDb parse db (rowIdent x) 0 = .ok r := hr
          rw [hr'] at he; cases he
        · intro h0; exact u2 (rowEmpty_some.mpr h0)
      constructor
      · rintro ⟨⟨x, hx, rfl⟩, he⟩
        exact ⟨x, List.mem_filter.mpr ⟨hx, by simpa using (key1 x hx).mp he⟩, rfl⟩
      · rintro ⟨x, hx, rfl⟩
        obtain ⟨hx, h0⟩ := List.mem_filter.mp hx
        exact ⟨⟨x, hx, rfl⟩, (key1 x hx).mpr (by simpa using h0)⟩
    · exact hinj.sublist (List.Sublist.map _ List.filter_sublist)

theorem Shipped.count_eq {db : List (List String)} (h : Shipped db) {code : String} (hc : code ≠ "airport_ident") :
    count db code = runwayRows.countP (fun x => decide (rowIdent x = code)) := by
  have e : count db code = (db.map (fun r => r[2]?)).countP (fun o => decide (o = some code)) := by
    unfold count; rw [List.countP_map]; rfl
  rw [e, h.column, List.countP_cons, List.countP_map]
  rw [if_neg (by simpa using hc.symm)]
  apply List.countP_congr
  intro x _
  simp

/-- atmospheres.py:88-100: Denver has six runways; the attribute `nrways` of any of them says so. -/
theorem C126_denver (parse : String → Option ℝ) (db : List (List String)) (hs : Shipped db) :
    count db "KDEN" = 6 ∧ (∀ n : ℕ, 6 ≤ n → runwayDb parse db "KDEN" n = .error .valueError) ∧
    (∀ (n : ℕ) r, runwayDb parse db "KDEN" n = .ok r → r.nrways = some 6 ∧ r.airport_ident = "KDEN") := by
  have e : rowIdent (64 * 158409422) = "KDEN" := by
    unfold rowIdent
    rw [Nat.mul_div_cancel_left _ (by norm_num)]
    norm_num
    rfl
  have hc : count db "KDEN" = 6 := by
    rw [hs.count_eq (by decide), ← denver]
    apply List.countP_congr
    intro x _
    rw [decide_eq_true_eq, decide_eq_true_eq, ← e, rowIdent_eq_iff, Nat.mul_div_cancel_left _ (by norm_num)]
  refine ⟨hc, ?_, ?_⟩
  · intro n hn
    exact C10_too_large parse db "KDEN" n (fun r hr => by have := hs.wide r hr; omega) (by rw [hc]; exact_mod_cast hn)
  · intro n r h
    obtain ⟨-, h1, h2, -⟩ := C126_lookup parse db "KDEN" n r hs (by decide) h
    rw [hc] at h1
    exact ⟨h1, h2⟩

/-- A table of this kind: the numbers present are all 1, the other fields empty. -/
def shippedRow (x : ℕ) : List String :=
  let f := fun t => if rowEmpty x t then "" else "1"
  ["", "", rowIdent x, f 0, f 1, "", "", "", "", "", "", f 2, f 3, "", "", "", "", f 4, f 5, ""]
/-- ... with a first line of 21 fields. -/
def shippedDb : List (List String) := ["", "", "airport_ident", "", "", "", "", "", "", "", "", "", "", "", "", "", "", "", "", "", ""] :: runwayRows.map shippedRow

theorem shippedDb_ok : Shipped shippedDb := by
  refine ⟨by simp [shippedDb], ⟨_, rfl, rfl, rfl⟩, ?_⟩
  intro i x hx
  refine ⟨shippedRow x, ?_, rfl, rfl, ?_⟩
  · rw [shippedDb, List.getElem?_cons_succ, List.getElem?_map, hx]; rfl
  · intro t c hc
    have ht : t < 6 := by
      by_contra h6
      rw [List.getElem?_eq_none (by simp [numericColumns]; omega)] at hc; cases hc
    have key : ∀ t, ((some (if rowEmpty x t then "" else "1") : Option String) = some "" ↔ rowEmpty x t) := by
      intro t; by_cases h : rowEmpty x t <;> simp [h]
    interval_cases t <;> (cases hc; exact key _)

/-- A reader of numbers that knows only one. -/
def readsOne (s : String) : Option ℝ := if s = "1" then some 1 else none

theorem readsOne_ok : Reads readsOne shippedDb := by
  refine ⟨by simp [readsOne], ?_⟩
  intro i r c s hr hc hs hne
  rw [shippedDb, List.getElem?_cons_succ, List.getElem?_map] at hr
  cases hx : runwayRows[i]? with
  | none => rw [hx] at hr; cases hr
  | some x =>
    rw [hx] at hr
    cases hr
    have : s = "1" := by
      have key : ∀ t, (some (if rowEmpty x t then "" else "1") : Option String) = some s → s = "1" := by
        intro t h
        by_cases h' : rowEmpty x t
        · rw [if_pos h'] at h; exact absurd (Option.some.inj h).symm hne
        · rw [if_neg h'] at h; exact (Option.some.inj h).symm
      simp only [numericColumns, List.mem_cons, List.not_mem_nil, or_false] at hc
      rcases hc with rfl | rfl | rfl | rfl | rfl | rfl <;> exact key _ hs
    exact ⟨1, by simp [readsOne, this]⟩

example : (airports shippedDb).card = 34113 ∧
    ((airports shippedDb).filter (fun code => runwayDb readsOne shippedDb code 0 = .error .valueError)).card = 26977 :=
  (C126_missing_violated readsOne shippedDb shippedDb_ok readsOne_ok).2.2

example : count shippedDb "KDEN" = 6 := (C126_denver readsOne shippedDb shippedDb_ok).1

/-- There are rows that can be used. -/
example : ∃ (i x : ℕ) (r : Runway), runwayRows[i]? = some x ∧ runwayDb readsOne shippedDb (rowIdent x) (numberOf shippedDb (rowIdent x) (i + 1)) = .ok r ∧
    r.airport_ident = rowIdent x := by
  have hx : ∃ (i x : ℕ), runwayRows[i]? = some x ∧ x % 64 = 0 := by
    by_contra h
    push Not at h
    have := found_file.2.2.1
    rw [sum_miss, Finset.filter_true_of_mem, Finset.card_range, rows_length] at this
    · omega
    · intro i hi
      exact ⟨_, List.getElem?_eq_getElem (Finset.mem_range.mp hi), h i _ (List.getElem?_eq_getElem (Finset.mem_range.mp hi))⟩
  obtain ⟨i, x, hx, h0⟩ := hx
  obtain ⟨row, -, h1, -⟩ := C126_usable readsOne shippedDb shippedDb_ok readsOne_ok i x hx
  obtain ⟨r, hr, -⟩ := h1 (rowEmpty_none.mpr h0)
  exact ⟨i, x, r, hx, hr, (C126_lookup _ _ _ _ _ shippedDb_ok (rowIdent_ne_header hx) hr).2.2.1⟩

end

end Verif.Props
