import Verif.Props.Propulsion2

/-
Sea-level corrections (C76, C90), availability of data (C79), piston fuel consumption (C77).
-/

namespace Verif.Propulsion

open Verif Verif.Atmos

noncomputable section

/-! ### C76 -/

/-- The value column of a table is complete. -/
def Complete (rows : List Row) : Prop := ∀ r ∈ rows, ∃ v, r.2.2 = some v

/-- `M` is the largest tabulated value. -/
structure Largest (M : ℝ) (rows : List Row) : Prop where
  attained : ∃ r ∈ rows, r.2.2 = some M
  bound : ∀ r ∈ rows, ∀ v, r.2.2 = some v → v ≤ M

theorem pyMax_fold : ∀ (vs : List ℝ) (x : ℝ), ∃ M, (vs.map some).foldl (fun m y => match m, y with
      | some a, some b => if a < b then some b else some a
      | m, _ => m) (some x) = some M ∧ (M = x ∨ M ∈ vs) ∧ x ≤ M ∧ ∀ v ∈ vs, v ≤ M
  | [], x => ⟨x, rfl, Or.inl rfl, le_rfl, by simp⟩
  | v :: vs, x => by
    rw [List.map_cons, List.foldl_cons]
    show ∃ M, List.foldl _ (if x < v then some v else some x) (vs.map some) = some M ∧ _
    by_cases h : x < v
    · rw [if_pos h]
      obtain ⟨M, h1, h2, h3, h4⟩ := pyMax_fold vs v
      refine ⟨M, h1, ?_, h.le.trans h3, ?_⟩
      · rcases h2 with h2 | h2 <;> simp [h2]
      · intro w hw; rcases List.mem_cons.mp hw with rfl | hw
        · exact h3
        · exact h4 w hw
    · rw [if_neg h]
      obtain ⟨M, h1, h2, h3, h4⟩ := pyMax_fold vs x
      refine ⟨M, h1, ?_, h3, ?_⟩
      · rcases h2 with h2 | h2 <;> simp [h2]
      · intro w hw; rcases List.mem_cons.mp hw with rfl | hw
        · exact (not_lt.mp h).trans h3
        · exact h4 w hw

theorem pyMax_rows {rows : List Row} (hc : Complete rows) (hne : rows ≠ []) :
    ∃ M, pyMax (rows.map (fun r => r.2.2)) = .ok (some M) ∧ Largest M rows := by
  have hv : ∃ vs : List ℝ, rows.map (fun r => r.2.2) = vs.map some := by
    clear hne
    induction rows with
    | nil => exact ⟨[], rfl⟩
    | cons r rows ih =>
      obtain ⟨vs, hvs⟩ := ih (fun r hr => hc r (by simp [hr]))
      obtain ⟨v, hv⟩ := hc r (by simp)
      exact ⟨v :: vs, by simp [hv, hvs]⟩
  obtain ⟨vs, hvs⟩ := hv
  have mem : ∀ v, v ∈ vs ↔ ∃ r ∈ rows, r.2.2 = some v := by
    intro v
    have : some v ∈ rows.map (fun r => r.2.2) ↔ some v ∈ vs.map some := by rw [hvs]
    simp only [List.mem_map, Option.some.injEq, exists_eq_right] at this
    exact this.symm
  cases vs with
  | nil => simp at hvs; exact absurd hvs hne
  | cons x vs =>
    obtain ⟨M, h1, h2, h3, h4⟩ := pyMax_fold vs x
    refine ⟨M, ?_, ?_, ?_⟩
    · rw [hvs]
      exact congrArg Except.ok h1
    · rw [← mem M]; rcases h2 with h2 | h2 <;> simp [h2]
    · intro r hr v hv
      have : v ∈ x :: vs := (mem v).mpr ⟨r, hr, hv⟩
      rcases List.mem_cons.mp this with rfl | h
      · exact h3
      · exact h4 v h

/-- `cs` are the values `zs` relative to the largest tabulated value: at or below one whenever the value
does not exceed it, one when it attains it, and dividing a requirement by a positive one never reduces
it. -/
def Corrected (rows : List Row) (zs cs : List (Option ℝ)) : Prop :=
  ∃ M, Largest M rows ∧ cs.length = zs.length ∧ ∀ (i : ℕ) (z : ℝ), zs[i]? = some (some z) →
    ∃ c, cs[i]? = some (some c) ∧ (0 < M → c * M = z ∧ (z ≤ M → c ≤ 1) ∧ (z = M → c = 1) ∧
      (0 < z → z ≤ M → ∀ req, 0 ≤ req → req ≤ req / c))

theorem overMax_spec {rows : List Row} (hc : Complete rows) (hne : rows ≠ []) {q : Option (List (Option ℝ))}
    {cs : List (Option ℝ)} (h : overMax q (some rows) = .ok cs) : ∃ zs, q = some zs ∧ Corrected rows zs cs := by
  obtain ⟨M, hM, hl⟩ := pyMax_rows hc hne
  unfold overMax at h
  rw [show attrOf (some rows) = .ok rows from rfl, bind_ok, hM, bind_ok] at h
  cases q with
  | none => cases h
  | some zs =>
    refine ⟨zs, rfl, M, hl, ?_⟩
    cases h
    refine ⟨by simp, fun i z hz => ⟨z / M, by simp [hz, ndiv], fun h0 => ⟨by field_simp, ?_, ?_, ?_⟩⟩⟩
    · intro hz; rw [div_le_one h0]; exact hz
    · rintro rfl; exact div_self h0.ne'
    · intro hz hzM req hr
      rw [le_div_iff₀ (div_pos hz h0)]
      have : z / M ≤ 1 := by rw [div_le_one h0]; exact hzM
      nlinarith

/-- The sea-level corrections of all three decks. -/
theorem C76_correction (G : Grid) (x y : NumArg) (rows : List Row) (hc : Complete rows) (hne : rows ≠ [])
    (cs : List (Option ℝ)) :
    (∀ d : JetDeck, d.thr_data = some rows → d.sl_thrustcorr G x y = .ok cs →
      ∃ zs, d.thrust G x y = .ok (some zs) ∧ Corrected rows zs cs) ∧
    (∀ d : TurbopropDeck, d.pwr_data = some rows → d.sl_powercorr G x y = .ok cs →
      ∃ zs, d.shaftpower G x y = .ok (some zs) ∧ Corrected rows zs cs) ∧
    (∀ d : PistonDeck, d.pwr_data = some rows → d.sl_powercorr G x y = .ok cs →
      ∃ zs, d.shaftpower G x y = .ok (some zs) ∧ Corrected rows zs cs) := by
  have rc : ∀ (av : Bool) (data : Option (List Row)), guarded av data G (.array (recastArray x)) (.array (recastArray y))
      = guarded av data G x y := fun av data => rfl
  refine ⟨fun d hd h => ?_, fun d hd h => ?_, fun d hd h => ?_⟩
  · unfold JetDeck.sl_thrustcorr at h
    rw [bind_ok_iff] at h
    obtain ⟨q, hq, h⟩ := h
    rw [hd] at h
    obtain ⟨zs, rfl, k⟩ := overMax_spec hc hne h
    exact ⟨zs, hq, k⟩
  · unfold TurbopropDeck.sl_powercorr at h
    rw [bind_ok_iff] at h
    obtain ⟨q, hq, h⟩ := h
    rw [hd] at h
    obtain ⟨zs, rfl, k⟩ := overMax_spec hc hne h
    exact ⟨zs, hq, k⟩
  · unfold PistonDeck.sl_powercorr at h
    rw [bind_ok_iff] at h
    obtain ⟨q, hq, h⟩ := h
    rw [hd] at h
    obtain ⟨zs, rfl, k⟩ := overMax_spec hc hne h
    exact ⟨zs, hq, k⟩

/-- With the data present and a positive largest value, the corrections do return; where the
interpolation attains the largest tabulated value (as an interpolation through the table does at the
point of that value) the correction is 1. -/
theorem C76_largest (G : Grid) (x y M : ℝ) (rows : List Row) (hc : Complete rows) (hM : Largest M rows) (h0 : 0 < M)
    (hG : G rows x y = some M) :
    (∀ d : JetDeck, d.avail.out[0]? = some true → d.thr_data = some rows →
      d.sl_thrustcorr G (.scalar x) (.scalar y) = .ok [some 1]) ∧
    (∀ d : TurbopropDeck, d.avail.out[1]? = some true → d.pwr_data = some rows →
      d.sl_powercorr G (.scalar x) (.scalar y) = .ok [some 1]) ∧
    (∀ d : PistonDeck, d.avail.out[0]? = some true → d.pwr_data = some rows →
      d.sl_powercorr G (.scalar x) (.scalar y) = .ok [some 1]) := by
  have hne : rows ≠ [] := by
    rintro rfl; obtain ⟨r, hr, _⟩ := hM.attained; simp at hr
  obtain ⟨M', hM', hl⟩ := pyMax_rows hc hne
  have e : M' = M := by
    obtain ⟨r, hr, hv⟩ := hM.attained
    obtain ⟨r', hr', hv'⟩ := hl.attained
    exact le_antisymm (hM.bound r' hr' M' hv') (hl.bound r hr M hv)
  subst e
  have ov : overMax (some [some M']) (some rows) = .ok [some 1] := by
    unfold overMax
    rw [show attrOf (some rows) = .ok rows from rfl, bind_ok, hM', bind_ok]
    show Except.ok [some (M' / M')] = _
    rw [div_self h0.ne']
  have g : ∀ l : List Bool, ∀ i, l[i]? = some true →
      guarded (flagAt l i) (some rows) G (.scalar x) (.scalar y) = .ok (some [some M']) := by
    intro l i hi
    have : flagAt l i = true := by unfold flagAt; rw [List.getD_eq_getElem?_getD, hi]; rfl
    rw [this]
    show Except.ok (some [G rows x y]) = _
    rw [hG]
  refine ⟨fun d h1 h2 => ?_, fun d h1 h2 => ?_, fun d h1 h2 => ?_⟩
  · unfold JetDeck.sl_thrustcorr JetDeck.thrust
    rw [h2, g _ _ h1, bind_ok, ov]
  · unfold TurbopropDeck.sl_powercorr TurbopropDeck.shaftpower
    rw [h2]
    show (guarded (flagAt d.avail.out 1) (some rows) G (.scalar x) (.scalar y) >>= _) = _
    rw [g _ _ h1, bind_ok, ov]
  · unfold PistonDeck.sl_powercorr PistonDeck.shaftpower
    rw [h2]
    show (guarded (flagAt d.avail.out 0) (some rows) G (.scalar x) (.scalar y) >>= _) = _
    rw [g _ _ h1, bind_ok, ov]

/-- A jet table: sea level static, sea level at Mach 0.8, and cruise. -/
def exRows : List Row :=
  [(some 0, some 0, some 64000), (some 0.8, some 0, some 50000), (some 0.8, some 10000, some 17000)]

/-- A jet deck with this table only. -/
def exJet : JetDeck := ⟨⟨[true], [false], false, false⟩, some exRows, none, none, none⟩

/-- Interpolation through the nodes of `exRows` (any value between them). -/
def exGrid : Grid := fun _ x y =>
  if x = 0 ∧ y = 0 then some 64000 else if x = 0.8 ∧ y = 0 then some 50000
  else if x = 0.8 ∧ y = 10000 then some 17000 else if x < 0 then none else some 30000

theorem exRows_complete : Complete exRows := by
  intro r hr; simp [exRows] at hr; rcases hr with rfl | rfl | rfl <;> exact ⟨_, rfl⟩

theorem exRows_largest : Largest 64000 exRows := by
  refine ⟨⟨(some 0, some 0, some 64000), by simp [exRows], rfl⟩, ?_⟩
  intro r hr v hv; simp [exRows] at hr
  rcases hr with rfl | rfl | rfl <;> cases hv <;> norm_num

example : Complete exRows ∧ exRows ≠ [] ∧ Largest 64000 exRows ∧ exGrid exRows 0 0 = some 64000 ∧
    exJet.avail.out[0]? = some true ∧ exJet.thr_data = some exRows ∧
    exJet.sl_thrustcorr exGrid (.scalar 0) (.scalar 0) = .ok [some 1] :=
  ⟨exRows_complete, by simp [exRows], exRows_largest, by simp [exGrid], rfl, rfl,
    (C76_largest exGrid 0 0 64000 exRows exRows_complete exRows_largest (by norm_num) (by simp [exGrid])).1 exJet rfl rfl⟩

/-! ### C90 -/

/-- The correction is documented as the ratio to the sea-level static thrust. If the sea-level static
thrust is below the largest tabulated value, multiplying it by the correction at sea level and rest does
not give it back: the result is strictly smaller. -/
theorem C90_reference_violated (d : JetDeck) (G : Grid) (T0 M : ℝ) (rows : List Row) (hc : Complete rows)
    (hM : Largest M rows) (ha : d.avail.out[0]? = some true) (hd : d.thr_data = some rows) (h0 : 0 < T0)
    (hlt : T0 < M) (hG : G rows 0 0 = some T0) :
    ∃ c, d.sl_thrustcorr G (.scalar 0) (.scalar 0) = .ok [some c] ∧ T0 * c < T0 := by
  have hne : rows ≠ [] := by
    rintro rfl; obtain ⟨r, hr, _⟩ := hM.attained; simp at hr
  obtain ⟨M', hM', hl⟩ := pyMax_rows hc hne
  have e : M' = M := by
    obtain ⟨r, hr, hv⟩ := hM.attained
    obtain ⟨r', hr', hv'⟩ := hl.attained
    exact le_antisymm (hM.bound r' hr' M' hv') (hl.bound r hr M hv)
  subst e
  have fl : flagAt d.avail.out 0 = true := by unfold flagAt; rw [List.getD_eq_getElem?_getD, ha]; rfl
  refine ⟨T0 / M', ?_, ?_⟩
  · unfold JetDeck.sl_thrustcorr JetDeck.thrust
    rw [hd, fl]
    show overMax (some [G rows 0 0]) (some rows) = _
    rw [hG]
    unfold overMax
    rw [show attrOf (some rows) = .ok rows from rfl, bind_ok, hM', bind_ok]
    rfl
  · have : T0 / M' < 1 := by rw [div_lt_one (h0.trans hlt)]; exact hlt
    nlinarith

/-- When the sea-level static thrust is the largest tabulated value, multiplying it by the correction
gives the interpolated thrust at every condition. -/
theorem C90_static_largest (d : JetDeck) (G : Grid) (T0 x y : ℝ) (rows : List Row) (hc : Complete rows)
    (hM : Largest T0 rows) (hd : d.thr_data = some rows) (h0 : 0 < T0)
    (T : ℝ) (hT : d.thrust G (.scalar x) (.scalar y) = .ok (some [some T])) :
    ∃ c, d.sl_thrustcorr G (.scalar x) (.scalar y) = .ok [some c] ∧ T0 * c = T := by
  have hne : rows ≠ [] := by
    rintro rfl; obtain ⟨r, hr, _⟩ := hM.attained; simp at hr
  obtain ⟨M', hM', hl⟩ := pyMax_rows hc hne
  have e : M' = T0 := by
    obtain ⟨r, hr, hv⟩ := hM.attained
    obtain ⟨r', hr', hv'⟩ := hl.attained
    exact le_antisymm (hM.bound r' hr' M' hv') (hl.bound r hr T0 hv)
  subst e
  refine ⟨T / M', ?_, by field_simp⟩
  unfold JetDeck.sl_thrustcorr
  rw [hT, hd, bind_ok]
  unfold overMax
  rw [show attrOf (some rows) = .ok rows from rfl, bind_ok, hM', bind_ok]
  rfl

/-- An engine whose thrust at sea level rises with speed. -/
def exRows2 : List Row := [(some 0, some 0, some 48000), (some 0.9, some 0, some 50000)]

example : Complete exRows2 ∧ Largest 50000 exRows2 ∧ (48000:ℝ) < 50000 ∧
    exJet.thrust exGrid (.scalar 0.8) (.scalar 10000) = .ok (some [some 17000]) := by
  refine ⟨?_, ⟨⟨_, by simp [exRows2]; right; rfl, rfl⟩, ?_⟩, by norm_num, ?_⟩
  · intro r hr; simp [exRows2] at hr; rcases hr with rfl | rfl <;> exact ⟨_, rfl⟩
  · intro r hr v hv; simp [exRows2] at hr
    rcases hr with rfl | rfl <;> cases hv <;> norm_num
  · show Except.ok (some [exGrid exRows 0.8 10000]) = _
    have : exGrid exRows 0.8 10000 = some 17000 := by norm_num [exGrid]
    rw [this]

/-! ### C79 -/

/-- Column of a data frame: the first one with the name. -/
def Column (f : Frame) (name : String) (vals : List (Option ℝ)) : Prop :=
  ∃ pre post, f = pre ++ (name, vals) :: post ∧ ∀ c ∈ pre, c.1 ≠ name

theorem col_iff (f : Frame) (name : String) (vals : List (Option ℝ)) : col f name = .ok vals ↔ Column f name vals := by
  unfold col Column
  constructor
  · intro h
    cases hf : f.find? (fun c => decide (c.1 = name)) with
    | none => rw [hf] at h; cases h
    | some c =>
      rw [hf] at h
      cases h
      rw [List.find?_eq_some_iff_append] at hf
      obtain ⟨h1, as, bs, rfl, h2⟩ := hf
      refine ⟨as, bs, ?_, by simpa using h2⟩
      have : c = (name, c.2) := by rw [← (by simpa using h1 : c.1 = name)]
      rw [← this]
  · rintro ⟨pre, post, rfl, h⟩
    have : (pre ++ (name, vals) :: post).find? (fun c => decide (c.1 = name)) = some (name, vals) := by
      rw [List.find?_eq_some_iff_append]
      exact ⟨by simp, pre, post, rfl, by simpa using h⟩
    rw [this]

/-- The engine has a table file for the role. -/
def HasTable (dir : Dir) (name role : String) : Prop :=
  ∃ f ∈ dir.listing, Occurs name.toList f.toList ∧
    Occurs (role.toList ++ "_data.csv".toList) (f.toList.map Char.toLower)

/-- The rows come from such a file: its three named columns side by side. -/
def FromTable (dir : Dir) (name role x y z : String) (rows : List Row) : Prop :=
  ∃ f ∈ dir.listing, Occurs name.toList f.toList ∧
    Occurs (role.toList ++ "_data.csv".toList) (f.toList.map Char.toLower) ∧
    ∃ a b c, Column (dir.csv f) x a ∧ Column (dir.csv f) y b ∧ Column (dir.csv f) z c ∧ rows = a.zip (b.zip c)

/-- A query answers: None without a table; with one, the interpolation in the rows of the table that
satisfy `keep`. -/
def Answers (dir : Dir) (name role x y z : String) (keep : Row → Bool) (q : Grid → NumArg → NumArg → Query) : Prop :=
  (¬ HasTable dir name role → ∀ G u v, q G u v = .ok none) ∧
  (HasTable dir name role → ∃ rows, FromTable dir name role x y z rows ∧
    ∀ G u v, q G (.scalar u) (.scalar v) = .ok (some [G (rows.filter keep) u v]))

theorem assign_closed {dir : Dir} {name role x y z : String} {r : Option (List Row)}
    (h : assign ((engineFiles name dir.listing).any (isTable role))
      ((lastWhere (isTable role) (engineFiles name dir.listing)).map dir.csv) x y z = .ok r) :
    (¬ HasTable dir name role → (engineFiles name dir.listing).any (isTable role) = false ∧ r = none) ∧
    (HasTable dir name role → (engineFiles name dir.listing).any (isTable role) = true ∧
      ∃ rows, FromTable dir name role x y z rows ∧ r = some rows) := by
  have role_iff : ∀ f, isTable role f = true ↔
      Occurs (role.toList ++ "_data.csv".toList) (f.toList.map Char.toLower) := fun f => pyIn_iff _ _
  have any_iff : (engineFiles name dir.listing).any (isTable role) = true ↔ HasTable dir name role := by
    rw [List.any_eq_true]
    unfold HasTable
    constructor
    · rintro ⟨f, hf, ht⟩
      rw [mem_engineFiles] at hf
      exact ⟨f, hf.1, hf.2, (role_iff f).mp ht⟩
    · rintro ⟨f, h1, h2, h3⟩
      exact ⟨f, (mem_engineFiles _ _ _).mpr ⟨h1, h2⟩, (role_iff f).mpr h3⟩
  constructor
  · intro hn
    have : (engineFiles name dir.listing).any (isTable role) = false := by
      rw [← Bool.not_eq_true, any_iff]; exact hn
    refine ⟨this, ?_⟩
    rw [this] at h
    cases h; rfl
  · intro hh
    have ha := any_iff.mpr hh
    refine ⟨ha, ?_⟩
    rw [ha] at h
    unfold assign at h
    rw [if_pos rfl] at h
    cases hl : lastWhere (isTable role) (engineFiles name dir.listing) with
    | none => rw [hl] at h; cases h
    | some f =>
      rw [hl] at h
      obtain ⟨m1, m2⟩ := lastWhere_mem hl
      rw [mem_engineFiles] at m1
      simp only [Option.map_some] at h
      unfold table at h
      simp only [bind_ok_iff, pure_ok_iff] at h
      obtain ⟨t, ⟨a, h1, b, h2, c, h3, rfl⟩, rfl⟩ := h
      exact ⟨_, ⟨f, m1.1, m1.2, (role_iff f).mp m2, a, b, c, (col_iff _ _ _).mp h1, (col_iff _ _ _).mp h2,
        (col_iff _ _ _).mp h3, rfl⟩, rfl⟩

theorem guarded_answers {dir : Dir} {name role x y z : String} {r : Option (List Row)} {av : Bool}
    (h1 : ¬ HasTable dir name role → av = false ∧ r = none)
    (h2 : HasTable dir name role → av = true ∧ ∃ rows, FromTable dir name role x y z rows ∧ r = some rows) :
    Answers dir name role x y z (fun _ => true) (guarded av r) ∧
    Answers dir name role x y z (fun r => r.1.isSome && r.2.1.isSome && r.2.2.isSome) (guarded av (r.map dropNan)) := by
  refine ⟨⟨fun h G u v => ?_, fun h => ?_⟩, ⟨fun h G u v => ?_, fun h => ?_⟩⟩
  · obtain ⟨rfl, rfl⟩ := h1 h; rfl
  · obtain ⟨rfl, rows, hr, rfl⟩ := h2 h
    refine ⟨rows, hr, fun G u v => ?_⟩
    rw [List.filter_true]; rfl
  · obtain ⟨rfl, rfl⟩ := h1 h; rfl
  · obtain ⟨rfl, rows, hr, rfl⟩ := h2 h
    exact ⟨rows, hr, fun G u v => rfl⟩

/-- Rows without blanks. -/
def full (r : Row) : Bool := r.1.isSome && r.2.1.isSome && r.2.2.isSome

/-- Jet decks: thrust and fuel consumption. -/
theorem C79_jet (dir : Dir) (name : String) (d : JetDeck) (h : mkJet dir name = .ok d) :
    Answers dir name "thrust" "Mach Number" "Altitude (m)" "Thrust (N)" (fun _ => true) d.thrust ∧
    Answers dir name "tsfc" "Mach Number" "Thrust (N)" "TSFC (g/(kNs))" full d.tsfc := by
  unfold mkJet at h
  simp only [bind_ok_iff, pure_ok_iff] at h
  obtain ⟨S, hS, thr, h1, sfc, h2, rfl⟩ := h
  rw [setup_ok] at hS
  obtain ⟨_, rfl⟩ := hS
  obtain ⟨a1, a2⟩ := assign_closed h1
  obtain ⟨b1, b2⟩ := assign_closed h2
  exact ⟨(guarded_answers a1 a2).1, (guarded_answers b1 b2).2⟩

/-- Turboprop decks: hot thrust, shaft power and fuel consumption. -/
theorem C79_turboprop (dir : Dir) (name : String) (d : TurbopropDeck) (h : mkTurboprop dir name = .ok d) :
    Answers dir name "thrust" "Mach Number" "Altitude (m)" "Thrust (N)" (fun _ => true) d.hotthrust ∧
    Answers dir name "power" "Mach Number" "Altitude (m)" "Power (W)" (fun _ => true) d.shaftpower ∧
    Answers dir name "bsfc" "Mach Number" "Altitude (m)" "BSFC (g/(kWh))" full d.bsfc := by
  unfold mkTurboprop at h
  simp only [bind_ok_iff, pure_ok_iff] at h
  obtain ⟨S, hS, thr, h1, pwr, h2, sfc, h3, rfl⟩ := h
  rw [setup_ok] at hS
  obtain ⟨_, rfl⟩ := hS
  obtain ⟨a1, a2⟩ := assign_closed h1
  obtain ⟨b1, b2⟩ := assign_closed h2
  obtain ⟨c1, c2⟩ := assign_closed h3
  exact ⟨(guarded_answers a1 a2).1, (guarded_answers b1 b2).1, (guarded_answers c1 c2).2⟩

example : ∃ d, mkTurboprop ⟨["T1_Power_data.csv"],
    fun _ => [("Mach Number", [some 0.3]), ("Altitude (m)", [some 0]), ("Power (W)", [some 900000])], fun _ => .ok ([1], [0, 1])⟩ "T1"
    = .ok d ∧ d.pwr_data = some [(some 0.3, some 0, some 900000)] ∧ d.thr_data = none := by
  obtain ⟨D, hD⟩ : ∃ D : Dir, D = ⟨["T1_Power_data.csv"],
    fun _ => [("Mach Number", [some 0.3]), ("Altitude (m)", [some 0]), ("Power (W)", [some 900000])], fun _ => .ok ([1], [0, 1])⟩ := ⟨_, rfl⟩
  rw [← hD]
  unfold mkTurboprop
  have hf : engineFiles "T1" D.listing = ["T1_Power_data.csv"] := by rw [hD]; decide
  rw [(setup_ok D "T1" ["thrust", "power"] ["bsfc"] _).mpr ⟨fun _ _ _ => by rw [hD]; exact ⟨_, rfl⟩, rfl⟩, bind_ok, hf]
  have o : (closedSetup D ["thrust", "power"] ["bsfc"] ["T1_Power_data.csv"]).output_data
      = [none, some (D.csv "T1_Power_data.csv")] := by
    show [Option.map _ (lastWhere (isTable "thrust") ["T1_Power_data.csv"]),
      Option.map _ (lastWhere (isTable "power") ["T1_Power_data.csv"])] = _
    rw [show lastWhere (isTable "thrust") ["T1_Power_data.csv"] = none by decide,
      show lastWhere (isTable "power") ["T1_Power_data.csv"] = some "T1_Power_data.csv" by decide]
    rfl
  have av : (closedSetup D ["thrust", "power"] ["bsfc"] ["T1_Power_data.csv"]).avail.out = [false, true] := by
    show [List.any ["T1_Power_data.csv"] (isTable "thrust"), List.any ["T1_Power_data.csv"] (isTable "power")] = _
    decide
  have ae : (closedSetup D ["thrust", "power"] ["bsfc"] ["T1_Power_data.csv"]).avail.eff = [false] := by
    show [List.any ["T1_Power_data.csv"] (isTable "bsfc")] = _
    decide
  rw [o, av, ae, hD]
  exact ⟨_, rfl, rfl, rfl⟩

/-- Electric decks: efficiency. -/
theorem C79_electric (dir : Dir) (name : String) (d : ElectricDeck) (h : mkElectric dir name = .ok d) :
    Answers dir name "efficiency" "Speed (RPM)" "Torque (Nm)" "Efficiency" (fun _ => true) d.efficiency := by
  unfold mkElectric at h
  simp only [bind_ok_iff, pure_ok_iff] at h
  obtain ⟨S, hS, e, h1, rfl⟩ := h
  rw [setup_ok] at hS
  obtain ⟨_, rfl⟩ := hS
  obtain ⟨a1, a2⟩ := assign_closed h1
  exact (guarded_answers a1 a2).1

example : ∃ d, mkElectric ⟨["M1_Efficiency_data.csv"],
    fun _ => [("Speed (RPM)", [some 1000]), ("Torque (Nm)", [some 50]), ("Efficiency", [some 0.9])], fun _ => .ok ([1], [0, 1])⟩ "M1"
    = .ok d ∧ d.eta_data = some [(some 1000, some 50, some 0.9)] := by
  obtain ⟨D, hD⟩ : ∃ D : Dir, D = ⟨["M1_Efficiency_data.csv"],
    fun _ => [("Speed (RPM)", [some 1000]), ("Torque (Nm)", [some 50]), ("Efficiency", [some 0.9])], fun _ => .ok ([1], [0, 1])⟩ := ⟨_, rfl⟩
  rw [← hD]
  unfold mkElectric
  have hf : engineFiles "M1" D.listing = ["M1_Efficiency_data.csv"] := by rw [hD]; decide
  rw [(setup_ok D "M1" ["efficiency"] [""] _).mpr ⟨fun _ _ _ => by rw [hD]; exact ⟨_, rfl⟩, rfl⟩, bind_ok, hf]
  have o : (closedSetup D ["efficiency"] [""] ["M1_Efficiency_data.csv"]).output_data
      = [some (D.csv "M1_Efficiency_data.csv")] := by
    show [Option.map _ (lastWhere (isTable "efficiency") ["M1_Efficiency_data.csv"])] = _
    rw [show lastWhere (isTable "efficiency") ["M1_Efficiency_data.csv"] = some "M1_Efficiency_data.csv" by decide]
    rfl
  have av : (closedSetup D ["efficiency"] [""] ["M1_Efficiency_data.csv"]).avail.out = [true] := by
    show [List.any ["M1_Efficiency_data.csv"] (isTable "efficiency")] = _
    decide
  rw [o, av, hD]
  exact ⟨_, rfl, rfl⟩

theorem gridNan_zip (G : Grid) (rows : List Row) : ∀ (rs Ps : List ℝ), List.zipWith (gridNan G rows) rs (Ps.map some) = List.zipWith (G rows) rs Ps
  | [], _ => by simp
  | _ :: _, [] => by simp
  | r :: rs, P :: Ps => by
    rw [List.map_cons, List.zipWith_cons_cons, List.zipWith_cons_cons, gridNan_zip G rows rs Ps]; rfl

theorem bsfc_rows (G : Grid) (rows : List Row) (rs Ps : List ℝ) (hl : rs.length = Ps.length) :
    (do let t ← attrOf (some rows)
        let z ← bcast (gridNan G t) (recastArray (.array rs)) ((some (Ps.map some)).getD [none])
        pure (some z) : Query) = .ok (some (List.zipWith (G rows) rs Ps)) := by
  rw [← gridNan_zip]
  show (do let z ← bcast (gridNan G rows) rs (Ps.map some); pure (some z) : Query) = _
  unfold bcast
  rw [if_pos (by rw [List.length_map]; exact hl)]; rfl

/-- Piston decks: shaft power, and fuel consumption at best economy (role "bsfc"), at best power (role
"bsfc_best_power"); any other mixture setting gives None. -/
theorem C79_piston (dir : Dir) (name : String) (d : PistonDeck) (h : mkPiston dir name = .ok d) :
    Answers dir name "power" "Speed (RPM)" "Altitude (m)" "Power (W)" (fun _ => true) d.shaftpower ∧
    (∀ best role, best = "economy" ∧ role = "bsfc" ∨ best = "power" ∧ role = "bsfc_best_power" →
      (¬ HasTable dir name role → ∀ G r P, d.bsfc G r P best = .ok none) ∧
      (HasTable dir name role → ∃ rows, FromTable dir name role "Speed (RPM)" "Power (W)" "BSFC (g/(kWh))" rows ∧
        ∀ G (rs Ps : List ℝ), rs.length = Ps.length →
          d.bsfc G (.array rs) (some (Ps.map some)) best = .ok (some (List.zipWith (G rows) rs Ps)))) ∧
    (∀ best G r P, best ≠ "economy" → best ≠ "power" → d.bsfc G r P best = .ok none) := by
  unfold mkPiston at h
  simp only [bind_ok_iff, pure_ok_iff] at h
  obtain ⟨S, hS, pwr, h1, b, h2, bp, h3, rfl⟩ := h
  rw [setup_ok] at hS
  obtain ⟨_, rfl⟩ := hS
  obtain ⟨a1, a2⟩ := assign_closed h1
  obtain ⟨b1, b2⟩ := assign_closed h2
  obtain ⟨c1, c2⟩ := assign_closed h3
  refine ⟨(guarded_answers a1 a2).1, ?_, ?_⟩
  · rintro best role (⟨rfl, rfl⟩ | ⟨rfl, rfl⟩)
    · refine ⟨fun hn G r P => ?_, fun hh => ?_⟩
      · obtain ⟨e1, rfl⟩ := b1 hn
        show (if _ = false then _ else _) = _
        rw [if_pos]; exact e1
      · obtain ⟨e1, rows, hr, rfl⟩ := b2 hh
        refine ⟨rows, hr, fun G rs Ps hl => ?_⟩
        show (if _ = false then _ else _) = _
        rw [if_neg]
        · exact bsfc_rows G rows rs Ps hl
        · intro hc
          have : (engineFiles name dir.listing).any (isTable "bsfc") = false := hc
          rw [e1] at this; cases this
    · refine ⟨fun hn G r P => ?_, fun hh => ?_⟩
      · obtain ⟨e1, rfl⟩ := c1 hn
        show (if _ = false then _ else _) = _
        rw [if_pos]; exact e1
      · obtain ⟨e1, rows, hr, rfl⟩ := c2 hh
        refine ⟨rows, hr, fun G rs Ps hl => ?_⟩
        show (if _ = false then _ else _) = _
        rw [if_neg]
        · exact bsfc_rows G rows rs Ps hl
        · intro hc
          have : (engineFiles name dir.listing).any (isTable "bsfc_best_power") = false := hc
          rw [e1] at this; cases this
  · intro best G r P n1 n2
    unfold PistonDeck.bsfc
    simp only [n1, n2, if_false]

example (s1 p1 b1 s2 p2 b2 a3 p3 s3 : List (Option ℝ)) (poly : String → PyM PolyFile) :
    ∃ t, mkPiston ⟨["IO-540_BSFC_best_power_data.csv", "IO-540_BSFC_data.csv", "IO-540_Power_data.csv"],
      io540 s1 p1 b1 s2 p2 b2 a3 p3 s3, poly⟩ "IO-540" = .ok t :=
  (C63_io540_violated s1 p1 b1 s2 p2 b2 a3 p3 s3 poly).1.imp fun _ h => h.1

/-- The checks of the turboprop plots (and of the piston shaft power plot) never fire: no plot ends with
the warning, and without the table AttributeError is raised. The jet plot of fuel consumption against
altitude does not check for the thrust table either. -/
theorem C79_demoplot_violated (d : TurbopropDeck) (p : PistonDeck) (j : JetDeck) (e : String) (G : Grid) :
    (d.demoplot_thrust e G ≠ .ok none ∧ (d.thr_data = none → d.demoplot_thrust e G = .error .attributeError)) ∧
    (d.demoplot_shaftpower e G ≠ .ok none ∧ (d.pwr_data = none → d.demoplot_shaftpower e G = .error .attributeError)) ∧
    (d.demoplot_bsfc e G ≠ .ok none ∧ (d.bsfc_data = none → d.demoplot_bsfc e G = .error .attributeError)) ∧
    (p.demoplot_shaftpower e G ≠ .ok none ∧ (p.pwr_data = none → p.demoplot_shaftpower e G = .error .attributeError)) ∧
    (j.avail.eff[0]? = some true → j.thr_data = none → j.demoplot_tsfc e G "alt_m" = .error .attributeError) := by
  have never : ∀ (data : Option (List Row)) f x y z t, (do
      let lims ← plotLimits data
      let p ← demoPlot lims f x y z t
      pure (some p) : PyM (Option DemoPlot)) ≠ .ok none := by
    intro data f x y z t h
    simp only [bind_ok_iff] at h
    obtain ⟨_, _, _, _, h⟩ := h
    cases h
  refine ⟨⟨never _ _ _ _ _ _, fun h => ?_⟩, ⟨never _ _ _ _ _ _, fun h => ?_⟩, ⟨never _ _ _ _ _ _, fun h => ?_⟩, ⟨never _ _ _ _ _ _, fun h => ?_⟩,
    fun h1 h2 => ?_⟩
  · unfold TurbopropDeck.demoplot_thrust; rw [h]; rfl
  · unfold TurbopropDeck.demoplot_shaftpower; rw [h]; rfl
  · unfold TurbopropDeck.demoplot_bsfc; rw [h]; rfl
  · unfold PistonDeck.demoplot_shaftpower; rw [h]; rfl
  · have fl : flagAt j.avail.eff 0 = true := by unfold flagAt; rw [List.getD_eq_getElem?_getD, h1]; rfl
    unfold JetDeck.demoplot_tsfc
    rw [fl, h2]; rfl

/-- Quantities derived from a missing table raise instead of giving None: corrections AttributeError,
electric specific consumption TypeError. -/
theorem C79_derived_violated (G : Grid) (x y : NumArg) :
    (∀ d : JetDeck, d.avail.out[0]? = some false → d.thr_data = none →
      d.sl_thrustcorr G x y = .error .attributeError) ∧
    (∀ d : TurbopropDeck, d.avail.out[1]? = some false → d.pwr_data = none →
      d.sl_powercorr G x y = .error .attributeError) ∧
    (∀ d : PistonDeck, d.avail.out[0]? = some false → d.pwr_data = none →
      d.sl_powercorr G x y = .error .attributeError) ∧
    (∀ d : ElectricDeck, d.avail.out[0]? = some false → d.bsec G x y = .error .typeError) := by
  have fl : ∀ (l : List Bool) i, l[i]? = some false → flagAt l i = false := by
    intro l i h; unfold flagAt; rw [List.getD_eq_getElem?_getD, h]; rfl
  refine ⟨fun d h1 h2 => ?_, fun d h1 h2 => ?_, fun d h1 h2 => ?_, fun d h1 => ?_⟩
  · unfold JetDeck.sl_thrustcorr JetDeck.thrust; rw [fl _ _ h1, h2]; rfl
  · unfold TurbopropDeck.sl_powercorr TurbopropDeck.shaftpower; rw [fl _ _ h1, h2]; rfl
  · unfold PistonDeck.sl_powercorr PistonDeck.shaftpower; rw [fl _ _ h1, h2]; rfl
  · unfold ElectricDeck.bsec ElectricDeck.efficiency; rw [fl _ _ h1]; rfl

/-- The electric specific consumption is the inverse of the efficiency, point by point (NaN where that is NaN). -/
theorem C79_bsec (d : ElectricDeck) (G : Grid) (x y : NumArg) (zs : List (Option ℝ)) (h : d.efficiency G x y = .ok (some zs)) :
    ∃ bs, d.bsec G x y = .ok bs ∧ bs.length = zs.length ∧ (∀ i : ℕ, zs[i]? = some none ↔ bs[i]? = some none) ∧
      ∀ (i : ℕ) (z : ℝ), zs[i]? = some (some z) → ∃ b, bs[i]? = some (some b) ∧ (z ≠ 0 → b * z = 1) := by
  refine ⟨_, by unfold ElectricDeck.bsec; rw [h]; rfl, by simp, fun i => ?_, fun i z hz => ⟨1 / z, ?_, fun h0 => ?_⟩⟩
  · rw [List.getElem?_map]
    rcases zs[i]? with _ | _ | z <;> simp [ndiv]
  · rw [List.getElem?_map, hz]; rfl
  · field_simp

/-- Efficiency 0.8 at one point, none at the other. -/
example : ∃ d : ElectricDeck, ∃ (G : Grid) (bs : List (Option ℝ)), d.efficiency G (.array [1000, 9000]) (.array [50, 50]) = .ok (some [some 0.8, none]) ∧
    d.bsec G (.array [1000, 9000]) (.array [50, 50]) = .ok bs ∧ bs[0]? = some (some (1.25 : ℝ)) ∧ bs[1]? = some none := by
  have he : (⟨⟨[true], [], false, false⟩, some [], [], []⟩ : ElectricDeck).efficiency (fun _ r _ => if r = 1000 then some 0.8 else none)
      (.array [1000, 9000]) (.array [50, 50]) = .ok (some [some 0.8, none]) := by
    norm_num [ElectricDeck.efficiency, guarded, flagAt, attrOf, griddata, recastArray, bcast]
    rfl
  obtain ⟨bs, h1, -, h2, h3⟩ := C79_bsec _ _ _ _ _ he
  obtain ⟨b, h4, h5⟩ := h3 0 0.8 rfl
  have hb : b = 1.25 := by have := h5 (by norm_num); norm_num at this ⊢; linarith
  exact ⟨_, _, bs, he, h1, hb ▸ h4, (h2 1).mp rfl⟩

/-- A directory with the tables of one jet engine. -/
def exDir : Dir where
  listing := ["J52_Thrust_data.csv", "J52_TSFC_data.csv"]
  csv f := if f = "J52_Thrust_data.csv" then
      [("Mach Number", [some 0, some 0.8]), ("Altitude (m)", [some 0, some 10000]), ("Thrust (N)", [some 40000, some 12000])]
    else [("Mach Number", [some 0, none]), ("Thrust (N)", [some 30000, some 20000]), ("TSFC (g/(kNs))", [some 22, some 25])]
  poly _ := .ok ([1, 2], [0, 1])

example : (∃ d, mkJet exDir "J52" = .ok d) ∧ HasTable exDir "J52" "thrust" ∧ HasTable exDir "J52" "tsfc" ∧
    (∃ d, mkJet exDir "J57" = .ok d) ∧ ¬ HasTable exDir "J57" "thrust" := by
  refine ⟨?_, ⟨"J52_Thrust_data.csv", by simp [exDir], (pyIn_iff _ _).mp (by decide), (pyIn_iff _ _).mp (by decide)⟩,
    ⟨"J52_TSFC_data.csv", by simp [exDir], (pyIn_iff _ _).mp (by decide), (pyIn_iff _ _).mp (by decide)⟩, ?_, ?_⟩
  · unfold mkJet
    have hf : engineFiles "J52" exDir.listing = ["J52_Thrust_data.csv", "J52_TSFC_data.csv"] := by decide
    rw [(setup_ok exDir "J52" ["thrust"] ["tsfc"] _).mpr ⟨fun _ _ _ => ⟨_, rfl⟩, rfl⟩, bind_ok, hf]
    have o : (closedSetup exDir ["thrust"] ["tsfc"] ["J52_Thrust_data.csv", "J52_TSFC_data.csv"]).output_data
        = [some (exDir.csv "J52_Thrust_data.csv")] := by
      show [Option.map _ (lastWhere (isTable "thrust") ["J52_Thrust_data.csv", "J52_TSFC_data.csv"])] = _
      rw [show lastWhere (isTable "thrust") ["J52_Thrust_data.csv", "J52_TSFC_data.csv"] = some "J52_Thrust_data.csv" by decide]
      rfl
    have e : (closedSetup exDir ["thrust"] ["tsfc"] ["J52_Thrust_data.csv", "J52_TSFC_data.csv"]).eta_data
        = [some (exDir.csv "J52_TSFC_data.csv")] := by
      show [Option.map _ (lastWhere (isTable "tsfc") ["J52_Thrust_data.csv", "J52_TSFC_data.csv"])] = _
      rw [show lastWhere (isTable "tsfc") ["J52_Thrust_data.csv", "J52_TSFC_data.csv"] = some "J52_TSFC_data.csv" by decide]
      rfl
    have av : (closedSetup exDir ["thrust"] ["tsfc"] ["J52_Thrust_data.csv", "J52_TSFC_data.csv"]).avail
        = ⟨[true], [true], false, false⟩ := by
      show (Avail.mk [List.any ["J52_Thrust_data.csv", "J52_TSFC_data.csv"] (isTable "thrust")]
        [List.any ["J52_Thrust_data.csv", "J52_TSFC_data.csv"] (isTable "tsfc")]
        (List.any ["J52_Thrust_data.csv", "J52_TSFC_data.csv"] fun f => ["thrust"].any fun o => isSlPoly o f)
        (List.any ["J52_Thrust_data.csv", "J52_TSFC_data.csv"] fun f => ["thrust"].any fun o => isSltoPoly o f)) = _
      decide
    have k2 : exDir.csv "J52_TSFC_data.csv" = [("Mach Number", [some 0, none]), ("Thrust (N)", [some 30000, some 20000]), ("TSFC (g/(kNs))", [some 22, some 25])] := by
      unfold exDir
      simp only []
      rw [if_neg (by decide : ¬ ("J52_TSFC_data.csv" = "J52_Thrust_data.csv"))]
    rw [o, e, av, k2]
    exact ⟨_, rfl⟩
  · obtain ⟨_, _, _, d, hd, _⟩ := C62_unknown_violated exDir "J57" (by
      intro f hf hc; rw [← pyIn_iff] at hc; revert f; decide)
    exact ⟨d, hd⟩
  · rintro ⟨f, h1, h2, h3⟩
    clear h3
    rw [← pyIn_iff] at h2
    revert h2 h1 f; decide

/-! ### C77 -/

/-- Piston fuel consumption: the power table is read at the Mach number in place of the engine speed. If
the table does not extend to engine speeds as low as a Mach number (interpolation gives NaN there, as for
every engine of the package) no number ever results, for any engine speed, propeller and mixture. -/
theorem C77_nan_violated (d : PistonDeck) (G : Grid) (m h rpm : ℝ) (o : PropellerObj) (best : String)
    (hG : ∀ rows, d.pwr_data = some rows → G rows m h = none) (r : List (Option ℝ))
    (hr : d.tsfc G (.scalar m) (.scalar h) rpm o best = .ok r) : ∀ x ∈ r, x = none := by
  unfold PistonDeck.tsfc at hr
  rw [bind_ok_iff] at hr
  obtain ⟨power, hp, hr⟩ := hr
  have hpow : power = none ∨ power = some [none] := by
    unfold PistonDeck.shaftpower guarded at hp
    split_ifs at hp
    · left; injection hp with hp; exact hp.symm
    · right
      rw [bind_ok_iff] at hp
      obtain ⟨t, ht, hp⟩ := hp
      have hd : d.pwr_data = some t := by
        unfold attrOf at ht
        cases hx : d.pwr_data with
        | none => rw [hx] at ht; cases ht
        | some a => rw [hx] at ht; cases ht; rfl
      have e : griddata G t (.array (recastArray (.scalar m))) (.array (recastArray (.scalar h))) = .ok [G t m h] := rfl
      rw [e, hG t hd] at hp
      injection hp with hp; exact hp.symm
  unfold propTsfc at hr
  simp only [bind_ok_iff] at hr
  obtain ⟨p, _, eta, he, v, hv, q, hq, hr⟩ := hr
  have hbs : q = none ∨ q = some [none] := by
    have g : (power.getD [none]) = [none] := by rcases hpow with h | h <;> rw [h] <;> rfl
    unfold PistonDeck.bsfc at hq
    rw [g] at hq
    simp only [] at hq
    have go : ∀ (av : Bool) (data : Option (List Row)),
        (if av = false then (.ok none : Query) else do
          let t ← attrOf data
          let z ← bcast (gridNan G t) (recastArray (.scalar rpm)) [none]
          pure (some z)) = .ok q → q = none ∨ q = some [none] := by
      intro av data hx
      split_ifs at hx
      · left; injection hx with hx; exact hx.symm
      · right
        rw [bind_ok_iff] at hx
        obtain ⟨t, _, hx⟩ := hx
        injection hx with hx; exact hx.symm
    split_ifs at hq with c1 c2 c3 c4
    all_goals first
      | (left; injection hq with hq; exact hq.symm)
      | exact go true _ (by rw [if_neg (by decide)]; exact hq)
  rcases hbs with rfl | rfl
  · cases hr
  · simp only [bind_ok_iff] at hr
    obtain ⟨bv, hbv, hr⟩ := hr
    have b1 : ∀ x ∈ bv, x = none := by
      have : bcast nmul [ndiv none (some 3600)] (v.map some) = .ok bv := hbv
      unfold bcast at this
      intro x hx
      split_ifs at this with hl
      · injection this with this
        subst this
        match v, hl with
        | [w], _ => simpa [nmul, ndiv] using hx
      · injection this with this
        subst this
        rw [List.mem_map] at hx
        obtain ⟨y, _, rfl⟩ := hx
        rfl
    unfold bcast at hr
    intro x hx
    split_ifs at hr
    · injection hr with hr
      subst hr
      rw [List.mem_iff_getElem?] at hx
      obtain ⟨i, hi⟩ := hx
      rw [List.getElem?_zipWith] at hi
      split at hi
      · rename_i a b ha hb
        injection hi with hi
        rw [← hi, b1 a (List.mem_of_getElem? ha)]; rfl
      · cases hi
    · split at hr
      · rename_i bx _
        injection hr with hr
        subst hr
        rw [List.mem_map] at hx
        obtain ⟨y, _, rfl⟩ := hx
        rw [b1 bx (by simp)]; rfl
      · injection hr with hr
        subst hr
        rw [List.mem_map] at hx
        obtain ⟨y, hy, rfl⟩ := hx
        rw [b1 y hy]; rfl
      · cases hr

/-- In general the result does not depend on the shaft power at the engine speed: two interpolations that
agree on the power table at the Mach number, and on every other table, give the same result. -/
theorem C77_speed_violated (d : PistonDeck) (G G' : Grid) (m h rpm : ℝ) (o : PropellerObj) (best : String)
    (hG : ∀ rows, d.pwr_data = some rows → G rows m h = G' rows m h)
    (hb : ∀ rows, d.bsfc_data = some rows ∨ d.bsfc_pwr_data = some rows → ∀ x y, G rows x y = G' rows x y) :
    d.tsfc G (.scalar m) (.scalar h) rpm o best = d.tsfc G' (.scalar m) (.scalar h) rpm o best := by
  have e1 : d.shaftpower G (.array [m]) (.array [h]) = d.shaftpower G' (.array [m]) (.array [h]) := by
    unfold PistonDeck.shaftpower guarded
    cases hx : d.pwr_data with
    | none => rfl
    | some rows =>
      split_ifs
      · rfl
      · show Except.ok (some [G rows m h]) = Except.ok (some [G' rows m h])
        rw [hG rows hx]
  have e2 : ∀ power, d.bsfc G (.scalar rpm) power best = d.bsfc G' (.scalar rpm) power best := by
    intro power
    have gn : ∀ rows, (d.bsfc_data = some rows ∨ d.bsfc_pwr_data = some rows) →
        gridNan G rows = gridNan G' rows := by
      intro rows hr; funext r y
      cases y with
      | none => rfl
      | some y => exact hb rows hr r y
    unfold PistonDeck.bsfc
    simp only []
    split_ifs
    · rfl
    · cases hx : d.bsfc_data with
      | none => rfl
      | some rows => simp only [attrOf, bind_ok]; rw [gn rows (Or.inl hx)]
    · rfl
    · cases hx : d.bsfc_pwr_data with
      | none => rfl
      | some rows => simp only [attrOf, bind_ok]; rw [gn rows (Or.inr hx)]
    · rfl
  unfold PistonDeck.tsfc
  show (d.shaftpower G (.array [m]) (.array [h]) >>= _) = (d.shaftpower G' (.array [m]) (.array [h]) >>= _)
  rw [e1]
  congr 1
  funext power
  rw [e2]

/-- A piston engine with power between 2000 and 2700 rpm. -/
def exPiston : PistonDeck :=
  ⟨⟨[true], [true, true], false, false⟩, some [(some 2000, some 0, some 150000), (some 2700, some 0, some 190000)],
    some [(some 2000, some 150000, some 280)], some [(some 2000, some 150000, some 300)]⟩

/-- NaN below 2000 rpm, otherwise some number. -/
def exPistonGrid : Grid := fun _ x _ => if x < 2000 then none else some 160000

example : ∀ rows, exPiston.pwr_data = some rows → exPistonGrid rows 0.3 1000 = none := by
  intro rows _; norm_num [exPistonGrid]

example : ∀ rows, exPiston.pwr_data = some rows →
    exPistonGrid rows 0.3 1000 = (fun _ x _ => if x < 2000 then none else some 99 : Grid) rows 0.3 1000 := by
  intro rows _; norm_num [exPistonGrid]

end

end Verif.Propulsion
