import Verif.Props.Concept2

/-
Properties C34-C37: the AircraftConcept constructor, continued.
-/

namespace Verif.Props
open Verif Verif.Aircraft

noncomputable section

/-! ### A case in point

A brief with a range and a number, a swept wing, two efficiencies of which one is False. -/

/-- brief of the case -/
def exBrief : Dict := [("cruisealt_m", .list [1000, 3000]), ("cruisespeed_ktas", .num 100)]
/-- design of the case -/
def exDesign : Dict := [("sweep_le_deg", .num 30), ("aspectratio", .list [8, 9, 10])]
/-- performance of the case -/
def exPerf : Dict := [("etaprop", .sub [("climb", some 0.7), ("turn", none)])]

theorem ex_wellKinded : WellKinded exBrief exDesign exPerf := by
  constructor
  · intro k hk s h
    have := dget_some_mem _ _ _ h
    simp [exBrief] at this
  · intro k hk hw s h
    have := dget_some_mem _ _ _ h
    simp [exDesign] at this
  · intro k hk hw s h
    have := dget_some_mem _ _ _ h
    simp [exPerf] at this
    exact hw this.1
  · simp [exDesign, dget]
  · right; exact ⟨_, by simp [exPerf, dget]; rfl, by simp⟩
  · intro _ xs; simp [exDesign, dget]

theorem ex_noEmpty : NoEmptyRange exBrief exDesign exPerf := by
  refine ⟨fun k hk h => ?_, fun k hk h => ?_, fun k hk h => ?_⟩ <;>
  · have := dget_some_mem _ _ _ h
    simp [exBrief, exDesign, exPerf] at this

theorem ex_construct (a : Option Atmos.Atm) (pa : PropArg) : ∃ r, construct exBrief exDesign exPerf a pa = .ok r :=
  (C35_outcome _ _ _ a pa ex_wellKinded).1 ex_noEmpty

/-- An empty range in the brief. -/
example (a : Option Atmos.Atm) (pa : PropArg) :
    construct [("groundrun_m", .list [])] [] [] a pa = .error .zeroDivisionError := by
  refine (C35_outcome _ _ _ a pa ?_).2 ?_
  · constructor <;> simp [dget, given]
  · intro h
    exact h.1 "groundrun_m" (by simp [default_brief]) (by simp [dget])

/-! ### C34 -/

/-- A dictionary the caller passes in is changed whenever it is not empty and lacks a documented key. -/
theorem C34_filled_violated {b d p : Dict} {a : Option Atmos.Atm} {pa : PropArg} {r : Built}
    (h : construct b d p a pa = .ok r) :
    (b ≠ [] → (∃ k ∈ default_brief.map (·.1), dget b k = none) → callerAfter b r.brief ≠ b) ∧
    (d ≠ [] → (∃ k ∈ default_design.map (·.1), dget d k = none) → callerAfter d r.design ≠ d) ∧
    (p ≠ [] → (∃ k ∈ default_performance.map (·.1), dget p k = none) → callerAfter p r.performance ≠ p) := by
  obtain ⟨q1, q2, q3⟩ := C32_present h
  refine ⟨?_, ?_, ?_⟩ <;>
  · rintro hne ⟨k, hk, hn⟩ he
    unfold callerAfter at he
    rw [if_neg hne] at he
    first
    | (obtain ⟨v, hv⟩ := q1 k hk; rw [he, hn] at hv; cases hv)
    | (obtain ⟨v, hv⟩ := q2 k hk; rw [he, hn] at hv; cases hv)
    | (obtain ⟨v, hv⟩ := q3 k hk; rw [he, hn] at hv; cases hv)

example (a : Option Atmos.Atm) (pa : PropArg) : ∃ r, construct exBrief exDesign exPerf a pa = .ok r ∧
    callerAfter exBrief r.brief ≠ exBrief ∧ callerAfter exDesign r.design ≠ exDesign := by
  obtain ⟨r, h⟩ := ex_construct a pa
  exact ⟨r, h, (C34_filled_violated h).1 (by simp [exBrief]) ⟨"servceil_m", by simp [default_brief], by simp [exBrief, dget]⟩,
    (C34_filled_violated h).2.1 (by simp [exDesign]) ⟨"wingheightratio", by simp [default_design], by simp [exDesign, dget]⟩⟩

/-- The caller's brief stays as it was exactly when it is empty, or complete and without ranges. -/
theorem C34_unchanged_iff {b d p : Dict} {a : Option Atmos.Atm} {pa : PropArg} {r : Built}
    (h : construct b d p a pa = .ok r) :
    callerAfter b r.brief = b ↔ b = [] ∨ ∀ k ∈ default_brief.map (·.1), ∃ v, dget b k = some v ∧ ∀ xs, v ≠ .list xs := by
  obtain ⟨q1, -, -⟩ := C32_present h
  obtain ⟨fb, fd, fp, d1, d2, d3, d4, p1, n, h1, h2, h3, h4, h5, h6, h7, h8, hs, h9, h10, h11, h12⟩ := construct_ok h
  unfold callerAfter
  by_cases hb : b = []
  · simp [hb]
  rw [if_neg hb]
  constructor
  · intro he
    refine Or.inr fun k hk => ?_
    obtain ⟨-, -, -, g4, -, -⟩ := space_facts h
    obtain ⟨v, hv⟩ := q1 k hk
    rw [he] at hv
    refine ⟨v, hv, ?_⟩
    rw [← he, g4, if_pos hk] at hv
    cases hx : dget r.space.1 k with
    | none => rw [hx] at hv; cases hv
    | some y => rw [hx] at hv; cases hv; exact averaged_not_list y
  · rintro (he | hk)
    · exact absurd he hb
    have k1 : fill default_brief b = .ok b := by
      apply fill_id
      intro k v hm
      obtain ⟨x, hx, -⟩ := hk k (List.mem_map.mpr ⟨_, hm, rfl⟩)
      refine Or.inl ⟨x, hx, ?_⟩
      rintro s rfl
      obtain ⟨t, rfl⟩ := (fill_ok_iff default_brief b nodup_brief).mp ⟨fb, h1⟩ k v hm ⟨s, hx⟩
      exact no_sub_defaults.1 k t (dget_of_mem_nodup _ nodup_brief _ _ hm)
    rw [h1] at k1; cases k1
    rw [average_id _ _ hk] at h9
    cases h9; rfl

example (a : Option Atmos.Atm) (pa : PropArg) : ∃ r, construct exBrief exDesign exPerf a pa = .ok r ∧
    callerAfter exBrief r.brief ≠ exBrief := by
  obtain ⟨r, h⟩ := ex_construct a pa
  refine ⟨r, h, fun e => ?_⟩
  rcases (C34_unchanged_iff h).mp e with e | e
  · simp [exBrief] at e
  · obtain ⟨v, hv, hl⟩ := e "cruisealt_m" (by simp [default_brief])
    exact hl [1000, 3000] (Option.some.inj (hv.symm.trans (by simp [exBrief, dget])))

/-- Empty dictionaries stay empty, whatever the constructor makes of them. -/
theorem C34_empty {d p : Dict} {a : Option Atmos.Atm} {pa : PropArg} {r : Built}
    (h : construct [] d p a pa = .ok r) : callerAfter [] r.brief = [] :=
  (C34_unchanged_iff h).mpr (Or.inl rfl)

example : ∃ r, construct [] [] [] none .pyNone = .ok r ∧ callerAfter [] r.brief = [] := by
  obtain ⟨r, h, -⟩ := C32_all_defaults
  exact ⟨r, h, C34_empty h⟩

/-! ### C35 -/

/-- A range given for a documented key: the point design has its mean, the design space the range. -/
def RangeAveraged (space final : Dict) (k : String) (xs : List ℝ) : Prop :=
  xs ≠ [] ∧ dget space k = some (.list xs) ∧ dget final k = some (.num (xs.sum / xs.length))

theorem average_nonempty (dflts x g : Dict) (hn : (dflts.map (·.1)).Nodup)
    (hp : ∀ k ∈ dflts.map (·.1), (dget x k).isSome) (h : average dflts x = .ok g) (k : String)
    (hk : k ∈ dflts.map (·.1)) : dget x k ≠ some (.list []) := by
  intro he
  have := (average_ok dflts x hn hp).2 ⟨k, hk, he⟩
  rw [h] at this; cases this

theorem space_present {b d p : Dict} {a : Option Atmos.Atm} {pa : PropArg} {r : Built}
    (h : construct b d p a pa = .ok r) :
    (∀ k ∈ default_brief.map (·.1), (dget r.space.1 k).isSome) ∧
    (∀ k ∈ default_design.map (·.1), (dget r.space.2.1 k).isSome) ∧
    (∀ k ∈ default_performance.map (·.1), (dget r.space.2.2 k).isSome) := by
  obtain ⟨-, -, -, g4, g5, g6⟩ := space_facts h
  obtain ⟨q1, q2, q3⟩ := C32_present h
  refine ⟨fun k hk => ?_, fun k hk => ?_, fun k hk => ?_⟩
  · obtain ⟨v, hv⟩ := q1 k hk
    rw [g4, if_pos hk] at hv
    cases hx : dget r.space.1 k with
    | none => rw [hx] at hv; cases hv
    | some _ => rfl
  · obtain ⟨v, hv⟩ := q2 k hk
    rw [g5, if_pos hk] at hv
    cases hx : dget r.space.2.1 k with
    | none => rw [hx] at hv; cases hv
    | some _ => rfl
  · obtain ⟨v, hv⟩ := q3 k hk
    rw [g6, if_pos hk] at hv
    cases hx : dget r.space.2.2 k with
    | none => rw [hx] at hv; cases hv
    | some _ => rfl

/-- Ranges in the brief. -/
theorem C35_brief {b d p : Dict} {a : Option Atmos.Atm} {pa : PropArg} {r : Built}
    (h : construct b d p a pa = .ok r) (k : String) (hk : k ∈ default_brief.map (·.1)) (xs : List ℝ)
    (hx : dget b k = some (.list xs)) : RangeAveraged r.space.1 r.brief k xs := by
  obtain ⟨g1, -, -, g4, -, -⟩ := space_facts h
  obtain ⟨v, -, hv⟩ := dget_of_key _ k hk
  have e : dget r.space.1 k = some (.list xs) := by rw [g1, hv, hx]; rfl
  refine ⟨?_, e, by rw [g4, if_pos hk, e]; rfl⟩
  rintro rfl
  obtain ⟨fb, fd, fp, d1, d2, d3, d4, p1, n, h1, h2, h3, h4, h5, h6, h7, h8, hs, h9, h10, h11, h12⟩ := construct_ok h
  have sp := (space_present h).1
  rw [hs] at e sp
  exact average_nonempty _ _ _ nodup_brief sp h9 k hk e

example (a : Option Atmos.Atm) (pa : PropArg) : ∃ r, construct exBrief exDesign exPerf a pa = .ok r ∧
    RangeAveraged r.space.1 r.brief "cruisealt_m" [1000, 3000] := by
  obtain ⟨r, h⟩ := ex_construct a pa
  exact ⟨r, h, C35_brief h _ (by simp [default_brief]) _ (by simp [exBrief, dget])⟩

/-- Ranges in the design dictionary, the sweeps and the taper ratio included. -/
theorem C35_design {b d p : Dict} {a : Option Atmos.Atm} {pa : PropArg} {r : Built}
    (h : construct b d p a pa = .ok r) (k : String) (hk : k ∈ default_design.map (·.1)) (xs : List ℝ)
    (hx : dget d k = some (.list xs)) : RangeAveraged r.space.2.1 r.design k xs := by
  obtain ⟨-, g1, -, -, g4, -⟩ := space_facts h
  obtain ⟨v, -, hv⟩ := dget_of_key _ k hk
  obtain ⟨fb, fd, fp, d1, d2, d3, d4, p1, n, h1, h2, h3, h4, h5, h6, h7, h8, hs, h9, h10, h11, h12⟩ := construct_ok h
  have hg : given d k = some (.list xs) := by unfold given; rw [hx]
  have e : dget r.space.2.1 k = some (.list xs) := by
    by_cases hr : Resolved k
    · rw [hs]
      show dget d4 k = _
      have R := resolve_spec h2 h4 h5 h6
      have T := (taper_spec h2 h4 h5 h6 h7).2
      have u1 := (taperDefault_spec _ _ _ h7).1
      rcases hr with rfl | rfl | rfl | rfl
      · rw [u1 _ (by decide)]; exact R.le1 _ hg
      · rw [u1 _ (by decide)]; exact R.mt1 _ hg
      · rw [u1 _ (by decide)]; exact R.q1 _ hg
      · exact (T _ hg).2
    · rw [g1 k hr, hv, hx]; rfl
  refine ⟨?_, e, by rw [g4, if_pos hk, e]; rfl⟩
  rintro rfl
  have sp := (space_present h).2.1
  rw [hs] at e sp
  exact average_nonempty _ _ _ nodup_design sp h10 k hk e

example (a : Option Atmos.Atm) (pa : PropArg) : ∃ r, construct exBrief exDesign exPerf a pa = .ok r ∧
    RangeAveraged r.space.2.1 r.design "aspectratio" [8, 9, 10] := by
  obtain ⟨r, h⟩ := ex_construct a pa
  exact ⟨r, h, C35_design h _ (by simp [default_design]) _ (by simp [exDesign, dget])⟩

/-- Ranges in the performance dictionary (a range for `etaprop` never gets this far). -/
theorem C35_performance {b d p : Dict} {a : Option Atmos.Atm} {pa : PropArg} {r : Built}
    (h : construct b d p a pa = .ok r) (k : String) (hk : k ∈ default_performance.map (·.1)) (xs : List ℝ)
    (hx : dget p k = some (.list xs)) : RangeAveraged r.space.2.2 r.performance k xs := by
  obtain ⟨-, -, g1, -, -, g4⟩ := space_facts h
  obtain ⟨v, -, hv⟩ := dget_of_key _ k hk
  obtain ⟨fb, fd, fp, d1, d2, d3, d4, p1, n, h1, h2, h3, h4, h5, h6, h7, h8, hs, h9, h10, h11, h12⟩ := construct_ok h
  have hke : k ≠ "etaprop" := by
    rintro rfl
    obtain ⟨e1, s, s', e2, -, -⟩ := etaDefault_spec _ _ _ h8
    rw [fill_spec _ _ _ nodup_performance h3, hv, hx] at e2
    cases e2
  have e : dget r.space.2.2 k = some (.list xs) := by rw [g1 k hke, hv, hx]; rfl
  refine ⟨?_, e, by rw [g4, if_pos hk, e]; rfl⟩
  rintro rfl
  have sp := (space_present h).2.2
  rw [hs] at e sp
  exact average_nonempty _ _ _ nodup_performance sp h11 k hk e

example (a : Option Atmos.Atm) (pa : PropArg) : ∃ r, construct [] [] [("CLTO", .list [0.5, 0.7])] a pa = .ok r ∧
    RangeAveraged r.space.2.2 r.performance "CLTO" [0.5, 0.7] := by
  obtain ⟨r, h⟩ := (C35_outcome [] [] [("CLTO", .list [0.5, 0.7])] a pa
    (by constructor <;> simp [dget, given])).1 (by
      refine ⟨by simp [dget], by simp [dget], fun k _ => ?_⟩
      simp only [dget, List.find?]
      split <;> simp)
  exact ⟨r, h, C35_performance h _ (by simp [default_performance]) _ (by simp [dget])⟩

/-- The mean of a range lies between its smallest and its largest value. -/
theorem C35_mean_between (xs : List ℝ) (hne : xs ≠ []) (lo hi : ℝ) (h : ∀ x ∈ xs, lo ≤ x ∧ x ≤ hi) :
    lo ≤ xs.sum / xs.length ∧ xs.sum / xs.length ≤ hi := by
  have hl : (0 : ℝ) < xs.length := by
    have := List.length_pos_of_ne_nil hne
    exact_mod_cast this
  have key : xs.length * lo ≤ xs.sum ∧ xs.sum ≤ xs.length * hi := by
    clear hl hne
    induction xs with
    | nil => simp
    | cons x t ih =>
      obtain ⟨i1, i2⟩ := ih (fun y hy => h y (List.mem_cons_of_mem _ hy))
      obtain ⟨x1, x2⟩ := h x (by simp)
      simp only [List.length_cons, Nat.cast_add, Nat.cast_one, List.sum_cons]
      constructor <;> nlinarith
  constructor
  · rw [le_div_iff₀ hl]; nlinarith [key.1]
  · rw [div_le_iff₀ hl]; nlinarith [key.2]

example : 1000 ≤ ([1000, 3000] : List ℝ).sum / ([1000, 3000] : List ℝ).length :=
  (C35_mean_between [1000, 3000] (by simp) 1000 3000 (by simp; norm_num)).1

/-- C34: ranges in the caller's dictionaries are replaced by numbers, so that the design space of a
second concept built from the same dictionaries has a number where the first has the range. -/
theorem C34_ranges_violated {b d p : Dict} {a : Option Atmos.Atm} {pa : PropArg} {r : Built}
    (h : construct b d p a pa = .ok r) (k : String) (hk : k ∈ default_brief.map (·.1)) (xs : List ℝ)
    (hx : dget b k = some (.list xs)) :
    callerAfter b r.brief ≠ b ∧ dget r.space.1 k = some (.list xs) ∧
    ∃ r', construct (callerAfter b r.brief) r.design r.performance a pa = .ok r' ∧
      dget r'.space.1 k = some (.num (xs.sum / xs.length)) := by
  have hne : b ≠ [] := by rintro rfl; simp [dget] at hx
  obtain ⟨-, e1, e2⟩ := C35_brief h k hk xs hx
  have hc : callerAfter b r.brief = r.brief := by unfold callerAfter; rw [if_neg hne]
  refine ⟨?_, e1, ?_⟩
  · rw [hc]; intro he; rw [he, hx] at e2; cases e2
  · rw [hc]; exact ⟨_, C33_idempotent h, e2⟩

example (a : Option Atmos.Atm) (pa : PropArg) : ∃ r, construct exBrief exDesign exPerf a pa = .ok r ∧
    ∃ r', construct (callerAfter exBrief r.brief) r.design r.performance a pa = .ok r' ∧
      dget r'.space.1 "cruisealt_m" = some (.num 2000) := by
  obtain ⟨r, h⟩ := ex_construct a pa
  obtain ⟨-, -, r', h', e⟩ := C34_ranges_violated h "cruisealt_m" (by simp [default_brief]) [1000, 3000] (by simp [exBrief, dget])
  refine ⟨r, h, r', h', e.trans ?_⟩
  norm_num

/-- The same in the design dictionary. -/
theorem C34_design_ranges_violated {b d p : Dict} {a : Option Atmos.Atm} {pa : PropArg} {r : Built}
    (h : construct b d p a pa = .ok r) (k : String) (hk : k ∈ default_design.map (·.1)) (xs : List ℝ)
    (hx : dget d k = some (.list xs)) :
    callerAfter d r.design ≠ d ∧ dget r.space.2.1 k = some (.list xs) ∧
    ∃ r', construct r.brief (callerAfter d r.design) r.performance a pa = .ok r' ∧
      dget r'.space.2.1 k = some (.num (xs.sum / xs.length)) := by
  have hne : d ≠ [] := by rintro rfl; simp [dget] at hx
  obtain ⟨-, e1, e2⟩ := C35_design h k hk xs hx
  have hc : callerAfter d r.design = r.design := by unfold callerAfter; rw [if_neg hne]
  refine ⟨?_, e1, ?_⟩
  · rw [hc]; intro he; rw [he, hx] at e2; cases e2
  · rw [hc]; exact ⟨_, C33_idempotent h, e2⟩

example (a : Option Atmos.Atm) (pa : PropArg) : ∃ r, construct exBrief exDesign exPerf a pa = .ok r ∧
    callerAfter exDesign r.design ≠ exDesign := by
  obtain ⟨r, h⟩ := ex_construct a pa
  exact ⟨r, h, (C34_design_ranges_violated h "aspectratio" (by simp [default_design]) [8, 9, 10] (by simp [exDesign, dget])).1⟩

/-! ### C36 -/

/-- Sweeps of the design space: a given sweep is kept; otherwise the leading edge has 0, maximum
thickness the leading edge sweep. -/
theorem C36_sweeps {b d p : Dict} {a : Option Atmos.Atm} {pa : PropArg} {r : Built}
    (h : construct b d p a pa = .ok r) :
    (given d "sweep_le_deg" = none → dget r.space.2.1 "sweep_le_deg" = some (.num 0)) ∧
    (given d "sweep_mt_deg" = none → dget r.space.2.1 "sweep_mt_deg" = dget r.space.2.1 "sweep_le_deg") ∧
    (∀ k ∈ ["sweep_le_deg", "sweep_mt_deg", "sweep_25_deg", "roottaperratio"], ∀ v, given d k = some v →
      dget r.space.2.1 k = some v) := by
  obtain ⟨fb, fd, fp, d1, d2, d3, d4, p1, n, h1, h2, h3, h4, h5, h6, h7, h8, hs, h9, h10, h11, h12⟩ := construct_ok h
  have R := resolve_spec h2 h4 h5 h6
  have T := (taper_spec h2 h4 h5 h6 h7).2
  have u1 := (taperDefault_spec _ _ _ h7).1
  rw [hs]
  refine ⟨fun hg => ?_, fun hg => ?_, fun k hk v hg => ?_⟩
  · show dget d4 _ = _
    rw [u1 _ (by decide)]; exact R.le0 hg
  · show dget d4 _ = dget d4 _
    rw [u1 _ (by decide), u1 _ (by decide)]; exact R.mt0 hg
  · show dget d4 _ = _
    simp only [List.mem_cons, List.not_mem_nil, or_false] at hk
    rcases hk with rfl | rfl | rfl | rfl
    · rw [u1 _ (by decide)]; exact R.le1 _ hg
    · rw [u1 _ (by decide)]; exact R.mt1 _ hg
    · rw [u1 _ (by decide)]; exact R.q1 _ hg
    · exact (T _ hg).2

example (a : Option Atmos.Atm) (pa : PropArg) : ∃ r, construct exBrief exDesign exPerf a pa = .ok r ∧
    dget r.space.2.1 "sweep_mt_deg" = some (.num 30) := by
  obtain ⟨r, h⟩ := ex_construct a pa
  obtain ⟨-, h1, h2⟩ := C36_sweeps h
  refine ⟨r, h, ?_⟩
  rw [h1 (by simp [given, exDesign, dget])]
  exact h2 _ (by simp) _ (by simp [given, exDesign, dget])

/-- Attributes: without any sweeps given all are 0; with only the leading edge given, maximum
thickness has the same. -/
theorem C36_attributes {b d p : Dict} {a : Option Atmos.Atm} {pa : PropArg} {r : Built}
    (h : construct b d p a pa = .ok r) :
    (given d "sweep_le_deg" = none → r.concept.sweep_le_deg = some 0) ∧
    (∀ x, given d "sweep_le_deg" = some (.num x) → r.concept.sweep_le_deg = some x) ∧
    (given d "sweep_mt_deg" = none → r.concept.sweep_mt_deg = r.concept.sweep_le_deg) := by
  obtain ⟨s1, s2, s3⟩ := C36_sweeps h
  obtain ⟨-, -, -, -, g5, -⟩ := space_facts h
  have A := C32_attributes h
  have tv : ∀ x y : Option ℝ, toVal x = toVal y → x = y := by
    intro x y; cases x <;> cases y <;> simp [toVal]
  have m1 : "sweep_le_deg" ∈ default_design.map (·.1) := by simp [default_design]
  have m2 : "sweep_mt_deg" ∈ default_design.map (·.1) := by simp [default_design]
  have e1 := A.sweep_le_deg
  have e2 := A.sweep_mt_deg
  rw [g5, if_pos m1] at e1
  rw [g5, if_pos m2] at e2
  refine ⟨fun hg => ?_, fun x hg => ?_, fun hg => ?_⟩
  · rw [s1 hg] at e1
    exact tv _ (some 0) (by simpa [averaged, toVal] using e1.symm)
  · rw [s3 _ (by simp) _ hg] at e1
    exact tv _ (some x) (by simpa [averaged, toVal] using e1.symm)
  · rw [s2 hg] at e2
    rw [e1] at e2
    exact tv _ _ (by simpa using e2.symm)

example (a : Option Atmos.Atm) (pa : PropArg) : ∃ r, construct exBrief exDesign exPerf a pa = .ok r ∧
    r.concept.sweep_le_deg = some 30 := by
  obtain ⟨r, h⟩ := ex_construct a pa
  exact ⟨r, h, (C36_attributes h).2.1 30 (by simp [given, exDesign, dget])⟩

/-- The quarter-chord sweep, when not given, is `2 LE + 5/7 MT` ... -/
theorem C36_quarter_chord {b d p : Dict} {a : Option Atmos.Atm} {pa : PropArg} {r : Built}
    (h : construct b d p a pa = .ok r) (hg : given d "sweep_25_deg" = none) :
    ∃ le mt, r.concept.sweep_le_deg = some le ∧ r.concept.sweep_mt_deg = some mt ∧
      r.concept.sweep_25_deg = some (2 * le + 5 / 7 * mt) := by
  obtain ⟨fb, fd, fp, d1, d2, d3, d4, p1, n, h1, h2, h3, h4, h5, h6, h7, h8, hs, h9, h10, h11, h12⟩ := construct_ok h
  have R := resolve_spec h2 h4 h5 h6
  have u1 := (taperDefault_spec _ _ _ h7).1
  obtain ⟨-, -, -, -, g5, -⟩ := space_facts h
  have A := C32_attributes h
  rw [hs] at g5
  simp only at g5
  obtain ⟨le, mt, e1, e2, e3⟩ := R.q0 hg
  rw [← u1 _ (by decide)] at e1 e2 e3
  have tv : ∀ (x : Option ℝ) y, some (toVal x) = some (Val.num y) → x = some y := by
    intro x y; cases x <;> simp [toVal]
  refine ⟨le, mt, tv _ _ ?_, tv _ _ ?_, tv _ _ ?_⟩
  · rw [← A.sweep_le_deg, g5, if_pos (by simp [default_design]), e1]; rfl
  · rw [← A.sweep_mt_deg, g5, if_pos (by simp [default_design]), e2]; rfl
  · rw [← A.sweep_25_deg, g5, if_pos (by simp [default_design]), e3]
    show some (Val.num _) = some (Val.num _)
    congr 2; ring

/-- ... which is the documented weighted mean `(2 LE + 5 MT) / 7` only for an unswept leading edge. -/
theorem C36_quarter_chord_violated {b d p : Dict} {a : Option Atmos.Atm} {pa : PropArg} {r : Built}
    (h : construct b d p a pa = .ok r) (hg : given d "sweep_25_deg" = none) :
    ∃ le mt, r.concept.sweep_le_deg = some le ∧ r.concept.sweep_mt_deg = some mt ∧
      (r.concept.sweep_25_deg = some ((2 * le + 5 * mt) / 7) ↔ le = 0) := by
  obtain ⟨le, mt, h1, h2, h3⟩ := C36_quarter_chord h hg
  refine ⟨le, mt, h1, h2, ?_⟩
  rw [h3, Option.some.injEq]
  constructor <;> intro e <;> linarith

-- leading edge 30 degrees, quarter chord given by neither the user nor the documented mean
example (a : Option Atmos.Atm) (pa : PropArg) : ∃ r, construct exBrief exDesign exPerf a pa = .ok r ∧
    ∃ le mt, r.concept.sweep_le_deg = some le ∧ r.concept.sweep_mt_deg = some mt ∧
      r.concept.sweep_25_deg ≠ some ((2 * le + 5 * mt) / 7) := by
  obtain ⟨r, h⟩ := ex_construct a pa
  obtain ⟨le, mt, h1, h2, h3⟩ := C36_quarter_chord_violated h (by simp [given, exDesign, dget])
  refine ⟨r, h, le, mt, h1, h2, fun e => ?_⟩
  have h4 := (C36_attributes h).2.1 30 (by simp [given, exDesign, dget])
  rw [h1] at h4
  have h5 := h3.mp e
  rw [h5] at h4
  norm_num at h4

/-- The taper ratio, when not given, from the (mean) quarter-chord sweep. -/
theorem C36_taper {b d p : Dict} {a : Option Atmos.Atm} {pa : PropArg} {r : Built}
    (h : construct b d p a pa = .ok r) :
    (given d "roottaperratio" = none → r.taperdefaultflag = true ∧ ∃ x, r.concept.sweep_25_deg = some x ∧
      r.concept.roottaperratio = some (0.45 * Real.exp (-0.0375 * x))) ∧
    (∀ x, given d "roottaperratio" = some (.num x) → r.taperdefaultflag = false ∧
      r.concept.roottaperratio = some x) := by
  obtain ⟨fb, fd, fp, d1, d2, d3, d4, p1, n, h1, h2, h3, h4, h5, h6, h7, h8, hs, h9, h10, h11, h12⟩ := construct_ok h
  obtain ⟨T0, T1⟩ := taper_spec h2 h4 h5 h6 h7
  have u1 := (taperDefault_spec _ _ _ h7).1
  obtain ⟨-, -, -, -, g5, -⟩ := space_facts h
  have A := C32_attributes h
  rw [hs] at g5
  simp only at g5
  have tv : ∀ (x : Option ℝ) y, some (toVal x) = some (Val.num y) → x = some y := by
    intro x y; cases x <;> simp [toVal]
  constructor
  · intro hg
    obtain ⟨ht, v, x, hv, hx, e⟩ := T0 hg
    refine ⟨ht, x, tv _ _ ?_, tv _ _ ?_⟩
    · rw [← A.sweep_25_deg, g5, if_pos (by simp [default_design]), u1 _ (by decide), hv]
      cases v with
      | num y => cases hx; rfl
      | list xs =>
        unfold sweepAvg pyMean at hx
        simp only at hx
        split at hx
        · cases hx
        · cases hx; rfl
      | _ => cases hx
    · rw [← A.roottaperratio, g5, if_pos (by simp [default_design]), e]; rfl
  · intro x hg
    obtain ⟨ht, e⟩ := T1 _ hg
    refine ⟨ht, tv _ _ ?_⟩
    rw [← A.roottaperratio, g5, if_pos (by simp [default_design]), e]; rfl

example (a : Option Atmos.Atm) (pa : PropArg) : ∃ r, construct exBrief exDesign exPerf a pa = .ok r ∧
    r.taperdefaultflag = true := by
  obtain ⟨r, h⟩ := ex_construct a pa
  exact ⟨r, h, ((C36_taper h).1 (by simp [given, exDesign, dget])).1⟩

/-- The default taper ratio is positive, at most 0.45 for aft sweep, and decreases with sweep. -/
theorem C36_taper_shape (s t : ℝ) :
    0 < 0.45 * Real.exp (-0.0375 * s) ∧ (0 ≤ s → 0.45 * Real.exp (-0.0375 * s) ≤ 0.45) ∧
    (s < t → 0.45 * Real.exp (-0.0375 * t) < 0.45 * Real.exp (-0.0375 * s)) := by
  refine ⟨by positivity, fun h => ?_, fun h => ?_⟩
  · have : Real.exp (-0.0375 * s) ≤ 1 := by rw [Real.exp_le_one_iff]; norm_num; linarith
    linarith
  · have : Real.exp (-0.0375 * t) < Real.exp (-0.0375 * s) := by
      rw [Real.exp_lt_exp]; norm_num; linarith
    linarith

/-- A range for the leading edge sweep without a quarter-chord sweep: TypeError. -/
theorem C36_list_sweep (b d p : Dict) (a : Option Atmos.Atm) (pa : PropArg) (fb fd fp : Dict)
    (h1 : fill default_brief b = .ok fb) (h2 : fill default_design d = .ok fd)
    (h3 : fill default_performance p = .ok fp) (hg : given d "sweep_25_deg" = none) (xs : List ℝ)
    (hx : dget d "sweep_le_deg" = some (.list xs)) : construct b d p a pa = .error .typeError := by
  obtain ⟨a0, a1⟩ := fill_flag_key h2 "sweep_le_deg" (by simp [dget, default_design])
  obtain ⟨b0, b1⟩ := fill_flag_key h2 "sweep_mt_deg" (by simp [dget, default_design])
  obtain ⟨c0, c1⟩ := fill_flag_key h2 "sweep_25_deg" (by simp [dget, default_design])
  have hl : given d "sweep_le_deg" = some (.list xs) := by unfold given; rw [hx]
  have e1 := (a1 _ hl).1
  have e3 := c0 hg
  have h4 : leDefault fd = .ok fd := by
    unfold leDefault; rw [(dgetE_ok_iff _ _ _).mpr e1]; rfl
  obtain ⟨mv, hmv⟩ : ∃ v, dget fd "sweep_mt_deg" = some v := by
    cases hm : given d "sweep_mt_deg" with
    | none => exact ⟨_, b0 hm⟩
    | some v => exact ⟨v, (b1 v hm).1⟩
  obtain ⟨d2, h5⟩ : ∃ d2, mtDefault fd = .ok d2 := by
    unfold mtDefault
    rw [(dgetE_ok_iff _ _ _).mpr hmv, bind_ok]
    cases mv
    · simp only; rw [(dgetE_ok_iff _ _ _).mpr e1]; exact ⟨_, rfl⟩
    all_goals exact ⟨_, rfl⟩
  obtain ⟨m1, v, m2, m3⟩ := mtDefault_spec _ _ h5
  have h6 : sweep25Default d2 = .error .typeError := by
    unfold sweep25Default
    rw [(dgetE_ok_iff _ _ _).mpr (show dget d2 "sweep_25_deg" = some .flag by rw [m1 _ (by decide)]; exact e3), bind_ok]
    simp only
    rw [(dgetE_ok_iff _ _ _).mpr (show dget d2 "sweep_le_deg" = some (.list xs) by rw [m1 _ (by decide)]; exact e1), bind_ok]
    obtain ⟨w, hw⟩ : ∃ w, dget d2 "sweep_mt_deg" = some w := by
      cases v
      · simp only at m3; rw [e1] at m3; exact ⟨_, m3⟩
      all_goals exact ⟨_, m3⟩
    rw [(dgetE_ok_iff _ _ _).mpr hw, bind_ok]
  unfold construct
  simp only [h1, h2, h3, h4, h5, h6, bind_ok]
  rfl

example (a : Option Atmos.Atm) (pa : PropArg) :
    construct [] [("sweep_le_deg", .list [20, 30])] [] a pa = .error .typeError := by
  obtain ⟨fb, h1⟩ := (fill_ok_iff default_brief [] nodup_brief).mpr (by simp [dget])
  obtain ⟨fd, h2⟩ := (fill_ok_iff default_design [("sweep_le_deg", .list [20, 30])] nodup_design).mpr (by
    rintro k v - ⟨s, hs⟩
    have := dget_some_mem _ _ _ hs
    simp at this)
  obtain ⟨fp, h3⟩ := (fill_ok_iff default_performance [] nodup_performance).mpr (by simp [dget])
  exact C36_list_sweep _ _ _ a pa fb fd fp h1 h2 h3 (by simp [given, dget]) [20, 30] (by simp [dget])

/-! ### C37 -/

/-- The efficiency given for a flight phase (`none`: absent, or False). -/
def givenEta (p : Dict) (k : String) : Option ℝ :=
  match dget p "etaprop" with
  | some (.sub s) => (dget s k).join
  | _ => none

theorem nodup_fillSub (t s : SubDict) (h : (s.map (·.1)).Nodup) : ((fillSub t s).map (·.1)).Nodup := by
  induction t generalizing s with
  | nil => exact h
  | cons q t ih =>
    obtain ⟨k0, v0⟩ := q
    show ((fillSub t (if (dget s k0).isSome then s else dset s k0 v0)).map (·.1)).Nodup
    apply ih
    split
    · exact h
    · rename_i hk
      have hk' : dget s k0 = none := by simpa using hk
      clear hk
      induction s with
      | nil => simp [dset]
      | cons p u ihs =>
        obtain ⟨k1, v1⟩ := p
        have h' : k1 ∉ u.map (·.1) ∧ (u.map (·.1)).Nodup := by simpa using h
        by_cases hkk : k0 = k1
        · simp [dget, hkk] at hk'
        · have hk2 : dget u k0 = none := by simpa [dget, hkk] using hk'
          simp only [dset, if_neg hkk, List.map_cons, List.nodup_cons]
          refine ⟨?_, ihs h'.2 hk2⟩
          intro hm
          obtain ⟨q, hq, hqe⟩ := List.mem_map.mp hm
          rcases mem_dset_absent _ _ _ hk2 _ hq with h3 | h3
          · exact h'.1 (List.mem_map.mpr ⟨q, h3, hqe⟩)
          · rw [h3] at hqe; exact hkk hqe

/-- The entries of the efficiency dictionary the constructor works on. -/
theorem eta_filled {b d p : Dict} {a : Option Atmos.Atm} {pa : PropArg} {r : Built}
    (h : construct b d p a pa = .ok r) :
    ∃ s s', etaLoop s = .ok (s', r.concept.etadefaultflag) ∧ dget r.performance "etaprop" = some (.sub s') ∧
      (∀ k ∈ ["climb", "cruise", "servceil", "take-off", "turn"], dget s k = some (givenEta p k)) ∧
      ((∀ s0, dget p "etaprop" = some (.sub s0) → (s0.map (·.1)).Nodup) → (s.map (·.1)).Nodup) := by
  obtain ⟨-, -, -, -, -, g6⟩ := space_facts h
  obtain ⟨fb, fd, fp, d1, d2, d3, d4, p1, n, h1, h2, h3, h4, h5, h6, h7, h8, hs, h9, h10, h11, h12⟩ := construct_ok h
  obtain ⟨e1, es, es', e2, e3, e4⟩ := etaDefault_spec _ _ _ h8
  rw [(readConcept_ok h12).2.1]
  have hdef : dget default_performance "etaprop" = some (.sub [("climb", none), ("cruise", none),
    ("servceil", none), ("take-off", none), ("turn", none)]) := by simp [dget, default_performance]
  have S := fill_spec _ _ _ nodup_performance h3 "etaprop"
  rw [hdef, e2] at S
  simp only [Option.some.injEq] at S
  refine ⟨es, es', e3, ?_, ?_, ?_⟩
  · rw [hs] at g6
    simp only at g6
    rw [g6, if_pos (by simp [default_performance]), e4]; rfl
  · intro k hk
    simp only [List.mem_cons, List.not_mem_nil, or_false] at hk
    unfold givenEta
    cases hp : dget p "etaprop" with
    | none =>
      rw [hp] at S
      cases S
      rcases hk with rfl | rfl | rfl | rfl | rfl <;> simp [dget]
    | some v =>
      rw [hp] at S
      cases v with
      | sub s0 =>
        cases S
        rw [dget_fillSub]
        cases hd : dget s0 k with
        | some x => simp [hd]
        | none =>
          rcases hk with rfl | rfl | rfl | rfl | rfl <;> simp [dget, hd]
      | _ => cases S
  · intro hn
    cases hp : dget p "etaprop" with
    | none => rw [hp] at S; cases S; simp
    | some v =>
      rw [hp] at S
      cases v with
      | sub s0 => cases S; exact nodup_fillSub _ _ (hn s0 hp)
      | _ => cases S

/-- Given efficiencies are kept; missing ones get the documented defaults. -/
theorem C37_values {b d p : Dict} {a : Option Atmos.Atm} {pa : PropArg} {r : Built}
    (h : construct b d p a pa = .ok r) :
    r.concept.etaprop_climb = some ((givenEta p "climb").getD 0.75) ∧
    r.concept.etaprop_cruise = some ((givenEta p "cruise").getD 0.85) ∧
    r.concept.etaprop_sec = some ((givenEta p "servceil").getD 0.65) ∧
    r.concept.etaprop_to = some ((givenEta p "take-off").getD 0.45) ∧
    r.concept.etaprop_turn = some ((givenEta p "turn").getD 0.85) := by
  obtain ⟨s, s', e1, e2, e3, -⟩ := eta_filled h
  obtain ⟨i1, -, -, -⟩ := etaLoop_spec _ _ _ e1
  have A := C32_attributes h
  have key : ∀ k ∈ ["climb", "cruise", "servceil", "take-off", "turn"], ∀ x v,
      SubEntry r.performance "etaprop" k x → dget default_etaprop k = some v → x = some ((givenEta p k).getD v) := by
    rintro k hk x v ⟨s0, h1, h2⟩ hv
    rw [e2] at h1; cases h1
    rw [i1, e3 k hk] at h2
    cases hg : givenEta p k with
    | none => rw [hg] at h2; simp only [Option.map] at h2; rw [hv] at h2; cases h2; rfl
    | some y => rw [hg] at h2; cases h2; rfl
  exact ⟨key _ (by simp) _ _ A.etaprop_climb (by simp [dget, default_etaprop]),
    key _ (by simp) _ _ A.etaprop_cruise (by simp [dget, default_etaprop]),
    key _ (by simp) _ _ A.etaprop_sec (by simp [dget, default_etaprop]),
    key _ (by simp) _ _ A.etaprop_to (by simp [dget, default_etaprop]),
    key _ (by simp) _ _ A.etaprop_turn (by simp [dget, default_etaprop])⟩

example (a : Option Atmos.Atm) (pa : PropArg) : ∃ r, construct exBrief exDesign exPerf a pa = .ok r ∧
    r.concept.etaprop_climb = some 0.7 ∧ r.concept.etaprop_turn = some 0.85 := by
  obtain ⟨r, h⟩ := ex_construct a pa
  obtain ⟨e1, -, -, -, e5⟩ := C37_values h
  refine ⟨r, h, ?_, ?_⟩
  · rw [e1]; simp [givenEta, exPerf, dget]
  · rw [e5]; simp [givenEta, exPerf, dget]

/-- The number reported in the warning is the number of phases without a given efficiency. (The keys
of a Python dictionary are distinct, hence the hypothesis on the given sub-dictionary.) -/
theorem C37_count {b d p : Dict} {a : Option Atmos.Atm} {pa : PropArg} {r : Built}
    (h : construct b d p a pa = .ok r)
    (hn : ∀ s0, dget p "etaprop" = some (.sub s0) → (s0.map (·.1)).Nodup) :
    r.concept.etadefaultflag =
      (["climb", "cruise", "servceil", "take-off", "turn"].filter (fun k => (givenEta p k).isNone)).length := by
  obtain ⟨s, s', e1, e2, e3, e4⟩ := eta_filled h
  obtain ⟨-, i2, i3, -⟩ := etaLoop_spec _ _ _ e1
  rw [i2, List.countP_eq_length_filter]
  have nd := e4 hn
  rw [← List.length_map (f := fun kv : String × Option ℝ => kv.1)]
  apply List.Perm.length_eq
  rw [List.perm_ext_iff_of_nodup]
  · intro k
    simp only [List.mem_map, List.mem_filter]
    constructor
    · rintro ⟨⟨k', v⟩, ⟨hm, hv⟩, rfl⟩
      cases v with
      | some x => simp at hv
      | none =>
        have hk : k' ∈ ["climb", "cruise", "servceil", "take-off", "turn"] := by
          have := i3 _ hm
          obtain ⟨y, hy⟩ := Option.isSome_iff_exists.mp this
          have := dget_some_mem _ _ _ hy
          simp only [default_etaprop, List.mem_cons, Prod.mk.injEq, List.not_mem_nil, or_false] at this ⊢
          tauto
        refine ⟨hk, ?_⟩
        have := e3 _ hk
        rw [dget_of_mem_nodup _ nd _ _ hm] at this
        cases hg : givenEta p k' with
        | none => rfl
        | some y => rw [hg] at this; cases this
    · rintro ⟨hk, hg⟩
      have := e3 _ hk
      have hg' : givenEta p k = none := by simpa using hg
      rw [hg'] at this
      exact ⟨(k, none), ⟨dget_some_mem _ _ _ this, rfl⟩, rfl⟩
  · exact (List.Nodup.sublist (List.Sublist.map _ List.filter_sublist) nd)
  · exact List.Nodup.filter _ (by decide)

/-! ### The theorems on the case in point -/

/-- C32: a given number is kept, an absent entry has its default, weight fractions are all 1. -/
example (a : Option Atmos.Atm) (pa : PropArg) : ∃ r, construct exBrief exDesign exPerf a pa = .ok r ∧
    dget r.brief "cruisespeed_ktas" = some (.num 100) ∧ dget r.design "wingheightratio" = some (.num 100) ∧
    dget r.brief "servceil_m" = some .flag := by
  obtain ⟨r, h⟩ := ex_construct a pa
  exact ⟨r, h, (C32_brief h _).1 _ (by simp [exBrief, dget]),
    (C32_design h "wingheightratio" (by unfold Resolved; decide)).2.2.1 _ (by simp [default_design, dget]) (by simp)
      (by simp [exDesign, dget]),
    (C32_brief h "servceil_m").2.2.1 _ (by simp [default_brief, dget]) (by simp) (by simp [exBrief, dget])⟩

/-- C33 and C34: the brief is changed by the first construction, not by the second. -/
example (a : Option Atmos.Atm) (pa : PropArg) : ∃ r r', construct exBrief exDesign exPerf a pa = .ok r ∧
    callerAfter exBrief r.brief ≠ exBrief ∧ construct r.brief r.design r.performance a pa = .ok r' ∧
    r'.brief = r.brief := by
  obtain ⟨r, h⟩ := ex_construct a pa
  exact ⟨r, _, h, (C34_filled_violated h).1 (by simp [exBrief]) ⟨"servceil_m", by simp [default_brief],
    by simp [exBrief, dget]⟩, C33_idempotent h, rfl⟩

/-- C35: the range of cruise altitudes is averaged. -/
example (a : Option Atmos.Atm) (pa : PropArg) : ∃ r, construct exBrief exDesign exPerf a pa = .ok r ∧
    r.concept.cruisealt_m = some 2000 ∧ dget r.space.1 "cruisealt_m" = some (.list [1000, 3000]) := by
  obtain ⟨r, h⟩ := ex_construct a pa
  obtain ⟨-, e1, e2⟩ := C35_brief h "cruisealt_m" (by simp [default_brief]) [1000, 3000] (by simp [exBrief, dget])
  refine ⟨r, h, ?_, e1⟩
  have := (C32_attributes h).cruisealt_m
  rw [e2] at this
  cases hc : r.concept.cruisealt_m with
  | none => rw [hc] at this; simp [toVal] at this
  | some x =>
    rw [hc] at this
    simp [toVal] at this
    rw [← this]; norm_num

/-- C36: a 30 degree leading edge gives a 81.4 degree quarter chord. -/
example (a : Option Atmos.Atm) (pa : PropArg) : ∃ r, construct exBrief exDesign exPerf a pa = .ok r ∧
    r.concept.sweep_le_deg = some 30 ∧ r.concept.sweep_mt_deg = some 30 ∧
    r.concept.sweep_25_deg = some (570 / 7) := by
  obtain ⟨r, h⟩ := ex_construct a pa
  obtain ⟨-, e1, e2⟩ := C36_attributes h
  have e1 := e1 30 (by simp [given, exDesign, dget])
  have e2 := e2 (by simp [given, exDesign, dget])
  obtain ⟨le, mt, e3, e4, e5⟩ := C36_quarter_chord h (by simp [given, exDesign, dget])
  rw [e1] at e3 e2; cases e3
  rw [e2] at e4; cases e4
  exact ⟨r, h, e1, e2, e5.trans (by norm_num)⟩

/-- C37: the climb efficiency is the given one, the others are defaults, four in number. -/
example (a : Option Atmos.Atm) (pa : PropArg) : ∃ r, construct exBrief exDesign exPerf a pa = .ok r ∧
    r.concept.etaprop_climb = some 0.7 ∧ r.concept.etaprop_turn = some 0.85 ∧ r.concept.etadefaultflag = 4 := by
  obtain ⟨r, h⟩ := ex_construct a pa
  obtain ⟨e1, -, -, -, e5⟩ := C37_values h
  have e := C37_count h (by intro s0 hs; simp [exPerf, dget] at hs; subst hs; simp)
  refine ⟨r, h, ?_, ?_, ?_⟩
  · rw [e1]; simp [givenEta, exPerf, dget]
  · rw [e5]; simp [givenEta, exPerf, dget]
  · rw [e]; simp [givenEta, exPerf, dget, List.filter]

end

end Verif.Props
