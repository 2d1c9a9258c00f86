import Verif.Lemmas.Settled
import Verif.Props.Constraint6

/-
Property C54: the one-factor-at-a-time sensitivity study.
-/

namespace Verif.Props
open Verif Verif.Aircraft Verif.Units

noncomputable section

/-! ### Specification -/

/-- The dictionaries of a design by number. -/
def dictNo (s : Design3) : Fin 3 → Dict
  | 0 => s.brief
  | 1 => s.design
  | 2 => s.performance

/-- `m` is the largest listed value. -/
def IsLargest (xs : List ℝ) (m : ℝ) : Prop := m ∈ xs ∧ ∀ x ∈ xs, x ≤ m

/-- `m` is the smallest listed value. -/
def IsSmallest (xs : List ℝ) (m : ℝ) : Prop := m ∈ xs ∧ ∀ x ∈ xs, m ≤ x

/-- The propulsion attribute the study hands to the concepts it builds: `False` (no propulsion argument) arrives
as an object that is not an engine deck. -/
def handedOn : PropAttr → PropAttr
  | .pyFalse => .pair .other
  | p => p

/-- The concept as the study sees it. -/
def studied (c : Concept) : Concept := { c with propulsion := handedOn c.propulsion }

/-- The sea-level requirement of a concept at the wing loadings `ws`: thrust to weight ratio or power. -/
def seaLevelReq (X : Ext) (power : Bool) (mass : ℝ) (ws : List ℝ) (c : Concept) : PyM Req :=
  if power then powerrequired X c (.array ws) mass true true else twrequired X c (.array ws) true true

/-- The curve of the requirement dictionary that belongs to a constraint. -/
def fieldOf : Constr → Req → NumArg
  | .takeoff, r => r.takeoff
  | .turn, r => r.turn
  | .climb, r => r.climb
  | .cruise, r => r.cruise
  | .servceil, r => r.servceil

theorem fieldOf_eq (q : Constr) (r : Req) : fieldOf q r = r.entry q := by cases q <;> rfl

/-- `v` is the effect of the ranged entry `k` (dictionary `i`, listed values `xs`) on constraint `q`: at every
wing loading the distance between the requirements of the two concepts that have this entry at its largest
and smallest listed value and all other attributes nominal. -/
def IsEffect (X : Ext) (power : Bool) (mass : ℝ) (ws : List ℝ) (c : Concept) (i : Fin 3) (k : String) (xs : List ℝ)
    (q : Constr) (v : List ℝ) : Prop :=
  ∃ hi lo rmax rmin f g, IsLargest xs hi ∧ IsSmallest xs lo ∧
    seaLevelReq X power mass ws (varied c i k hi) = .ok rmax ∧ seaLevelReq X power mass ws (varied c i k lo) = .ok rmin ∧
    recastArray (fieldOf q rmax) = ws.map f ∧ recastArray (fieldOf q rmin) = ws.map g ∧
    v = ws.map (fun w => |f w - g w|)

/-! ### Lemmas -/

/-- The inputs of a study of the built concept `b`. -/
structure StudyOf (b : Built) (S : StudyIn) (ws : List ℝ) : Prop where
  ws : S.ws = .array ws
  atm : S.atm = b.concept.designatm
  propulsion : S.propulsion = b.concept.propulsion
  state : S.state = ⟨b.brief, b.design, b.performance⟩

/-- A concept with other values of the two attributes no requirement depends on: the record of default
efficiencies and the weight. -/
def otherWeight (c : Concept) (n : ℕ) (u : Option ℝ) : Concept := { c with etadefaultflag := n, weight_n := u }

theorem takeoffSlAll_weight (X : Ext) (c : Concept) (n : ℕ) (u : Option ℝ) (l m : List ℝ) : takeoffSlAll X (otherWeight c n u) l m = takeoffSlAll X c l m := by
  induction l generalizing m with
  | nil => rfl
  | cons x l ih =>
    cases m with
    | nil => rfl
    | cons y m => simp only [takeoffSlAll, ih]; rfl

theorem twrequired_to_weight (X : Ext) (c : Concept) (n : ℕ) (u : Option ℝ) (w : NumArg) (b : Bool) : twrequired_to X (otherWeight c n u) w b = twrequired_to X c w b := by
  unfold twrequired_to
  simp only [takeoffSlAll_weight]
  rfl

theorem twrequired_weight (X : Ext) (c : Concept) (n : ℕ) (u : Option ℝ) (w : NumArg) (a b : Bool) : twrequired X (otherWeight c n u) w a b = twrequired X c w a b := by
  unfold twrequired
  simp only [twrequired_to_weight]
  rfl

theorem powerrequired_weight (X : Ext) (c : Concept) (n : ℕ) (u : Option ℝ) (w : NumArg) (m : ℝ) (a b : Bool) :
    powerrequired X (otherWeight c n u) w m a b = powerrequired X c w m a b := by
  unfold powerrequired
  simp only [twrequired_weight]
  rfl

theorem seaLevelReq_weight (X : Ext) (power : Bool) (m : ℝ) (ws : List ℝ) (c : Concept) (n : ℕ) (u : Option ℝ) :
    seaLevelReq X power m ws (otherWeight c n u) = seaLevelReq X power m ws c := by
  unfold seaLevelReq
  rw [powerrequired_weight, twrequired_weight]

theorem parse_asArg (p : PropAttr) : parsePropulsion p.asArg = handedOn p := by cases p <;> rfl

theorem evalState_varied {b dd p : Dict} {a : Option Atmos.Atm} {pa : PropArg} {r : Built} (h : construct b dd p a pa = .ok r)
    (X : Ext) {S : StudyIn} {ws : List ℝ} (hS : StudyOf r S ws) (i : Fin 3) (k : String) (v : ℝ) (hk : Scalar i k) :
    evalState X S (S.state.set i k v) = seaLevelReq X S.power S.mass ws (varied (studied r.concept) i k v) := by
  obtain ⟨r', h1, h2⟩ := construct_varied (a' := some S.atm) (pa' := S.propulsion.asArg) h i k v hk
  unfold evalState
  rw [hS.state, h1, bind_ok]
  rw [← seaLevelReq_weight X S.power S.mass ws _ 0 (varied (studied r.concept) i k v).weight_n]
  unfold yFunction seaLevelReq
  rw [h2, hS.ws, hS.propulsion, hS.atm, parse_asArg]
  rfl

theorem foldl_max (l : List ℝ) (x : ℝ) : IsLargest (x :: l) (l.foldl max x) := by
  induction l generalizing x with
  | nil => exact ⟨by simp, by simp⟩
  | cons y l ih =>
    obtain ⟨h1, h2⟩ := ih (max x y)
    refine ⟨?_, ?_⟩
    · simp only [List.foldl_cons]
      rcases List.mem_cons.mp h1 with h | h
      · rw [h]
        rcases max_choice x y with e | e <;> rw [e] <;> simp
      · simp [h]
    · intro z hz
      simp only [List.foldl_cons]
      have h3 := h2 (max x y) (by simp)
      rcases List.mem_cons.mp hz with rfl | hz
      · exact (le_max_left _ _).trans h3
      · rcases List.mem_cons.mp hz with rfl | hz
        · exact (le_max_right _ _).trans h3
        · exact h2 z (by simp [hz])

theorem foldl_min (l : List ℝ) (x : ℝ) : IsSmallest (x :: l) (l.foldl min x) := by
  induction l generalizing x with
  | nil => exact ⟨by simp, by simp⟩
  | cons y l ih =>
    obtain ⟨h1, h2⟩ := ih (min x y)
    refine ⟨?_, ?_⟩
    · simp only [List.foldl_cons]
      rcases List.mem_cons.mp h1 with h | h
      · rw [h]
        rcases min_choice x y with e | e <;> rw [e] <;> simp
      · simp [h]
    · intro z hz
      simp only [List.foldl_cons]
      have h3 := h2 (min x y) (by simp)
      rcases List.mem_cons.mp hz with rfl | hz
      · exact h3.trans (min_le_left _ _)
      · rcases List.mem_cons.mp hz with rfl | hz
        · exact h3.trans (min_le_right _ _)
        · exact h2 z (by simp [hz])

theorem listMax_ok {xs : List ℝ} {m : ℝ} (h : listMax xs = .ok m) : IsLargest xs m := by
  cases xs with
  | nil => cases h
  | cons x l => cases h; exact foldl_max l x

theorem listMin_ok {xs : List ℝ} {m : ℝ} (h : listMin xs = .ok m) : IsSmallest xs m := by
  cases xs with
  | nil => cases h
  | cons x l => cases h; exact foldl_min l x

/-- The requirement entries are values of a function of the wing loading. -/
theorem seaLevelReq_entry {X : Ext} {power : Bool} {m : ℝ} {ws : List ℝ} {c : Concept} {r : Req}
    (h : seaLevelReq X power m ws c = .ok r) (hw : ws ≠ []) (q : Constr) :
    ∃ f : ℝ → ℝ, recastArray (r.entry q) = ws.map f := by
  unfold seaLevelReq at h
  have hw' : recastArray (.array ws) ≠ [] := hw
  split at h
  · rcases power_point X c m true true with ⟨e, he⟩ | ⟨R, vc, vs, pto, ptrn, pclm, pcrs, psec, -, -, -, hp⟩
    · rw [he _ hw'] at h; cases h
    · rw [hp _ hw'] at h
      cases h
      cases q <;> exact ⟨_, recast_shp _ _⟩
  · rcases tw_point X c true true with ⟨e, he⟩ | ⟨R, hR, -⟩
    · rw [he _ hw'] at h; cases h
    · rw [hR] at h
      cases h
      cases q <;> exact ⟨_, recast_revert _⟩

theorem recordTest_iff (xs : List ℝ) : recordTest xs ↔ xs ≠ [] ∧ ∀ x ∈ xs, x ≠ 0 := by
  unfold recordTest
  rw [ne_eq, eq_iff_iff]
  by_cases h : xs = []
  · subst h; simp
  · simp only [h, iff_false, ne_eq, not_false_eq_true, true_and, not_not]

theorem recordOne_ok {k : String} {rmax rmin : Req} {R R' : Recorded} {q : Constr} (h : recordOne k rmax rmin R q = .ok R') :
    ∃ xs, op2 (fun x y => |x - y|) (rmax.entry q) (rmin.entry q) = .ok (.array xs) ∧
      (∀ q', q' ≠ q → R'.prime q' = R.prime q') ∧
      (recordTest xs → R'.prime q = dset (R.prime q) k xs) ∧ (¬ recordTest xs → R'.prime q = R.prime q) := by
  unfold recordOne at h
  simp only [bind_ok_iff] at h
  obtain ⟨y, hy, h⟩ := h
  cases y with
  | scalar x => cases h
  | array xs =>
    refine ⟨xs, hy, ?_⟩
    simp only at h
    split at h
    · rename_i ht
      split at h
      · cases h
        exact ⟨fun q' hq => by simp [hq], fun _ => by simp, fun hn => absurd ht hn⟩
      · split at h
        · cases h
          exact ⟨fun q' hq => by simp [hq], fun _ => by simp, fun hn => absurd ht hn⟩
        · cases h
    · rename_i ht
      cases h
      exact ⟨fun _ _ => rfl, fun hn => absurd hn ht, fun _ => rfl⟩

theorem recordAll_ok {k : String} {rmax rmin : Req} {R R' : Recorded} (h : recordAll k rmax rmin R = .ok R') (q : Constr) :
    ∃ xs, op2 (fun x y => |x - y|) (rmax.entry q) (rmin.entry q) = .ok (.array xs) ∧
      (recordTest xs → R'.prime q = dset (R.prime q) k xs) ∧ (¬ recordTest xs → R'.prime q = R.prime q) := by
  unfold recordAll at h
  simp only [List.foldlM_cons, List.foldlM_nil, bind_ok_iff, pure_ok_iff] at h
  obtain ⟨R1, h1, R2, h2, R3, h3, R4, h4, R5, h5, rfl⟩ := h
  obtain ⟨x1, e1, o1, t1, f1⟩ := recordOne_ok h1
  obtain ⟨x2, e2, o2, t2, f2⟩ := recordOne_ok h2
  obtain ⟨x3, e3, o3, t3, f3⟩ := recordOne_ok h3
  obtain ⟨x4, e4, o4, t4, f4⟩ := recordOne_ok h4
  obtain ⟨x5, e5, o5, t5, f5⟩ := recordOne_ok h5
  cases q with
  | climb =>
    refine ⟨x1, e1, ?_⟩
    rw [o5 _ (by decide), o4 _ (by decide), o3 _ (by decide), o2 _ (by decide)]
    exact ⟨t1, f1⟩
  | cruise =>
    refine ⟨x2, e2, ?_⟩
    rw [o5 _ (by decide), o4 _ (by decide), o3 _ (by decide), ← o1 _ (by decide)]
    exact ⟨t2, f2⟩
  | servceil =>
    refine ⟨x3, e3, ?_⟩
    rw [o5 _ (by decide), o4 _ (by decide), ← o1 _ (by decide), ← o2 _ (by decide)]
    exact ⟨t3, f3⟩
  | takeoff =>
    refine ⟨x4, e4, ?_⟩
    rw [o5 _ (by decide), ← o1 _ (by decide), ← o2 _ (by decide), ← o3 _ (by decide)]
    exact ⟨t4, f4⟩
  | turn =>
    refine ⟨x5, e5, ?_⟩
    rw [← o1 _ (by decide), ← o2 _ (by decide), ← o3 _ (by decide), ← o4 _ (by decide)]
    exact ⟨t5, f5⟩

theorem op2_dist {a b : NumArg} {l xs : List ℝ} {f g : ℝ → ℝ} (ha : recastArray a = l.map f) (hb : recastArray b = l.map g)
    (h : op2 (fun x y => |x - y|) a b = .ok (.array xs)) : xs = l.map (fun w => |f w - g w|) := by
  have : broadcast2 (fun x y => |x - y|) (recastArray a) (recastArray b) = .ok xs := by
    cases a <;> cases b
    · cases h
    all_goals
      simp only [op2, bind_ok_iff, pure_ok_iff] at h
      obtain ⟨r, hr, h⟩ := h
      cases h; exact hr
  rw [ha, hb, broadcast2_map_map] at this
  cases this; rfl

/-- One ranged entry. -/
theorem studyEntry_ok {b dd p : Dict} {a : Option Atmos.Atm} {pa : PropArg} {r : Built} (hb : construct b dd p a pa = .ok r)
    {X : Ext} {S : StudyIn} {ws : List ℝ} (hS : StudyOf r S ws) (hw : ws ≠ []) {i : Fin 3} {R R' : Recorded} {k : String}
    (hk : Scalar i k) {xs : List ℝ}
    (h : studyEntry X S i R (k, .list xs) = .ok R') (q : Constr) :
    ∃ v, IsEffect X S.power S.mass ws (studied r.concept) i k xs q v ∧
      ((∀ x ∈ v, x ≠ 0) → R'.prime q = dset (R.prime q) k v) ∧ (¬ (∀ x ∈ v, x ≠ 0) → R'.prime q = R.prime q) := by
  unfold studyEntry at h
  simp only [bind_ok_iff] at h
  obtain ⟨hi, h1, lo, h2, rmax, h3, rmin, h4, h⟩ := h
  rw [evalState_varied hb X hS _ _ _ hk] at h3 h4
  obtain ⟨v, hv, ht, hf⟩ := recordAll_ok h q
  obtain ⟨f, hf1⟩ := seaLevelReq_entry h3 hw q
  obtain ⟨g, hg1⟩ := seaLevelReq_entry h4 hw q
  have e := op2_dist hf1 hg1 hv
  refine ⟨v, ⟨hi, lo, rmax, rmin, f, g, listMax_ok h1, listMin_ok h2, h3, h4, by rw [fieldOf_eq, hf1], by rw [fieldOf_eq, hg1], e⟩, ?_⟩
  rw [recordTest_iff] at ht hf
  have hne : v ≠ [] := by rw [e]; simpa using hw
  exact ⟨fun hx => ht ⟨hne, hx⟩, fun hx => hf (fun hh => hx hh.2)⟩

theorem studyEntry_other {X : Ext} {S : StudyIn} {i : Fin 3} {R R' : Recorded} {e : String × Val}
    (hl : ∀ xs, e.2 ≠ .list xs) (h : studyEntry X S i R e = .ok R') : R' = R := by
  unfold studyEntry at h
  split at h
  · rename_i xs he; exact absurd he (hl xs)
  · cases h; rfl

/-- What a loop over one dictionary does to the records. -/
theorem loop_ok {b dd p : Dict} {a : Option Atmos.Atm} {pa : PropArg} {r : Built} (hb : construct b dd p a pa = .ok r)
    {X : Ext} {S : StudyIn} {ws : List ℝ} (hS : StudyOf r S ws) (hw : ws ≠ []) {i : Fin 3} (d : Dict)
    (hsc : ∀ k xs, (k, .list xs) ∈ d → Scalar i k) (hd : (d.map (·.1)).Nodup)
    {R R' : Recorded} (h : d.foldlM (studyEntry X S i) R = .ok R') (q : Constr) :
    (∀ k, k ∉ d.map (·.1) → dget (R'.prime q) k = dget (R.prime q) k) ∧
    (∀ k x, (k, x) ∈ d → (∀ xs, x ≠ .list xs) → dget (R'.prime q) k = dget (R.prime q) k) ∧
    (∀ k xs, (k, .list xs) ∈ d → ∃ v, IsEffect X S.power S.mass ws (studied r.concept) i k xs q v ∧
      ((∀ x ∈ v, x ≠ 0) → dget (R'.prime q) k = some v) ∧
      (¬ (∀ x ∈ v, x ≠ 0) → dget (R'.prime q) k = dget (R.prime q) k)) := by
  induction d generalizing R with
  | nil =>
    cases h
    exact ⟨fun _ _ => rfl, fun k x hx => absurd hx (by simp), fun k x hx => absurd hx (by simp)⟩
  | cons e d ih =>
    simp only [List.foldlM_cons, bind_ok_iff] at h
    obtain ⟨R1, h1, h2⟩ := h
    simp only [List.map_cons, List.nodup_cons] at hd
    obtain ⟨ke, ve⟩ := e
    obtain ⟨i1, i2, i3⟩ := ih (fun k xs hm => hsc k xs (List.mem_cons_of_mem _ hm)) hd.2 h2
    have hke : ∀ xs, ve = .list xs → Scalar i ke := fun xs e => hsc ke xs (by rw [e]; exact List.mem_cons_self)
    -- the head leaves other keys alone
    have head : ∀ k, k ≠ ke → dget (R1.prime q) k = dget (R.prime q) k := by
      intro k hk
      by_cases hl : ∃ xs, ve = .list xs
      · obtain ⟨xs, rfl⟩ := hl
        obtain ⟨v, -, t, f⟩ := studyEntry_ok hb hS hw (hke _ rfl) h1 q
        by_cases hx : ∀ x ∈ v, x ≠ 0
        · rw [t hx, dget_dset, if_neg hk]
        · rw [f hx]
      · rw [studyEntry_other (fun xs hx => hl ⟨xs, hx⟩) h1]
    refine ⟨fun k hk => ?_, fun k x hx hl => ?_, fun k xs hx => ?_⟩
    · simp only [List.map_cons, List.mem_cons, not_or] at hk
      rw [i1 k hk.2, head k hk.1]
    · rcases List.mem_cons.mp hx with hx | hx
      · cases hx
        rw [i1 _ hd.1, studyEntry_other hl h1]
      · have hk : k ≠ ke := fun hh => hd.1 (hh ▸ List.mem_map.mpr ⟨(k, x), hx, rfl⟩)
        rw [i2 k x hx hl, head k hk]
    · rcases List.mem_cons.mp hx with hx | hx
      · cases hx
        obtain ⟨v, hv, t, f⟩ := studyEntry_ok hb hS hw (hke _ rfl) h1 q
        refine ⟨v, hv, fun hh => ?_, fun hh => ?_⟩
        · rw [i1 _ hd.1, t hh, dget_dset, if_pos rfl]
        · rw [i1 _ hd.1, f hh]
      · have hk : k ≠ ke := fun hh => hd.1 (hh ▸ List.mem_map.mpr ⟨(k, .list xs), hx, rfl⟩)
        obtain ⟨v, hv, t, f⟩ := i3 k xs hx
        exact ⟨v, hv, t, fun hh => (f hh).trans (head k hk)⟩

/-! ### C54 -/

theorem study_ok {X : Ext} {r : Built} {w : NumArg} {power : Bool} {R : Recorded} {nom : Req}
    (h : study X r w power = .ok (R, nom)) :
    ∃ S W, StudyOf r S (recastArray w) ∧ r.concept.weight_n = some W ∧ S.power = power ∧ S.mass = W / gAcc ∧
      studyLoop X S ⟨r.space.1, r.space.2.1, r.space.2.2⟩ = .ok R ∧ evalState X S S.state = .ok nom := by
  unfold study studyIn at h
  simp only [bind_ok_iff, pure_ok_iff] at h
  obtain ⟨S, ⟨W, hW, rfl⟩, R', hR, nom', hn, h⟩ := h
  cases h
  refine ⟨_, W, ⟨rfl, rfl, rfl, rfl⟩, ?_, rfl, rfl, hR, hn⟩
  cases hw : r.concept.weight_n with
  | none => rw [hw] at hW; cases hW
  | some x => rw [hw] at hW; cases hW; rfl

/-- The keys of the three dictionaries of a design space are distinct (they are for the documented ones). -/
def KeysDistinct (sp : Design3) : Prop :=
  (sp.brief.map (·.1) ++ sp.design.map (·.1) ++ sp.performance.map (·.1)).Nodup

/-- The design space of a built concept. -/
def spaceOf (r : Built) : Design3 := ⟨r.space.1, r.space.2.1, r.space.2.2⟩

/-- For each ranged parameter the study compares the concepts with this parameter at its largest and smallest
listed value and all other attributes nominal, and records the distance of the requirements at every wing
loading provided it vanishes at none of them. -/
theorem C54_extremes {b dd p : Dict} {a : Option Atmos.Atm} {pa : PropArg} {r : Built} (hb : construct b dd p a pa = .ok r)
    (X : Ext) (w : NumArg) (power : Bool) (hw : recastArray w ≠ []) (hn : KeysDistinct (spaceOf r)) {R : Recorded} {nom : Req}
    (h : study X r w power = .ok (R, nom)) :
    ∃ W, r.concept.weight_n = some W ∧ ∀ i k xs q, (k, .list xs) ∈ dictNo (spaceOf r) i →
      ∃ v, IsEffect X power (W / gAcc) (recastArray w) (studied r.concept) i k xs q v ∧
        ((∀ x ∈ v, x ≠ 0) → dget (R.prime q) k = some v) ∧ ((∃ x ∈ v, x = 0) → dget (R.prime q) k = none) := by
  obtain ⟨S, W, hS, hW, rfl, hm, hl, -⟩ := study_ok h
  refine ⟨W, hW, ?_⟩
  rw [← hm]
  unfold studyLoop at hl
  simp only [bind_ok_iff] at hl
  obtain ⟨R1, l1, R2, l2, l3⟩ := hl
  unfold KeysDistinct spaceOf at hn
  simp only [List.nodup_append, List.mem_append] at hn
  obtain ⟨⟨n1, n2, n12⟩, n3, n123⟩ := hn
  obtain ⟨rs1, rs2⟩ := ranged_scalar hb
  have sc0 : ∀ k xs, (k, Val.list xs) ∈ r.space.1 → Scalar 0 k := fun k xs _ => ⟨by simp, by simp⟩
  have sc1 : ∀ k xs, (k, Val.list xs) ∈ r.space.2.1 → Scalar 1 k := fun k xs hm =>
    ⟨fun e => rs1 xs (by rw [← e.2]; exact dget_of_mem_nodup _ n2 _ _ hm), by simp⟩
  have sc2 : ∀ k xs, (k, Val.list xs) ∈ r.space.2.2 → Scalar 2 k := fun k xs hm =>
    ⟨by simp, fun e => rs2 xs (by rw [← e.2]; exact dget_of_mem_nodup _ n3 _ _ hm)⟩
  have memk : ∀ (d : Dict) k v, (k, v) ∈ d → k ∈ d.map (·.1) := fun d k v hm => List.mem_map.mpr ⟨_, hm, rfl⟩
  intro i k xs q hk
  obtain ⟨x1, y1, z1⟩ := loop_ok hb hS hw _ sc0 n1 l1 q
  obtain ⟨x2, y2, z2⟩ := loop_ok hb hS hw _ sc1 n2 l2 q
  obtain ⟨x3, y3, z3⟩ := loop_ok hb hS hw _ sc2 n3 l3 q
  match i with
  | 0 =>
    have hm := memk _ _ _ hk
    obtain ⟨v, hv, t, f⟩ := z1 k xs hk
    have e : dget (R.prime q) k = dget (R1.prime q) k := by
      rw [x3 k (fun hx => n123 k (Or.inl hm) k hx rfl), x2 k (fun hx => n12 k hm k hx rfl)]
    exact ⟨v, hv, fun hh => by rw [e, t hh], fun ⟨x, hx, h0⟩ => by rw [e, f (fun hh => hh x hx h0)]; rfl⟩
  | 1 =>
    have hm := memk _ _ _ hk
    obtain ⟨v, hv, t, f⟩ := z2 k xs hk
    have e : dget (R.prime q) k = dget (R2.prime q) k := x3 k (fun hx => n123 k (Or.inr hm) k hx rfl)
    have e1 : dget (R1.prime q) k = none := (x1 k (fun hx => n12 k hx k hm rfl)).trans rfl
    exact ⟨v, hv, fun hh => by rw [e, t hh], fun ⟨x, hx, h0⟩ => by rw [e, f (fun hh => hh x hx h0), e1]⟩
  | 2 =>
    have hm := memk _ _ _ hk
    obtain ⟨v, hv, t, f⟩ := z3 k xs hk
    have e2 : dget (R2.prime q) k = none := by
      rw [x2 k (fun hx => n123 k (Or.inr hx) k hm rfl), x1 k (fun hx => n123 k (Or.inl hx) k hm rfl)]; rfl
    exact ⟨v, hv, t, fun ⟨x, hx, h0⟩ => by rw [f (fun hh => hh x hx h0), e2]⟩

/-- What is recorded: for ranged parameters, a positive number at every wing loading. -/
def GoodRecord (n : ℕ) (d : Design3) (R : Recorded) : Prop :=
  ∀ q e, e ∈ R.prime q → (e.2.length = n ∧ ∀ x ∈ e.2, 0 < x) ∧ ∃ i xs, (e.1, Val.list xs) ∈ dictNo d i

theorem mem_dset {α : Type} {d : List (String × α)} {k : String} {v : α} {e : String × α} (h : e ∈ dset d k v) :
    e ∈ d ∨ e = (k, v) := by
  induction d with
  | nil => simp [dset] at h; exact Or.inr h
  | cons p t ih =>
    obtain ⟨k0, v0⟩ := p
    unfold dset at h
    split at h
    · rename_i hk
      rcases List.mem_cons.mp h with h | h
      · exact Or.inr (by rw [h, hk])
      · exact Or.inl (List.mem_cons_of_mem _ h)
    · rcases List.mem_cons.mp h with h | h
      · exact Or.inl (by rw [h]; exact List.mem_cons_self)
      · rcases ih h with h | h
        · exact Or.inl (List.mem_cons_of_mem _ h)
        · exact Or.inr h

theorem loop_good {b dd p : Dict} {a : Option Atmos.Atm} {pa : PropArg} {r : Built} (hb : construct b dd p a pa = .ok r)
    {X : Ext} {S : StudyIn} {ws : List ℝ} (hS : StudyOf r S ws) (hw : ws ≠ []) (i : Fin 3) (sp : Design3) (d : Dict)
    (hd : ∀ e ∈ d, e ∈ dictNo sp i)
    (hsc : ∀ k xs, (k, .list xs) ∈ d → Scalar i k)
    {R R' : Recorded} (h : d.foldlM (studyEntry X S i) R = .ok R') (hR : GoodRecord ws.length sp R) :
    GoodRecord ws.length sp R' := by
  induction d generalizing R with
  | nil => cases h; exact hR
  | cons e d ih =>
    simp only [List.foldlM_cons, bind_ok_iff] at h
    obtain ⟨R1, h1, h2⟩ := h
    refine ih (fun e he => hd e (List.mem_cons_of_mem _ he)) (fun k xs hm => hsc k xs (List.mem_cons_of_mem _ hm)) h2 ?_
    obtain ⟨ke, ve⟩ := e
    by_cases hl : ∃ xs, ve = .list xs
    · obtain ⟨xs, rfl⟩ := hl
      intro q e he
      obtain ⟨v, hv, t, f⟩ := studyEntry_ok hb hS hw (hsc ke xs List.mem_cons_self) h1 q
      by_cases hx : ∀ x ∈ v, x ≠ 0
      · rw [t hx] at he
        rcases mem_dset he with he | rfl
        · exact hR q e he
        · refine ⟨?_, i, xs, hd _ List.mem_cons_self⟩
          obtain ⟨_, _, _, _, f, g, -, -, -, -, -, -, e⟩ := hv
          refine ⟨by simp [e], fun x hxv => ?_⟩
          have h0 := hx x hxv
          simp only [e, List.mem_map] at hxv
          obtain ⟨w, -, rfl⟩ := hxv
          exact lt_of_le_of_ne (abs_nonneg _) (Ne.symm h0)
      · rw [f hx] at he; exact hR q e he
    · rw [studyEntry_other (fun xs hx => hl ⟨xs, hx⟩) h1]; exact hR

theorem study_good {b dd p : Dict} {a : Option Atmos.Atm} {pa : PropArg} {r : Built} (hb : construct b dd p a pa = .ok r)
    (X : Ext) (w : NumArg) (power : Bool) (hw : recastArray w ≠ []) (hn : KeysDistinct (spaceOf r)) {R : Recorded} {nom : Req}
    (h : study X r w power = .ok (R, nom)) : GoodRecord (recastArray w).length (spaceOf r) R := by
  obtain ⟨S, W, hS, hW, rfl, hm, hl, -⟩ := study_ok h
  unfold studyLoop at hl
  simp only [bind_ok_iff] at hl
  obtain ⟨R1, l1, R2, l2, l3⟩ := hl
  unfold KeysDistinct spaceOf at hn
  simp only [List.nodup_append, List.mem_append] at hn
  obtain ⟨⟨n1, n2, n12⟩, n3, n123⟩ := hn
  obtain ⟨rs1, rs2⟩ := ranged_scalar hb
  have sc0 : ∀ k xs, (k, Val.list xs) ∈ r.space.1 → Scalar 0 k := fun k xs _ => ⟨by simp, by simp⟩
  have sc1 : ∀ k xs, (k, Val.list xs) ∈ r.space.2.1 → Scalar 1 k := fun k xs hm =>
    ⟨fun e => rs1 xs (by rw [← e.2]; exact dget_of_mem_nodup _ n2 _ _ hm), by simp⟩
  have sc2 : ∀ k xs, (k, Val.list xs) ∈ r.space.2.2 → Scalar 2 k := fun k xs hm =>
    ⟨by simp, fun e => rs2 xs (by rw [← e.2]; exact dget_of_mem_nodup _ n3 _ _ hm)⟩
  have g0 : GoodRecord (recastArray w).length (spaceOf r) ⟨fun _ => [], []⟩ := fun q e he => absurd he (by simp)
  have g1 := loop_good hb hS hw 0 (spaceOf r) _ (fun _ h => h) sc0 l1 g0
  have g2 := loop_good hb hS hw 1 (spaceOf r) _ (fun _ h => h) sc1 l2 g1
  exact loop_good hb hS hw 2 (spaceOf r) _ (fun _ h => h) sc2 l3 g2

/-- Only ranged parameters are recorded. -/
theorem C54_ranged {b dd p : Dict} {a : Option Atmos.Atm} {pa : PropArg} {r : Built} (hb : construct b dd p a pa = .ok r)
    (X : Ext) (w : NumArg) (power : Bool) (hw : recastArray w ≠ []) (hn : KeysDistinct (spaceOf r)) {R : Recorded} {nom : Req}
    (h : study X r w power = .ok (R, nom)) (q : Constr) (k : String) (v : List ℝ) (hk : dget (R.prime q) k = some v) :
    ∃ i xs, (k, Val.list xs) ∈ dictNo (spaceOf r) i :=
  (study_good hb X w power hw hn h q (k, v) (dget_some_mem _ _ _ hk)).2

/-- The relative sensitivities at a wing loading are non-negative and sum to 1 as soon as something is
recorded. -/
theorem C54_shares {b dd p : Dict} {a : Option Atmos.Atm} {pa : PropArg} {r : Built} (hb : construct b dd p a pa = .ok r)
    (X : Ext) (w : NumArg) (power : Bool) (hw : recastArray w ≠ []) (hn : KeysDistinct (spaceOf r)) {R : Recorded} {nom : Req}
    (h : study X r w power = .ok (R, nom)) (q : Constr) (hq : R.prime q ≠ []) (j : ℕ) (hj : j < (recastArray w).length) :
    (∀ x ∈ shares (R.prime q) j, 0 ≤ x) ∧ (shares (R.prime q) j).sum = 1 := by
  have hg := study_good hb X w power hw hn h q
  obtain ⟨l, hl⟩ : ∃ l, l = R.prime q := ⟨_, rfl⟩
  rw [← hl] at hg hq ⊢
  have hpos : ∀ e ∈ l, 0 < e.2.getD j 0 := by
    intro e he
    obtain ⟨⟨hlen, hp⟩, -⟩ := hg e he
    rw [List.getD_eq_getElem _ _ (by omega)]
    exact hp _ (List.getElem_mem _)
  have hsum : 0 < primeSum l j := by
    unfold primeSum
    refine List.sum_pos _ ?_ (by simpa using hq)
    intro x hx
    obtain ⟨e, he, rfl⟩ := List.mem_map.mp hx
    exact hpos e he
  refine ⟨fun x hx => ?_, ?_⟩
  · obtain ⟨e, he, rfl⟩ := List.mem_map.mp hx
    exact div_nonneg (hpos e he).le hsum.le
  · unfold shares
    simp only [div_eq_mul_inv]
    rw [List.sum_map_mul_right]
    exact mul_inv_cancel₀ hsum.ne'

/-- The nominal curve is the requirement of the concept as the study sees it. -/
theorem C54_nominal {b dd p : Dict} {a : Option Atmos.Atm} {pa : PropArg} {r : Built} (hb : construct b dd p a pa = .ok r)
    (X : Ext) (w : NumArg) (power : Bool) {R : Recorded} {nom : Req}
    (h : study X r w power = .ok (R, nom)) :
    ∃ W, r.concept.weight_n = some W ∧ seaLevelReq X power (W / gAcc) (recastArray w) (studied r.concept) = .ok nom := by
  obtain ⟨S, W, hS, hW, rfl, hm, -, hn⟩ := study_ok h
  refine ⟨W, hW, ?_⟩
  obtain ⟨_, _, _, _, _, _, _, _, _, _, _, _, _, _, _, _, _, _, _, _, _, hr⟩ := construct_ok hb
  obtain ⟨hat, -, ha, hp⟩ := readConcept_ok hr
  have hat' : AttrsFrom r.brief r.design r.performance (studied r.concept) := by
    obtain ⟨a0, a1, a2, a3, a4, a5, a6, a7, a8, a9, a10, a11, a12, a13, a14, a15, a16, a17, a18, a19, a20, a21, a22, a23, a24, a25, a26, a27, a28, a29, a30, a31, a32, a33, a34, a35, a36, a37, a38, a39, a40⟩ := hat
    exact ⟨a0, a1, a2, a3, a4, a5, a6, a7, a8, a9, a10, a11, a12, a13, a14, a15, a16, a17, a18, a19, a20, a21, a22, a23, a24, a25, a26, a27, a28, a29, a30, a31, a32, a33, a34, a35, a36, a37, a38, a39, a40⟩
  have hc := construct_settled (settled_construct hb) hat' (some S.atm) S.propulsion.asArg (by rw [hS.atm]; rfl)
    (by rw [parse_asArg, hS.propulsion]; rfl)
  unfold evalState at hn
  rw [hS.state, hc, bind_ok] at hn
  rw [← hn, ← hm, ← seaLevelReq_weight X S.power S.mass _ _ 0 (studied r.concept).weight_n]
  unfold yFunction seaLevelReq
  rw [hS.ws]
  rfl

/-- With a propulsion argument the nominal curve equals the requirement of the concept itself. -/
theorem C54_nominal_given {b dd p : Dict} {a : Option Atmos.Atm} {pa : PropArg} {r : Built} (hb : construct b dd p a pa = .ok r)
    (X : Ext) (w : NumArg) (power : Bool) {R : Recorded} {nom : Req} (hp : r.concept.propulsion ≠ .pyFalse)
    (h : study X r w power = .ok (R, nom)) :
    ∃ W, r.concept.weight_n = some W ∧ seaLevelReq X power (W / gAcc) (recastArray w) r.concept = .ok nom := by
  obtain ⟨W, hW, hn⟩ := C54_nominal hb X w power h
  refine ⟨W, hW, ?_⟩
  have : studied r.concept = r.concept := by
    unfold studied
    have : handedOn r.concept.propulsion = r.concept.propulsion := by
      cases hc : r.concept.propulsion with
      | pyFalse => exact absurd hc hp
      | _ => rfl
    rw [this]
  rwa [this] at hn

/-- A range of take-off weights has no effect on any constraint: the mass is taken from the nominal weight. -/
theorem C84_weight_violated {b dd p : Dict} {a : Option Atmos.Atm} {pa : PropArg} {r : Built} (hb : construct b dd p a pa = .ok r)
    (X : Ext) (w : NumArg) (power : Bool) (hw : recastArray w ≠ []) (hn : KeysDistinct (spaceOf r)) {R : Recorded} {nom : Req}
    (h : study X r w power = .ok (R, nom)) (xs : List ℝ) (hx : ("weight_n", Val.list xs) ∈ (spaceOf r).design) (q : Constr) :
    dget (R.prime q) "weight_n" = none := by
  obtain ⟨W, -, hh⟩ := C54_extremes hb X w power hw hn h
  obtain ⟨v, ⟨hi, lo, rmax, rmin, f, g, -, -, e1, e2, e3, e4, e5⟩, -, hnone⟩ := hh 1 "weight_n" xs q hx
  have key : ∀ u, seaLevelReq X power (W / gAcc) (recastArray w) (varied (studied r.concept) 1 "weight_n" u) =
      seaLevelReq X power (W / gAcc) (recastArray w) (studied r.concept) := by
    intro u
    rw [← seaLevelReq_weight X power _ _ (studied r.concept) r.concept.etadefaultflag (some u)]
    congr 1
  rw [key] at e1 e2
  rw [e1] at e2
  cases e2
  rw [e3] at e4
  apply hnone
  obtain ⟨x, l, hl⟩ := List.exists_cons_of_ne_nil hw
  rw [hl] at e4 e5
  simp only [List.map_cons, List.cons.injEq] at e4
  exact ⟨0, by rw [e5]; simp [e4.1], rfl⟩

end

end Verif.Props
