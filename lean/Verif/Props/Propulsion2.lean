import Verif.Props.Propulsion

/-
Name matching (C89), polynomial fits (C65), the local data query (C66) and electric shaft power (C64).
-/

namespace Verif.Propulsion

open Verif Verif.Atmos

noncomputable section

/-! ### C89 -/

/-- The name of another engine in front of the files of both: a jet deck for the common part of two
engine names takes each table from whichever file is listed last. For the package's own directory,
`JetDeck("TFE731")` combines the sea-level fit of the TFE731-2 with the tables of the TFE731-5. -/
theorem C89_mixed_violated (csv : String → Frame) (poly : String → PyM PolyFile) (S : Setup)
    (h : setup ⟨jetListing, csv, poly⟩ "TFE731" ["thrust"] ["tsfc"] = .ok S) :
    S.output_data = [some (csv "TFE731-5_Thrust_data.csv")] ∧
    S.eta_data = [some (csv "TFE731-5_TSFC_data.csv")] ∧
    S.slPoly = some (polyOf ⟨jetListing, csv, poly⟩ "TFE731-2_Sea_level_thrust_polynomial.csv") := by
  rw [setup_ok] at h
  rw [h.2]
  have l1 : lastWhere (isTable "thrust") (engineFiles "TFE731" jetListing) = some "TFE731-5_Thrust_data.csv" := by
    decide
  have l2 : lastWhere (isTable "tsfc") (engineFiles "TFE731" jetListing) = some "TFE731-5_TSFC_data.csv" := by
    decide
  have l3 : lastWhere (fun f => ["thrust"].any (fun o => isSlPoly o f)) (engineFiles "TFE731" jetListing)
      = some "TFE731-2_Sea_level_thrust_polynomial.csv" := by
    decide
  refine ⟨?_, ?_, ?_⟩
  · show [Option.map csv (lastWhere (isTable "thrust") (engineFiles "TFE731" jetListing))] = _
    rw [l1]; rfl
  · show [Option.map csv (lastWhere (isTable "tsfc") (engineFiles "TFE731" jetListing))] = _
    rw [l2]; rfl
  · show Option.map _ (lastWhere (fun f => ["thrust"].any (fun o => isSlPoly o f)) (engineFiles "TFE731" jetListing)) = _
    rw [l3]; rfl

example (csv : String → Frame) : ∃ S, setup ⟨jetListing, csv, fun _ => .ok ([1, 2], [0, 1])⟩ "TFE731" ["thrust"] ["tsfc"] = .ok S :=
  ⟨_, (setup_ok _ _ _ _ _).mpr ⟨fun _ _ _ => ⟨_, rfl⟩, rfl⟩⟩

/-- The contents `d'` agree with `d` on the files whose name contains the engine name. -/
structure SameFor (name : String) (d d' : Dir) : Prop where
  files : d'.listing.filter (fun f => decide (name.toList <:+: f.toList))
    = d.listing.filter (fun f => decide (name.toList <:+: f.toList))
  csv : ∀ f ∈ d.listing, Occurs name.toList f.toList → d'.csv f = d.csv f
  poly : ∀ f ∈ d.listing, Occurs name.toList f.toList → d'.poly f = d.poly f

theorem lastWhere_mem {p : String → Bool} {l : List String} {f : String} (h : lastWhere p l = some f) :
    f ∈ l ∧ p f = true := by
  unfold lastWhere at h
  have := List.mem_of_getLast? h
  rwa [List.mem_filter] at this

/-- Files whose name does not contain the engine name have no influence on a deck: changing, adding or
removing them changes nothing. -/
theorem C89_others (d d' : Dir) (name : String) (h : SameFor name d d') :
    (∀ t, mkTurboprop d name = .ok t ↔ mkTurboprop d' name = .ok t) ∧
    (∀ t, mkPiston d name = .ok t ↔ mkPiston d' name = .ok t) ∧
    (∀ t, mkElectric d name = .ok t ↔ mkElectric d' name = .ok t) ∧
    (∀ t, mkJet d name = .ok t ↔ mkJet d' name = .ok t) := by
  have hf : engineFiles name d'.listing = engineFiles name d.listing := h.files
  have hc : ∀ f ∈ engineFiles name d.listing, d'.csv f = d.csv f := by
    intro f hf; rw [mem_engineFiles] at hf; exact h.csv f hf.1 hf.2
  have hp : ∀ f ∈ engineFiles name d.listing, d'.poly f = d.poly f := by
    intro f hf; rw [mem_engineFiles] at hf; exact h.poly f hf.1 hf.2
  have m : ∀ {β : Type} (g g' : String → β) (p : String → Bool),
      (∀ f ∈ engineFiles name d.listing, g' f = g f) →
      (lastWhere p (engineFiles name d.listing)).map g' = (lastWhere p (engineFiles name d.listing)).map g := by
    intro β g g' p hg
    cases hl : lastWhere p (engineFiles name d.listing) with
    | none => rfl
    | some f => simp [hg f (lastWhere_mem hl).1]
  have S : ∀ outs effs S, setup d name outs effs = .ok S ↔ setup d' name outs effs = .ok S := by
    intro outs effs S
    rw [setup_ok, setup_ok, hf]
    have e : closedSetup d' outs effs (engineFiles name d.listing) = closedSetup d outs effs (engineFiles name d.listing) := by
      unfold closedSetup
      congr 1
      · exact List.map_congr_left (fun o _ => m _ _ _ hc)
      · exact List.map_congr_left (fun o _ => m _ _ _ hc)
      · refine m _ _ _ (fun f hf => ?_); unfold polyOf; rw [hp f hf]
      · refine m _ _ _ (fun f hf => ?_); unfold polyOf; rw [hp f hf]
    rw [e]
    refine and_congr_left' ?_
    constructor
    · intro h f hf hq; rw [hp f hf]; exact h f hf hq
    · intro h f hf hq; rw [← hp f hf]; exact h f hf hq
  exact ⟨bind_congr_ok (S _ _) _, bind_congr_ok (S _ _) _, bind_congr_ok (S _ _) _, bind_congr_ok (S _ _) _⟩

example (csv : String → Frame) (poly : String → PyM PolyFile) :
    SameFor "J52" ⟨jetListing, csv, poly⟩
      ⟨["J52_Sea_level_thrust_polynomial.csv", "J52_TSFC_data.csv", "J52_Thrust_data.csv", "X1_Thrust_data.csv"], csv, poly⟩ :=
  ⟨by simp only []; decide, fun _ _ _ => rfl, fun _ _ _ => rfl⟩

/-! ### C65 -/

/-- Value of the polynomial with the given coefficients, constant term first. -/
def polySum (cs : List ℝ) (x : ℝ) : ℝ := ∑ i : Fin cs.length, cs[i] * x ^ (i : ℕ)

theorem evalPoly_sum (cs : List ℝ) (x : ℝ) : evalPoly cs x = polySum cs x := by
  unfold polySum
  induction cs with
  | nil => simp [evalPoly]
  | cons c cs ih =>
    have : evalPoly (c :: cs) x = c + x * evalPoly cs x := rfl
    rw [this, ih]
    rw [show (∑ i : Fin (c :: cs).length, (c :: cs)[i] * x ^ (i : ℕ))
      = ∑ i : Fin (cs.length + 1), (c :: cs)[i] * x ^ (i : ℕ) from rfl, Fin.sum_univ_succ]
    simp [Finset.mul_sum, pow_succ]
    refine Finset.sum_congr rfl (fun i _ => ?_)
    ring

/-- Sea-level thrust and take-off thrust: the fitted polynomial between the limits, both included; None
outside. -/
theorem C65_range (d : JetDeck) (cs more : List ℝ) (lo hi x : ℝ) :
    (d.avail.sl = true → d.slPoly = some (cs, lo :: hi :: more) →
      (lo ≤ x → x ≤ hi → d.sl_thrust (.num x) = .ok (some [polySum cs x])) ∧
      (x < lo ∨ hi < x → d.sl_thrust (.num x) = .ok none)) ∧
    (d.avail.slto = true → d.sltoPoly = some (cs, lo :: hi :: more) →
      (lo ≤ x → x ≤ hi → d.sl_take_off_thrust (.num x) = .ok (some [polySum cs x])) ∧
      (x < lo ∨ hi < x → d.sl_take_off_thrust (.num x) = .ok none)) := by
  have key : (lo ≤ x → x ≤ hi → slQuery true (some (cs, lo :: hi :: more)) (.num x) = .ok (some [polySum cs x])) ∧
      (x < lo ∨ hi < x → slQuery true (some (cs, lo :: hi :: more)) (.num x) = .ok none) := by
    have i0 : pyIndex (lo :: hi :: more) 0 = .ok lo := by simp [pyIndex]
    have i1 : ∃ y, pyIndex (lo :: hi :: more) (-1) = .ok y := by
      unfold pyIndex
      rw [if_neg (by norm_num), if_pos (by simp)]
      have : ((lo :: hi :: more).length + -1 : ℤ).toNat = more.length + 1 := by simp
      rw [this]
      cases hm : (lo :: hi :: more)[more.length + 1]? with
      | some y => exact ⟨y, rfl⟩
      | none => rw [List.getElem?_eq_none_iff] at hm; simp at hm
    obtain ⟨y, i1⟩ := i1
    have q : slQuery true (some (cs, lo :: hi :: more)) (.num x) = polyQuery (.num x) cs (lo :: hi :: more) := by
      unfold slQuery
      simp only [Bool.true_eq_false, if_false]
      rw [i1, i0]; rfl
    have e : polyQuery (.num x) cs (lo :: hi :: more)
        = if hi < x then .ok none else if x < lo then .ok none else .ok (some [evalPoly cs x]) := rfl
    rw [q, e]
    refine ⟨fun h1 h2 => ?_, fun h => ?_⟩
    · rw [if_neg (not_lt.mpr h2), if_neg (not_lt.mpr h1), evalPoly_sum]
    · by_cases h2 : hi < x
      · rw [if_pos h2]
      · rw [if_neg h2, if_pos (by rcases h with h | h; exact h; exact absurd h h2)]
  refine ⟨fun h1 h2 => ?_, fun h1 h2 => ?_⟩
  · unfold JetDeck.sl_thrust; rw [h1, h2]; exact key
  · unfold JetDeck.sl_take_off_thrust; rw [h1, h2]; exact key

/-- The documentation asks for a number: Python lists raise TypeError and arrays of two or more elements
ValueError; nothing is evaluated. -/
theorem C65_rejects (d : JetDeck) (cs more : List ℝ) (lo hi : ℝ) (h1 : d.avail.sl = true)
    (h2 : d.slPoly = some (cs, lo :: hi :: more)) :
    (∀ xs, d.sl_thrust (.list xs) = .error .typeError) ∧
    (∀ x y zs, d.sl_thrust (.arr (x :: y :: zs)) = .error .valueError) ∧
    (∀ x, d.sl_thrust (.arr [x]) = d.sl_thrust (.num x)) := by
  have i0 : pyIndex (lo :: hi :: more) 0 = .ok lo := by simp [pyIndex]
  have i1 : ∃ y, pyIndex (lo :: hi :: more) (-1) = .ok y := by
    unfold pyIndex
    rw [if_neg (by norm_num), if_pos (by simp)]
    have : ((lo :: hi :: more).length + -1 : ℤ).toNat = more.length + 1 := by simp
    rw [this]
    cases hm : (lo :: hi :: more)[more.length + 1]? with
    | some y => exact ⟨y, rfl⟩
    | none => rw [List.getElem?_eq_none_iff] at hm; simp at hm
  obtain ⟨y, i1⟩ := i1
  have q : ∀ a, d.sl_thrust a = polyQuery a cs (lo :: hi :: more) := by
    intro a
    unfold JetDeck.sl_thrust slQuery
    rw [h1, h2]
    simp only [Bool.true_eq_false, if_false]
    rw [i1, i0]; rfl
  refine ⟨fun xs => ?_, fun x y zs => ?_, fun x => ?_⟩
  · rw [q]; rfl
  · rw [q]; rfl
  · rw [q, q]; rfl

example : JetDeck.sl_thrust ⟨⟨[false], [false], true, false⟩, none, none, some ([32223, 139], [0, 0.95]), none⟩ (.list [0.5])
    = .error .typeError := (C65_rejects _ _ _ _ _ rfl rfl).1 _

/-- A deck built from a directory in which the engine has exactly one sea-level polynomial file uses the
numbers of that file. -/
theorem C65_built (dir : Dir) (name : String) (d : JetDeck) (h : mkJet dir name = .ok d) (f : String)
    (hf : f ∈ dir.listing) (hn : Occurs name.toList f.toList)
    (hs : Occurs "sea_level_thrust_polynomial.csv".toList (f.toList.map Char.toLower))
    (hu : ∀ g ∈ dir.listing, Occurs name.toList g.toList →
      Occurs "sea_level_thrust_polynomial.csv".toList (g.toList.map Char.toLower) → g = f) :
    d.avail.sl = true ∧ ∃ p, dir.poly f = .ok p ∧ d.slPoly = some p := by
  unfold mkJet at h
  simp only [bind_ok_iff, pure_ok_iff] at h
  obtain ⟨S, hS, thr, h1, sfc, h2, rfl⟩ := h
  rw [setup_ok] at hS
  obtain ⟨hp, rfl⟩ := hS
  have role : ∀ g, isSlPoly "thrust" g = true ↔
      Occurs "sea_level_thrust_polynomial.csv".toList (g.toList.map Char.toLower) := by
    intro g
    rw [← pyIn_iff]; rfl
  have hm : f ∈ engineFiles name dir.listing := (mem_engineFiles _ _ _).mpr ⟨hf, hn⟩
  have any : (engineFiles name dir.listing).any (fun f => ["thrust"].any fun o => isSlPoly o f) = true := by
    rw [List.any_eq_true]
    exact ⟨f, hm, by simpa using (role f).mpr hs⟩
  refine ⟨any, ?_⟩
  have hl : lastWhere (fun f => ["thrust"].any fun o => isSlPoly o f) (engineFiles name dir.listing) = some f := by
    cases hx : lastWhere (fun f => ["thrust"].any fun o => isSlPoly o f) (engineFiles name dir.listing) with
    | none =>
      unfold lastWhere at hx
      rw [List.getLast?_eq_none_iff, List.filter_eq_nil_iff] at hx
      exact absurd (by simpa using (role f).mpr hs) (hx f hm)
    | some g =>
      obtain ⟨k1, k2⟩ := lastWhere_mem hx
      rw [mem_engineFiles] at k1
      rw [hu g k1.1 k1.2 ((role g).mp (by simpa using k2))]
  obtain ⟨p, hpf⟩ := hp f hm (by
    unfold polyFile
    rw [Bool.or_eq_true]; left; simpa using (role f).mpr hs)
  refine ⟨p, hpf, ?_⟩
  show Option.map (polyOf dir) (lastWhere _ _) = _
  rw [hl]
  simp [polyOf, hpf]

/-- A deck built from a directory in which the engine has exactly one take-off polynomial file uses the
numbers of that file. -/
theorem C65_built_takeoff (dir : Dir) (name : String) (d : JetDeck) (h : mkJet dir name = .ok d) (f : String)
    (hf : f ∈ dir.listing) (hn : Occurs name.toList f.toList)
    (hs : Occurs "sea_level_take_off_thrust_polynomial.csv".toList (f.toList.map Char.toLower))
    (hu : ∀ g ∈ dir.listing, Occurs name.toList g.toList →
      Occurs "sea_level_take_off_thrust_polynomial.csv".toList (g.toList.map Char.toLower) → g = f) :
    d.avail.slto = true ∧ ∃ p, dir.poly f = .ok p ∧ d.sltoPoly = some p := by
  unfold mkJet at h
  simp only [bind_ok_iff, pure_ok_iff] at h
  obtain ⟨S, hS, thr, h1, sfc, h2, rfl⟩ := h
  rw [setup_ok] at hS
  obtain ⟨hp, rfl⟩ := hS
  have role : ∀ g, isSltoPoly "thrust" g = true ↔
      Occurs "sea_level_take_off_thrust_polynomial.csv".toList (g.toList.map Char.toLower) := by
    intro g
    rw [← pyIn_iff]; rfl
  have hm : f ∈ engineFiles name dir.listing := (mem_engineFiles _ _ _).mpr ⟨hf, hn⟩
  have any : (engineFiles name dir.listing).any (fun f => ["thrust"].any fun o => isSltoPoly o f) = true := by
    rw [List.any_eq_true]
    exact ⟨f, hm, by simpa using (role f).mpr hs⟩
  refine ⟨any, ?_⟩
  have hl : lastWhere (fun f => ["thrust"].any fun o => isSltoPoly o f) (engineFiles name dir.listing) = some f := by
    cases hx : lastWhere (fun f => ["thrust"].any fun o => isSltoPoly o f) (engineFiles name dir.listing) with
    | none =>
      unfold lastWhere at hx
      rw [List.getLast?_eq_none_iff, List.filter_eq_nil_iff] at hx
      exact absurd (by simpa using (role f).mpr hs) (hx f hm)
    | some g =>
      obtain ⟨k1, k2⟩ := lastWhere_mem hx
      rw [mem_engineFiles] at k1
      rw [hu g k1.1 k1.2 ((role g).mp (by simpa using k2))]
  obtain ⟨p, hpf⟩ := hp f hm (by
    unfold polyFile
    rw [Bool.or_eq_true]; right; simpa using (role f).mpr hs)
  refine ⟨p, hpf, ?_⟩
  show Option.map (polyOf dir) (lastWhere _ _) = _
  rw [hl]
  simp [polyOf, hpf]

/-- Without a file of the kind, None. -/
theorem C65_absent (dir : Dir) (name : String) (d : JetDeck) (h : mkJet dir name = .ok d) (x : PolyArg) :
    ((∀ g ∈ dir.listing, Occurs name.toList g.toList →
      ¬ Occurs "sea_level_thrust_polynomial.csv".toList (g.toList.map Char.toLower)) → d.sl_thrust x = .ok none) ∧
    ((∀ g ∈ dir.listing, Occurs name.toList g.toList →
      ¬ Occurs "sea_level_take_off_thrust_polynomial.csv".toList (g.toList.map Char.toLower)) → d.sl_take_off_thrust x = .ok none) := by
  unfold mkJet at h
  simp only [bind_ok_iff, pure_ok_iff] at h
  obtain ⟨S, hS, thr, h1, sfc, h2, rfl⟩ := h
  rw [setup_ok] at hS
  obtain ⟨hp, rfl⟩ := hS
  constructor
  · intro hno
    have any : (engineFiles name dir.listing).any (fun f => ["thrust"].any fun o => isSlPoly o f) = false := by
      rw [Bool.eq_false_iff]
      intro ht
      rw [List.any_eq_true] at ht
      obtain ⟨g, hg, hg2⟩ := ht
      rw [mem_engineFiles] at hg
      have hg3 : isSlPoly "thrust" g = true := by simpa using hg2
      exact hno g hg.1 hg.2 ((pyIn_iff _ _).mp hg3)
    unfold JetDeck.sl_thrust
    show slQuery ((engineFiles name dir.listing).any (fun f => ["thrust"].any fun o => isSlPoly o f)) _ _ = _
    rw [any]; rfl
  · intro hno
    have any : (engineFiles name dir.listing).any (fun f => ["thrust"].any fun o => isSltoPoly o f) = false := by
      rw [Bool.eq_false_iff]
      intro ht
      rw [List.any_eq_true] at ht
      obtain ⟨g, hg, hg2⟩ := ht
      rw [mem_engineFiles] at hg
      have hg3 : isSltoPoly "thrust" g = true := by simpa using hg2
      exact hno g hg.1 hg.2 ((pyIn_iff _ _).mp hg3)
    unfold JetDeck.sl_take_off_thrust
    show slQuery ((engineFiles name dir.listing).any (fun f => ["thrust"].any fun o => isSltoPoly o f)) _ _ = _
    rw [any]; rfl

example : ∃ d : JetDeck, mkJet ⟨["J52_Sea_level_thrust_polynomial.csv"], fun _ => [], fun _ => .ok ([32223, 139], [0, 0.95])⟩ "J52" = .ok d ∧
    d.sl_thrust (.num 0.5) = .ok (some [polySum [32223, 139] 0.5]) ∧ d.sl_thrust (.num 0.95) = .ok (some [polySum [32223, 139] 0.95]) ∧
    d.sl_thrust (.num 0.96) = .ok none := by
  obtain ⟨dir, hdir⟩ : ∃ dir : Dir, dir = ⟨["J52_Sea_level_thrust_polynomial.csv"], fun _ => [], fun _ => .ok ([32223, 139], [0, 0.95])⟩ := ⟨_, rfl⟩
  have hd : ∃ d, mkJet dir "J52" = .ok d := by
    have hS := (setup_ok dir "J52" ["thrust"] ["tsfc"] _).mpr ⟨by rw [hdir]; exact fun _ _ _ => ⟨_, rfl⟩, rfl⟩
    unfold mkJet
    rw [hS, bind_ok]
    have a1 : (closedSetup dir ["thrust"] ["tsfc"] (engineFiles "J52" dir.listing)).avail = ⟨[false], [false], true, false⟩ := by
      rw [hdir]
      show (Avail.mk [List.any (engineFiles "J52" ["J52_Sea_level_thrust_polynomial.csv"]) (isTable "thrust")]
        [List.any (engineFiles "J52" ["J52_Sea_level_thrust_polynomial.csv"]) (isTable "tsfc")]
        (List.any (engineFiles "J52" ["J52_Sea_level_thrust_polynomial.csv"]) fun f => ["thrust"].any fun o => isSlPoly o f)
        (List.any (engineFiles "J52" ["J52_Sea_level_thrust_polynomial.csv"]) fun f => ["thrust"].any fun o => isSltoPoly o f)) = _
      decide
    rw [a1]
    exact ⟨_, rfl⟩
  obtain ⟨d, hd⟩ := hd
  obtain ⟨k1, p, k2, k3⟩ := C65_built dir "J52" d hd "J52_Sea_level_thrust_polynomial.csv" (by rw [hdir]; simp)
    ((pyIn_iff _ _).mp (by decide)) ((pyIn_iff _ _).mp (by decide)) (by rw [hdir]; intro g hg _ _; simpa using hg)
  rw [hdir] at k2
  cases k2
  have := fun x => (C65_range d [32223, 139] [] 0 0.95 x).1 k1 k3
  exact ⟨d, hdir ▸ hd, (this 0.5).1 (by norm_num) (by norm_num), (this 0.95).1 (by norm_num) le_rfl,
    (this 0.96).2 (Or.inr (by norm_num))⟩

/-- The two polynomials of one engine, and an engine of another name in the same directory. -/
example : ∃ d e : JetDeck, ∃ dir : Dir,
    dir.listing = ["JT8D-9_Sea_level_take_off_thrust_polynomial.csv", "JT8D-9_Sea_level_thrust_polynomial.csv"] ∧
    mkJet dir "JT8D-9" = .ok d ∧ mkJet dir "J52" = .ok e ∧
    d.sl_take_off_thrust (.num 0.2) = .ok (some [polySum [64500, -40000] 0.2]) ∧
    d.sl_thrust (.num 0.2) = .ok (some [polySum [50600, 120] 0.2]) ∧
    d.sl_take_off_thrust (.num 0.5) = .ok none ∧ e.sl_thrust (.num 0.2) = .ok none ∧ e.sl_take_off_thrust (.num 0.2) = .ok none := by
  obtain ⟨dir, hdir⟩ : ∃ dir : Dir, dir = ⟨["JT8D-9_Sea_level_take_off_thrust_polynomial.csv", "JT8D-9_Sea_level_thrust_polynomial.csv"],
    fun _ => [], fun f => if f = "JT8D-9_Sea_level_thrust_polynomial.csv" then .ok ([50600, 120], [0, 0.9]) else .ok ([64500, -40000], [0, 0.4])⟩ :=
    ⟨_, rfl⟩
  have hd : ∀ name A, (closedSetup dir ["thrust"] ["tsfc"] (engineFiles name dir.listing)).avail = ⟨[false], [false], A, A⟩ →
      ∃ d, mkJet dir name = .ok d := by
    intro name A a1
    have hS := (setup_ok dir name ["thrust"] ["tsfc"] _).mpr ⟨by
      rw [hdir]; intro f _ _; by_cases h : f = "JT8D-9_Sea_level_thrust_polynomial.csv" <;> simp [h], rfl⟩
    unfold mkJet
    rw [hS, bind_ok, a1]
    exact ⟨_, rfl⟩
  have av : ∀ name, (closedSetup dir ["thrust"] ["tsfc"] (engineFiles name dir.listing)).avail =
      (let L := engineFiles name ["JT8D-9_Sea_level_take_off_thrust_polynomial.csv", "JT8D-9_Sea_level_thrust_polynomial.csv"]
      Avail.mk [List.any L (isTable "thrust")] [List.any L (isTable "tsfc")]
        (List.any L fun f => ["thrust"].any fun o => isSlPoly o f) (List.any L fun f => ["thrust"].any fun o => isSltoPoly o f)) := by
    intro name; rw [hdir]; rfl
  obtain ⟨d, hd1⟩ := hd "JT8D-9" true (by rw [av]; decide)
  obtain ⟨e, he1⟩ := hd "J52" false (by rw [av]; decide)
  have hmem : ∀ g ∈ dir.listing, g = "JT8D-9_Sea_level_take_off_thrust_polynomial.csv" ∨ g = "JT8D-9_Sea_level_thrust_polynomial.csv" := by
    rw [hdir]; intro g hg; simpa using hg
  obtain ⟨k1, p, k2, k3⟩ := C65_built_takeoff dir "JT8D-9" d hd1 "JT8D-9_Sea_level_take_off_thrust_polynomial.csv" (by rw [hdir]; simp)
    ((pyIn_iff _ _).mp (by decide)) ((pyIn_iff _ _).mp (by decide)) (by
      intro g hg _ hr
      rcases hmem g hg with rfl | rfl
      · rfl
      · rw [← pyIn_iff] at hr; exact absurd hr (by decide))
  obtain ⟨l1, p', l2, l3⟩ := C65_built dir "JT8D-9" d hd1 "JT8D-9_Sea_level_thrust_polynomial.csv" (by rw [hdir]; simp)
    ((pyIn_iff _ _).mp (by decide)) ((pyIn_iff _ _).mp (by decide)) (by
      intro g hg _ hr
      rcases hmem g hg with rfl | rfl
      · rw [← pyIn_iff] at hr; exact absurd hr (by decide)
      · rfl)
  rw [hdir] at k2 l2
  simp at k2 l2
  subst k2 l2
  have t := fun x => (C65_range d [64500, -40000] [] 0 0.4 x).2 k1 k3
  have u := fun x => (C65_range d [50600, 120] [] 0 0.9 x).1 l1 l3
  have hno : ∀ g ∈ dir.listing, ¬ Occurs "J52".toList g.toList := by
    intro g hg
    rw [← pyIn_iff]
    rcases hmem g hg with rfl | rfl <;> decide
  have ab := C65_absent dir "J52" e he1 (.num 0.2)
  exact ⟨d, e, dir, by rw [hdir], hd1, he1, (t 0.2).1 (by norm_num) (by norm_num), (u 0.2).1 (by norm_num) (by norm_num),
    (t 0.5).2 (Or.inr (by norm_num)), ab.1 (fun g hg h => absurd h (hno g hg)), ab.2 (fun g hg h => absurd h (hno g hg))⟩

/-! ### C66 -/

/-- An engine type other than the four (in any letter case) raises LookupError; the four raise none. -/
theorem C66_unknown (dirs : List Char → List String) (rows : List Char → List (List String)) (s : String) :
    local_data dirs rows s = .error .lookupError ↔
      s.toList.map Char.toLower ∉ ["turboprop".toList, "jet".toList, "electric".toList, "piston".toList] := by
  unfold local_data
  have e : engineTypes.map String.toList = ["turboprop".toList, "jet".toList, "electric".toList, "piston".toList] := rfl
  rw [e]
  change (if lower s ∈ _ then _ else _) = _ ↔ lower s ∉ _
  by_cases h : lower s ∈ ["turboprop".toList, "jet".toList, "electric".toList, "piston".toList]
  · rw [if_pos h]
    refine iff_of_false ?_ (not_not.mpr h)
    generalize rows (lower s) = R
    have : ∀ (R : List (List String)) acc, R.foldlM (localRow (dirs (lower s))) acc ≠ .error .lookupError := by
      intro R
      induction R with
      | nil => intro acc hc; cases hc
      | cons r R ih =>
        intro acc
        rw [List.foldlM_cons]
        unfold localRow
        split
        · exact ih _
        · intro hc; cases hc
    exact this R []
  · rw [if_neg h]
    exact iff_of_true rfl h

theorem localRows_ok (listing : List String) : ∀ (R : List (List String)) (acc res : List (String × LocalEntry)),
    R.foldlM (localRow listing) acc = .ok res →
    (acc.map Prod.fst).Nodup → (∀ e ∈ acc, ∀ f, f ∈ e.2.available_data ↔ f ∈ listing ∧ Occurs e.1.toList f.toList) →
    (res.map Prod.fst).Nodup ∧
    (∀ e ∈ res, ∀ f, f ∈ e.2.available_data ↔ f ∈ listing ∧ Occurs e.1.toList f.toList) ∧
    ∀ name, name ∈ res.map Prod.fst ↔ name ∈ acc.map Prod.fst ∨ ∃ notes ref, [name, notes, ref] ∈ R
  | [], acc, res, h, h1, h2 => by cases h; exact ⟨h1, h2, by simp⟩
  | r :: R, acc, res, h, h1, h2 => by
    rw [List.foldlM_cons, bind_ok_iff] at h
    obtain ⟨acc', hr, h⟩ := h
    unfold localRow at hr
    split at hr
    · rename_i name notes ref
      cases hr
      have n1 : ((acc.filter (fun e => e.1 ≠ name) ++ [(name, (⟨engineFiles name listing, notes, ref⟩ : LocalEntry))]).map Prod.fst).Nodup := by
        rw [List.map_append, List.nodup_append]
        refine ⟨(h1.sublist ((List.filter_sublist).map _)), by simp, ?_⟩
        intro a ha b hb
        simp at hb
        subst hb
        simp at ha
        intro hc; subst hc
        exact ha.2 rfl
      have n2 : ∀ e ∈ acc.filter (fun e => e.1 ≠ name) ++ [(name, (⟨engineFiles name listing, notes, ref⟩ : LocalEntry))],
          ∀ f, f ∈ e.2.available_data ↔ f ∈ listing ∧ Occurs e.1.toList f.toList := by
        intro e he f
        rw [List.mem_append] at he
        rcases he with he | he
        · exact h2 e (List.mem_filter.mp he).1 f
        · simp at he; subst he; exact mem_engineFiles _ _ _
      obtain ⟨k1, k2, k3⟩ := localRows_ok listing R _ res h n1 n2
      refine ⟨k1, k2, fun nm => ?_⟩
      rw [k3 nm]
      simp only [List.map_append, List.mem_append, List.map_cons, List.map_nil, List.mem_cons, List.not_mem_nil, or_false]
      constructor
      · rintro ((hh | rfl) | ⟨x, y, hh⟩)
        · left
          simp at hh ⊢
          exact hh.1
        · right; exact ⟨notes, ref, Or.inl rfl⟩
        · right; exact ⟨x, y, Or.inr hh⟩
      · rintro (hh | ⟨x, y, hh | hh⟩)
        · left
          by_cases e : nm = name
          · right; exact e
          · left; simp at hh ⊢; exact ⟨hh, e⟩
        · left; right; injection hh
        · right; exact ⟨x, y, hh⟩
    · cases hr

/-- With a known type (any letter case): one entry per engine named in the metadata, and under each
engine exactly the files of the directory whose name contains the engine name. -/
theorem C66_known (dirs : List Char → List String) (rows : List Char → List (List String)) (s : String)
    (res : List (String × LocalEntry)) (h : local_data dirs rows s = .ok res) :
    (res.map Prod.fst).Nodup ∧
    (∀ name, name ∈ res.map Prod.fst ↔ ∃ notes ref, [name, notes, ref] ∈ rows (s.toList.map Char.toLower)) ∧
    ∀ e ∈ res, ∀ f, f ∈ e.2.available_data ↔ f ∈ dirs (s.toList.map Char.toLower) ∧ Occurs e.1.toList f.toList := by
  unfold local_data at h
  change (if lower s ∈ _ then _ else _) = _ at h
  split_ifs at h
  obtain ⟨k1, k2, k3⟩ := localRows_ok _ _ [] res h (by simp) (by simp)
  exact ⟨k1, fun name => (k3 name).trans (by simp [lower]), k2⟩

/-- It returns whenever the metadata rows have three fields. -/
theorem C66_returns (dirs : List Char → List String) (rows : List Char → List (List String)) (s : String)
    (h : s.toList.map Char.toLower ∈ ["turboprop".toList, "jet".toList, "electric".toList, "piston".toList])
    (hr : ∀ r ∈ rows (s.toList.map Char.toLower), r.length = 3) : ∃ res, local_data dirs rows s = .ok res := by
  unfold local_data
  have e : engineTypes.map String.toList = ["turboprop".toList, "jet".toList, "electric".toList, "piston".toList] := rfl
  rw [e]
  change ∃ res, (if lower s ∈ _ then _ else _) = _
  change lower s ∈ _ at h
  rw [if_pos h]
  have : ∀ (R : List (List String)), (∀ r ∈ R, r.length = 3) → ∀ acc, ∃ res,
      R.foldlM (localRow (dirs (lower s))) acc = .ok res := by
    intro R
    induction R with
    | nil => intro _ acc; exact ⟨acc, rfl⟩
    | cons r R ih =>
      intro hR acc
      have h3 := hR r (by simp)
      match r, h3 with
      | [a, b, c], _ => exact ih (fun r hr => hR r (by simp [hr])) _
  exact this _ hr []

example : "Jet".toList.map Char.toLower ∈ ["turboprop".toList, "jet".toList, "electric".toList, "piston".toList] ∧
    "rocket".toList.map Char.toLower ∉ ["turboprop".toList, "jet".toList, "electric".toList, "piston".toList] ∧
    (∃ res, local_data (fun _ => jetListing) (fun _ => [["TFE731-2", "", ""], ["JT8D-9", "notes", "ref"]]) "JET" = .ok res) :=
  ⟨by decide, by decide, C66_returns _ _ _ (by decide) (by simp)⟩

/-! ### C64 -/

/-- Mechanical power of a shaft: angular speed times torque. -/
def shaftWatts (rpm torque : ℝ) : ℝ := 2 * Real.pi * rpm / 60 * torque

/-- The shaft power reported for a motor is half of angular speed times torque. -/
theorem C64_half_violated (d : ElectricDeck) (rpm torque : ℝ) :
    d.shaftpower (.scalar rpm) (.scalar torque) = .ok [shaftWatts rpm torque / 2] ∧
    (rpm ≠ 0 → torque ≠ 0 → d.shaftpower (.scalar rpm) (.scalar torque) ≠ .ok [shaftWatts rpm torque]) := by
  have h : d.shaftpower (.scalar rpm) (.scalar torque) = .ok [shaftWatts rpm torque / 2] := by
    have e : rpm / 60 * Real.pi * torque = shaftWatts rpm torque / 2 := by unfold shaftWatts; ring
    show Except.ok [rpm / 60 * Real.pi * torque] = _
    rw [e]
  refine ⟨h, fun h1 h2 hc => ?_⟩
  rw [h] at hc
  injection hc with hc
  injection hc with hc
  have : shaftWatts rpm torque = 0 := by linarith
  unfold shaftWatts at this
  have hpi := Real.pi_pos
  have : 2 * Real.pi * rpm / 60 * torque ≠ 0 := by positivity
  contradiction

/-- The same holds element by element for arrays of the same length. -/
theorem C64_arrays_violated (d : ElectricDeck) (rs ts : List ℝ) (h : rs.length = ts.length) :
    d.shaftpower (.array rs) (.array ts) = .ok (List.zipWith (fun r t => shaftWatts r t / 2) rs ts) := by
  show bcast _ rs ts = _
  unfold bcast
  rw [if_pos h]
  congr 2
  funext r t
  unfold shaftWatts; ring

example (d : ElectricDeck) : d.shaftpower (.array [3000, 4000]) (.array [100, 120])
    = .ok [shaftWatts 3000 100 / 2, shaftWatts 4000 120 / 2] := C64_arrays_violated d _ _ rfl

/-- The map used for the efficiency does use the full shaft power. -/
theorem C64_map (rpm torque eta : ℝ) :
    mapPower (some rpm, some torque, some eta) = some (shaftWatts rpm torque) := by
  show some (torque * rpm * (2 * Real.pi) / 60) = _
  unfold shaftWatts; congr 1; ring

example : (3000:ℝ) ≠ 0 ∧ (400:ℝ) ≠ 0 := by norm_num

end

end Verif.Propulsion
