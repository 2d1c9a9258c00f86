import Verif.Props.DeckReq
import Verif.Props.EngineData

/-
The engine decks that come with ADRpy, as the propulsion argument of an aircraft concept (C151).
-/

namespace Verif.Aircraft
open Verif Verif.Units Verif.Propulsion Verif.Props

noncomputable section

/-! ### Specification -/

/-- Interpolated values stay within the range of the tabulated values, up to a fraction `e` of them. (scipy's griddata interpolates with a
cubic, which can leave the range; linear interpolation does not: `e` zero.) -/
def Overshoot (G : Grid) (rows : List Row) (e : ℝ) : Prop :=
  ∀ x y z, G rows x y = some z → (∃ r ∈ rows, ∃ u, r.2.2 = some u ∧ (1 - e) * u ≤ z) ∧ ∃ r ∈ rows, ∃ u, r.2.2 = some u ∧ z ≤ (1 + e) * u

/-- Extent of a table: Mach numbers (or engine speeds), altitudes, values. -/
structure Extent where
  m0 : ℝ
  m1 : ℝ
  h0 : ℝ
  h1 : ℝ
  z0 : ℝ
  z1 : ℝ

/-- A flight condition beyond the table of a jet or turboprop. -/
def Extent.Beyond (g : Extent) (m a : ℝ) : Prop := m < g.m0 ∨ g.m1 < m ∨ a < g.h0 ∨ g.h1 < a

/-- A flight condition beyond the table of a piston engine (at any Mach number). -/
def Extent.BeyondAlt (g : Extent) (_ a : ℝ) : Prop := a < g.h0 ∨ g.h1 < a

/-- Each reported value of a non-negative requirement is at least the requirement, and at most `k` times it, up to the overshoot `e`. -/
def Raised (e k : ℝ) (a : NumArg) (b : NanArg) : Prop :=
  ∀ i x y, Entry a i x → EntryN b i (some y) → 0 ≤ x → x ≤ (1 + e) * y ∧ (1 - e) * y ≤ k * x

/-- The five requirements. -/
structure AllRaised (e k : ℝ) (r : Req) (R : ReqN) : Prop where
  takeoff : Raised e k r.takeoff R.takeoff
  turn : Raised e k r.turn R.turn
  climb : Raised e k r.climb R.climb
  cruise : Raised e k r.cruise R.cruise
  servceil : Raised e k r.servceil R.servceil

/-- Where a deck has no value: `turn`, `climb`, `cruise` and `ceiling` are the Mach number and altitude of the flight conditions, `ato` and `hto`
the speed of sound and altitude of the runway, `n` the number of wing loadings. A flight condition beyond the table turns the combined requirement
into NaN at every wing loading, and a lift-off speed beyond it at that wing loading. -/
structure Lost (out : ℝ → ℝ → Prop) (turn climb cruise ceiling : ℝ × ℝ) (ato hto : ℝ) (n : ℕ) (r : Req) (R : ReqN) : Prop where
  size : R.combined.toList.length = n
  everywhere : (∃ p ∈ [turn, climb, cruise, ceiling], out p.1 p.2) → R.combined.toList = List.replicate n none
  somewhere : ∀ i v, Entry r.liftoffspeed i v → out (v / ato) hto → EntryN R.combined i none

/-- ADRpy/data/engine_data/jet_turbofan: thrust tables -/
def jetExtents : List (String × Extent) :=
  [("ATF3-6A", ⟨0.00265161, 0.96340153, 0, 12192, 4623.330522, 19931.47164⟩),
   ("F404-400", ⟨0.03341225, 1.989300732, 0, 18288, 5266.961898, 75554.34133⟩),
   ("FJ-44", ⟨0.005901338, 0.807175074, 0, 13716, 1409.611875, 8460.993858⟩),
   ("JT8D-9", ⟨-0.000262337, 0.993394218, 0, 13716, 9181.173207, 51848.32163⟩),
   ("JT9D-3", ⟨-0.000779147, 0.999921199, 0, 13716, 25701.2655, 147005.2033⟩),
   ("TF30", ⟨0.010080432, 1.203398977, 0, 13716, 9214.627608, 52688.79076⟩),
   ("TFE731-2", ⟨-0.000220051, 0.977328762, 0, 15240, 2022.889696, 12993.92928⟩),
   ("TFE731-5", ⟨0.237197832, 0.965199903, 6096, 12192, 4250.697663, 9673.770209⟩),
   ("J52", ⟨-0.0005426092334779769, 1.3932205980058776, 0, 19812, 2745.050793, 36674.15568⟩),
   ("J60", ⟨0.006208217742119012, 1.9958500853355572, 0, 13716, 2166.9022579999996, 11397.27695⟩)]

/-- ADRpy/data/engine_data/turboprop: shaft power tables -/
def turbopropExtents : List (String × Extent) :=
  [("T56-A", ⟨0.0028206862324185733, 1.039194900677094, 0, 15240, 651557.2539, 3657658.9439999997⟩),
   ("Tyne_RTy11", ⟨0, 0.693939382, 0, 10668, 1093907.686, 3434056.292⟩)]

/-- ADRpy/data/engine_data/piston: shaft power tables -/
def waspExtent : Extent := ⟨1200, 2700, 1.021268885, 10303.80347, 594892.8759, 2474623.543⟩

def io540Extent : Extent := ⟨2000, 2575, -10.90794985, 6867.517699, 74589.72241, 185875.1124⟩

/-! ### Lemmas -/

/-- The rows lie within the extent. -/
def Extent.Holds (g : Extent) (rows : List Row) : Prop := Sound rows g.m0 g.m1 g.h0 g.h1 g.z0 g.z1

theorem sound_max {rows : List Row} {x0 x1 y0 y1 z0 z1 : ℝ} (h : Sound rows x0 x1 y0 y1 z0 z1) : ∃ M, Largest M rows := by
  obtain ⟨h1, h2⟩ := h
  have key : ∀ l : List Row, l ≠ [] → (∀ r ∈ l, ∃ z, r.2.2 = some z) → ∃ M, Largest M l := by
    intro l
    induction l with
    | nil => intro h; exact absurd rfl h
    | cons a l ih =>
      intro _ hz
      obtain ⟨z, hz0⟩ := hz a List.mem_cons_self
      by_cases hl : l = []
      · subst hl
        refine ⟨z, ⟨a, List.mem_cons_self, hz0⟩, fun r hr v hv => ?_⟩
        rw [List.mem_singleton.mp hr, hz0] at hv
        cases hv
        exact le_refl _
      · obtain ⟨M, ⟨⟨r0, hr0, e0⟩, hb⟩⟩ := ih hl (fun r hr => hz r (List.mem_cons_of_mem _ hr))
        rcases le_total M z with hM | hM
        · refine ⟨z, ⟨a, List.mem_cons_self, hz0⟩, fun r hr v hv => ?_⟩
          rcases List.mem_cons.mp hr with rfl | hr
          · rw [hz0] at hv; cases hv; exact le_refl _
          · exact (hb r hr v hv).trans hM
        · refine ⟨M, ⟨r0, List.mem_cons_of_mem _ hr0, e0⟩, fun r hr v hv => ?_⟩
          rcases List.mem_cons.mp hr with rfl | hr
          · rw [hz0] at hv; cases hv; exact hM
          · exact hb r hr v hv
  refine key rows h1 (fun r hr => ?_)
  obtain ⟨x, y, z, rfl, _⟩ := h2 r hr
  exact ⟨z, rfl⟩

/-- A correction lies between the smallest over the largest value, and one, up to the overshoot. -/
theorem relative_range {g : Extent} {rows : List Row} (hs : g.Holds rows) (h0 : 0 < g.z0) {M : ℝ} (hM : Largest M rows) {G : Grid} {e : ℝ}
    (he : 0 ≤ e) (he' : e < 1) (hG : Overshoot G rows e) {x a k : ℝ} (hk : relative G rows M x a = some k) :
    0 < k ∧ k ≤ 1 + e ∧ (1 - e) * g.z0 ≤ k * g.z1 := by
  unfold relative at hk
  cases hz : G rows x a with
  | none => rw [hz] at hk; cases hk
  | some z =>
    rw [hz] at hk
    have hk' : z / M = k := Option.some.inj hk
    obtain ⟨⟨r, hr, u, hu, hl⟩, ⟨r', hr', u', hu', hl'⟩⟩ := hG x a z hz
    obtain ⟨⟨q, hq, eq⟩, hb⟩ := hM
    obtain ⟨_, _, w, rfl, _, _, a1, a2⟩ := hs.row r hr
    obtain ⟨_, _, w', rfl, _, _, b1, b2⟩ := hs.row q hq
    have e1 : w = u := Option.some.inj hu
    have e2 : w' = M := Option.some.inj eq
    have h1 : (1 - e) * g.z0 ≤ z := (mul_le_mul_of_nonneg_left (e1 ▸ a1) (by linarith)).trans hl
    have h2 : z ≤ (1 + e) * M := hl'.trans (mul_le_mul_of_nonneg_left (hb r' hr' u' hu') (by linarith))
    have hM0 : 0 < M := by linarith
    have hM1 : M ≤ g.z1 := by linarith
    have hz0 : 0 < z := lt_of_lt_of_le (mul_pos (by linarith) h0) h1
    subst hk'
    have hk0 : 0 < z / M := div_pos hz0 hM0
    refine ⟨hk0, (div_le_iff₀ hM0).mpr h2, ?_⟩
    calc (1 - e) * g.z0 ≤ z := h1
      _ = z / M * M := by field_simp
      _ ≤ z / M * g.z1 := mul_le_mul_of_nonneg_left hM1 hk0.le

theorem relative_beyond {g : Extent} {rows : List Row} (hs : g.Holds rows) {G : Grid} (hG : NanOutside G) (M x a : ℝ) (h : g.Beyond x a) :
    relative G rows M x a = none := by
  unfold relative
  rw [Sound.outside hs hG x a h]
  rfl

theorem raised_of {e z0 z1 x : ℝ} {o : Option ℝ} {y : ℝ} (h0 : 0 < z0) (ho : ∀ k, o = some k → 0 < k ∧ k ≤ 1 + e ∧ (1 - e) * z0 ≤ k * z1)
    (hx : 0 ≤ x) (h : Mapped o x (some y)) : x ≤ (1 + e) * y ∧ (1 - e) * y ≤ z1 / z0 * x := by
  rcases h with ⟨_, h⟩ | ⟨c, hc, hy⟩
  · cases h
  · obtain ⟨a1, a2, a3⟩ := ho c hc
    have : y = x / c := Option.some.inj hy
    subst this
    constructor
    · rw [← mul_div_assoc, le_div_iff₀ a1, mul_comm (1 + e) x]
      exact mul_le_mul_of_nonneg_left a2 hx
    · rw [← mul_div_assoc, div_le_iff₀ a1, div_mul_eq_mul_div, div_mul_eq_mul_div, le_div_iff₀ h0]
      calc (1 - e) * x * z0 = x * ((1 - e) * z0) := by ring
        _ ≤ x * (c * z1) := mul_le_mul_of_nonneg_left a3 hx
        _ = z1 * x * c := by ring

/-- All entries of a dictionary have the same number of values. -/
structure Sized (r : Req) (n : ℕ) : Prop where
  takeoff : (recastArray r.takeoff).length = n
  liftoff : (recastArray r.liftoffspeed).length = n
  turn : (recastArray r.turn).length = n
  turnfeasible : r.turnfeasible.toList.length = n
  climb : (recastArray r.climb).length = n
  cruise : (recastArray r.cruise).length = n
  servceil : (recastArray r.servceil).length = n

theorem tw_sized {X : Ext} {c : Concept} {fo : Bool} {w : NumArg} {r : Req} (hw : recastArray w ≠ []) (h : twrequired X c w fo false = .ok r) :
    Sized r (recastArray w).length := by
  obtain ⟨R, rfl, -⟩ := tw_ok hw h
  constructor <;> simp [reqOf, recast_revert, toList_revertNan]

theorem power_sized {X : Ext} {c : Concept} {fo : Bool} {w : NumArg} {tow : ℝ} {r : Req} (hw : recastArray w ≠ [])
    (h : powerrequired X c w tow fo false = .ok r) : Sized r (recastArray w).length := by
  rcases power_point X c tow fo false with ⟨er, he⟩ | ⟨R, vc, vs, p0, p1, p2, p3, p4, hI, h1, -, h2⟩
  · rw [he w hw] at h; cases h
  · rw [h2 w hw] at h
    cases h
    constructor <;> simp [preqOf, recast_shp, recast_revert, toList_shpNan]

theorem entry_some {a : NumArg} {n i : ℕ} (h : (recastArray a).length = n) (hi : i < n) : ∃ x, Entry a i x :=
  ⟨(recastArray a)[i]'(by omega), List.getElem?_eq_getElem _⟩

theorem entryN_some {a : NanArg} {n i : ℕ} (h : a.toList.length = n) (hi : i < n) : ∃ x, EntryN a i x :=
  ⟨a.toList[i]'(by omega), List.getElem?_eq_getElem _⟩

theorem mapped_any (o : Option ℝ) (x : ℝ) : ∃ y, Mapped o x y := ⟨over o x, (mapped_over o x _).mpr rfl⟩

theorem top_any (a b c d e : Option ℝ) : ∃ m, Top m [a, b, c, d, e] := ⟨_, (top_nanMax a b c d e _).mpr rfl⟩

/-- There is one combined requirement for each wing loading. -/
theorem combined_sized {fo : Bool} {r : Req} {oto : ℝ → Option ℝ} {otrn oclm ocrs osec : Option ℝ} {R : ReqN} {n : ℕ}
    (h : SeaLevel fo r oto otrn oclm ocrs osec R) (hn : Sized r n) (i : ℕ) : i < n ↔ ∃ m, EntryN R.combined i m := by
  constructor
  · intro hi
    obtain ⟨x1, k1⟩ := entry_some hn.takeoff hi
    obtain ⟨v, kv⟩ := entry_some hn.liftoff hi
    obtain ⟨x2, k2⟩ := entry_some hn.turn hi
    obtain ⟨x3, k3⟩ := entryN_some hn.turnfeasible hi
    obtain ⟨x4, k4⟩ := entry_some hn.climb hi
    obtain ⟨x5, k5⟩ := entry_some hn.cruise hi
    obtain ⟨x6, k6⟩ := entry_some hn.servceil hi
    obtain ⟨y1, m1⟩ := mapped_any (oto v) x1
    obtain ⟨y2, m2⟩ := mapped_any otrn x2
    obtain ⟨y4, m4⟩ := mapped_any oclm x4
    obtain ⟨y5, m5⟩ := mapped_any ocrs x5
    obtain ⟨y6, m6⟩ := mapped_any osec x6
    have e3 : ∃ y3, EntryN R.turnfeasible i y3 := by
      cases x3 with
      | none => exact ⟨none, (h.turnfeasible i none).mpr (.inl ⟨k3, rfl⟩)⟩
      | some x3 =>
        obtain ⟨y3, m3⟩ := mapped_any otrn x3
        exact ⟨y3, (h.turnfeasible i y3).mpr (.inr ⟨x3, k3, m3⟩)⟩
    have e23 : ∃ y, EntryN (if fo then R.turnfeasible else R.turn) i y := by
      cases fo
      · exact ⟨y2, (h.turn i y2).mpr ⟨x2, k2, m2⟩⟩
      · exact e3
    obtain ⟨y, ey⟩ := e23
    obtain ⟨m, hm⟩ := top_any y1 y y4 y5 y6
    exact ⟨m, (h.combined i m).mpr ⟨y1, y, y4, y5, y6, (h.takeoff i y1).mpr ⟨x1, v, k1, kv, m1⟩, ey, (h.climb i y4).mpr ⟨x4, k4, m4⟩,
      (h.cruise i y5).mpr ⟨x5, k5, m5⟩, (h.servceil i y6).mpr ⟨x6, k6, m6⟩, hm⟩⟩
  · rintro ⟨m, hm⟩
    obtain ⟨t, _, _, _, _, ht, _⟩ := (h.combined i m).mp hm
    obtain ⟨x, v, hx, _⟩ := (h.takeoff i t).mp ht
    rw [← hn.takeoff]
    exact (List.getElem?_eq_some_iff.mp hx).1

theorem combined_length {fo : Bool} {r : Req} {oto : ℝ → Option ℝ} {otrn oclm ocrs osec : Option ℝ} {R : ReqN} {n : ℕ}
    (h : SeaLevel fo r oto otrn oclm ocrs osec R) (hn : Sized r n) : R.combined.toList.length = n := by
  have key : ∀ i, i < n ↔ i < R.combined.toList.length := fun i =>
    (combined_sized h hn i).trans ⟨fun ⟨m, hm⟩ => (List.getElem?_eq_some_iff.mp hm).1, fun hi => ⟨_, List.getElem?_eq_getElem hi⟩⟩
  have h1 := key n
  have h2 := key R.combined.toList.length
  omega

theorem lost_of {out : ℝ → ℝ → Prop} {f : ℝ → ℝ → Option ℝ} (hout : ∀ m a, out m a → f m a = none) {fo : Bool} {r : Req} {R : ReqN}
    {turn climb cruise ceiling : ℝ × ℝ} {ato hto : ℝ} {n : ℕ} (hn : Sized r n)
    (h : SeaLevel fo r (fun v => f (v / ato) hto) (f turn.1 turn.2) (f climb.1 climb.2) (f cruise.1 cruise.2) (f ceiling.1 ceiling.2) R) :
    Lost out turn climb cruise ceiling ato hto n r R where
  size := combined_length h hn
  everywhere := by
    rintro ⟨p, hp, ho⟩
    have e := hout _ _ ho
    have hall := (C150_outside h).1 (by
      simp only [List.mem_cons, List.not_mem_nil, or_false] at hp
      rcases hp with rfl | rfl | rfl | rfl
      · exact .inl e
      · exact .inr (.inl e)
      · exact .inr (.inr (.inl e))
      · exact .inr (.inr (.inr e)))
    rw [List.eq_replicate_iff]
    refine ⟨combined_length h hn, fun m hm => ?_⟩
    obtain ⟨i, hi, rfl⟩ := List.getElem_of_mem hm
    exact hall i _ (List.getElem?_eq_getElem hi)
  somewhere i v hv ho := by
    obtain ⟨m, hm⟩ := (combined_sized h hn i).mp (by rw [← hn.liftoff]; exact (List.getElem?_eq_some_iff.mp hv).1)
    have := (C150_outside h).2 i v m hv (hout _ _ ho) hm
    subst this
    exact hm

theorem raised_all {g : Extent} {oto : ℝ → Option ℝ} {otrn oclm ocrs osec : Option ℝ} {e : ℝ} (h0 : 0 < g.z0) {fo : Bool} {r : Req} {R : ReqN}
    (h : SeaLevel fo r oto otrn oclm ocrs osec R)
    (hf : ∀ o k, o = some k → (∃ v, o = oto v) ∨ o = otrn ∨ o = oclm ∨ o = ocrs ∨ o = osec → 0 < k ∧ k ≤ 1 + e ∧ (1 - e) * g.z0 ≤ k * g.z1) :
    AllRaised e (g.z1 / g.z0) r R where
  takeoff := by
    intro i x y hx hy h1
    obtain ⟨x', v, hx', _, hm⟩ := (h.takeoff i _).mp hy
    have : x = x' := Option.some.inj (hx.symm.trans hx')
    subst this
    exact raised_of h0 (fun k hk => hf _ k hk (.inl ⟨_, rfl⟩)) h1 hm
  turn := by
    intro i x y hx hy h1
    obtain ⟨x', hx', hm⟩ := (h.turn i _).mp hy
    have : x = x' := Option.some.inj (hx.symm.trans hx')
    subst this
    exact raised_of h0 (fun k hk => hf _ k hk (.inr (.inl rfl))) h1 hm
  climb := by
    intro i x y hx hy h1
    obtain ⟨x', hx', hm⟩ := (h.climb i _).mp hy
    have : x = x' := Option.some.inj (hx.symm.trans hx')
    subst this
    exact raised_of h0 (fun k hk => hf _ k hk (.inr (.inr (.inl rfl)))) h1 hm
  cruise := by
    intro i x y hx hy h1
    obtain ⟨x', hx', hm⟩ := (h.cruise i _).mp hy
    have : x = x' := Option.some.inj (hx.symm.trans hx')
    subst this
    exact raised_of h0 (fun k hk => hf _ k hk (.inr (.inr (.inr (.inl rfl))))) h1 hm
  servceil := by
    intro i x y hx hy h1
    obtain ⟨x', hx', hm⟩ := (h.servceil i _).mp hy
    have : x = x' := Option.some.inj (hx.symm.trans hx')
    subst this
    exact raised_of h0 (fun k hk => hf _ k hk (.inr (.inr (.inr (.inr rfl))))) h1 hm

/-- A jet deck with a complete thrust table. -/
theorem jet_analysed {g : Extent} {rows : List Row} {d : JetDeck} (hs : g.Holds rows) (h0 : 0 < g.z0) (ha : d.avail.out = [true])
    (hd : d.thr_data = some rows) {G : Grid} (hN : NanOutside G) {X : Ext} {c : Concept}
    {vclm vsec atrn aclm acrs asec ato : ℝ} (hF : Flight c vclm vsec atrn aclm acrs asec ato) {fo : Bool} {w : NumArg}
    (hw : recastArray w ≠ []) {r : Req} (hr : twrequired X c w fo false = .ok r) :
    ∃ R, twrequiredD G (.jet d) X c w fo true = .ok R ∧
      Lost g.Beyond (kts2mps (pyNum c.turnspeed_ktas) / atrn, pyNum c.turnalt_m) (vclm / aclm, pyNum c.climbalt_m)
        (kts2mps (pyNum c.cruisespeed_ktas) / acrs, pyNum c.cruisealt_m) (vsec / asec, pyNum c.servceil_m) ato (pyNum c.rwyelevation_m)
        (recastArray w).length r R ∧
      ∀ rows e, d.thr_data = some rows → 0 ≤ e → e < 1 → Overshoot G rows e → AllRaised e (g.z1 / g.z0) r R := by
  obtain ⟨M, hM⟩ := sound_max hs
  have hK := (C150_kinds G rows M (Sound.complete hs) hM).1 d (by rw [ha]; rfl) hd
  obtain ⟨R, hR, hS⟩ := (C150_sealevel hK hF (X := X) (fo := fo) hw).1 r hr
  refine ⟨R, hR, lost_of (fun m a ho => relative_beyond hs hN M m a ho) (tw_sized hw hr) hS, fun rows' e hd' he he' ho => ?_⟩
  have : rows' = rows := by rw [hd] at hd'; exact (Option.some.inj hd').symm
  subst this
  refine raised_all h0 hS (fun o k hk hcase => ?_)
  rcases hcase with ⟨v, rfl⟩ | rfl | rfl | rfl | rfl <;> exact relative_range hs h0 hM he he' ho hk

/-- A turboprop deck with a complete power table. -/
theorem turboprop_analysed {g : Extent} {rows : List Row} {d : TurbopropDeck} (hs : g.Holds rows) (h0 : 0 < g.z0) (ha : d.avail.out = [true, true])
    (hd : d.pwr_data = some rows) {G : Grid} (hN : NanOutside G) {X : Ext} {c : Concept}
    {vclm vsec atrn aclm acrs asec ato : ℝ} (hF : Flight c vclm vsec atrn aclm acrs asec ato) {fo : Bool} {w : NumArg}
    (hw : recastArray w ≠ []) {r : Req} {tow : ℝ} (hr : powerrequired X c w tow fo false = .ok r) :
    ∃ R, powerrequiredD G (.turboprop d) X c w tow fo true = .ok R ∧
      Lost g.Beyond (kts2mps (pyNum c.turnspeed_ktas) / atrn, pyNum c.turnalt_m) (vclm / aclm, pyNum c.climbalt_m)
        (kts2mps (pyNum c.cruisespeed_ktas) / acrs, pyNum c.cruisealt_m) (vsec / asec, pyNum c.servceil_m) ato (pyNum c.rwyelevation_m)
        (recastArray w).length r R ∧
      ∀ rows e, d.pwr_data = some rows → 0 ≤ e → e < 1 → Overshoot G rows e → AllRaised e (g.z1 / g.z0) r R := by
  obtain ⟨M, hM⟩ := sound_max hs
  have hK := (C150_kinds G rows M (Sound.complete hs) hM).2.1 d (by rw [ha]; rfl) hd
  obtain ⟨R, hR, hS⟩ := (C150_sealevel hK hF (X := X) (fo := fo) hw).2 r tow hr
  refine ⟨R, hR, lost_of (fun m a ho => relative_beyond hs hN M m a ho) (power_sized hw hr) hS, fun rows' e hd' he he' ho => ?_⟩
  have : rows' = rows := by rw [hd] at hd'; exact (Option.some.inj hd').symm
  subst this
  refine raised_all h0 hS (fun o k hk hcase => ?_)
  rcases hcase with ⟨v, rfl⟩ | rfl | rfl | rfl | rfl <;> exact relative_range hs h0 hM he he' ho hk

/-- A piston deck with a complete power table. -/
theorem piston_analysed {g : Extent} {rows : List Row} {d : PistonDeck} (hs : g.Holds rows) (h0 : 0 < g.z0) (ha : d.avail.out = [true])
    (hd : d.pwr_data = some rows) {lo hi : ℝ} (hsp : Spans (rows.map (fun r => r.1)) lo hi) (hlt : lo < hi)
    {G : Grid} (hN : NanOutside G) {X : Ext} {c : Concept}
    {vclm vsec atrn aclm acrs asec ato : ℝ} (hF : Flight c vclm vsec atrn aclm acrs asec ato) {fo : Bool} {w : NumArg}
    (hw : recastArray w ≠ []) {r : Req} {tow : ℝ} (hr : powerrequired X c w tow fo false = .ok r) :
    ∃ R, powerrequiredD G (.piston d) X c w tow fo true = .ok R ∧
      Lost g.BeyondAlt (kts2mps (pyNum c.turnspeed_ktas) / atrn, pyNum c.turnalt_m) (vclm / aclm, pyNum c.climbalt_m)
        (kts2mps (pyNum c.cruisespeed_ktas) / acrs, pyNum c.cruisealt_m) (vsec / asec, pyNum c.servceil_m) ato (pyNum c.rwyelevation_m)
        (recastArray w).length r R ∧
      ∀ rows e, d.pwr_data = some rows → 0 ≤ e → e < 1 → Overshoot G rows e → AllRaised e (g.z1 / g.z0) r R := by
  obtain ⟨M, hM⟩ := sound_max hs
  obtain ⟨s, -, -, hK⟩ := (C150_kinds G rows M (Sound.complete hs) hM).2.2.1 d lo hi (by rw [ha]; rfl) hd hsp hlt
  obtain ⟨R, hR, hS⟩ := (C150_sealevel hK hF (X := X) (fo := fo) hw).2 r tow hr
  refine ⟨R, hR, lost_of (f := fun _ alt => relative G rows M s alt) (fun m a ho => relative_beyond hs hN M s a (.inr (.inr ho)))
    (power_sized hw hr) hS, fun rows' e hd' he he' ho => ?_⟩
  have : rows' = rows := by rw [hd] at hd'; exact (Option.some.inj hd').symm
  subst this
  refine raised_all h0 hS (fun o k hk hcase => ?_)
  rcases hcase with ⟨v, rfl⟩ | rfl | rfl | rfl | rfl <;> exact relative_range hs h0 hM he he' ho hk

/-! ### Theorems -/

/-- **C151** Thrust requirements with each jet deck that comes with ADRpy: they evaluate wherever the requirements without mapping do; each reported
value is at least the requirement at the flight condition; a flight condition beyond the table turns the combined requirement into NaN at every
wing loading, and a lift-off speed beyond it at that wing loading. -/
theorem C151_jets {dir : Dir} (h : Ships jetFiles jetTables jetPolys dir) {name : String} {g : Extent} (hn : (name, g) ∈ jetExtents) :
    ∃ d, mkJet dir name = .ok d ∧ ∀ {G : Grid}, NanOutside G → ∀ {X : Ext} {c : Concept}
      {vclm vsec atrn aclm acrs asec ato : ℝ}, Flight c vclm vsec atrn aclm acrs asec ato → ∀ {fo : Bool} {w : NumArg},
      recastArray w ≠ [] → ∀ {r : Req}, twrequired X c w fo false = .ok r →
      ∃ R, twrequiredD G (.jet d) X c w fo true = .ok R ∧
        Lost g.Beyond (kts2mps (pyNum c.turnspeed_ktas) / atrn, pyNum c.turnalt_m) (vclm / aclm, pyNum c.climbalt_m)
          (kts2mps (pyNum c.cruisespeed_ktas) / acrs, pyNum c.cruisealt_m) (vsec / asec, pyNum c.servceil_m) ato (pyNum c.rwyelevation_m)
          (recastArray w).length r R ∧
        ∀ rows e, d.thr_data = some rows → 0 ≤ e → e < 1 → Overshoot G rows e → AllRaised e (g.z1 / g.z0) r R := by
  simp only [jetExtents, List.mem_cons, List.not_mem_nil, or_false, Prod.mk.injEq] at hn
  rcases hn with ⟨rfl, rfl⟩ | ⟨rfl, rfl⟩ | ⟨rfl, rfl⟩ | ⟨rfl, rfl⟩ | ⟨rfl, rfl⟩ | ⟨rfl, rfl⟩ | ⟨rfl, rfl⟩ | ⟨rfl, rfl⟩ | ⟨rfl, rfl⟩ | ⟨rfl, rfl⟩
  · exact ⟨_, jet_ATF36A h, fun hN _ _ _ _ _ _ _ _ _ hF _ _ hw _ hr => jet_analysed (g := ⟨_, _, _, _, _, _⟩) ATF3_6A_Thrust_data_sound (by norm_num) rfl rfl hN hF hw hr⟩
  · exact ⟨_, jet_F404400 h, fun hN _ _ _ _ _ _ _ _ _ hF _ _ hw _ hr => jet_analysed (g := ⟨_, _, _, _, _, _⟩) F404_400_Thrust_data_sound (by norm_num) rfl rfl hN hF hw hr⟩
  · exact ⟨_, jet_FJ44 h, fun hN _ _ _ _ _ _ _ _ _ hF _ _ hw _ hr => jet_analysed (g := ⟨_, _, _, _, _, _⟩) FJ_44_Thrust_data_sound (by norm_num) rfl rfl hN hF hw hr⟩
  · exact ⟨_, jet_JT8D9 h, fun hN _ _ _ _ _ _ _ _ _ hF _ _ hw _ hr => jet_analysed (g := ⟨_, _, _, _, _, _⟩) JT8D_9_Thrust_data_sound (by norm_num) rfl rfl hN hF hw hr⟩
  · exact ⟨_, jet_JT9D3 h, fun hN _ _ _ _ _ _ _ _ _ hF _ _ hw _ hr => jet_analysed (g := ⟨_, _, _, _, _, _⟩) JT9D_3_Thrust_data_sound (by norm_num) rfl rfl hN hF hw hr⟩
  · exact ⟨_, jet_TF30 h, fun hN _ _ _ _ _ _ _ _ _ hF _ _ hw _ hr => jet_analysed (g := ⟨_, _, _, _, _, _⟩) TF30_Thrust_data_sound (by norm_num) rfl rfl hN hF hw hr⟩
  · exact ⟨_, jet_TFE7312 h, fun hN _ _ _ _ _ _ _ _ _ hF _ _ hw _ hr => jet_analysed (g := ⟨_, _, _, _, _, _⟩) TFE731_2_Thrust_data_sound (by norm_num) rfl rfl hN hF hw hr⟩
  · exact ⟨_, jet_TFE7315 h, fun hN _ _ _ _ _ _ _ _ _ hF _ _ hw _ hr => jet_analysed (g := ⟨_, _, _, _, _, _⟩) TFE731_5_Thrust_data_sound (by norm_num) rfl rfl hN hF hw hr⟩
  · exact ⟨_, jet_J52 h, fun hN _ _ _ _ _ _ _ _ _ hF _ _ hw _ hr => jet_analysed (g := ⟨_, _, _, _, _, _⟩) J52_Thrust_data_sound (by norm_num) rfl rfl hN hF hw hr⟩
  · exact ⟨_, jet_J60 h, fun hN _ _ _ _ _ _ _ _ _ hF _ _ hw _ hr => jet_analysed (g := ⟨_, _, _, _, _, _⟩) J60_Thrust_data_sound (by norm_num) rfl rfl hN hF hw hr⟩

/-- **C151** Power requirements with both turboprop decks. -/
theorem C151_turboprops {dir : Dir} (h : Ships turbopropFiles turbopropTables [] dir) {name : String} {g : Extent} (hn : (name, g) ∈ turbopropExtents) :
    ∃ d, mkTurboprop dir name = .ok d ∧ ∀ {G : Grid}, NanOutside G → ∀ {X : Ext} {c : Concept}
      {vclm vsec atrn aclm acrs asec ato : ℝ}, Flight c vclm vsec atrn aclm acrs asec ato → ∀ {fo : Bool} {w : NumArg},
      recastArray w ≠ [] → ∀ {r : Req} {tow : ℝ}, powerrequired X c w tow fo false = .ok r →
      ∃ R, powerrequiredD G (.turboprop d) X c w tow fo true = .ok R ∧
        Lost g.Beyond (kts2mps (pyNum c.turnspeed_ktas) / atrn, pyNum c.turnalt_m) (vclm / aclm, pyNum c.climbalt_m)
          (kts2mps (pyNum c.cruisespeed_ktas) / acrs, pyNum c.cruisealt_m) (vsec / asec, pyNum c.servceil_m) ato (pyNum c.rwyelevation_m)
          (recastArray w).length r R ∧
        ∀ rows e, d.pwr_data = some rows → 0 ≤ e → e < 1 → Overshoot G rows e → AllRaised e (g.z1 / g.z0) r R := by
  simp only [turbopropExtents, List.mem_cons, List.not_mem_nil, or_false, Prod.mk.injEq] at hn
  rcases hn with ⟨rfl, rfl⟩ | ⟨rfl, rfl⟩
  · obtain ⟨d, h1, h2, -, -, h5, -⟩ := turboprop_T56A h
    exact ⟨d, h1, fun hN _ _ _ _ _ _ _ _ _ hF _ _ hw _ _ hr => turboprop_analysed (g := ⟨_, _, _, _, _, _⟩) T56_A_Power_data_sound (by norm_num) h2 h5 hN hF hw hr⟩
  · obtain ⟨d, h1, h2, -, -, h5, -⟩ := turboprop_TyneRTy11 h
    exact ⟨d, h1, fun hN _ _ _ _ _ _ _ _ _ hF _ _ hw _ _ hr => turboprop_analysed (g := ⟨_, _, _, _, _, _⟩) Tyne_RTy11_Power_data_sound (by norm_num) h2 h5 hN hF hw hr⟩

/-- **C151** Power requirements with the Wasp Major deck. -/
theorem C151_wasp {dir : Dir} (h : Ships pistonFiles pistonTables [] dir) :
    ∃ d, mkPiston dir "Wasp_Major_B13" = .ok d ∧ ∀ {G : Grid}, NanOutside G → ∀ {X : Ext} {c : Concept}
      {vclm vsec atrn aclm acrs asec ato : ℝ}, Flight c vclm vsec atrn aclm acrs asec ato → ∀ {fo : Bool} {w : NumArg},
      recastArray w ≠ [] → ∀ {r : Req} {tow : ℝ}, powerrequired X c w tow fo false = .ok r →
      ∃ R, powerrequiredD G (.piston d) X c w tow fo true = .ok R ∧
        Lost waspExtent.BeyondAlt (kts2mps (pyNum c.turnspeed_ktas) / atrn, pyNum c.turnalt_m) (vclm / aclm, pyNum c.climbalt_m)
          (kts2mps (pyNum c.cruisespeed_ktas) / acrs, pyNum c.cruisealt_m) (vsec / asec, pyNum c.servceil_m) ato (pyNum c.rwyelevation_m)
          (recastArray w).length r R ∧
        ∀ rows e, d.pwr_data = some rows → 0 ≤ e → e < 1 → Overshoot G rows e → AllRaised e (waspExtent.z1 / waspExtent.z0) r R := by
  obtain ⟨d, h1, h2, -, h4, -⟩ := piston_Wasp h
  have hm : (some 2700, some 12.43316147, some 2474623.543) ∈ Wasp_Major_B13_Power_data.select 0 1 2 :=
    (select_at 9 rfl 2700000000000 12433161470 2474623543000000 (by decide +kernel) (by norm_num) (by norm_num) (by norm_num))
  have hm1 : (some 1200, some 6.485369977, some 704170.1617) ∈ Wasp_Major_B13_Power_data.select 0 1 2 :=
    (select_at 9 rfl 1200000000000 6485369977 704170161700000 (by decide +kernel) (by norm_num) (by norm_num) (by norm_num))
  have hsp : Spans ((Wasp_Major_B13_Power_data.select 0 1 2).map (fun r => r.1)) 1200 2700 := spans_of_sound Wasp_Major_B13_Power_data_sound hm1 hm
  exact ⟨d, h1, fun hN _ _ _ _ _ _ _ _ _ hF _ _ hw _ _ hr =>
    piston_analysed (g := waspExtent) Wasp_Major_B13_Power_data_sound (by norm_num [waspExtent]) h2 h4 hsp (by norm_num) hN hF hw hr⟩

/-- **C151** Power requirements with the IO-540 deck, if it builds (C131: the order of the directory listing decides). -/
theorem C151_io540 {dir : Dir} (h : Ships pistonFiles pistonTables [] dir) {d : PistonDeck} (hd : mkPiston dir "IO-540" = .ok d)
    {G : Grid} (hN : NanOutside G) {X : Ext} {c : Concept}
    {vclm vsec atrn aclm acrs asec ato : ℝ} (hF : Flight c vclm vsec atrn aclm acrs asec ato) {fo : Bool} {w : NumArg}
    (hw : recastArray w ≠ []) {r : Req} {tow : ℝ} (hr : powerrequired X c w tow fo false = .ok r) :
    ∃ R, powerrequiredD G (.piston d) X c w tow fo true = .ok R ∧
      Lost io540Extent.BeyondAlt (kts2mps (pyNum c.turnspeed_ktas) / atrn, pyNum c.turnalt_m) (vclm / aclm, pyNum c.climbalt_m)
        (kts2mps (pyNum c.cruisespeed_ktas) / acrs, pyNum c.cruisealt_m) (vsec / asec, pyNum c.servceil_m) ato (pyNum c.rwyelevation_m)
        (recastArray w).length r R ∧
      ∀ rows e, d.pwr_data = some rows → 0 ≤ e → e < 1 → Overshoot G rows e → AllRaised e (io540Extent.z1 / io540Extent.z0) r R := by
  have hm : (some 2575, some 5.579222782, some 185875.1124) ∈ IO_540_Power_data.select 2 0 1 :=
    (select_at 9 rfl 2575000000000 5579222782 185875112400000 (by decide +kernel) (by norm_num) (by norm_num) (by norm_num))
  have hm1 : (some 2000, some 807.4387844, some 137841.3413) ∈ IO_540_Power_data.select 2 0 1 :=
    (select_at 9 rfl 2000000000000 807438784400 137841341300000 (by decide +kernel) (by norm_num) (by norm_num) (by norm_num))
  have hsp : Spans ((IO_540_Power_data.select 2 0 1).map (fun r => r.1)) 2000 2575 := spans_of_sound IO_540_Power_data_sound hm1 hm
  rcases piston_IO540 h with ⟨d', h1, h2, _, h4, _⟩ | e
  · have : d' = d := by rw [h1] at hd; exact Except.ok.inj hd
    subst this
    exact piston_analysed (g := io540Extent) IO_540_Power_data_sound (by norm_num [io540Extent]) h2 h4 hsp (by norm_num) hN hF hw hr
  · rw [e] at hd
    cases hd

/-- **C151 (violated)** With the Wasp Major deck a runway at sea level (the default of a design brief) turns the combined power requirement into
NaN at every wing loading: the table starts at 1.02 m. -/
theorem C151_wasp_violated {dir : Dir} (h : Ships pistonFiles pistonTables [] dir) :
    ∃ d, mkPiston dir "Wasp_Major_B13" = .ok d ∧ ∀ {G : Grid}, NanOutside G → ∀ {X : Ext} {c : Concept}
      {vclm vsec atrn aclm acrs asec ato : ℝ}, Flight c vclm vsec atrn aclm acrs asec ato → ∀ {fo : Bool} {w : NumArg},
      recastArray w ≠ [] → ∀ {r : Req} {tow : ℝ}, powerrequired X c w tow fo false = .ok r → pyNum c.rwyelevation_m < 1.02 →
      ∃ R, powerrequiredD G (.piston d) X c w tow fo true = .ok R ∧ ∀ i < (recastArray w).length, EntryN R.combined i none := by
  obtain ⟨d, h1, h2⟩ := C151_wasp h
  refine ⟨d, h1, fun hN _ _ _ _ _ _ _ _ _ hF _ _ hw _ _ hr he => ?_⟩
  obtain ⟨R, hR, hS, -⟩ := h2 hN hF hw hr
  refine ⟨R, hR, fun i hi => ?_⟩
  obtain ⟨v, hv⟩ := entry_some (power_sized hw hr).liftoff hi
  exact hS.somewhere i v hv (.inl (he.trans (by norm_num [waspExtent])))

/-- **C151 (violated)** With the TFE731-5 deck no runway below 6096 m gives a combined thrust requirement at any wing loading. -/
theorem C151_tfe7315_violated {dir : Dir} (h : Ships jetFiles jetTables jetPolys dir) :
    ∃ d, mkJet dir "TFE731-5" = .ok d ∧ ∀ {G : Grid}, NanOutside G → ∀ {X : Ext} {c : Concept}
      {vclm vsec atrn aclm acrs asec ato : ℝ}, Flight c vclm vsec atrn aclm acrs asec ato → ∀ {fo : Bool} {w : NumArg},
      recastArray w ≠ [] → ∀ {r : Req}, twrequired X c w fo false = .ok r → pyNum c.rwyelevation_m < 6096 →
      ∃ R, twrequiredD G (.jet d) X c w fo true = .ok R ∧ ∀ i < (recastArray w).length, EntryN R.combined i none := by
  obtain ⟨d, h1, h2⟩ := C151_jets h (name := "TFE731-5") (g := ⟨0.237197832, 0.965199903, 6096, 12192, 4250.697663, 9673.770209⟩) (by simp [jetExtents])
  refine ⟨d, h1, fun hN _ _ _ _ _ _ _ _ _ hF _ _ hw _ hr he => ?_⟩
  obtain ⟨R, hR, hS, -⟩ := h2 hN hF hw hr
  refine ⟨R, hR, fun i hi => ?_⟩
  obtain ⟨v, hv⟩ := entry_some (tw_sized hw hr).liftoff hi
  exact hS.somewhere i v hv (.inr (.inr (.inl he)))

/-! ### Cases -/

theorem lookup_overshoot (rows : List Row) : Overshoot lookup rows 0 := by
  intro x y z h
  unfold lookup at h
  cases hf : rows.find? (fun r => r.1 = some x ∧ r.2.1 = some y) with
  | none => rw [hf] at h; cases h
  | some r =>
    rw [hf] at h
    have h1 := List.mem_of_find?_eq_some hf
    exact ⟨⟨r, h1, z, h, by linarith⟩, ⟨r, h1, z, h, by linarith⟩⟩

/-- A runway at sea level with the Wasp Major deck. -/
example (X : Ext) : ∃ d R, mkPiston (holding pistonFiles pistonTables []) "Wasp_Major_B13" = .ok d ∧
    powerrequiredD lookup (.piston d) X exC (.array [500, 1000]) 1000 true true = .ok R ∧ EntryN R.combined 0 none ∧ EntryN R.combined 1 none := by
  obtain ⟨vc, vs, a1, a2, a3, a4, a5, hF⟩ := exC_flight
  obtain ⟨r, hr⟩ := (C48_given X exC (.array [500, 1000]) true false exC_ready (by simp [Missing, exC])).2 (by simp [recastArray]) 1000
  obtain ⟨d, h1, h2⟩ := C151_wasp_violated piston_ships
  obtain ⟨R, hR, hS⟩ := h2 lookup_outside hF (by simp [recastArray]) hr (by simp only [exC, pyNum]; norm_num)
  exact ⟨d, R, h1, hR, hS 0 (by simp [recastArray]), hS 1 (by simp [recastArray])⟩

/-- The same runway with the TFE731-5 deck. -/
example (X : Ext) : ∃ d R, mkJet (holding jetFiles jetTables jetPolys) "TFE731-5" = .ok d ∧
    twrequiredD lookup (.jet d) X exC (.array [500, 1000]) true true = .ok R ∧ EntryN R.combined 0 none ∧ EntryN R.combined 1 none := by
  obtain ⟨vc, vs, a1, a2, a3, a4, a5, hF⟩ := exC_flight
  obtain ⟨r, hr⟩ := (C48_given X exC (.array [500, 1000]) true false exC_ready (by simp [Missing, exC])).1
  obtain ⟨d, h1, h2⟩ := C151_tfe7315_violated jet_ships
  obtain ⟨R, hR, hS⟩ := h2 lookup_outside hF (by simp [recastArray]) hr (by simp only [exC, pyNum]; norm_num)
  exact ⟨d, R, h1, hR, hS 0 (by simp [recastArray]), hS 1 (by simp [recastArray])⟩

/-- A service ceiling of 14000 m with the JT8D-9 deck, which ends at 13716 m. -/
example (X : Ext) : ∃ d, mkJet (holding jetFiles jetTables jetPolys) "JT8D-9" = .ok d ∧
    ∀ {vclm vsec atrn aclm acrs asec ato : ℝ} {r : Req}, Flight { exC with servceil_m := some 14000 } vclm vsec atrn aclm acrs asec ato →
    twrequired X { exC with servceil_m := some 14000 } (.array [500, 1000]) true false = .ok r →
    ∃ R, twrequiredD lookup (.jet d) X { exC with servceil_m := some 14000 } (.array [500, 1000]) true true = .ok R ∧
      R.combined.toList = [none, none] := by
  obtain ⟨d, h1, h2⟩ := C151_jets jet_ships (name := "JT8D-9") (g := ⟨-0.000262337, 0.993394218, 0, 13716, 9181.173207, 51848.32163⟩) (by simp [jetExtents])
  refine ⟨d, h1, fun hF hr => ?_⟩
  obtain ⟨R, hR, hS, -⟩ := h2 lookup_outside hF (by simp [recastArray]) hr
  exact ⟨R, hR, hS.everywhere ⟨_, by simp only [List.mem_cons]; exact .inr (.inr (.inr (.inl rfl))), .inr (.inr (.inr (by simp only [pyNum]; norm_num)))⟩⟩

/-- The Tyne deck. -/
example (X : Ext) : ∃ d r R, mkTurboprop (holding turbopropFiles turbopropTables []) "Tyne_RTy11" = .ok d ∧
    powerrequired X exC (.array [500, 1000]) 1000 true false = .ok r ∧
    powerrequiredD lookup (.turboprop d) X exC (.array [500, 1000]) 1000 true true = .ok R ∧ Raised 0 (3434056.292 / 1093907.686) r.cruise R.cruise := by
  obtain ⟨vc, vs, a1, a2, a3, a4, a5, hF⟩ := exC_flight
  obtain ⟨r, hr⟩ := (C48_given X exC (.array [500, 1000]) true false exC_ready (by simp [Missing, exC])).2 (by simp [recastArray]) 1000
  obtain ⟨d, h1, h2⟩ := C151_turboprops turboprop_ships (name := "Tyne_RTy11") (g := ⟨0, 0.693939382, 0, 10668, 1093907.686, 3434056.292⟩) (by simp [turbopropExtents])
  obtain ⟨_, _, pwr, _, e1, _, _, _, e2, _⟩ := C131_turboprops turboprop_ships "Tyne_RTy11" (by simp)
  cases h1.symm.trans e1
  obtain ⟨R, hR, -, hS⟩ := h2 lookup_outside hF (by simp [recastArray]) hr
  exact ⟨d, r, R, h1, hr, hR, (hS pwr 0 e2 (le_refl _) (by norm_num) (lookup_overshoot _)).cruise⟩

/-- The IO-540 deck ends at 6868 m: a cruise at 3000 m and a ceiling of 6000 m are below that, and there is one combined value per wing loading. -/
example (X : Ext) : ∃ d r R, mkPiston (holding pistonFiles pistonTables []) "IO-540" = .ok d ∧
    powerrequired X exC (.array [500, 1000]) 1000 true false = .ok r ∧
    powerrequiredD lookup (.piston d) X exC (.array [500, 1000]) 1000 true true = .ok R ∧ R.combined.toList.length = 2 := by
  obtain ⟨vc, vs, a1, a2, a3, a4, a5, hF⟩ := exC_flight
  obtain ⟨r, hr⟩ := (C48_given X exC (.array [500, 1000]) true false exC_ready (by simp [Missing, exC])).2 (by simp [recastArray]) 1000
  obtain ⟨d, h1⟩ := io540_holding
  obtain ⟨R, hR, hS, -⟩ := C151_io540 piston_ships h1 lookup_outside hF (by simp [recastArray]) hr
  exact ⟨d, r, R, h1, hr, hR, hS.size⟩

end

end Verif.Aircraft
