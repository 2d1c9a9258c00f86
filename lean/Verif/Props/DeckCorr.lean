import Verif.Model.DeckCorr
import Verif.Props.DeckPlots

/-
Engine decks inside the constraint analysis (C118).
-/

namespace Verif.Propulsion

open Verif Verif.Atmos Verif.Aircraft

noncomputable section

/-! ### Specification -/

/-- The engine speeds the analysis considers: whole steps of one from the lowest tabulated speed, below the highest. -/
def Considered (lo hi x : ℝ) : Prop := x < hi ∧ ∃ n : ℕ, x = lo + n

/-- The correction a deck gives at one point of its table: the interpolated value over the largest tabulated one, NaN outside the table. -/
def relative (G : Grid) (rows : List Row) (M x alt : ℝ) : Option ℝ := (G rows x alt).map (fun z => z / M)

/-- The interpolation reproduces the table. -/
def Reproduces (G : Grid) (rows : List Row) : Prop :=
  ∀ x y z, (some x, some y, some z) ∈ rows → G rows x y = some z

/-! ### Lemmas -/

theorem bcast_single {α β γ : Type} (f : α → β → γ) (xs : List α) (y : β) : bcast f xs [y] = .ok (xs.map (fun x => f x y)) := by
  unfold bcast
  match xs with
  | [] => rfl
  | [x] => rfl
  | x :: x' :: xs => simp

theorem guarded_array (av : Bool) (rows : List Row) (G : Grid) (xs : List ℝ) (alt : ℝ) :
    guarded av (some rows) G (.array xs) (.scalar alt) =
      .ok (if av = false then none else some (xs.map (fun x => G rows x alt))) := by
  unfold guarded
  cases av with
  | false => rfl
  | true =>
    simp only [Bool.true_eq_false, if_false]
    rw [show attrOf (some rows) = .ok rows from rfl, bind_ok]
    show (bcast (G rows) xs [alt] >>= fun z => pure (some z)) = _
    rw [bcast_single, bind_ok]
    rfl

theorem overMax_some {rows : List Row} {M : ℝ} (hc : Complete rows) (hM : Largest M rows) (zs : List (Option ℝ)) :
    overMax (some zs) (some rows) = .ok (zs.map (fun z => ndiv z (some M))) := by
  have hne : rows ≠ [] := by
    rintro rfl; obtain ⟨r, hr, _⟩ := hM.attained; simp at hr
  obtain ⟨M', hM', hl⟩ := pyMax_rows hc hne
  have e : M' = M := by
    obtain ⟨r, hr, hv⟩ := hM.attained
    obtain ⟨r', hr', hv'⟩ := hl.attained
    exact le_antisymm (hM.bound r' hr' M' hv') (hl.bound r hr M hv)
  subst e
  unfold overMax
  rw [show attrOf (some rows) = .ok rows from rfl, bind_ok, hM', bind_ok]
  rfl

theorem ndiv_some (z : Option ℝ) (M : ℝ) : ndiv z (some M) = z.map (fun z => z / M) := by
  cases z <;> rfl

theorem flag_true {l : List Bool} {i : ℕ} (h : l[i]? = some true) : flagAt l i = true := by
  unfold flagAt
  rw [List.getD_eq_getElem?_getD, h]
  rfl

theorem powercorr_turboprop {d : TurbopropDeck} {rows : List Row} {M : ℝ} (ha : d.avail.out[1]? = some true) (hd : d.pwr_data = some rows)
    (hc : Complete rows) (hM : Largest M rows) (G : Grid) (xs : List ℝ) (alt : ℝ) :
    d.sl_powercorr G (.array xs) (.scalar alt) = .ok (xs.map (fun x => relative G rows M x alt)) := by
  unfold TurbopropDeck.sl_powercorr TurbopropDeck.shaftpower
  rw [hd, flag_true ha, show (NumArg.array (recastArray (.scalar alt))) = .array [alt] from rfl]
  show (guarded true (some rows) G (.array xs) (.scalar alt) >>= fun q => overMax q (some rows)) = _
  rw [guarded_array, bind_ok]
  simp only [Bool.true_eq_false, if_false]
  rw [overMax_some hc hM, List.map_map]
  congr 1
  exact List.map_congr_left fun x _ => ndiv_some _ _

theorem powercorr_piston {d : PistonDeck} {rows : List Row} {M : ℝ} (ha : d.avail.out[0]? = some true) (hd : d.pwr_data = some rows)
    (hc : Complete rows) (hM : Largest M rows) (G : Grid) (xs : List ℝ) (alt : ℝ) :
    d.sl_powercorr G (.array xs) (.scalar alt) = .ok (xs.map (fun x => relative G rows M x alt)) := by
  unfold PistonDeck.sl_powercorr PistonDeck.shaftpower
  rw [hd, flag_true ha]
  show (guarded true (some rows) G (.array xs) (.scalar alt) >>= fun q => overMax q (some rows)) = _
  rw [guarded_array, bind_ok]
  simp only [Bool.true_eq_false, if_false]
  rw [overMax_some hc hM, List.map_map]
  congr 1
  exact List.map_congr_left fun x _ => ndiv_some _ _

theorem thrustcorr_jet {d : JetDeck} {rows : List Row} {M : ℝ} (ha : d.avail.out[0]? = some true) (hd : d.thr_data = some rows)
    (hc : Complete rows) (hM : Largest M rows) (G : Grid) (xs : List ℝ) (alt : ℝ) :
    d.sl_thrustcorr G (.array xs) (.scalar alt) = .ok (xs.map (fun x => relative G rows M x alt)) := by
  unfold JetDeck.sl_thrustcorr JetDeck.thrust
  rw [hd, flag_true ha, guarded_array, bind_ok]
  simp only [Bool.true_eq_false, if_false]
  rw [overMax_some hc hM, List.map_map]
  congr 1
  exact List.map_congr_left fun x _ => ndiv_some _ _

theorem nanmax_range (a : ℝ) (n : ℕ) : nanmaxE ((List.range (n + 1)).map (fun i : ℕ => a + (i : ℝ))) = .ok (a + n) := by
  have fold : ∀ (l : List ℝ) (x m : ℝ), x ≤ m → (∀ y ∈ l, y ≤ m) → (x = m ∨ m ∈ l) → l.foldl max x = m := by
    intro l
    induction l with
    | nil => intro x m h1 _ h3; simpa using h3
    | cons y l ih =>
      intro x m h1 h2 h3
      rw [List.foldl_cons]
      refine ih _ _ (max_le h1 (h2 y (by simp))) (fun z hz => h2 z (by simp [hz])) ?_
      rcases h3 with rfl | h3
      · left; exact max_eq_left (h2 y (by simp))
      · rcases List.mem_cons.mp h3 with rfl | h3
        · left; exact max_eq_right h1
        · right; exact h3
  rw [List.range_succ_eq_map, List.map_cons]
  refine congrArg Except.ok (fold _ _ _ ?_ ?_ ?_)
  · push_cast; linarith [Nat.cast_nonneg (α := ℝ) n]
  · intro y hy
    simp only [List.map_map, List.mem_map, List.mem_range, Function.comp_apply] at hy
    obtain ⟨i, hi, rfl⟩ := hy
    have : ((i.succ : ℕ) : ℝ) ≤ n := by exact_mod_cast hi
    linarith
  · cases n with
    | zero => left; simp
    | succ n =>
      right
      simp only [List.map_map, List.mem_map, List.mem_range, Function.comp_apply]
      exact ⟨n, by omega, rfl⟩

theorem filter_last (a : ℝ) (n : ℕ) : ((List.range (n + 1)).map (fun i : ℕ => a + (i : ℝ))).filter (fun x => decide (x = a + n)) = [a + n] := by
  rw [List.range_succ, List.map_append, List.filter_append]
  have : ((List.range n).map (fun i : ℕ => a + (i : ℝ))).filter (fun x => decide (x = a + n)) = [] := by
    rw [List.filter_eq_nil_iff]
    intro x hx
    simp only [List.mem_map, List.mem_range] at hx
    obtain ⟨i, hi, rfl⟩ := hx
    have : (i : ℝ) < n := by exact_mod_cast hi
    simp only [decide_eq_true_eq]
    linarith
  rw [this]
  simp

/-- The speed at which the correction is evaluated: the last one considered, whatever the powers are. -/
theorem bestSpeeds_eq {d : PistonDeck} {rows : List Row} {lo hi : ℝ} (hd : d.pwr_data = some rows)
    (hs : Spans (rows.map (fun r => r.1)) lo hi) (hlt : lo < hi) :
    ∃ s, Considered lo hi s ∧ hi - 1 ≤ s ∧ ∀ G alt, bestSpeeds d G alt = .ok [s] := by
  obtain ⟨n, hn⟩ : ∃ n : ℕ, ⌈hi - lo⌉.toNat = n + 1 := by
    have : 0 < ⌈hi - lo⌉.toNat := by
      rw [Int.lt_toNat]
      exact_mod_cast Int.ceil_pos.mpr (by linarith)
    exact ⟨_, (Nat.succ_pred_eq_of_pos this).symm⟩
  have hc : (⌈hi - lo⌉ : ℤ) = (n : ℤ) + 1 := by
    have h0 : 0 ≤ ⌈hi - lo⌉ := (Int.ceil_pos.mpr (by linarith)).le
    have := Int.toNat_of_nonneg h0
    rw [hn] at this
    rw [← this]
    push_cast
    ring
  have h1 : hi - lo ≤ (n : ℝ) + 1 := by
    have := Int.le_ceil (hi - lo)
    rw [hc] at this
    exact_mod_cast this
  have h2 : (n : ℝ) < hi - lo := by
    have := Int.ceil_lt_add_one (hi - lo)
    rw [hc] at this
    push_cast at this
    linarith
  refine ⟨lo + n, ⟨by linarith, n, rfl⟩, by linarith, fun G alt => ?_⟩
  obtain ⟨e1, e2⟩ := limits_spans hs
  unfold bestSpeeds PistonDeck.shaftpower
  rw [hd, show attrOf (some rows) = .ok rows from rfl, bind_ok, e1, bind_ok, e2, bind_ok]
  rw [show arange (some lo) (some hi) = .ok ((List.range (n + 1)).map (fun i : ℕ => lo + (i : ℝ))) by
    unfold arange; simp only [hn]]
  rw [bind_ok, guarded_array, bind_ok, nanmax_range, bind_ok]
  show Except.ok _ = _
  congr 1
  have := filter_last lo n
  convert this using 2

/-! ### Theorems -/

/-- The correction of a piston deck inside the analysis: the power at the last engine speed considered, over the largest tabulated power.
The altitude and the powers have no influence on the choice of the speed. -/
theorem C118_piston {d : PistonDeck} {rows : List Row} {lo hi M : ℝ} (ha : d.avail.out[0]? = some true) (hd : d.pwr_data = some rows)
    (hc : Complete rows) (hM : Largest M rows) (hs : Spans (rows.map (fun r => r.1)) lo hi) (hlt : lo < hi) :
    ∃ s, Considered lo hi s ∧ hi - 1 ≤ s ∧ ∀ G ms alt,
      deckCorr G (.piston d) ms alt = .ok (.array (ms.map (fun _ => some 1)), .array [relative G rows M s alt]) := by
  obtain ⟨s, h1, h2, h3⟩ := bestSpeeds_eq hd hs hlt
  refine ⟨s, h1, h2, fun G ms alt => ?_⟩
  unfold deckCorr
  simp only [h3, bind_ok]
  rw [powercorr_piston ha hd hc hM]
  rfl

/-- A deck whose speeds are all the same cannot be used. -/
theorem C118_piston_single {d : PistonDeck} {rows : List Row} {x : ℝ} (hd : d.pwr_data = some rows)
    (hs : Spans (rows.map (fun r => r.1)) x x) (G : Grid) (ms : List ℝ) (alt : ℝ) :
    deckCorr G (.piston d) ms alt = .error .valueError := by
  obtain ⟨e1, e2⟩ := limits_spans hs
  unfold deckCorr bestSpeeds PistonDeck.shaftpower
  simp only [hd, e1, e2, bind_ok, show attrOf (some rows) = .ok rows from rfl]
  rw [show arange (some x) (some x) = .ok [] by simp [arange]]
  simp only [bind_ok]
  rw [guarded_array]
  rfl

/-- Where the power does not fall as the engine turns faster, it is the greatest power of the speeds considered. -/
theorem C118_piston_rising {d : PistonDeck} {rows : List Row} {lo hi M : ℝ} (ha : d.avail.out[0]? = some true) (hd : d.pwr_data = some rows)
    (hc : Complete rows) (hM : Largest M rows) (h0 : 0 < M) (hs : Spans (rows.map (fun r => r.1)) lo hi) (hlt : lo < hi) (G : Grid)
    (alt : ℝ) (P : ℝ → ℝ) (hP : ∀ x, Considered lo hi x → G rows x alt = some (P x))
    (hm : ∀ x y, Considered lo hi x → Considered lo hi y → x ≤ y → P x ≤ P y) (ms : List ℝ) :
    ∃ t c, deckCorr G (.piston d) ms alt = .ok (t, .array [some c]) ∧ (∃ x, Considered lo hi x ∧ c * M = P x) ∧
      ∀ x, Considered lo hi x → P x ≤ c * M := by
  obtain ⟨s, h1, h2, h3⟩ := C118_piston ha hd hc hM hs hlt
  refine ⟨_, P s / M, by rw [h3, relative, hP s h1]; rfl, ⟨s, h1, by field_simp⟩, fun x hx => ?_⟩
  rw [div_mul_cancel₀ _ h0.ne']
  refine hm x s hx h1 ?_
  obtain ⟨n, hn⟩ := hx.2
  obtain ⟨k, hk⟩ := h1.2
  have hx1 := hx.1
  have : (n : ℝ) < k + 1 := by linarith
  have : n ≤ k := by
    have : n < k + 1 := by exact_mod_cast this
    omega
  have : (n : ℝ) ≤ k := by exact_mod_cast this
  linarith

/-- In general it is not: with more power at another speed than at the last one the power needed comes out larger than that of the engine at
its speed of greatest power. -/
theorem C118_best_violated {d : PistonDeck} {rows : List Row} {lo hi M : ℝ} (ha : d.avail.out[0]? = some true) (hd : d.pwr_data = some rows)
    (hc : Complete rows) (hM : Largest M rows) (h0 : 0 < M) (hs : Spans (rows.map (fun r => r.1)) lo hi) (hlt : lo < hi) (G : Grid)
    (alt : ℝ) (P : ℝ → ℝ) (hP : ∀ x, Considered lo hi x → G rows x alt = some (P x)) (hp : ∀ x, Considered lo hi x → 0 < P x)
    (x : ℝ) (hx : Considered lo hi x) (hb : ∀ y, Considered lo hi y → hi - 1 ≤ y → P y < P x) (ms : List ℝ) (req : ℝ) (hr : 0 < req) :
    ∃ t c, deckCorr G (.piston d) ms alt = .ok (t, .array [some c]) ∧ c < P x / M ∧ req / (P x / M) < req / c := by
  obtain ⟨s, h1, h2, h3⟩ := C118_piston ha hd hc hM hs hlt
  have hlt' : P s / M < P x / M := div_lt_div_of_pos_right (hb s h1 h2) h0
  refine ⟨_, P s / M, by rw [h3, relative, hP s h1]; rfl, hlt', ?_⟩
  exact div_lt_div_of_pos_left hr (div_pos (hp s h1) h0) hlt'

/-- At sea level there is no correction only if the power at the last speed considered is the largest in the table. With the largest power at
the highest speed and less below, sea level powers are corrected too. -/
theorem C118_sealevel_violated {d : PistonDeck} {rows : List Row} {lo hi M : ℝ} (ha : d.avail.out[0]? = some true)
    (hd : d.pwr_data = some rows) (hc : Complete rows) (hM : Largest M rows) (h0 : 0 < M) (hs : Spans (rows.map (fun r => r.1)) lo hi)
    (hlt : lo < hi) (G : Grid) (P : ℝ → ℝ) (hP : ∀ x, Considered lo hi x → G rows x 0 = some (P x))
    (hb : ∀ x, Considered lo hi x → P x < M) (ms : List ℝ) :
    ∃ t c, deckCorr G (.piston d) ms 0 = .ok (t, .array [some c]) ∧ c < 1 := by
  obtain ⟨s, h1, h2, h3⟩ := C118_piston ha hd hc hM hs hlt
  exact ⟨_, P s / M, by rw [h3, relative, hP s h1]; rfl, (div_lt_one h0).mpr (hb s h1)⟩

/-- Turboprop and jet decks: the correction at each Mach number by itself, thrust of jets, power of turboprops; nothing for motors. -/
theorem C118_others (G : Grid) (rows : List Row) (M : ℝ) (hc : Complete rows) (hM : Largest M rows) (ms : List ℝ) (alt : ℝ) :
    (∀ d : TurbopropDeck, d.avail.out[1]? = some true → d.pwr_data = some rows →
      deckCorr G (.turboprop d) ms alt =
        .ok (.array (ms.map (fun _ => some 1)), .array (ms.map (fun m => relative G rows M m alt)))) ∧
    (∀ d : JetDeck, d.avail.out[0]? = some true → d.thr_data = some rows →
      deckCorr G (.jet d) ms alt =
        .ok (.array (ms.map (fun m => relative G rows M m alt)), .array (ms.map (fun _ => some 1)))) ∧
    ∀ d : ElectricDeck, deckCorr G (.electric d) ms alt = .ok (.scalar (some 1), .scalar (some 1)) := by
  refine ⟨fun d ha hd => ?_, fun d ha hd => ?_, fun d => rfl⟩
  · unfold deckCorr
    dsimp only
    rw [powercorr_turboprop ha hd hc hM]
    rfl
  · unfold deckCorr
    dsimp only
    rw [thrustcorr_jet ha hd hc hM]
    rfl

/-- A deck without the table it needs cannot be used: None is divided or an attribute is missing. -/
theorem C118_missing (G : Grid) (ms : List ℝ) (alt : ℝ) :
    (∀ d : TurbopropDeck, d.avail.out[1]? = some false → d.pwr_data = none → deckCorr G (.turboprop d) ms alt = .error .attributeError) ∧
    (∀ d : PistonDeck, d.avail.out[0]? = some false → d.pwr_data = none → deckCorr G (.piston d) ms alt = .error .attributeError) ∧
    (∀ d : JetDeck, d.avail.out[0]? = some false → d.thr_data = none → deckCorr G (.jet d) ms alt = .error .attributeError) := by
  have fl : ∀ {l : List Bool} {i : ℕ}, l[i]? = some false → flagAt l i = false := by
    intro l i h
    unfold flagAt
    rw [List.getD_eq_getElem?_getD, h]
    rfl
  refine ⟨fun d ha hd => ?_, fun d ha hd => ?_, fun d ha hd => ?_⟩
  · unfold deckCorr TurbopropDeck.sl_powercorr TurbopropDeck.shaftpower
    dsimp only
    rw [hd, fl ha]
    rfl
  · unfold deckCorr bestSpeeds
    dsimp only
    rw [hd]
    rfl
  · unfold deckCorr JetDeck.sl_thrustcorr JetDeck.thrust
    dsimp only
    rw [hd, fl ha]
    rfl

/-- Where the decks give numbers, the arbitrary functions of `Engine` stand for them: all theorems on requirements with an engine object
apply to them. -/
theorem C118_link (G : Grid) (rows : List Row) (M : ℝ) (hc : Complete rows) (hM : Largest M rows) (f : ℝ → ℝ → ℝ) (ms : List ℝ) (alt : ℝ) :
    (∀ d : TurbopropDeck, d.avail.out[1]? = some true → d.pwr_data = some rows →
      (∀ m ∈ ms, relative G rows M m alt = some (f m alt)) →
      deckCorr G (.turboprop d) ms alt = .ok (toNan (engineCorr (.turboprop f) ms alt).1, toNan (engineCorr (.turboprop f) ms alt).2)) ∧
    (∀ d : JetDeck, d.avail.out[0]? = some true → d.thr_data = some rows →
      (∀ m ∈ ms, relative G rows M m alt = some (f m alt)) →
      deckCorr G (.jet d) ms alt = .ok (toNan (engineCorr (.jet f) ms alt).1, toNan (engineCorr (.jet f) ms alt).2)) ∧
    (∀ d : ElectricDeck, deckCorr G (.electric d) ms alt = .ok (toNan (engineCorr .electric ms alt).1, toNan (engineCorr .electric ms alt).2)) ∧
    ∀ (d : PistonDeck) (lo hi : ℝ), d.avail.out[0]? = some true → d.pwr_data = some rows → Spans (rows.map (fun r => r.1)) lo hi → lo < hi →
      (∀ x, Considered lo hi x → relative G rows M x alt = some (f x alt)) →
      ∃ s, Considered lo hi s ∧
        deckCorr G (.piston d) ms alt = .ok (toNan (engineCorr (.piston s f) ms alt).1, toNan (engineCorr (.piston s f) ms alt).2) := by
  obtain ⟨o1, o2, o3⟩ := C118_others G rows M hc hM ms alt
  refine ⟨fun d ha hd hf => ?_, fun d ha hd hf => ?_, fun d => rfl, fun d lo hi ha hd hs hlt hf => ?_⟩
  · rw [o1 d ha hd, List.map_congr_left hf]
    simp [engineCorr, toNan]
  · rw [o2 d ha hd, List.map_congr_left hf]
    simp [engineCorr, toNan]
  · obtain ⟨s, h1, -, h3⟩ := C118_piston ha hd hc hM hs hlt
    refine ⟨s, h1, ?_⟩
    rw [h3, hf s h1]
    simp [engineCorr, toNan]

/-! ### A worked case -/

/-- Full throttle powers of an engine that peaks at 2400 revolutions per minute. -/
def peakRows : List Row :=
  [(some 2000, some 0, some 90000), (some 2400, some 0, some 100000), (some 2700, some 0, some 95000),
   (some 2000, some 3000, some 60000), (some 2400, some 3000, some 70000), (some 2700, some 3000, some 65000)]

/-- Linear interpolation in this table. -/
def peakGrid : Grid := fun _ x y => some ((if x ≤ 2400 then 100000 - 25 * (2400 - x) else 100000 - (x - 2400) * (50 / 3)) - 10 * y)

def peakDeck : PistonDeck := ⟨⟨[true], [false, false], false, false⟩, some peakRows, none, none⟩

theorem peak_complete : Complete peakRows := by
  intro r hr
  simp only [peakRows, List.mem_cons, List.not_mem_nil, or_false] at hr
  rcases hr with rfl | rfl | rfl | rfl | rfl | rfl <;> exact ⟨_, rfl⟩

theorem peak_largest : Largest 100000 peakRows := by
  refine ⟨⟨_, List.mem_cons_of_mem _ List.mem_cons_self, rfl⟩, fun r hr v hv => ?_⟩
  simp only [peakRows, List.mem_cons, List.not_mem_nil, or_false] at hr
  rcases hr with rfl | rfl | rfl | rfl | rfl | rfl <;> cases hv <;> norm_num

theorem peak_spans : Spans (peakRows.map (fun r => r.1)) 2000 2700 := by
  refine ⟨⟨2000, by simp [peakRows]⟩, by simp [peakRows, known], by simp [peakRows, known], fun v hv => ?_⟩
  rw [show known (peakRows.map (fun r => r.1)) = [2000, 2400, 2700, 2000, 2400, 2700] from rfl] at hv
  simp only [List.mem_cons, List.not_mem_nil, or_false] at hv
  rcases hv with rfl | rfl | rfl | rfl | rfl | rfl <;> norm_num

theorem peak_reproduces : Reproduces peakGrid peakRows := by
  intro x y z h
  simp only [peakRows, List.mem_cons, List.not_mem_nil, or_false, Prod.mk.injEq, Option.some.injEq] at h
  rcases h with ⟨rfl, rfl, rfl⟩ | ⟨rfl, rfl, rfl⟩ | ⟨rfl, rfl, rfl⟩ | ⟨rfl, rfl, rfl⟩ | ⟨rfl, rfl, rfl⟩ | ⟨rfl, rfl, rfl⟩ <;>
    (unfold peakGrid; norm_num)

/-- At 3000 m the engine has 70 kW at 2400 revolutions per minute, 70 % of its greatest power; the correction used is below 66 %. -/
example : Reproduces peakGrid peakRows ∧ ∃ t c, deckCorr peakGrid (.piston peakDeck) [0.2] 3000 = .ok (t, .array [some c]) ∧ c < 0.7 ∧ c < 0.66 := by
  refine ⟨peak_reproduces, ?_⟩
  have h27 : (2000 : ℝ) < 2700 := by norm_num
  obtain ⟨s, h1, h2, h3⟩ := C118_piston (d := peakDeck) rfl rfl peak_complete peak_largest peak_spans h27
  refine ⟨.array [some 1], (100000 - (s - 2400) * (50 / 3) - 10 * 3000) / 100000, ?_, ?_, ?_⟩
  · rw [h3, relative]
    unfold peakGrid
    rw [if_neg (by linarith)]
    rfl
  · rw [div_lt_iff₀ (by norm_num)]
    norm_num
    linarith
  · rw [div_lt_iff₀ (by norm_num)]
    norm_num
    linarith

/-- The hypotheses of `C118_best_violated` hold for it. -/
example : ∃ t c, deckCorr peakGrid (.piston peakDeck) [0.2] 3000 = .ok (t, .array [some c]) ∧ c < 70000 / 100000 ∧
    150 / (70000 / 100000) < 150 / c := by
  have h27 : (2000 : ℝ) < 2700 := by norm_num
  have hc24 : Considered 2000 2700 2400 := ⟨by norm_num, 400, by norm_num⟩
  have := C118_best_violated (d := peakDeck) rfl rfl peak_complete peak_largest (by norm_num) peak_spans h27 peakGrid 3000
    (fun x => (if x ≤ 2400 then 100000 - 25 * (2400 - x) else 100000 - (x - 2400) * (50 / 3)) - 10 * 3000) (fun x _ => rfl)
    (by
      rintro x ⟨hx, n, rfl⟩
      have hn := Nat.cast_nonneg (α := ℝ) n
      split_ifs <;> linarith)
    2400 hc24
    (by
      rintro y hy hy2
      rw [if_neg (by linarith), if_pos le_rfl]
      linarith)
    [0.2] 150 (by norm_num)
  have e : (if (2400 : ℝ) ≤ 2400 then 100000 - 25 * (2400 - 2400) else 100000 - (2400 - 2400) * (50 / 3)) - 10 * 3000 = (70000 : ℝ) := by
    norm_num
  rwa [e] at this

end

end Verif.Propulsion
