import Verif.Model.Airworthiness
import Verif.Props.Constraint3
import Verif.Props.Sensitivity2
import Verif.Props.Concept3
import Verif.Props.Aero3
import Mathlib.MeasureTheory.Integral.IntervalIntegral.FundThmCalculus

/-
Properties C55 (limit load factors), C56 (gust velocities), C61 (construction), C74 (mean chords) and
C75 (stall speeds) of ADRpy/airworthiness.py.
-/

namespace Verif.Props
open Verif Verif.Aircraft Verif.Units Verif.Airworthiness

noncomputable section

/-! ### Inversion -/

theorem need_ok {x : Option ℝ} {v : ℝ} : need x = .ok v ↔ x = some v := by
  cases x with
  | none => simp [need]
  | some y => simp [need]

theorem mathSqrt_ok {x v : ℝ} : mathSqrt x = .ok v ↔ 0 ≤ x ∧ v = √x := by
  unfold mathSqrt
  split
  · rename_i h; constructor
    · intro h'; cases h'
    · intro h'; linarith [h'.1]
  · rename_i h; constructor
    · intro h'; cases h'; exact ⟨not_lt.mp h, rfl⟩
    · rintro ⟨-, rfl⟩; rfl

/-- The example aircraft as a utility aeroplane with design speeds. -/
def exCert : Cert where
  acobj := exC
  cruisespeed_keas := some 120
  category := .str "util"
  divespeed_keas := some 170
  maxlevelspeed_keas := some 130
  altitude_m := 2000
  weightfraction := 0.9

/-! ### C55 -/

/-- The positive limit manoeuvring load factor of CS 23.337(a)(1) as a function of the weight in lbf. -/
def cs337 (w : ℝ) : ℝ := if w ≤ 24000 / 1.7 - 10000 then 3.8 else 2.1 + 24000 / (w + 10000)

theorem paragraph337_ok {o : Cert} {l : Cat → ℝ × ℝ} (h : paragraph337 o = .ok l) :
    ∃ W S, o.acobj.weight_n = some W ∧ o.acobj.wingarea_m2 = some S ∧
      l .norm = (min 3.8 (2.1 + 24000 / (n2lbf W + 10000)), -0.4 * min 3.8 (2.1 + 24000 / (n2lbf W + 10000))) ∧
      l .util = (4.4, -0.4 * min 3.8 (2.1 + 24000 / (n2lbf W + 10000))) ∧
      l .comm = l .norm ∧
      l .aero = (6.0, -0.5 * min 3.8 (2.1 + 24000 / (n2lbf W + 10000))) := by
  unfold paragraph337 at h
  simp only [bind_ok_iff, need_ok] at h
  obtain ⟨W, hW, S, hS, h⟩ := h
  cases h
  exact ⟨W, S, hW, hS, rfl, rfl, rfl, rfl⟩

theorem min_cs337 (w : ℝ) (h : 0 ≤ w) : min 3.8 (2.1 + 24000 / (w + 10000)) = cs337 w := by
  unfold cs337
  have hp : (0:ℝ) < w + 10000 := by linarith
  split
  · rename_i hw
    apply min_eq_left
    have : (1.7:ℝ) ≤ 24000 / (w + 10000) := by
      rw [le_div_iff₀ hp]
      norm_num at hw ⊢; linarith
    norm_num at this ⊢; linarith
  · rename_i hw
    apply min_eq_right
    have : 24000 / (w + 10000) ≤ (1.7:ℝ) := by
      rw [div_le_iff₀ hp]
      norm_num at hw ⊢; linarith
    norm_num at this ⊢; linarith

/-- Normal and commuter category: the positive limit is that of CS 23.337, the negative one -0.4 times as
much. -/
theorem C55_normal (o : Cert) (l : Cat → ℝ × ℝ) (h : paragraph337 o = .ok l) (W : ℝ) (hW : o.acobj.weight_n = some W)
    (h0 : 0 ≤ W) (cat : Cat) (hc : cat = .norm ∨ cat = .comm) :
    (l cat).1 = cs337 (n2lbf W) ∧ (l cat).2 = -0.4 * (l cat).1 := by
  obtain ⟨W', S, hW', -, h1, h2, h3, h4⟩ := paragraph337_ok h
  rw [hW] at hW'; cases hW'
  have hn : (0:ℝ) ≤ n2lbf W := by unfold n2lbf; positivity
  have : (l cat) = l .norm := by
    rcases hc with rfl | rfl
    · rfl
    · exact h3
  rw [this, h1, min_cs337 _ hn]
  exact ⟨rfl, rfl⟩

example : ∃ l, paragraph337 exCert = .ok l ∧ (l .norm).1 = cs337 (n2lbf 10000) := by
  obtain ⟨l, h⟩ : ∃ l, paragraph337 exCert = .ok l := ⟨_, rfl⟩
  exact ⟨l, h, (C55_normal exCert l h 10000 rfl (by norm_num) .norm (Or.inl rfl)).1⟩

/-- The limit lies above 2.1 and does not exceed 3.8. -/
theorem C55_range (w : ℝ) (h : 0 ≤ w) : 2.1 < cs337 w ∧ cs337 w ≤ 3.8 := by
  rw [← min_cs337 w h]
  refine ⟨lt_min (by norm_num) ?_, min_le_left _ _⟩
  have : (0:ℝ) < 24000 / (w + 10000) := by positivity
  linarith

example : 2.1 < cs337 5000 ∧ cs337 5000 ≤ 3.8 := C55_range 5000 (by norm_num)

/-- It does not grow with weight and falls strictly beyond the limit. -/
theorem C55_falls (w w' : ℝ) (h : 0 ≤ w) (hw : w < w') :
    cs337 w' ≤ cs337 w ∧ (24000 / 1.7 - 10000 < w' → cs337 w' < cs337 w) := by
  have hd : 24000 / (w' + 10000) < 24000 / (w + 10000) := by
    apply div_lt_div_of_pos_left <;> linarith
  constructor
  · rw [← min_cs337 w h, ← min_cs337 w' (by linarith)]
    exact min_le_min le_rfl (by linarith)
  · intro hg
    have e : cs337 w' = 2.1 + 24000 / (w' + 10000) := if_neg (not_le.mpr hg)
    rw [← min_cs337 w h]
    apply lt_min
    · rw [e]
      have : 24000 / (w' + 10000) < (1.7:ℝ) := by
        rw [div_lt_iff₀ (by linarith)]
        norm_num at hg ⊢; linarith
      norm_num at this ⊢; linarith
    · rw [e]; linarith

example : cs337 6000 < cs337 5000 := (C55_falls 5000 6000 (by norm_num) (by norm_num)).2 (by norm_num)

/-- It is 3.8 exactly up to 4117.6 lbf. -/
theorem C55_plateau (w : ℝ) (h : 0 ≤ w) : cs337 w = 3.8 ↔ w ≤ 70000 / 17 := by
  rw [← min_cs337 w h, min_eq_left_iff]
  have hp : (0:ℝ) < w + 10000 := by linarith
  constructor
  · intro h1
    have : (1.7:ℝ) ≤ 24000 / (w + 10000) := by norm_num at h1 ⊢; linarith
    rw [le_div_iff₀ hp] at this
    norm_num at this ⊢; linarith
  · intro h1
    have : (1.7:ℝ) ≤ 24000 / (w + 10000) := by
      rw [le_div_iff₀ hp]
      norm_num at h1 ⊢; linarith
    norm_num at this ⊢; linarith

example : (∃ l, paragraph337 exCert = .ok l) ∧ exCert.acobj.weight_n = some 10000 ∧ cs337 (n2lbf 10000) = 3.8 ∧
    cs337 (n2lbf 30000) < 3.8 := by
  refine ⟨⟨_, rfl⟩, rfl, ?_, ?_⟩
  · rw [C55_plateau _ (by norm_num [n2lbf])]; norm_num [n2lbf]
  · have h := C55_plateau (n2lbf 30000) (by norm_num [n2lbf])
    have h1 := (C55_range (n2lbf 30000) (by norm_num [n2lbf])).2
    refine lt_of_le_of_ne h1 (fun e => ?_)
    rw [h] at e
    norm_num [n2lbf] at e

/-- Utility and aerobatic category: the positive limits are 4.4 and 6, and the negative limits are never
-0.4 and -0.5 times these (CS 23.337(b)), whatever the weight: the normal category value is used. -/
theorem C55_negative_violated (o : Cert) (l : Cat → ℝ × ℝ) (h : paragraph337 o = .ok l) (W : ℝ)
    (hW : o.acobj.weight_n = some W) (h0 : 0 ≤ W) :
    (l .util).1 = 4.4 ∧ (l .aero).1 = 6 ∧ (l .util).2 = -0.4 * cs337 (n2lbf W) ∧ (l .aero).2 = -0.5 * cs337 (n2lbf W) ∧
    -0.4 * (l .util).1 < (l .util).2 ∧ -0.5 * (l .aero).1 < (l .aero).2 := by
  obtain ⟨W', S, hW', -, h1, h2, h3, h4⟩ := paragraph337_ok h
  rw [hW] at hW'; cases hW'
  have hn : (0:ℝ) ≤ n2lbf W := by unfold n2lbf; positivity
  have hr := C55_range _ hn
  rw [h2, h4, min_cs337 _ hn]
  refine ⟨rfl, by norm_num, rfl, rfl, ?_, ?_⟩
  · have := hr.2
    norm_num at this ⊢; linarith
  · have := hr.2
    norm_num at this ⊢; linarith

example : ∃ l, paragraph337 exCert = .ok l ∧ -0.4 * (l .util).1 < (l .util).2 := by
  obtain ⟨l, h⟩ : ∃ l, paragraph337 exCert = .ok l := ⟨_, rfl⟩
  exact ⟨l, h, (C55_negative_violated exCert l h 10000 rfl (by norm_num)).2.2.2.2.1⟩

/-- A missing weight or wing area raises ValueError. -/
theorem C55_missing (o : Cert) (h : o.acobj.weight_n = none ∨ o.acobj.wingarea_m2 = none) :
    paragraph337 o = .error .valueError := by
  unfold paragraph337
  rcases h with h | h
  · rw [h]; rfl
  · cases hw : o.acobj.weight_n with
    | none => rfl
    | some w => simp only [need, bind_ok, h, bind_error]

example : paragraph337 { exCert with acobj := { exC with weight_n := none } } = .error .valueError :=
  C55_missing _ (Or.inl rfl)

/-! ### C56 -/

/-- A gust velocity of CS 23.333(c) in ft/s: `hi` up to 20000 ft, falling linearly to `lo` at 50000 ft. -/
def csGust (hi lo alt_ft : ℝ) : ℝ :=
  if alt_ft ≤ 20000 then hi else if alt_ft ≤ 50000 then hi - (hi - lo) * (alt_ft - 20000) / 30000 else lo

theorem interp_gust (alt hi lo : ℝ) :
    npInterp2 alt (feet2m 20000) (feet2m 50000) (feet2m hi) (feet2m lo) = 0.3048 * csGust hi lo (alt / 0.3048) := by
  have e20 : alt ≤ feet2m 20000 ↔ alt / 0.3048 ≤ 20000 := by
    rw [div_le_iff₀ (by norm_num)]; rfl
  have e50 : feet2m 50000 ≤ alt ↔ 50000 ≤ alt / 0.3048 := by
    rw [le_div_iff₀ (by norm_num)]; rfl
  unfold npInterp2 csGust
  simp only [e20, e50]
  split
  · unfold feet2m; ring
  · split
    · rename_i h1 h2
      split
      · rename_i h3
        have : alt / 0.3048 = 50000 := le_antisymm h3 h2
        rw [this]; unfold feet2m; ring
      · unfold feet2m; ring
    · rename_i h1 h2
      rw [if_pos (not_le.mp h2).le]
      unfold feet2m
      field_simp
      ring

/-- The gusts of each category are those of CS 23.333(c)(1): 50 and 25 ft/s, for commuters also 66 ft/s, with
the altitude reductions. -/
theorem C56_values (o : Cert) (m : Cat → Manoeuvre) (g : Cat → List (Gust × ℝ)) (h : paragraph333 o = .ok (m, g)) :
    (∀ cat, cat ≠ .comm → g cat = [(.Uc, 0.3048 * csGust 50 25 (o.altitude_m / 0.3048)),
      (.Ud, 0.3048 * csGust 25 12.5 (o.altitude_m / 0.3048))]) ∧
    g .comm = [(.Ub, 0.3048 * csGust 66 38 (o.altitude_m / 0.3048)), (.Uc, 0.3048 * csGust 50 25 (o.altitude_m / 0.3048)),
      (.Ud, 0.3048 * csGust 25 12.5 (o.altitude_m / 0.3048))] := by
  unfold paragraph333 at h
  simp only [bind_ok_iff] at h
  obtain ⟨l, -, h⟩ := h
  cases h
  refine ⟨?_, ?_⟩
  · intro cat hc
    cases cat <;> first | exact absurd rfl hc | simp only [gustList, gustc_mps, gustd_mps, interp_gust]
  · simp only [gustList, gustb_mps, gustc_mps, gustd_mps, interp_gust]

example : ∃ m g, paragraph333 exCert = .ok (m, g) ∧
    g .comm = [(.Ub, 0.3048 * csGust 66 38 (2000 / 0.3048)), (.Uc, 0.3048 * csGust 50 25 (2000 / 0.3048)),
      (.Ud, 0.3048 * csGust 25 12.5 (2000 / 0.3048))] := by
  obtain ⟨m, g, h⟩ : ∃ m g, paragraph333 exCert = .ok (m, g) := ⟨_, _, rfl⟩
  exact ⟨m, g, h, (C56_values exCert m g h).2⟩

/-- Positive, not increasing with altitude, strictly falling between 20000 and 50000 ft. -/
theorem C56_shape (hi lo : ℝ) (h : lo < hi) (hl : 0 < lo) :
    (∀ x, lo ≤ csGust hi lo x ∧ csGust hi lo x ≤ hi ∧ 0 < csGust hi lo x) ∧
    (∀ x y, x ≤ y → csGust hi lo y ≤ csGust hi lo x) ∧
    (∀ x y, 20000 ≤ x → x < y → y ≤ 50000 → csGust hi lo y < csGust hi lo x) := by
  have hb : ∀ x, lo ≤ csGust hi lo x ∧ csGust hi lo x ≤ hi := by
    intro x
    unfold csGust
    split
    · exact ⟨h.le, le_rfl⟩
    · split
      · rename_i h1 h2
        have h3 : 0 ≤ (x - 20000) / 30000 := by apply div_nonneg <;> linarith
        have h4 : (x - 20000) / 30000 ≤ 1 := by rw [div_le_one (by norm_num)]; linarith
        rw [mul_div_assoc]
        constructor <;> nlinarith
      · exact ⟨le_rfl, h.le⟩
  refine ⟨fun x => ⟨(hb x).1, (hb x).2, lt_of_lt_of_le hl (hb x).1⟩, ?_, ?_⟩
  · intro x y hxy
    by_cases hx : x ≤ 20000
    · have : csGust hi lo x = hi := if_pos hx
      rw [this]; exact (hb y).2
    · by_cases hy : y ≤ 50000
      · unfold csGust
        rw [if_neg (by linarith : ¬ y ≤ 20000), if_pos hy, if_neg hx, if_pos (by linarith : x ≤ 50000)]
        have : (hi - lo) * (x - 20000) ≤ (hi - lo) * (y - 20000) := by
          apply mul_le_mul_of_nonneg_left <;> linarith
        linarith
      · have : csGust hi lo y = lo := by
          unfold csGust; rw [if_neg (by linarith), if_neg hy]
        rw [this]; exact (hb x).1
  · intro x y hx hxy hy
    have e : ∀ z, 20000 ≤ z → z ≤ 50000 → csGust hi lo z = hi - (hi - lo) * (z - 20000) / 30000 := by
      intro z h1 h2
      unfold csGust
      split
      · have : z = 20000 := by linarith
        rw [this]; ring
      · rfl
    rw [e x hx (by linarith), e y (by linarith) hy]
    have : (hi - lo) * (x - 20000) < (hi - lo) * (y - 20000) := by
      apply mul_lt_mul_of_pos_left <;> linarith
    linarith

example : csGust 50 25 40000 < csGust 50 25 30000 :=
  (C56_shape 50 25 (by norm_num) (by norm_num)).2.2 30000 40000 (by norm_num) (by norm_num) (by norm_num)

/-- Ordered at every altitude, and the dive speed gust is half the cruise speed gust. -/
theorem C56_order (x : ℝ) : csGust 50 25 x < csGust 66 38 x ∧ csGust 25 12.5 x = csGust 50 25 x / 2 ∧
    csGust 25 12.5 x < csGust 50 25 x := by
  have h2 : csGust 25 12.5 x = csGust 50 25 x / 2 := by
    unfold csGust
    split
    · norm_num
    · split
      · ring
      · norm_num
  have hp := ((C56_shape 50 25 (by norm_num) (by norm_num)).1 x).2.2
  refine ⟨?_, h2, by rw [h2]; linarith⟩
  unfold csGust
  split
  · norm_num
  · split
    · linarith
    · norm_num

example : ∃ m g, paragraph333 exCert = .ok (m, g) ∧ csGust 50 25 (10000 / 0.3048) < 50 := by
  refine ⟨_, _, rfl, ?_⟩
  have h := (C56_shape 50 25 (by norm_num) (by norm_num)).2.2 20000 (10000 / 0.3048) le_rfl (by norm_num) (by norm_num)
  refine lt_of_lt_of_le h ?_
  norm_num [csGust]

/-! ### C61 -/

/-- The propulsion argument never matters: it does not reach the concept. -/
theorem C61_dropped_violated (b d p : Dict) (a : Option Atmos.Atm) (pa pa' : PropArg) (cs : Option CsDict) :
    certification b d p a pa cs = certification b d p a pa' cs ∧
    ∀ o cs', certification b d p a pa cs = .ok (o, cs') → o.acobj.propulsion = .pyFalse := by
  refine ⟨rfl, ?_⟩
  intro o cs' h
  unfold certification at h
  simp only [bind_ok_iff] at h
  obtain ⟨r, hr, x1, -, x2, -, x3, -, x4, -, x5, -, x6, -, x7, -, h⟩ := h
  cases h
  show r.concept.propulsion = _
  obtain ⟨_, _, _, _, _, _, _, _, _, _, _, _, _, _, _, _, _, _, _, _, _, hr⟩ := construct_ok hr
  exact (readConcept_ok hr).2.2.2

theorem dget_csFill (defs d : CsDict) (k : String) : dget (csFill defs d) k = (dget d k).or (dget defs k) := by
  unfold csFill
  induction defs generalizing d with
  | nil => simp [dget]
  | cons e t ih =>
    obtain ⟨k0, v0⟩ := e
    rw [List.foldl_cons, ih]
    by_cases hs : (dget d k0).isSome
    · simp only [hs, if_true, dget]
      by_cases hk : k = k0
      · subst hk
        obtain ⟨v, hv⟩ := Option.isSome_iff_exists.mp hs
        rw [hv]; rfl
      · rw [if_neg hk]
    · simp only [hs, dget]
      rw [if_neg (by simp), dget_dset]
      by_cases hk : k = k0
      · subst hk
        have : dget d k = none := by simpa using hs
        rw [this]; simp
      · rw [if_neg hk, if_neg hk]

/-- The caller's dictionary afterwards: every given entry as it was, every missing one with its default,
nothing else. -/
theorem C61_filled (b d p : Dict) (a : Option Atmos.Atm) (pa : PropArg) (cs : CsDict) (o : Cert) (cs' : CsDict)
    (h : certification b d p a pa (some cs) = .ok (o, cs')) :
    (∀ k v, dget cs k = some v → dget cs' k = some v) ∧
    (dget cs "certcat" = none → dget cs' "certcat" = some (.str "norm")) ∧
    (dget cs "altitude_m" = none → dget cs' "altitude_m" = some (.num 0)) ∧
    (dget cs "weightfraction" = none → dget cs' "weightfraction" = some (.num 1)) ∧
    (∀ k ∈ ["cruisespeed_keas", "divespeed_keas", "maxlevelspeed_keas"], dget cs k = none → dget cs' k = some .flag) ∧
    (∀ k, k ∉ ["certcat", "altitude_m", "weightfraction", "cruisespeed_keas", "divespeed_keas", "maxlevelspeed_keas"] →
      dget cs' k = dget cs k) := by
  have e : cs' = csFill default_csbrief cs := by
    unfold certification at h
    simp only [bind_ok_iff] at h
    obtain ⟨r, -, x1, -, x2, -, x3, -, x4, -, x5, -, x6, -, x7, -, h⟩ := h
    cases h; rfl
  subst e
  simp only [dget_csFill]
  refine ⟨fun k v hv => by rw [hv]; rfl, fun h => by rw [h]; rfl, fun h => by rw [h]; rfl, fun h => by rw [h]; rfl, ?_, ?_⟩
  · intro k hk h
    rw [h]
    simp only [List.mem_cons, List.not_mem_nil, or_false] at hk
    rcases hk with rfl | rfl | rfl <;> rfl
  · intro k hk
    have : dget default_csbrief k = none := by
      simp only [List.mem_cons, List.not_mem_nil, or_false, not_or] at hk
      obtain ⟨h1, h2, h3, h4, h5, h6⟩ := hk
      simp [default_csbrief, dget, h1, h2, h3, h4, h5, h6]
    rw [this, Option.or_none]

/-- Without a design cruise speed in the certification brief the one of the design brief is taken, converted
to equivalent airspeed at the altitude of the diagram; a given one is used as it is. -/
theorem C61_cruise (b d p : Dict) (a : Option Atmos.Atm) (pa : PropArg) (cs : CsDict) (o : Cert) (cs' : CsDict)
    (h : certification b d p a pa (some cs) = .ok (o, cs')) :
    (∀ v, dget cs "cruisespeed_keas" = some (.num v) → o.cruisespeed_keas = some v) ∧
    (dget cs "cruisespeed_keas" = none → ∀ v, o.acobj.cruisespeed_ktas = some v →
      ∃ rho, Atmos.dens1 o.acobj.designatm o.altitude_m = .ok rho ∧
        o.cruisespeed_keas = some (v * (rho / 1.225) ^ (1 / 2 : ℝ))) ∧
    (dget cs "cruisespeed_keas" = none → o.acobj.cruisespeed_ktas = none → o.cruisespeed_keas = none) := by
  unfold certification at h
  simp only [bind_ok_iff, Option.getD_some] at h
  obtain ⟨r, -, g, hg, x2, -, vc, hvc, x4, -, x5, -, x6, -, x7, -, h⟩ := h
  cases h
  simp only [csNum, bind_ok_iff, dgetE, dget_csFill] at hg
  obtain ⟨val, hval, hg⟩ := hg
  have key : dget cs "cruisespeed_keas" = none → g = none := by
    intro hn
    rw [hn] at hval
    cases hval; cases hg; rfl
  refine ⟨?_, ?_, ?_⟩
  · intro v hv
    rw [hv] at hval
    cases hval; cases hg
    cases hvc; rfl
  · intro hn v hv
    rw [key hn] at hvc
    simp only [csCruise] at hvc
    have hv' : r.concept.cruisespeed_ktas = some v := hv
    simp only [hv', bind_ok_iff] at hvc
    obtain ⟨rho, hrho, hvc⟩ := hvc
    cases hvc
    refine ⟨rho, hrho, ?_⟩
    show some (tas2eas v rho) = _
    unfold tas2eas
    norm_num
  · intro hn hv
    rw [key hn] at hvc
    have hv' : r.concept.cruisespeed_ktas = none := hv
    simp only [csCruise, hv'] at hvc
    cases hvc; rfl

/-- A certification object for the aircraft of the sensitivity example, with an aerobatic category and all other
entries left out. -/
example (pa : PropArg) : ∃ o cs', certification stBrief stDesign stPerf (some exAtm) pa (some [("certcat", .str "aero")]) = .ok (o, cs') ∧
    o.acobj.cruisespeed_ktas = some 150 ∧ dget cs' "certcat" = some (.str "aero") ∧ dget cs' "weightfraction" = some (.num 1) := by
  have hd : Atmos.dens1 exAtm 0 = .ok 1 := exAtm_dens 0 (by norm_num) (by norm_num)
  have h : ∃ o cs', certification stBrief stDesign stPerf (some exAtm) pa (some [("certcat", .str "aero")]) = .ok (o, cs') ∧
      o.acobj = stC := by
    obtain ⟨cs, hcs⟩ : ∃ cs, cs = csFill default_csbrief [("certcat", CsVal.str "aero")] := ⟨_, rfl⟩
    have hv : ∀ k v, (dget [("certcat", CsVal.str "aero")] k).or (dget default_csbrief k) = some v → dgetE cs k = .ok v := by
      intro k v hk
      unfold dgetE
      rw [hcs, dget_csFill, hk]
    have n1 : csNum cs "cruisespeed_keas" = .ok none := by unfold csNum; rw [hv _ .flag rfl]; rfl
    have n2 : csNum cs "altitude_m" = .ok (some 0) := by unfold csNum; rw [hv _ (.num 0) rfl]; rfl
    have n3 : csNum cs "divespeed_keas" = .ok none := by unfold csNum; rw [hv _ .flag rfl]; rfl
    have n4 : csNum cs "maxlevelspeed_keas" = .ok none := by unfold csNum; rw [hv _ .flag rfl]; rfl
    have n5 : csNum cs "weightfraction" = .ok (some 1) := by unfold csNum; rw [hv _ (.num 1) rfl]; rfl
    have n6 : dgetE cs "certcat" = .ok (.str "aero") := hv _ _ rfl
    have hc : csCruise stBuilt.concept none (pyNum (some 0)) = .ok (some (Units.tas2eas 150 1)) := by
      show (do let rho ← Atmos.dens1 exAtm 0; pure (some (Units.tas2eas 150 rho))) = _
      rw [hd]; rfl
    unfold certification
    rw [st_built]
    simp only [bind_ok, Option.getD_some, ← hcs, n1, n2, n3, n4, n5, n6, hc]
    exact ⟨_, _, rfl, rfl⟩
  obtain ⟨o, cs', h1, h2⟩ := h
  have h3 := C61_filled _ _ _ _ _ _ _ _ h1
  exact ⟨o, cs', h1, by rw [h2]; rfl, h3.1 _ _ rfl, h3.2.2.2.1 rfl⟩

/-! ### C74 -/

/-- The standard mean chord is at most the mean aerodynamic chord, equal exactly for an untapered wing, and
times the span it is the area. -/
theorem C74_chords (o : Cert) (smc mac : ℝ) (h : meanchord_m o = .ok (smc, mac)) (S AR t : ℝ)
    (hS : o.acobj.wingarea_m2 = some S) (hA : o.acobj.aspectratio = some AR) (ht : o.acobj.roottaperratio = some t)
    (pS : 0 < S) (pA : 0 < AR) (pt : 0 ≤ t) (b : ℝ) (hb : b ^ 2 = AR * S) (pb : 0 < b) :
    smc * b = S ∧ 0 < smc ∧ smc ≤ mac ∧ (smc = mac ↔ t = 1) ∧ mac ≤ 4 / 3 * smc := by
  unfold meanchord_m at h
  simp only [hS, hA, ht, pyNum, Option.getD_some, bind_ok_iff, mathSqrt_ok] at h
  obtain ⟨x, ⟨h0, rfl⟩, y, ⟨-, rfl⟩, h⟩ := h
  injection h with h
  injection h with h1 h2
  subst h1 h2
  have hr : √(S / AR) * b = S := by
    have hb' : b = √(AR * S) := by rw [← hb, Real.sqrt_sq pb.le]
    rw [hb', ← Real.sqrt_mul h0]
    rw [show S / AR * (AR * S) = S ^ 2 by field_simp]
    exact Real.sqrt_sq pS.le
  have hp : 0 < √(S / AR) := Real.sqrt_pos.mpr (by positivity)
  have e : 2 / 3 * (2 / (1 + t) * √(S / AR)) * (1 + t + t ^ 2) / (1 + t) =
      √(S / AR) * (1 + (1 - t) ^ 2 / (3 * (1 + t) ^ 2)) := by
    field_simp; ring
  rw [e]
  refine ⟨hr, hp, ?_, ?_, ?_⟩
  · have : 0 ≤ (1 - t) ^ 2 / (3 * (1 + t) ^ 2) := by positivity
    nlinarith
  · constructor
    · intro h1
      have h2 : √(S / AR) * ((1 - t) ^ 2 / (3 * (1 + t) ^ 2)) = 0 := by linarith
      rcases mul_eq_zero.mp h2 with h3 | h3
      · exact absurd h3 hp.ne'
      · rcases div_eq_zero_iff.mp h3 with h4 | h4
        · have := pow_eq_zero_iff (two_ne_zero) |>.mp h4; linarith
        · have : 0 < 3 * (1 + t) ^ 2 := by positivity
          exact absurd h4 this.ne'
    · rintro rfl; norm_num
  · have : (1 - t) ^ 2 / (3 * (1 + t) ^ 2) ≤ 1 / 3 := by
      rw [div_le_div_iff₀ (by positivity) (by norm_num)]
      nlinarith
    nlinarith

example : ∃ smc mac, meanchord_m exCert = .ok (smc, mac) ∧ smc < mac := by
  have : ¬ (pyNum exCert.acobj.wingarea_m2 / pyNum exCert.acobj.aspectratio < 0) := by
    norm_num [exCert, exC, pyNum]
  have h : ∃ r, meanchord_m exCert = .ok r := by
    unfold meanchord_m
    simp only [mathSqrt, this, if_false, bind_ok]
    exact ⟨_, rfl⟩
  obtain ⟨⟨smc, mac⟩, h⟩ := h
  obtain ⟨-, -, h1, h2, -⟩ := C74_chords exCert smc mac h 12 9 0.5 rfl rfl rfl (by norm_num) (by norm_num) (by norm_num)
    (√(9 * 12)) (Real.sq_sqrt (by norm_num)) (Real.sqrt_pos.mpr (by norm_num))
  exact ⟨smc, mac, h, lt_of_le_of_ne h1 (fun e => by have := h2.mp e; norm_num at this)⟩

/-- Chord of a straight-tapered wing of span `b` at the distance `y` from the centre line. -/
def chordAt (root t b y : ℝ) : ℝ := root + (t * root - root) * (y / (b / 2))

theorem integral_chord (root t b : ℝ) (hb : 0 < b) :
    ∫ y in (0:ℝ)..(b / 2), chordAt root t b y = b / 2 * (root * (1 + t) / 2) := by
  have hd : ∀ y ∈ Set.uIcc 0 (b / 2), HasDerivAt (fun y => root * y + (t * root - root) * (y ^ 2 / b)) (chordAt root t b y) y := by
    intro y _
    have h1 := ((hasDerivAt_id y).const_mul root).add ((((hasDerivAt_id y).pow 2).div_const b).const_mul (t * root - root))
    refine h1.congr_deriv ?_
    unfold chordAt
    simp only [id, Nat.cast_ofNat, Nat.add_one_sub_one, pow_one, mul_one]
    field_simp
  rw [intervalIntegral.integral_eq_sub_of_hasDerivAt hd]
  · field_simp; ring
  · apply Continuous.intervalIntegrable
    unfold chordAt
    fun_prop

theorem integral_chord_sq (root t b : ℝ) (hb : 0 < b) :
    ∫ y in (0:ℝ)..(b / 2), chordAt root t b y ^ 2 = b / 2 * (root ^ 2 * (1 + t + t ^ 2) / 3) := by
  have hd : ∀ y ∈ Set.uIcc 0 (b / 2), HasDerivAt (fun y => root ^ 2 * y + 2 * root * (t * root - root) * (y ^ 2 / b) +
      (t * root - root) ^ 2 * (4 * y ^ 3 / (3 * b ^ 2))) (chordAt root t b y ^ 2) y := by
    intro y _
    have h1 := (((hasDerivAt_id y).const_mul (root ^ 2)).add ((((hasDerivAt_id y).pow 2).div_const b).const_mul
      (2 * root * (t * root - root)))).add (((((hasDerivAt_id y).pow 3).const_mul 4).div_const (3 * b ^ 2)).const_mul
      ((t * root - root) ^ 2))
    refine h1.congr_deriv ?_
    unfold chordAt
    simp
    field_simp
    ring
  rw [intervalIntegral.integral_eq_sub_of_hasDerivAt hd]
  · field_simp; ring
  · apply Continuous.intervalIntegrable
    unfold chordAt
    fun_prop

/-- The mean aerodynamic chord is the area-weighted mean of the chord: for the straight-tapered wing whose
chord integrates to the area over the span, the square of the chord integrates to the mean aerodynamic chord
times the area. -/
theorem C74_definition (o : Cert) (smc mac : ℝ) (h : meanchord_m o = .ok (smc, mac)) (S AR t root : ℝ)
    (hS : o.acobj.wingarea_m2 = some S) (hA : o.acobj.aspectratio = some AR) (ht : o.acobj.roottaperratio = some t)
    (pS : 0 < S) (pA : 0 < AR) (pt : 0 ≤ t) (b : ℝ) (hb : b ^ 2 = AR * S) (pb : 0 < b)
    (hroot : 2 * ∫ y in (0:ℝ)..(b / 2), chordAt root t b y = S) :
    2 * ∫ y in (0:ℝ)..(b / 2), chordAt root t b y ^ 2 = mac * S := by
  rw [integral_chord root t b pb] at hroot
  rw [integral_chord_sq root t b pb]
  obtain ⟨h1, -⟩ := C74_chords o smc mac h S AR t hS hA ht pS pA pt b hb pb
  unfold meanchord_m at h
  simp only [hS, hA, ht, pyNum, Option.getD_some, bind_ok_iff, mathSqrt_ok] at h
  obtain ⟨x, ⟨h0, rfl⟩, y, ⟨-, rfl⟩, h⟩ := h
  injection h with h
  injection h with h2 h3
  rw [← h2] at h1
  rw [← h3]
  obtain ⟨q, hq⟩ : ∃ q, q = √(S / AR) := ⟨_, rfl⟩
  rw [← hq] at h1 ⊢
  have hpt : (1 + t) ≠ 0 := by positivity
  have er : root * (1 + t) = 2 * q := by
    have : b * (root * (1 + t)) = b * (2 * q) := by linarith
    exact mul_left_cancel₀ pb.ne' this
  have er' : root = 2 * q / (1 + t) := by rw [eq_div_iff hpt]; exact er
  rw [er', ← h1]
  field_simp

example : 2 * ∫ y in (0:ℝ)..(√(9 * 12) / 2), chordAt (12 / (√(9 * 12) * 0.75)) 0.5 (√(9 * 12)) y = 12 := by
  have : 0 < √((9:ℝ) * 12) := Real.sqrt_pos.mpr (by norm_num)
  rw [integral_chord _ _ _ this]
  field_simp
  norm_num

example : ∃ smc mac, meanchord_m exCert = .ok (smc, mac) ∧ exCert.acobj.wingarea_m2 = some 12 ∧
    exCert.acobj.aspectratio = some 9 ∧ exCert.acobj.roottaperratio = some 0.5 := by
  have : ¬ (pyNum exCert.acobj.wingarea_m2 / pyNum exCert.acobj.aspectratio < 0) := by
    norm_num [exCert, exC, pyNum]
  have h : ∃ r, meanchord_m exCert = .ok r := by
    unfold meanchord_m
    simp only [mathSqrt, this, if_false, bind_ok]
    exact ⟨_, rfl⟩
  obtain ⟨⟨smc, mac⟩, h⟩ := h
  exact ⟨smc, mac, h, rfl, rfl, rfl⟩

/-! ### C75 -/

/-- The speed returned (taken back to m/s with the same factor) is the one at which the relevant lift
coefficient supports the load at sea level. -/
theorem C75_supports (o : Cert) (n v W S d : ℝ) (h : vs_keas o n = .ok v) (hW : o.acobj.weight_n = some W)
    (hS : o.acobj.wingarea_m2 = some S) (hd : Atmos.dens1 o.acobj.designatm 0 = .ok d) (pS : 0 < S) (pd : 0 < d) :
    ∃ cl, (if 0 ≤ n then o.acobj.clmaxclean else o.acobj.clminclean) = some cl ∧
      (cl ≠ 0 → 1 / 2 * d * (v / 1.9438445) ^ 2 * S * cl = n * W) ∧ 0 ≤ v := by
  unfold vs_keas at h
  simp only [bind_ok_iff, need_ok, mathSqrt_ok] at h
  obtain ⟨W', hW', S', hS', cl, hcl, d', hd', x', ⟨h0, rfl⟩, h⟩ := h
  rw [hW] at hW'; rw [hS] at hS'; rw [hd] at hd'
  cases hW'; cases hS'; cases hd'
  cases h
  refine ⟨cl, hcl, ?_, by unfold mps2kts; positivity⟩
  · intro hz
    unfold mps2kts
    rw [mul_div_assoc, div_self (by norm_num), mul_one, Real.sq_sqrt h0]
    field_simp
    norm_num
    ring

/-- Relevant data and matching signs are all that is needed. -/
theorem C75_succeeds (o : Cert) (n W S d cl : ℝ) (hW : o.acobj.weight_n = some W) (hS : o.acobj.wingarea_m2 = some S)
    (hd : Atmos.dens1 o.acobj.designatm 0 = .ok d) (pW : 0 ≤ W) (pS : 0 < S) (pd : 0 < d)
    (hcl : (if 0 ≤ n then o.acobj.clmaxclean else o.acobj.clminclean) = some cl) (hs : 0 ≤ n * cl) :
    vs_keas o n = .ok (1.9438445 * √(2 * n * W / (d * S * cl))) := by
  unfold vs_keas
  simp only [ge_iff_le, hW, hS, hd, hcl, need, bind_ok]
  have e : n * W / (0.5 * d * S * cl) = 2 * n * W / (d * S * cl) := by
    rw [show (0.5:ℝ) * d * S * cl = (d * S * cl) / 2 by ring, div_div_eq_mul_div]
    ring_nf
  have hnn : 0 ≤ n * W / (0.5 * d * S * cl) := by
    rw [show n * W / (0.5 * d * S * cl) = (n * cl) * (W / (0.5 * d * S)) / cl ^ 2 by
      by_cases hz : cl = 0
      · simp [hz]
      · field_simp]
    positivity
  unfold mathSqrt
  rw [if_neg (not_lt.mpr hnn)]
  simp only [bind_ok]
  rw [e]
  show Except.ok _ = _
  unfold mps2kts
  rw [mul_comm]

example : ∃ v, vs_keas exCert 2 = .ok v ∧ 1 / 2 * 1 * (v / 1.9438445) ^ 2 * 12 * 1.5 = 2 * 10000 := by
  have hd := exAtm_dens 0 (by norm_num) (by norm_num)
  have h := C75_succeeds exCert 2 10000 12 1 1.5 rfl rfl hd (by norm_num) (by norm_num) one_pos
    (by rw [if_pos (by norm_num)]; rfl) (by norm_num)
  obtain ⟨cl, h1, h2, -⟩ := C75_supports exCert 2 _ 10000 12 1 h rfl rfl hd (by norm_num) one_pos
  rw [if_pos (by norm_num)] at h1
  have e : cl = 1.5 := (Option.some.inj h1).symm
  rw [e] at h2
  exact ⟨_, h, h2 (by norm_num)⟩

example : vs_keas exCert (-1) = .ok (1.9438445 * √(2 * -1 * 10000 / (1 * 12 * -1))) := by
  refine C75_succeeds exCert (-1) 10000 12 1 (-1) rfl rfl (exAtm_dens 0 (by norm_num) (by norm_num)) (by norm_num)
    (by norm_num) one_pos ?_ (by norm_num)
  rw [if_neg (by norm_num)]; rfl

/-- The stall speed grows with the square root of the load factor, upright and inverted. -/
theorem C75_root (o : Cert) (k n v v' : ℝ) (hk : 0 < k) (h : vs_keas o n = .ok v) (h' : vs_keas o (k * n) = .ok v') :
    v' = √k * v := by
  unfold vs_keas at h h'
  simp only [bind_ok_iff, need_ok, mathSqrt_ok] at h h'
  obtain ⟨W, hW, S, hS, cl, hcl, d, hd, x, ⟨h0, rfl⟩, h⟩ := h
  obtain ⟨W', hW', S', hS', cl', hcl', d', hd', x', ⟨h0', rfl⟩, h'⟩ := h'
  rw [hW] at hW'; rw [hS] at hS'; rw [hd] at hd'
  cases hW'; cases hS'; cases hd'
  have hs : (k * n ≥ 0) ↔ (n ≥ 0) := by
    constructor
    · intro h1; exact (mul_nonneg_iff_of_pos_left hk).mp h1
    · intro h1; positivity
  simp only [hs] at hcl'
  rw [hcl] at hcl'
  cases hcl'
  cases h; cases h'
  unfold mps2kts
  rw [show k * n * W / (0.5 * d * S * cl) = k * (n * W / (0.5 * d * S * cl)) by ring, Real.sqrt_mul hk.le]
  ring

example : ∃ v v', vs_keas exCert 1 = .ok v ∧ vs_keas exCert (4 * 1) = .ok v' ∧ v' = √4 * v := by
  have hd := exAtm_dens 0 (by norm_num) (by norm_num)
  have h1 := C75_succeeds exCert 1 10000 12 1 1.5 rfl rfl hd (by norm_num) (by norm_num) one_pos
    (by rw [if_pos (by norm_num)]; rfl) (by norm_num)
  have h2 := C75_succeeds exCert (4 * 1) 10000 12 1 1.5 rfl rfl hd (by norm_num) (by norm_num) one_pos
    (by rw [if_pos (by norm_num)]; rfl) (by norm_num)
  exact ⟨_, _, h1, h2, C75_root exCert 4 1 _ _ (by norm_num) h1 h2⟩

/-- Missing weight, area or the lift coefficient of the relevant sign raise ValueError. -/
theorem C75_missing (o : Cert) (n : ℝ) (h : o.acobj.weight_n = none ∨ o.acobj.wingarea_m2 = none ∨
    (if 0 ≤ n then o.acobj.clmaxclean else o.acobj.clminclean) = none) : vs_keas o n = .error .valueError := by
  unfold vs_keas
  cases hw : o.acobj.weight_n with
  | none => rfl
  | some w =>
  cases hs : o.acobj.wingarea_m2 with
  | none => rfl
  | some s =>
  have h1 : (if 0 ≤ n then o.acobj.clmaxclean else o.acobj.clminclean) = none := by
    rcases h with h | h | h
    · rw [hw] at h; cases h
    · rw [hs] at h; cases h
    · exact h
  simp only [ge_iff_le, h1, need, bind_ok, bind_error]

example : vs_keas exCert 2 = .ok (1.9438445 * √(2 * 2 * 10000 / (1 * 12 * 1.5))) ∧
    vs_keas exCert (-1) = .ok (1.9438445 * √(2 * -1 * 10000 / (1 * 12 * -1))) := by
  have hd := exAtm_dens 0 (by norm_num) (by norm_num)
  refine ⟨C75_succeeds exCert 2 10000 12 1 1.5 rfl rfl hd (by norm_num) (by norm_num) one_pos ?_ (by norm_num),
    C75_succeeds exCert (-1) 10000 12 1 (-1) rfl rfl hd (by norm_num) (by norm_num) one_pos ?_ (by norm_num)⟩
  · rw [if_pos (by norm_num)]; rfl
  · rw [if_neg (by norm_num)]; rfl

end

end Verif.Props
