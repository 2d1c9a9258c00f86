import Verif.Props.ISA
import Verif.Lemmas.PyM
import Mathlib.Analysis.Convex.SpecificFunctions.Basic

/-
Properties C17 - C20 and C83: queries of an atmosphere.
-/

namespace Verif.Props
open Verif Verif.Atmos Verif.Units Verif.Layers Verif.ISAL

noncomputable section

/-! ### C17 -/

theorem alttest_isa_err {off : ℝ} {req : NumArg} {h : ℝ} (hm : h ∈ recastArray req) (hh : 50000 < h) :
    alttest (.isa off) req = .error .typeError := by
  show (if (recastArray req).any (fun x => decide (x > Level5)) = true then _ else _) = _
  rw [if_pos]
  simp only [List.any_eq_true, decide_eq_true_eq]
  exact ⟨h, hm, hh⟩

theorem alttest_isa_ok {off : ℝ} {req : NumArg} (hh : ∀ h ∈ recastArray req, h ≤ 50000) :
    alttest (.isa off) req = .ok (recastArray req) := by
  show (if (recastArray req).any (fun x => decide (x > Level5)) = true then _ else _) = _
  rw [if_neg]
  simp only [List.any_eq_true, decide_eq_true_eq, not_exists, not_and, not_lt, gt_iff_lt]
  exact hh

theorem alttest_prof {o : Obs} {req : NumArg} {lo hi : ℝ} (hl : loalt o = .ok lo) (hm : hialt o = .ok hi) :
    alttest (.profile o) req =
      if ∃ x ∈ recastArray req, x < lo ∨ hi < x then .error .typeError else .ok (recastArray req) := by
  simp only [alttest, hl, hm]
  show (if (recastArray req).any (fun x => decide (x < lo)) = true then _ else
    if (recastArray req).any (fun x => decide (x > hi)) = true then _ else _) = _
  by_cases h1 : ∃ x ∈ recastArray req, x < lo
  · rw [if_pos (by simpa using h1), if_pos (by obtain ⟨x, hx, h⟩ := h1; exact ⟨x, hx, Or.inl h⟩)]
  · rw [if_neg (by simpa using h1)]
    by_cases h2 : ∃ x ∈ recastArray req, hi < x
    · rw [if_pos (by simpa using h2), if_pos (by obtain ⟨x, hx, h⟩ := h2; exact ⟨x, hx, Or.inr h⟩)]
    · rw [if_neg (by simpa using h2), if_neg]
      rintro ⟨x, hx, h | h⟩
      · exact h1 ⟨x, hx, h⟩
      · exact h2 ⟨x, hx, h⟩

theorem alttest_ok {a : Atm} {req : NumArg} {alts : List ℝ} (h : alttest a req = .ok alts) :
    alts = recastArray req ∧ alttest a (.array alts) = .ok alts := by
  cases a with
  | isa off =>
    by_cases h1 : ∃ x ∈ recastArray req, 50000 < x
    · obtain ⟨x, hx, hh⟩ := h1
      rw [alttest_isa_err hx hh] at h; cases h
    · have h2 : ∀ x ∈ recastArray req, x ≤ 50000 := by
        intro x hx; by_contra hc; exact h1 ⟨x, hx, not_le.mp hc⟩
      rw [alttest_isa_ok h2] at h
      cases h
      exact ⟨rfl, alttest_isa_ok h2⟩
  | profile o =>
    cases hl : loalt o with
    | error e => simp only [alttest, hl] at h; cases hialt o <;> simp at h
    | ok lo =>
      cases hh : hialt o with
      | error e => simp only [alttest, hl, hh] at h; cases h
      | ok hi =>
        rw [alttest_prof hl hh] at h ⊢
        split_ifs at h with h1
        cases h
        exact ⟨rfl, by rw [if_neg (show ¬ ∃ x ∈ recastArray (.array (recastArray req)), _ from h1)]; rfl⟩

/-- Any ISA query with an altitude above 50 km, alone or inside a list of any length, raises a
TypeError in every query function. -/
theorem C17_isa_above_raises (off : ℝ) (hs : List ℝ) (h : ℝ) (hm : h ∈ hs) (hh : 50000 < h) :
    airtemp_k (.isa off) (.array hs) = .error .typeError ∧
    airpress_pa (.isa off) (.array hs) = .error .typeError ∧
    airdens_kgpm3 (.isa off) (.array hs) = .error .typeError ∧
    vsound_mps (.isa off) (.array hs) = .error .typeError ∧
    (∀ v, mach (.isa off) v (.array hs) = .error .typeError) ∧
    airtemp_k (.isa off) (.scalar h) = .error .typeError ∧
    airpress_pa (.isa off) (.scalar h) = .error .typeError ∧
    airdens_kgpm3 (.isa off) (.scalar h) = .error .typeError := by
  have k1 : alttest (.isa off) (.array hs) = .error .typeError := alttest_isa_err hm hh
  have k2 : alttest (.isa off) (.scalar h) = .error .typeError :=
    alttest_isa_err (h := h) (by simp [recastArray]) hh
  refine ⟨?_, ?_, ?_, ?_, ?_, ?_, ?_, ?_⟩
  · unfold airtemp_k; rw [k1]; rfl
  · unfold airpress_pa; rw [k1]; rfl
  · unfold airdens_kgpm3; rw [k1]; rfl
  · unfold vsound_mps; rw [k1]; rfl
  · intro v; unfold mach; rw [k1]; rfl
  · unfold airtemp_k; rw [k2]; rfl
  · unfold airpress_pa; rw [k2]; rfl
  · unfold airdens_kgpm3; rw [k2]; rfl

example : airtemp_k (.isa 0) (.array [1000, 60000]) = .error .typeError :=
  (C17_isa_above_raises 0 [1000, 60000] 60000 (by simp) (by norm_num)).1

/-- The announced limitation (a request above 50 km is answered with the value at 50 km) never
happens. -/
theorem C17_limited_violated (off h : ℝ) (hh : 50000 < h) :
    airtemp_k (.isa off) (.scalar h) ≠ airtemp_k (.isa off) (.scalar 50000) ∧
    airpress_pa (.isa off) (.scalar h) ≠ airpress_pa (.isa off) (.scalar 50000) ∧
    airdens_kgpm3 (.isa off) (.scalar h) ≠ airdens_kgpm3 (.isa off) (.scalar 50000) := by
  have hr := C17_isa_above_raises off [h] h (by simp) hh
  have k2 : alttest (.isa off) (.scalar 50000) = .ok [50000] :=
    alttest_isa_ok (by simp [recastArray])
  refine ⟨?_, ?_, ?_⟩
  · rw [hr.2.2.2.2.2.1]; unfold airtemp_k; rw [k2]; intro hc; cases hc
  · rw [hr.2.2.2.2.2.2.1]; unfold airpress_pa; rw [k2]; intro hc; cases hc
  · rw [hr.2.2.2.2.2.2.2]; unfold airdens_kgpm3; rw [k2]; intro hc; cases hc

example : airpress_pa (.isa 0) (.scalar 60000) ≠ airpress_pa (.isa 0) (.scalar 50000) :=
  (C17_limited_violated 0 60000 (by norm_num)).2.1

theorem isa_scalar (off h : ℝ) (hh : h ≤ 50000) :
    airtemp_k (.isa off) (.scalar h) = .ok (.scalar (isatemp off h)) ∧
    airpress_pa (.isa off) (.scalar h) = .ok (.scalar (isapress h)) ∧
    airdens_kgpm3 (.isa off) (.scalar h) = .ok (.scalar (isadens off h)) := by
  have k2 : alttest (.isa off) (.scalar h) = .ok [h] :=
    alttest_isa_ok (by simpa [recastArray] using hh)
  refine ⟨?_, ?_, ?_⟩
  · unfold airtemp_k; rw [k2]; rfl
  · unfold airpress_pa; rw [k2]; rfl
  · unfold airdens_kgpm3; rw [k2]; rfl

/-- Queries inside the range are passed through unchanged: a number gives a number, a list of at
least two gives the list of the values at each altitude, in order. -/
theorem C17_isa_inside (off : ℝ) (hs : List ℝ) (hlen : 2 ≤ hs.length) (hh : ∀ h ∈ hs, h ≤ 50000) :
    airtemp_k (.isa off) (.array hs) = .ok (.array (hs.map (isatemp off))) ∧
    airpress_pa (.isa off) (.array hs) = .ok (.array (hs.map isapress)) ∧
    airdens_kgpm3 (.isa off) (.array hs) = .ok (.array (hs.map (isadens off))) ∧
    (∀ h ∈ hs, airtemp_k (.isa off) (.scalar h) = .ok (.scalar (isatemp off h)) ∧
      airpress_pa (.isa off) (.scalar h) = .ok (.scalar (isapress h)) ∧
      airdens_kgpm3 (.isa off) (.scalar h) = .ok (.scalar (isadens off h))) := by
  have k2 : alttest (.isa off) (.array hs) = .ok hs := alttest_isa_ok hh
  match hs, hlen with
  | a :: b :: t, _ =>
  refine ⟨?_, ?_, ?_, fun h hm => isa_scalar off h (hh h hm)⟩
  · unfold airtemp_k; rw [k2]; rfl
  · unfold airpress_pa; rw [k2]; rfl
  · unfold airdens_kgpm3; rw [k2]; rfl

example : airtemp_k (.isa 5) (.array [1000, 20000]) = .ok (.array [isatemp 5 1000, isatemp 5 20000]) :=
  (C17_isa_inside 5 [1000, 20000] (by simp) (by
    intro h hh; simp at hh; rcases hh with rfl | rfl <;> norm_num)).1

theorem foldl_min_spec (as : List ℝ) (a x : ℝ) : x < as.foldl min a ↔ x < a ∧ ∀ y ∈ as, x < y := by
  induction as generalizing a with
  | nil => simp
  | cons b as ih => simp only [List.foldl_cons, ih, lt_min_iff, List.mem_cons, forall_eq_or_imp]; tauto

theorem foldl_max_spec (as : List ℝ) (a x : ℝ) : as.foldl max a < x ↔ a < x ∧ ∀ y ∈ as, y < x := by
  induction as generalizing a with
  | nil => simp
  | cons b as ih => simp only [List.foldl_cons, ih, max_lt_iff, List.mem_cons, forall_eq_or_imp]; tauto

/-- In an observed profile a request is passed on exactly when it is not below all and not above all
tabulated altitudes; otherwise (for a nonempty table) every query raises a TypeError instead of being
limited to the table. -/
theorem C17_profile (o : Obs) (h : ℝ) (hne : o.alt_m ≠ []) :
    ((∀ a ∈ o.alt_m, h < a) ∨ (∀ a ∈ o.alt_m, a < h) →
      airtemp_k (.profile o) (.scalar h) = .error .typeError ∧
      airpress_pa (.profile o) (.scalar h) = .error .typeError ∧
      airdens_kgpm3 (.profile o) (.scalar h) = .error .typeError) ∧
    ((∃ a ∈ o.alt_m, a ≤ h) ∧ (∃ a ∈ o.alt_m, h ≤ a) → alttest (.profile o) (.scalar h) = .ok [h]) := by
  obtain ⟨a, as, ha⟩ := List.exists_cons_of_ne_nil hne
  have hl : loalt o = .ok (as.foldl min a) := by simp [loalt, ha]
  have hm : hialt o = .ok (as.foldl max a) := by simp [hialt, ha]
  have hx : ∀ x ∈ recastArray (.scalar h), x = h := by simp [recastArray]
  constructor
  · intro hout
    have k : alttest (.profile o) (.scalar h) = .error .typeError := by
      rw [alttest_prof hl hm, if_pos]
      refine ⟨h, by simp [recastArray], ?_⟩
      rw [foldl_min_spec, foldl_max_spec]
      rw [ha] at hout
      simpa using hout
    refine ⟨?_, ?_, ?_⟩
    · unfold airtemp_k; rw [k]; rfl
    · unfold airpress_pa; rw [k]; rfl
    · unfold airdens_kgpm3; rw [k]; rfl
  · rintro ⟨⟨x, hx1, hxh⟩, ⟨y, hy, hyh⟩⟩
    rw [alttest_prof hl hm, if_neg]
    · rfl
    rintro ⟨z, hz, hc⟩
    rw [hx z hz, foldl_min_spec, foldl_max_spec] at hc
    rw [ha] at hx1 hy
    rcases hc with ⟨c1, c2⟩ | ⟨c1, c2⟩
    · rcases List.mem_cons.mp hx1 with rfl | hx1
      · linarith
      · linarith [c2 x hx1]
    · rcases List.mem_cons.mp hy with rfl | hy
      · linarith
      · linarith [c2 y hy]

example : (60000:ℝ) ∈ ([1000, 60000] : List ℝ) ∧ (50000:ℝ) < 60000 := by constructor <;> norm_num
example : 2 ≤ ([1000, 20000, 48000] : List ℝ).length ∧ ∀ h ∈ ([1000, 20000, 48000] : List ℝ), h ≤ 50000 := by
  refine ⟨by simp, ?_⟩
  intro h hh; simp at hh; rcases hh with rfl | rfl | rfl <;> norm_num
example : ∀ a ∈ ([0, 1000] : List ℝ), a < 2000 := by intro a h; simp at h; rcases h with rfl | rfl <;> norm_num

/-! ### C18 -/

/-- The Mach number of any list of airspeeds is the list of their signed ratios to the speed of sound
at the altitude; a single airspeed gives a one-element result. -/
theorem C18_ratio (a : Atm) (h c : ℝ) (hc : vsound_mps a (.scalar h) = .ok (.scalar c)) :
    (∀ v : ℝ, mach a (.scalar v) (.scalar h) = .ok [v / c]) ∧
    (∀ vs : List ℝ, mach a (.array vs) (.scalar h) = .ok (vs.map (fun v => v / c))) := by
  have h1 : alttest a (.scalar h) = .ok [h] := by
    unfold vsound_mps at hc
    cases ht : alttest a (.scalar h) with
    | error e => rw [ht] at hc; cases hc
    | ok l => rw [(alttest_ok ht).1]; rfl
  have h2 : vsound_mps a (.array [h]) = .ok (.scalar c) := by
    unfold vsound_mps at hc ⊢
    rw [(alttest_ok h1).2]; rw [h1] at hc; exact hc
  have gen : ∀ vs : List ℝ, broadcast2 (fun x y => x / y) vs [c] = .ok (vs.map (fun v => v / c)) := by
    intro vs
    unfold broadcast2
    match vs with
    | [] => simp
    | [v] => simp
    | v :: w :: t => simp
  have gen2 : ∀ vs : List ℝ, (if (if vs.any (fun x => decide (x ≠ 0)) then (1:ℤ) else 0) < 0
      then vs.map abs else vs) = vs := by
    intro vs; rw [if_neg]; split_ifs <;> norm_num
  constructor
  · intro v
    unfold mach
    rw [h1]
    show (vsound_mps a (.array [h]) >>= _) = _
    rw [h2]
    show broadcast2 _ (if _ then _ else _) [c] = _
    exact (congrArg (fun l => broadcast2 (fun x y => x / y) l [c]) (gen2 [v])).trans (gen [v])
  · intro vs
    unfold mach
    rw [h1]
    show (vsound_mps a (.array [h]) >>= _) = _
    rw [h2]
    show broadcast2 _ (if _ then _ else _) [c] = _
    exact (congrArg (fun l => broadcast2 (fun x y => x / y) l [c]) (gen2 vs)).trans (gen vs)

theorem isa_vsound (off h : ℝ) (hh : h ≤ 50000) (hT : 0 ≤ isatemp off h) :
    vsound_mps (.isa off) (.scalar h) = .ok (.scalar (√(1.4 * 287.05287 * isatemp off h))) := by
  have k2 : alttest (.isa off) (.scalar h) = .ok [h] :=
    alttest_isa_ok (by simpa [recastArray] using hh)
  have k3 : airtemp_k (.isa off) (.array [h]) = .ok (.scalar (isatemp off h)) := by
    unfold airtemp_k; rw [(alttest_ok k2).2]; rfl
  unfold vsound_mps
  rw [k2]
  show (airtemp_k (.isa off) (.array [h]) >>= _) = _
  rw [k3]
  show (vsoundE (isatemp off h) >>= _) = _
  unfold vsoundE
  rw [if_neg (not_lt.mpr hT)]
  rfl

/-- The code announces "Positive Mach no. returned" for negative airspeeds, but every negative
airspeed gives a negative Mach number, in any ISA and at any altitude. -/
theorem C18_mach_positive_violated (off h v : ℝ) (hh : h ≤ 50000) (hT : 0 < isatemp off h) (hv : v < 0) :
    ∃ m, mach (.isa off) (.scalar v) (.scalar h) = .ok [m] ∧ m < 0 := by
  have := (C18_ratio _ h _ (isa_vsound off h hh hT.le)).1 v
  refine ⟨_, this, div_neg_of_neg_of_pos hv (Real.sqrt_pos.mpr (by positivity))⟩

example : ∃ m, mach (.isa (-10)) (.scalar (-30)) (.scalar 8000) = .ok [m] ∧ m < 0 :=
  C18_mach_positive_violated (-10) 8000 (-30) (by norm_num) (by norm_num [isatemp, Level1, A1, B1]) (by norm_num)

/-- The magnitude is the ratio of the speed's magnitude to the speed of sound √(1.4 R T). -/
theorem C18_magnitude (off h v : ℝ) (hh : h ≤ 50000) (hT : 0 < isatemp off h) :
    ∃ m, mach (.isa off) (.scalar v) (.scalar h) = .ok [m] ∧
      m ^ 2 * (1.4 * 287.05287 * isatemp off h) = v ^ 2 ∧ (0 ≤ v ↔ 0 ≤ m) := by
  have := (C18_ratio _ h _ (isa_vsound off h hh hT.le)).1 v
  have hs : 0 < √(1.4 * 287.05287 * isatemp off h) := Real.sqrt_pos.mpr (by positivity)
  refine ⟨_, this, ?_, ?_⟩
  · rw [div_pow, Real.sq_sqrt (by positivity)]; field_simp
  · rw [le_div_iff₀ hs, zero_mul]

example : (8000:ℝ) ≤ 50000 ∧ 0 < isatemp (-10) 8000 ∧ (-30:ℝ) < 0 := by
  norm_num [isatemp, Level1, A1, B1]

/-! ### C83 -/

/-- Speed of sound in knots for two or more altitudes never returns: the intermediate Python list
cannot be multiplied by a number. -/
theorem C83_array_violated (off : ℝ) (hs : List ℝ) (hlen : 2 ≤ hs.length) (hh : ∀ h ∈ hs, h ≤ 50000)
    (hT : ∀ h ∈ hs, 0 ≤ isatemp off h) :
    (∃ vs, vsound_mps (.isa off) (.array hs) = .ok (.array vs) ∧ vs.length = hs.length) ∧
    vsound_kts (.isa off) (.array hs) = .error .typeError := by
  have k1 : alttest (.isa off) (.array hs) = .ok hs := alttest_isa_ok hh
  have k2 := (C17_isa_inside off hs hlen hh).1
  have k3 : ∀ l : List ℝ, (∀ h ∈ l, 0 ≤ isatemp off h) →
      (l.map (isatemp off)).mapM vsoundE = .ok (l.map (fun h => vsound (isatemp off h))) := by
    intro l
    induction l with
    | nil => intro _; rfl
    | cons a l ih =>
      intro h
      rw [List.map_cons, List.mapM_cons, ih (fun x hx => h x (by simp [hx]))]
      have : vsoundE (isatemp off a) = .ok (vsound (isatemp off a)) := by
        unfold vsoundE; rw [if_neg (not_lt.mpr (h a (by simp)))]
      rw [this]; rfl
  have k4 : vsound_mps (.isa off) (.array hs) = .ok (.array (hs.map (fun h => vsound (isatemp off h)))) := by
    unfold vsound_mps
    rw [k1]
    show (airtemp_k (.isa off) (.array hs) >>= _) = _
    rw [k2]
    show ((hs.map (isatemp off)).mapM vsoundE >>= _) = _
    rw [k3 hs hT]
    match hs, hlen with
    | a :: b :: t, _ => rfl
  refine ⟨⟨_, k4, by simp⟩, ?_⟩
  unfold vsound_kts
  rw [k4]; rfl

example : vsound_kts (.isa 0) (.array [1000, 20000]) = .error .typeError :=
  (C83_array_violated 0 [1000, 20000] (by simp)
    (by intro h hh; simp at hh; rcases hh with rfl | rfl <;> norm_num)
    (by intro h hh; simp at hh; rcases hh with rfl | rfl <;>
      norm_num [isatemp, Level1, Level2, Level3, A1, B1, A3, B3])).2

theorem C83_scalar (off h : ℝ) (hh : h ≤ 50000) (hT : 0 ≤ isatemp off h) :
    vsound_kts (.isa off) (.scalar h) = .ok (.scalar (√(1.4 * 287.05287 * isatemp off h) * 1.9438445)) := by
  unfold vsound_kts
  rw [isa_vsound off h hh hT]
  rfl

example : ∀ h ∈ ([1000, 20000] : List ℝ), h ≤ 50000 ∧ 0 ≤ isatemp 0 h := by
  intro h hh; simp at hh; rcases hh with rfl | rfl <;> norm_num [isatemp, Level1, Level2, Level3, A1, B1, A3, B3]

/-! ### C19 -/

theorem dratio_ok {a : Atm} {h d d0 : ℝ} (hd : dens1 a h = .ok d) (hd0 : dens1 a 0 = .ok d0)
    (p : 0 < d) (p0 : 0 < d0) : dratio a h = .ok (√(d / d0)) := by
  unfold dratio
  rw [hd, hd0]
  show (if d / d0 < 0 then _ else _) = _
  rw [if_neg (not_lt.mpr (by positivity))]
  rfl

/-- TAS to EAS and back, and EAS to TAS and back, return the same speed in any atmosphere with
positive density at the altitude and at sea level; both squares carry the density ratio. -/
theorem C19_inverse (a : Atm) (h d d0 v : ℝ) (hd : dens1 a h = .ok d) (hd0 : dens1 a 0 = .ok d0)
    (p : 0 < d) (p0 : 0 < d0) :
    (eas2tas a v h >>= fun t => tas2eas a t h) = .ok v ∧
    (tas2eas a v h >>= fun e => eas2tas a e h) = .ok v ∧
    (∃ t, eas2tas a v h = .ok t ∧ d * t ^ 2 = d0 * v ^ 2 ∧ (0 ≤ v ↔ 0 ≤ t)) := by
  have k := dratio_ok hd hd0 p p0
  have hs : 0 < √(d / d0) := Real.sqrt_pos.mpr (by positivity)
  have e1 : ∀ v, eas2tas a v h = .ok (v / √(d / d0)) := by
    intro v; unfold Atmos.eas2tas; rw [k]; rfl
  have e2 : ∀ v, tas2eas a v h = .ok (v * √(d / d0)) := by
    intro v; unfold Atmos.tas2eas; rw [k]; rfl
  refine ⟨?_, ?_, ?_⟩
  · rw [e1]; show tas2eas a _ h = _; rw [e2]; field_simp
  · rw [e2]; show eas2tas a _ h = _; rw [e1]; field_simp
  · refine ⟨_, e1 v, ?_, ?_⟩
    · rw [div_pow, Real.sq_sqrt (by positivity)]; field_simp
    · rw [le_div_iff₀ hs, zero_mul]

/-- The dynamic pressure at a true airspeed and altitude is the sea-level dynamic pressure at the
corresponding equivalent airspeed. -/
theorem C19_dynamic_pressure (a : Atm) (h d d0 v : ℝ) (hd : dens1 a h = .ok d) (hd0 : dens1 a 0 = .ok d0)
    (p : 0 < d) (p0 : 0 < d0) :
    ∃ e q, tas2eas a v h = .ok e ∧ dynamicpressure_pa a v h = .ok q ∧
      dynamicpressure_pa a e 0 = .ok q ∧ q = d * v ^ 2 / 2 := by
  have k := dratio_ok hd hd0 p p0
  have e2 : tas2eas a v h = .ok (v * √(d / d0)) := by unfold Atmos.tas2eas; rw [k]; rfl
  have q1 : ∀ h d v, dens1 a h = .ok d → dynamicpressure_pa a v h = .ok (0.5 * d * v ^ 2) := by
    intro h d v hd; unfold dynamicpressure_pa; rw [hd]; rfl
  refine ⟨_, _, e2, q1 h d v hd, ?_, by ring⟩
  rw [q1 0 d0 _ hd0, mul_pow, Real.sq_sqrt (by positivity)]
  congr 1; field_simp

/-- At sea level of any atmosphere the two speeds agree. -/
theorem C19_sea_level (a : Atm) (d0 v : ℝ) (hd0 : dens1 a 0 = .ok d0) (p0 : 0 < d0) :
    eas2tas a v 0 = .ok v ∧ tas2eas a v 0 = .ok v := by
  have k := dratio_ok hd0 hd0 p0 p0
  have : √(d0 / d0) = 1 := by rw [div_self p0.ne', Real.sqrt_one]
  constructor
  · unfold Atmos.eas2tas; rw [k, this]; show Except.ok _ = _; rw [div_one]
  · unfold Atmos.tas2eas; rw [k, this]; show Except.ok _ = _; rw [mul_one]

theorem isa_dens1 (off h : ℝ) (hh : h ≤ 50000) : dens1 (.isa off) h = .ok (isadens off h) := by
  unfold dens1; rw [(isa_scalar off h hh).2.2]; rfl

/-- The hypotheses of the three theorems above at 9 km on a day ten degrees warmer than standard. -/
theorem c19_ex : dens1 (.isa 10) 9000 = .ok (isadens 10 9000) ∧ dens1 (.isa 10) 0 = .ok (isadens 10 0) ∧
    0 < isadens 10 9000 ∧ 0 < isadens 10 0 :=
  ⟨isa_dens1 _ _ (by norm_num), isa_dens1 _ _ (by norm_num), C13_positive _ _ (by norm_num [isatemp, Level1, A1, B1]),
    C13_positive _ _ (by norm_num [isatemp, Level1, A1, B1])⟩

example : (eas2tas (.isa 10) 150 9000 >>= fun t => tas2eas (.isa 10) t 9000) = .ok 150 :=
  (C19_inverse _ 9000 _ _ 150 c19_ex.1 c19_ex.2.1 c19_ex.2.2.1 c19_ex.2.2.2).1

example : ∃ e q, tas2eas (.isa 10) 150 9000 = .ok e ∧ dynamicpressure_pa (.isa 10) 150 9000 = .ok q ∧
    dynamicpressure_pa (.isa 10) e 0 = .ok q ∧ q = isadens 10 9000 * 150 ^ 2 / 2 :=
  C19_dynamic_pressure _ 9000 _ _ 150 c19_ex.1 c19_ex.2.1 c19_ex.2.2.1 c19_ex.2.2.2

example : eas2tas (.isa 10) 150 0 = .ok 150 := (C19_sea_level _ _ 150 c19_ex.2.1 c19_ex.2.2.2).1

theorem isa_press1 (off h : ℝ) (hh : h ≤ 50000) : press1 (.isa off) h = .ok (isapress h) := by
  unfold press1; rw [(isa_scalar off h hh).2.1]; rfl

/-- Density of the ISA at altitude is at most that at sea level, for every offset from -100 K. -/
theorem isadens_le_sl (off h : ℝ) (h0 : 0 ≤ h) (h1 : h ≤ 50000) (ho : -100 ≤ off) :
    isadens off h ≤ isadens off 0 := by
  have tb := C11_bounds 0 h
  have hTh : 0 < isatemp off h := by rw [C11_offset]; linarith
  have e0 : isatemp 0 0 = 288.15 := by norm_num [isatemp, Level1, A1, B1]
  have hT0 : 0 < isatemp off 0 := by rw [C11_offset, e0]; linarith
  have dp : ∀ h, 0 < isadens0 h := pw_pos lay_fd
  rw [isadens_eq off h hTh, isadens_eq off 0 hT0, C11_offset off h, C11_offset off 0, e0]
  rw [C11_offset] at hTh
  have hT0' : (0:ℝ) < 288.15 + off := by linarith
  rw [div_le_div_iff₀ hTh hT0']
  by_cases hl : h < 11000
  · have et : isatemp 0 h = 288.15 - 0.0065 * h := by
      unfold isatemp; rw [if_pos (show h < Level1 from hl)]; norm_num [A1, B1]; ring
    have ed : ∀ k, k < 11000 → isadens0 k = (I1 + J1 * k) ^ L1 := by
      intro k hk; unfold isadens0; rw [if_pos (show k < Level1 from hk)]
    rw [ed h hl, ed 0 (by norm_num), et]
    obtain ⟨V, hV⟩ : ∃ V, V = I1 + J1 * h := ⟨_, rfl⟩
    have hV0 : I1 + J1 * 0 = 1.04884 := by norm_num [I1]
    rw [hV0, ← hV]
    have hVb : V = 1.04884 - 0.000023659414 * h := by rw [hV]; norm_num [I1, J1]; ring
    have hVp : 0 < V := by rw [hVb]; norm_num; linarith
    -- V/V0 ≤ 1, and (V/V0)^L1 ≤ V/V0
    have hx : V / 1.04884 ≤ 1 := by rw [div_le_one (by norm_num), hVb]; norm_num; linarith
    have hpow : (V / 1.04884) ^ L1 ≤ (V / 1.04884) := by
      conv_rhs => rw [← Real.rpow_one (V / 1.04884)]
      exact Real.rpow_le_rpow_of_exponent_ge (by positivity) hx (by norm_num [L1])
    have hmul : V ^ L1 ≤ (V / 1.04884) * 1.04884 ^ L1 := by
      have : V ^ L1 = (V / 1.04884) ^ L1 * 1.04884 ^ L1 := by
        rw [← Real.mul_rpow (by positivity) (by norm_num)]
        congr 1; field_simp
      rw [this]
      exact mul_le_mul_of_nonneg_right hpow (by positivity)
    have hP : (0:ℝ) < 1.04884 ^ L1 := by positivity
    obtain ⟨P, hPe⟩ : ∃ P : ℝ, P = 1.04884 ^ L1 := ⟨_, rfl⟩
    rw [← hPe] at hmul hP ⊢
    have ht : 0 < 288.15 - 0.0065 * h := by norm_num; linarith
    have key : V / 1.04884 * (288.15 - 0.0065 * h) * (288.15 + off) ≤
        288.15 * (288.15 - 0.0065 * h + off) := by
      have hx2 : V / 1.04884 ≤ 1 - 0.00002255 * h := by
        rw [div_le_iff₀ (by norm_num), hVb]; norm_num; linarith
      have s1 : V / 1.04884 * (288.15 - 0.0065 * h) * (288.15 + off) ≤
          (1 - 0.00002255 * h) * (288.15 - 0.0065 * h) * (288.15 + off) := by
        apply mul_le_mul_of_nonneg_right _ hT0'.le
        exact mul_le_mul_of_nonneg_right hx2 ht.le
      refine s1.trans ?_
      have : 0 ≤ h * (11000 - h) := mul_nonneg h0 (by linarith)
      have h3 : 0 ≤ h * (off + 100) := mul_nonneg h0 (by linarith)
      have h4 : 0 ≤ (off + 100) * (h * (11000 - h)) := mul_nonneg (by linarith) this
      norm_num
      nlinarith [this, h3, h4, h0]
    calc V ^ L1 * (288.15 - 0.0065 * h) * (288.15 + off)
        ≤ (V / 1.04884) * P * (288.15 - 0.0065 * h) * (288.15 + off) := by
          apply mul_le_mul_of_nonneg_right _ hT0'.le
          exact mul_le_mul_of_nonneg_right hmul ht.le
      _ = P * (V / 1.04884 * (288.15 - 0.0065 * h) * (288.15 + off)) := by ring
      _ ≤ P * (288.15 * (288.15 - 0.0065 * h + off)) := mul_le_mul_of_nonneg_left key hP.le
      _ = _ := by ring
  · have hl' := not_lt.mp hl
    have tu : isatemp 0 h ≤ 600 := by linarith [tb.2 h0]
    have d1 : isadens0 h < isadens0 10999 := by
      have := C13_decreasing_apart 10999 h (by norm_num at *; linarith)
      rwa [isadens_zero, isadens_zero] at this
    have ed : ∀ k, k < 11000 → isadens0 k = (I1 + J1 * k) ^ L1 := by
      intro k hk; unfold isadens0; rw [if_pos (show k < Level1 from hk)]
    have d2 : isadens0 10999 ≤ 0.4 * isadens0 0 := by
      rw [ed _ (by norm_num), ed _ (by norm_num)]
      have hx : (I1 + J1 * 10999 : ℝ) = ((I1 + J1 * 10999) / (I1 + J1 * 0)) * (I1 + J1 * 0) := by
        norm_num [I1, J1]
      rw [hx, Real.mul_rpow (by norm_num [I1, J1]) (by norm_num [I1, J1])]
      apply mul_le_mul_of_nonneg_right _ (by norm_num [I1]; positivity)
      refine (Real.rpow_le_rpow_of_exponent_ge (z := 4) (by norm_num [I1, J1]) (by norm_num [I1, J1])
        (by norm_num [L1])).trans ?_
      rw [show (4:ℝ) = ((4:ℕ):ℝ) by norm_num, Real.rpow_natCast]
      norm_num [I1, J1]
    have d3 : isadens0 h ≤ 0.4 * isadens0 0 := by linarith
    have p0 := dp 0
    obtain ⟨T, hTe⟩ : ∃ T, T = isatemp 0 h := ⟨_, rfl⟩
    obtain ⟨P, hPe⟩ : ∃ P, P = isadens0 0 := ⟨_, rfl⟩
    rw [← hTe] at tb tu hTh ⊢
    rw [← hPe] at d3 p0 ⊢
    have t1 : 216.65 ≤ T := by linarith [tb.1]
    have key : 0.4 * T * (288.15 + off) ≤ 288.15 * (T + off) := by
      have : 0 ≤ (off + 100) * (600 - T) := mul_nonneg (by linarith) (by linarith)
      norm_num at *
      nlinarith
    calc isadens0 h * T * (288.15 + off) ≤ 0.4 * P * T * (288.15 + off) := by
          apply mul_le_mul_of_nonneg_right _ hT0'.le
          exact mul_le_mul_of_nonneg_right d3 (by linarith)
      _ = P * (0.4 * T * (288.15 + off)) := by ring
      _ ≤ P * (288.15 * (T + off)) := mul_le_mul_of_nonneg_left key p0.le
      _ = _ := by ring

/-- In the ISA, with any offset from -100 K, the equivalent airspeed is at most the true airspeed at
every altitude from 0 to 50 km. -/
theorem C19_isa_eas_le_tas (off h v : ℝ) (h0 : 0 ≤ h) (h1 : h ≤ 50000) (ho : -100 ≤ off) (hv : 0 ≤ v) :
    (∃ e, Atmos.tas2eas (.isa off) v h = .ok e ∧ 0 ≤ e ∧ e ≤ v) ∧
    (∃ t, Atmos.eas2tas (.isa off) v h = .ok t ∧ v ≤ t) := by
  have tb := C11_bounds off h
  have tb0 := C11_bounds off 0
  have p := C13_positive off h (by linarith [tb.1])
  have p0 := C13_positive off 0 (by linarith [tb0.1])
  have k := dratio_ok (isa_dens1 off h h1) (isa_dens1 off 0 (by norm_num)) p p0
  have hs1 : √(isadens off h / isadens off 0) ≤ 1 := by
    refine (Real.sqrt_le_sqrt ?_).trans_eq Real.sqrt_one
    rw [div_le_one p0]; exact isadens_le_sl off h h0 h1 ho
  have hs0 : 0 < √(isadens off h / isadens off 0) := Real.sqrt_pos.mpr (by positivity)
  constructor
  · refine ⟨_, by unfold Atmos.tas2eas; rw [k]; rfl, by positivity, ?_⟩
    nlinarith
  · refine ⟨_, by unfold Atmos.eas2tas; rw [k]; rfl, ?_⟩
    rw [le_div_iff₀ hs0]; nlinarith

example : (0:ℝ) ≤ 9000 ∧ (9000:ℝ) ≤ 50000 ∧ (-100:ℝ) ≤ -15 := by norm_num
example : dens1 (.isa 10) 9000 = .ok (isadens 10 9000) ∧ 0 < isadens 10 9000 :=
  ⟨isa_dens1 _ _ (by norm_num), C13_positive _ _ (by norm_num [isatemp, Level1, A1, B1])⟩

/-! ### C20 -/

/-- The part of the formula that depends on pressure ratio and Mach number. -/
theorem mpseas2mpscas_eq {a : Atm} {e h d d0 p p0 c : ℝ} (hd : dens1 a h = .ok d) (hd0 : dens1 a 0 = .ok d0)
    (pd : 0 < d) (pd0 : 0 < d0) (hp : press1 a h = .ok p) (hp0 : press1 a 0 = .ok p0)
    (hc : vsound_mps a (.scalar h) = .ok (.scalar c)) :
    mpseas2mpscas a e h = .ok (e * (1 + (1 - p / p0) * (e / √(d / d0) / c) ^ 2 *
      (1 / 8 + 3 / 640 * (1 - 9 * (p / p0)) * (e / √(d / d0) / c) ^ 2)), e / √(d / d0) / c) := by
  have k := dratio_ok hd hd0 pd pd0
  have e1 : Atmos.eas2tas a e h = .ok (e / √(d / d0)) := by unfold Atmos.eas2tas; rw [k]; rfl
  have m1 : mach1 a (e / √(d / d0)) h = .ok (e / √(d / d0) / c) := by
    unfold mach1; rw [(C18_ratio a h c hc).1]; rfl
  unfold mpseas2mpscas
  rw [e1]
  show (mach1 a _ h >>= _) = _
  rw [m1, hp, hp0]
  show Except.ok _ = _
  congr 2
  ring

/-- At an altitude whose pressure is `p` and sea-level pressure `p0`: CAS is EAS times at least 1
(a) for every Mach number when p ≤ p0/9, (b) for Mach numbers with M² ≤ 10/3 (in particular up to 1.82)
when p ≤ p0; the second component is the Mach number of the true airspeed. -/
theorem C20_cas (a : Atm) (e h d d0 p p0 c : ℝ) (hd : dens1 a h = .ok d) (hd0 : dens1 a 0 = .ok d0)
    (pd : 0 < d) (pd0 : 0 < d0) (hp : press1 a h = .ok p) (hp0 : press1 a 0 = .ok p0)
    (hc : vsound_mps a (.scalar h) = .ok (.scalar c)) (pp : 0 < p) (pp0 : 0 < p0) (he : 0 ≤ e) :
    ∃ cas m t, mpseas2mpscas a e h = .ok (cas, m) ∧ Atmos.eas2tas a e h = .ok t ∧
      mach a (.scalar t) (.scalar h) = .ok [m] ∧
      (p ≤ p0 / 9 → e ≤ cas) ∧ (p ≤ p0 → m ^ 2 ≤ 10 / 3 → e ≤ cas) ∧ (p = p0 → cas = e) := by
  have k := dratio_ok hd hd0 pd pd0
  refine ⟨_, _, _, mpseas2mpscas_eq hd hd0 pd pd0 hp hp0 hc,
    by unfold Atmos.eas2tas; rw [k]; rfl, (C18_ratio a h c hc).1 _, ?_, ?_, ?_⟩
  · intro hle
    have h9 : p / p0 ≤ 1 / 9 := by rw [div_le_iff₀ pp0]; linarith
    generalize p / p0 = δ at *
    have hm0 : 0 ≤ (e / √(d / d0) / c) ^ 2 := sq_nonneg _
    generalize (e / √(d / d0) / c) ^ 2 = m2 at *
    have : 0 ≤ (1 - δ) * m2 * (1 / 8 + 3 / 640 * (1 - 9 * δ) * m2) := by
      apply mul_nonneg (mul_nonneg (by linarith) hm0)
      have : 0 ≤ (1 - 9 * δ) * m2 := mul_nonneg (by linarith) hm0
      linarith
    nlinarith
  · intro hle hm
    have h9 : p / p0 ≤ 1 := by rw [div_le_iff₀ pp0]; linarith
    have hδ : 0 < p / p0 := by positivity
    have hm0 : 0 ≤ (e / √(d / d0) / c) ^ 2 := sq_nonneg _
    generalize p / p0 = δ at *
    generalize (e / √(d / d0) / c) ^ 2 = m2 at *
    have : 0 ≤ 1 / 8 + 3 / 640 * (1 - 9 * δ) * m2 := by nlinarith
    have : 0 ≤ (1 - δ) * m2 * (1 / 8 + 3 / 640 * (1 - 9 * δ) * m2) :=
      mul_nonneg (mul_nonneg (by linarith) hm0) this
    nlinarith
  · intro hpe
    rw [hpe, div_self pp0.ne']; ring

theorem isapress_le_sl (h : ℝ) (h0 : 0 ≤ h) : isapress h ≤ isapress 0 := by
  rcases eq_or_lt_of_le h0 with rfl | hp
  · exact le_rfl
  by_cases hl : h < 20000
  · exact (C12_decreasing_block 0 h hp (Or.inl hl)).le
  · exact (C12_decreasing_apart 0 h (by norm_num at *; linarith)).le

/-- In every ISA with offset above -216.65 K and at every altitude from 0 to 50 km, the EAS to CAS
conversion returns a CAS of at least the EAS for Mach numbers with M² ≤ 10/3, together with the Mach
number; at sea level CAS = EAS for every speed. -/
theorem C20_isa (off h e : ℝ) (h0 : 0 ≤ h) (h1 : h ≤ 50000) (ho : -216.65 < off) (he : 0 ≤ e) :
    ∃ cas m, mpseas2mpscas (.isa off) e h = .ok (cas, m) ∧ 0 ≤ m ∧ (m ^ 2 ≤ 10 / 3 → e ≤ cas) ∧
      (h = 0 → cas = e) := by
  have tb := C11_bounds off h
  have tb0 := C11_bounds off 0
  have hT : 0 < isatemp off h := by linarith [tb.1]
  have p := C13_positive off h hT
  have p0 := C13_positive off 0 (by linarith [tb0.1])
  obtain ⟨cas, m, t, r1, r2, r3, r4, r5, r6⟩ := C20_cas (.isa off) e h _ _ _ _ _ (isa_dens1 off h h1)
    (isa_dens1 off 0 (by norm_num)) p p0 (isa_press1 off h h1) (isa_press1 off 0 (by norm_num))
    (isa_vsound off h h1 hT.le) (C12_positive h) (C12_positive 0) he
  refine ⟨cas, m, r1, ?_, r5 (isapress_le_sl h h0), fun h => r6 (by rw [h])⟩
  have i := (C19_inverse (.isa off) h _ _ e (isa_dens1 off h h1) (isa_dens1 off 0 (by norm_num)) p p0).2.2
  obtain ⟨t', ht', _, ht2⟩ := i
  rw [r2] at ht'; cases ht'
  obtain ⟨m', hm', _, hm2⟩ := C18_magnitude off h t h1 hT
  rw [r3] at hm'; cases hm'
  exact hm2.mp (ht2.mp he)

example : ∃ cas m t, mpseas2mpscas (.isa 10) 100 9000 = .ok (cas, m) ∧ Atmos.eas2tas (.isa 10) 100 9000 = .ok t ∧
    mach (.isa 10) (.scalar t) (.scalar 9000) = .ok [m] ∧ (isapress 9000 ≤ isapress 0 → m ^ 2 ≤ 10 / 3 → 100 ≤ cas) := by
  obtain ⟨cas, m, t, h1, h2, h3, -, h4, -⟩ := C20_cas (.isa 10) 100 9000 _ _ _ _ _ c19_ex.1 c19_ex.2.1 c19_ex.2.2.1 c19_ex.2.2.2
    (isa_press1 _ _ (by norm_num)) (isa_press1 _ _ (by norm_num))
    (isa_vsound 10 9000 (by norm_num) (by norm_num [isatemp, Level1, A1, B1])) (C12_positive _) (C12_positive _) (by norm_num)
  exact ⟨cas, m, t, h1, h2, h3, h4⟩

example : ∃ cas m, mpseas2mpscas (.isa 0) 120 12192 = .ok (cas, m) ∧ 0 ≤ m := by
  obtain ⟨cas, m, h, h0, -⟩ := C20_isa 0 12192 120 (by norm_num) (by norm_num) (by norm_num) (by norm_num)
  exact ⟨cas, m, h, h0⟩

/-- Beyond the validity of the approximation the correction has the wrong sign: whenever the pressure
is between 8/9 and 1 times the sea-level pressure, every Mach number from 2 up gives CAS < EAS. -/
theorem C20_high_mach_violated (a : Atm) (e h d d0 p p0 c : ℝ) (hd : dens1 a h = .ok d)
    (hd0 : dens1 a 0 = .ok d0) (pd : 0 < d) (pd0 : 0 < d0) (hp : press1 a h = .ok p)
    (hp0 : press1 a 0 = .ok p0) (hc : vsound_mps a (.scalar h) = .ok (.scalar c)) (pp0 : 0 < p0)
    (he : 0 < e) (h8 : 8 / 9 * p0 ≤ p) (h9 : p < p0) :
    ∃ cas m, mpseas2mpscas a e h = .ok (cas, m) ∧ (2 ≤ m → cas < e) := by
  refine ⟨_, _, mpseas2mpscas_eq hd hd0 pd pd0 hp hp0 hc, ?_⟩
  intro hm
  have hm2 : 4 ≤ (e / √(d / d0) / c) ^ 2 := by nlinarith
  have g1 : 8 / 9 ≤ p / p0 := by rw [le_div_iff₀ pp0]; exact h8
  have g2 : p / p0 < 1 := by rw [div_lt_one pp0]; exact h9
  generalize p / p0 = δ at *
  generalize (e / √(d / d0) / c) ^ 2 = m2 at *
  have : 1 / 8 + 3 / 640 * (1 - 9 * δ) * m2 < 0 := by nlinarith
  have : (1 - δ) * m2 * (1 / 8 + 3 / 640 * (1 - 9 * δ) * m2) < 0 :=
    mul_neg_of_pos_of_neg (mul_pos (by linarith) (by linarith)) this
  nlinarith

/-- Concretely: in the standard atmosphere at 100 m an equivalent airspeed of 1000 m/s is converted to a smaller
calibrated airspeed. -/
theorem C20_isa_high_mach_violated : ∃ cas m, mpseas2mpscas (.isa 0) 1000 100 = .ok (cas, m) ∧ cas < 1000 := by
  have eT : isatemp 0 100 = 287.5 := by norm_num [isatemp, Level1, A1, B1]
  have hT : 0 < isatemp 0 100 := by rw [eT]; norm_num
  have p := C13_positive 0 100 hT
  have p0 := C13_positive 0 0 (by norm_num [isatemp, Level1, A1, B1])
  have h8 : 8 / 9 * isapress 0 ≤ isapress 100 := by
    have e0 : isapress 0 = C1 ^ E1 := by norm_num [isapress, Level1]
    have e1 : isapress 100 = (C1 * (1 + D1 * 100 / C1)) ^ E1 := by
      have : C1 * (1 + D1 * 100 / C1) = C1 + D1 * 100 := by
        rw [mul_add, mul_one, mul_div_cancel₀ _ (by norm_num [C1])]
      rw [this]
      norm_num [isapress, Level1]
    rw [e0, e1, Real.mul_rpow (by norm_num [C1]) (by norm_num [C1, D1]), mul_comm]
    refine mul_le_mul_of_nonneg_left ?_ (Real.rpow_nonneg (by norm_num [C1]) _)
    refine le_trans ?_ (one_add_mul_self_le_rpow_one_add (s := D1 * 100 / C1) (by norm_num [C1, D1]) (p := E1) (by norm_num [E1]))
    norm_num [C1, D1, E1]
  obtain ⟨cas, m, h, hlt⟩ := C20_high_mach_violated (.isa 0) 1000 100 _ _ _ _ _ (isa_dens1 0 100 (by norm_num))
    (isa_dens1 0 0 (by norm_num)) p p0 (isa_press1 0 100 (by norm_num)) (isa_press1 0 0 (by norm_num))
    (isa_vsound 0 100 (by norm_num) hT.le) (C12_positive 0) (by norm_num) h8
    (C12_decreasing_block 0 100 (by norm_num) (Or.inl (by norm_num)))
  refine ⟨cas, m, h, hlt ?_⟩
  obtain ⟨⟨-⟩, t, ht, hle⟩ := C19_isa_eas_le_tas 0 100 1000 (by norm_num) (by norm_num) (by norm_num) (by norm_num)
  obtain ⟨m', hm, hsq, hpos⟩ := C18_magnitude 0 100 t (by norm_num) hT
  have : m = m' := by
    unfold mpseas2mpscas at h
    rw [ht, bind_ok] at h
    simp only [mach1, hm] at h
    simp only [bind_ok_iff, pure_ok_iff] at h
    obtain ⟨_, e, _, _, _, _, e'⟩ := h
    simp only [Prod.mk.injEq] at e'
    rw [← e'.2]
    obtain ⟨x, ex, e⟩ := e
    cases ex
    exact (Except.ok.inj e).symm
  rw [this]
  rw [eT] at hsq
  have h0 : 0 ≤ m' := hpos.mp (by linarith)
  nlinarith

/-- In knots the same holds up to the drift of the knots conversions: KCAS is at least KEAS less one
part in ten million, and KCAS differs from KEAS at sea level by at most that. -/
theorem C20_knots (off h k : ℝ) (h0 : 0 ≤ h) (h1 : h ≤ 50000) (ho : -216.65 < off) (hk : 0 ≤ k) :
    ∃ kcas m, keas2kcas (.isa off) k h = .ok (kcas, m) ∧
      (m ^ 2 ≤ 10 / 3 → k * (1 - 1e-7) ≤ kcas) ∧ (h = 0 → k * (1 - 1e-7) ≤ kcas ∧ kcas ≤ k) := by
  have hk2 : 0 ≤ kts2mps k := by unfold kts2mps; positivity
  obtain ⟨cas, m, r1, _, r3, r4⟩ := C20_isa off h (kts2mps k) h0 h1 ho hk2
  refine ⟨mps2kts cas, m, by unfold keas2kcas; rw [r1]; rfl, ?_, ?_⟩
  · intro hm
    have := r3 hm
    simp only [kts2mps, mps2kts] at *
    norm_num at *
    linarith
  · intro hh
    rw [r4 hh]
    simp only [kts2mps, mps2kts]
    constructor <;> norm_num <;> linarith

example : (0:ℝ) ≤ 12192 ∧ (12192:ℝ) ≤ 50000 ∧ (-216.65:ℝ) < 0 := by norm_num

end

end Verif.Props
