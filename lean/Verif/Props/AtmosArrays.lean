import Verif.Model.AtmosArrays
import Verif.Props.Atmosphere

/-
Property C107: speed conversions of arrays.
-/

namespace Verif.Props
open Verif Verif.Atmos Verif.Units

noncomputable section

theorem dens1_scalar {a : Atm} {h d : ℝ} (k : dens1 a h = .ok d) : airdens_kgpm3 a (.scalar h) = .ok (.scalar d) := by
  unfold dens1 at k
  rw [bind_ok_iff] at k
  obtain ⟨r, h1, h2⟩ := k
  cases r with
  | scalar x => cases h2; exact h1
  | array l => cases h2

theorem press1_scalar {a : Atm} {h d : ℝ} (k : press1 a h = .ok d) : airpress_pa a (.scalar h) = .ok (.scalar d) := by
  unfold press1 at k
  rw [bind_ok_iff] at k
  obtain ⟨r, h1, h2⟩ := k
  cases r with
  | scalar x => cases h2; exact h1
  | array l => cases h2

/-- The elements of a number or an array. -/
def elems : NumArg → List ℝ
  | .scalar x => [x]
  | .array xs => xs

/-- `y` is of the kind of `x` (number or array), with the values of `f` at the elements of `x`. -/
inductive Elementwise (f : ℝ → ℝ) : NumArg → NumArg → Prop
  | scalar (x : ℝ) : Elementwise f (.scalar x) (.scalar (f x))
  | array (xs : List ℝ) : Elementwise f (.array xs) (.array (xs.map f))

theorem npMap_elementwise (f : ℝ → ℝ) (x : NumArg) : Elementwise f x (npMap f x) := by
  cases x with
  | scalar x => exact .scalar x
  | array xs => exact .array xs

/-- Converting speeds at one altitude converts each of them: for arrays as for single speeds. -/
theorem C107_eas_tas (a : Atm) (h d d0 : ℝ) (hd : dens1 a h = .ok d) (hd0 : dens1 a 0 = .ok d0) (p : 0 < d) (p0 : 0 < d0) (v : NumArg) :
    (∃ f t, eas2tasN a v (.scalar h) = .ok t ∧ Elementwise f v t ∧ ∀ x, Atmos.eas2tas a x h = .ok (f x)) ∧
    (∃ f e, tas2easN a v (.scalar h) = .ok e ∧ Elementwise f v e ∧ ∀ x, Atmos.tas2eas a x h = .ok (f x)) := by
  have k : rootRatio a (.scalar h) = .ok (√(d / d0)) := by
    unfold rootRatio
    rw [dens1_scalar hd, dens1_scalar hd0]
    simp only [bind_ok]
    rw [if_neg (not_lt.mpr (div_pos p p0).le)]
  have k' := dratio_ok hd hd0 p p0
  refine ⟨⟨fun x => x / √(d / d0), _, ?_, npMap_elementwise _ v, fun x => ?_⟩, ⟨fun x => x * √(d / d0), _, ?_, npMap_elementwise _ v, fun x => ?_⟩⟩
  · unfold eas2tasN; rw [k]; rfl
  · unfold Atmos.eas2tas; rw [k']; rfl
  · unfold tas2easN; rw [k]; rfl
  · unfold Atmos.tas2eas; rw [k']; rfl

example : ∃ f t, eas2tasN (.isa 10) (.array [100, 150]) (.scalar 9000) = .ok t ∧ Elementwise f (.array [100, 150]) t ∧
    ∀ x, Atmos.eas2tas (.isa 10) x 9000 = .ok (f x) :=
  (C107_eas_tas _ 9000 _ _ c19_ex.1 c19_ex.2.1 c19_ex.2.2.1 c19_ex.2.2.2 (.array [100, 150])).1

/-- Several altitudes at once are not accepted by any of the four conversions. -/
theorem C107_altitudes (off : ℝ) (hs : List ℝ) (hlen : 2 ≤ hs.length) (hh : ∀ h ∈ hs, h ≤ 50000) (v : NumArg) :
    eas2tasN (.isa off) v (.array hs) = .error .typeError ∧ tas2easN (.isa off) v (.array hs) = .error .typeError ∧
    mpseas2mpscasN (.isa off) v (.array hs) = .error .typeError ∧ keas2kcasN (.isa off) v (.array hs) = .error .typeError := by
  have k1 : airdens_kgpm3 (.isa off) (.array hs) = .ok (.array (hs.map (isadens off))) := by
    unfold airdens_kgpm3
    rw [alttest_isa_ok (by simpa [recastArray] using hh)]
    match hs, hlen with
    | a :: b :: t, _ => rfl
  have k : rootRatio (.isa off) (.array hs) = .error .typeError := by
    unfold rootRatio
    rw [k1, dens1_scalar (isa_dens1 off 0 (by norm_num))]; rfl
  have e : ∀ v, eas2tasN (.isa off) v (.array hs) = .error .typeError := fun v => by unfold eas2tasN; rw [k]; rfl
  have m : ∀ v, mpseas2mpscasN (.isa off) v (.array hs) = .error .typeError := fun v => by unfold mpseas2mpscasN; rw [e]; rfl
  refine ⟨e v, by unfold tas2easN; rw [k]; rfl, m v, by unfold keas2kcasN; rw [m]; rfl⟩

/-- Dynamic pressures at one speed and any altitudes: the dynamic pressure at each of them, an array for an array of several. -/
theorem C107_dynamic_pressures (off v : ℝ) (hs : List ℝ) (hlen : 2 ≤ hs.length) (hh : ∀ h ∈ hs, h ≤ 50000) :
    ∃ f, dynamicpressures_pa (.isa off) (.scalar v) (.array hs) = .ok (.array (hs.map f)) ∧
      ∀ h ∈ hs, dynamicpressure_pa (.isa off) v h = .ok (f h) ∧ dynamicpressures_pa (.isa off) (.scalar v) (.scalar h) = .ok (.scalar (f h)) := by
  have k1 : airdens_kgpm3 (.isa off) (.array hs) = .ok (.array (hs.map (isadens off))) := by
    unfold airdens_kgpm3
    rw [alttest_isa_ok (by simpa [recastArray] using hh)]
    match hs, hlen with
    | a :: b :: t, _ => rfl
  refine ⟨fun h => 0.5 * isadens off h * v ^ 2, ?_, fun h hm => ⟨?_, ?_⟩⟩
  · unfold dynamicpressures_pa
    rw [k1]
    simp only [bind_ok, npMap, npOp, List.map_map]
    rfl
  · unfold dynamicpressure_pa; rw [isa_dens1 off h (hh h hm)]; rfl
  · unfold dynamicpressures_pa; rw [dens1_scalar (isa_dens1 off h (hh h hm))]; rfl

/-- Arrays of speeds: the dynamic pressure at each. -/
theorem C107_dynamic_speeds (a : Atm) (h d : ℝ) (hd : dens1 a h = .ok d) (v : NumArg) :
    ∃ f q, dynamicpressures_pa a v (.scalar h) = .ok q ∧ Elementwise f v q ∧ ∀ x, dynamicpressure_pa a x h = .ok (f x) := by
  refine ⟨fun x => 0.5 * d * x ^ 2, npMap (fun x => 0.5 * d * x ^ 2) v, ?_, npMap_elementwise _ v, fun x => ?_⟩
  · unfold dynamicpressures_pa
    rw [dens1_scalar hd]
    cases v with
    | scalar x => rfl
    | array xs => simp only [bind_ok, npMap, npOp, List.map_map]; rfl
  · unfold dynamicpressure_pa; rw [hd]; rfl

example : ∃ f q, dynamicpressures_pa (.isa 10) (.array [100, 150]) (.scalar 9000) = .ok q ∧
    Elementwise f (.array [100, 150]) q ∧ ∀ x, dynamicpressure_pa (.isa 10) x 9000 = .ok (f x) :=
  C107_dynamic_speeds _ 9000 _ c19_ex.1 _

theorem mpseas2mpscasN_eq {a : Atm} {h d d0 p p0 c : ℝ} (hd : dens1 a h = .ok d) (hd0 : dens1 a 0 = .ok d0)
    (pd : 0 < d) (pd0 : 0 < d0) (hp : press1 a h = .ok p) (hp0 : press1 a 0 = .ok p0)
    (hc : vsound_mps a (.scalar h) = .ok (.scalar c)) (v : NumArg) :
    ∃ f m : ℝ → ℝ, mpseas2mpscasN a v (.scalar h) = .ok (.array ((elems v).map f), .array ((elems v).map m)) ∧
      ∀ x, mpseas2mpscas a x h = .ok (f x, m x) := by
  have k : rootRatio a (.scalar h) = .ok (√(d / d0)) := by
    unfold rootRatio
    rw [dens1_scalar hd, dens1_scalar hd0]
    simp only [bind_ok]
    rw [if_neg (not_lt.mpr (div_pos pd pd0).le)]
  have k' := dratio_ok hd hd0 pd pd0
  have hm := C18_ratio a h c hc
  refine ⟨fun e => e * (1 + (1 / 8) * (1 - p / p0) * (e / √(d / d0) / c) ^ 2 +
      (3 / 640) * (1 - 10 * (p / p0) + 9 * (p / p0) ^ 2) * (e / √(d / d0) / c) ^ 4), fun e => e / √(d / d0) / c, ?_, fun x => ?_⟩
  · unfold mpseas2mpscasN eas2tasN
    rw [k, press1_scalar hp, press1_scalar hp0]
    cases v with
    | scalar x =>
      simp only [bind_ok, pure_bind, npMap, hm.1, npOp, List.map_cons, List.map_nil, elems]
      rfl
    | array xs =>
      have b2 : ∀ (g : ℝ → ℝ → ℝ) (f1 f2 : ℝ → ℝ), broadcast2 g (xs.map f1) (xs.map f2) = .ok (xs.map (fun x => g (f1 x) (f2 x))) := by
        intro g f1 f2
        unfold broadcast2
        rw [if_pos (by simp)]
        congr 1
        induction xs with
        | nil => rfl
        | cons y ys ih => simp [ih]
      have b3 : ∀ (g : ℝ → ℝ → ℝ) (f2 : ℝ → ℝ), broadcast2 g xs (xs.map f2) = .ok (xs.map (fun x => g x (f2 x))) := by
        intro g f2
        have := b2 g id f2
        rwa [List.map_id] at this
      simp only [bind_ok, pure_bind, npMap, hm.2, npOp, List.map_map, elems, Function.comp_def, b2, b3]
      rfl
  · unfold mpseas2mpscas Atmos.eas2tas
    rw [k']
    simp only [bind_ok, pure_bind]
    have m1 : mach1 a (x / √(d / d0)) h = .ok (x / √(d / d0) / c) := by unfold mach1; rw [hm.1]; rfl
    rw [m1, hp, hp0]; rfl

/-- Calibrated airspeeds and Mach numbers of an array of equivalent airspeeds: those of each speed. -/
theorem C107_cas (off h : ℝ) (hh : h ≤ 50000) (hT : 0 < isatemp off h) (hT0 : 0 < isatemp off 0) (v : NumArg) :
    ∃ f m g n : ℝ → ℝ, mpseas2mpscasN (.isa off) v (.scalar h) = .ok (.array ((elems v).map f), .array ((elems v).map m)) ∧
      (∀ x, mpseas2mpscas (.isa off) x h = .ok (f x, m x)) ∧
      keas2kcasN (.isa off) v (.scalar h) = .ok (.array ((elems v).map g), .array ((elems v).map n)) ∧
      ∀ x, keas2kcas (.isa off) x h = .ok (g x, n x) := by
  have key := fun v => mpseas2mpscasN_eq (isa_dens1 off h hh) (isa_dens1 off 0 (by norm_num)) (C13_positive off h hT) (C13_positive off 0 hT0)
    (isa_press1 off h hh) (isa_press1 off 0 (by norm_num)) (isa_vsound off h hh hT.le) v
  obtain ⟨f, m, h1, h2⟩ := key v
  obtain ⟨f', m', h1', h2'⟩ := key (npMap kts2mps v)
  have e1 : f' = f := by ext x; have := h2 x; rw [h2' x] at this; exact (Prod.mk.inj (Except.ok.inj this)).1
  have e2 : m' = m := by ext x; have := h2 x; rw [h2' x] at this; exact (Prod.mk.inj (Except.ok.inj this)).2
  subst e1 e2
  have ee : elems (npMap kts2mps v) = (elems v).map kts2mps := by cases v <;> rfl
  refine ⟨f', m', fun x => mps2kts (f' (kts2mps x)), fun x => m' (kts2mps x), h1, h2, ?_, fun x => ?_⟩
  · unfold keas2kcasN
    rw [h1', ee]
    simp only [bind_ok, npMap, List.map_map, Function.comp_def]
    rfl
  · unfold keas2kcas; rw [h2]; rfl

/-- For a single speed too the results are arrays, of one element, although a float is documented for the Mach number. -/
theorem C107_float_violated (off h : ℝ) (hh : h ≤ 50000) (hT : 0 < isatemp off h) (hT0 : 0 < isatemp off 0) (x : ℝ) :
    ∃ cas m, keas2kcasN (.isa off) (.scalar x) (.scalar h) = .ok (.array [cas], .array [m]) := by
  obtain ⟨-, -, g, n, -, -, h, -⟩ := C107_cas off h hh hT hT0 (.scalar x)
  exact ⟨g x, n x, h⟩

/-- The conversions of the documentation's example: three equivalent airspeeds at 40000 ft. -/
example : ∃ k m : ℝ → ℝ, keas2kcasN (.isa 0) (.array [100, 200, 300]) (.scalar 12192) = .ok (.array [k 100, k 200, k 300], .array [m 100, m 200, m 300]) := by
  obtain ⟨f, m, g, n, -, -, h, -⟩ := C107_cas 0 12192 (by norm_num) (by have := (C11_bounds 0 12192).1; linarith)
    (by have := (C11_bounds 0 0).1; linarith) (.array [100, 200, 300])
  exact ⟨g, n, h⟩

example : keas2kcasN (.isa 0) (.array [100, 200]) (.array [0, 5000]) = .error .typeError :=
  (C107_altitudes 0 [0, 5000] (by simp) (by intro h hh; simp at hh; rcases hh with rfl | rfl <;> norm_num) _).2.2.2

/-- The documentation's example: 20 m/s at four altitudes. -/
example : ∃ f : ℝ → ℝ, dynamicpressures_pa (.isa 0) (.scalar 20) (.array [0, 500, 1000, 1500]) = .ok (.array [f 0, f 500, f 1000, f 1500]) := by
  obtain ⟨f, h, -⟩ := C107_dynamic_pressures 0 20 [0, 500, 1000, 1500] (by simp)
    (by intro h hh; simp at hh; rcases hh with rfl | rfl | rfl | rfl <;> norm_num)
  exact ⟨f, h⟩

end

end Verif.Props
