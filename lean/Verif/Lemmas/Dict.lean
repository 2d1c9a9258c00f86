import Verif.Lemmas.PyM
import Verif.Model.Concept

/-
Facts about dictionaries and the constructor's loops.
-/

namespace Verif.Aircraft
open Verif

noncomputable section

variable {α : Type}

theorem dget_dset (d : List (String × α)) (k k' : String) (v : α) :
    dget (dset d k v) k' = if k' = k then some v else dget d k' := by
  induction d with
  | nil => simp [dset, dget]
  | cons p t ih =>
    obtain ⟨k0, v0⟩ := p
    unfold dset
    by_cases h : k = k0
    · subst h
      by_cases h2 : k' = k <;> simp [dget, h2]
    · rw [if_neg h]
      by_cases h2 : k' = k0
      · subst h2
        have : ¬ k' = k := fun hh => h hh.symm
        simp [dget, this]
      · simp [dget, h2, ih]

theorem dset_self (d : List (String × α)) (k : String) (v : α) (h : dget d k = some v) :
    dset d k v = d := by
  induction d with
  | nil => simp [dget] at h
  | cons p t ih =>
    obtain ⟨k0, v0⟩ := p
    unfold dset
    by_cases hk : k = k0
    · rw [if_pos hk]
      simp [dget, hk] at h
      rw [h]
    · rw [if_neg hk, ih (by simpa [dget, hk] using h)]

theorem dget_some_mem (d : List (String × α)) (k : String) (v : α) (h : dget d k = some v) : (k, v) ∈ d := by
  induction d with
  | nil => simp [dget] at h
  | cons p t ih =>
    obtain ⟨k0, v0⟩ := p
    by_cases hk : k = k0
    · simp [dget, hk] at h
      subst h; subst hk; simp
    · exact List.mem_cons_of_mem _ (ih (by simpa [dget, hk] using h))

theorem dget_none_iff (d : List (String × α)) (k : String) : dget d k = none ↔ k ∉ d.map (·.1) := by
  induction d with
  | nil => simp [dget]
  | cons p t ih =>
    obtain ⟨k0, v0⟩ := p
    by_cases hk : k = k0
    · simp [dget, hk]
    · simp [dget, hk, ih]

theorem dgetE_ok_iff (d : List (String × α)) (k : String) (v : α) : dgetE d k = .ok v ↔ dget d k = some v := by
  unfold dgetE
  cases dget d k <;> simp

/-! ### Sub-dictionaries -/

theorem dget_fillSub (t s : SubDict) (k : String) : dget (fillSub t s) k = (dget s k).or (dget t k) := by
  induction t generalizing s with
  | nil => simp [fillSub, dget]
  | cons p t ih =>
    obtain ⟨k0, v0⟩ := p
    show dget (fillSub t (if (dget s k0).isSome then s else dset s k0 v0)) k = _
    rw [ih]
    by_cases hk : k = k0
    · subst hk
      cases h : dget s k with
      | none => simp [dget_dset, dget]
      | some x => simp [h]
    · cases h : dget s k0 with
      | none => simp [dget_dset, hk, dget]
      | some x => simp [dget, hk]

/-- Nothing is added when every default key is present. -/
theorem fillSub_id (t s : SubDict) (h : ∀ k ∈ t.map (·.1), (dget s k).isSome) : fillSub t s = s := by
  induction t with
  | nil => rfl
  | cons p t ih =>
    obtain ⟨k0, v0⟩ := p
    show fillSub t (if (dget s k0).isSome then s else dset s k0 v0) = _
    rw [if_pos (h k0 (by simp))]
    exact ih (fun k hk => h k (by simp at hk ⊢; exact Or.inr hk))

/-! ### Filling -/

/-- Entry after filling: the default when absent, the union for two sub-dictionaries, else as given. -/
def filled (dflt : Val) : Option Val → Val
  | none => dflt
  | some (.sub s) => match dflt with
    | .sub t => .sub (fillSub t s)
    | _ => .sub s
  | some x => x

theorem fillKey_spec (d d' : Dict) (k : String) (v : Val) (h : fillKey d (k, v) = .ok d') (k' : String) :
    dget d' k' = if k' = k then some (filled v (dget d k)) else dget d k' := by
  unfold fillKey at h
  simp only at h
  cases hk : dget d k with
  | none =>
    rw [hk] at h; simp only at h; cases h
    rw [dget_dset]; rfl
  | some x =>
    rw [hk] at h
    cases x with
    | sub s =>
      cases v with
      | sub t =>
        simp only at h; cases h
        rw [dget_dset]; rfl
      | _ => simp at h
    | _ =>
      simp only at h; cases h
      by_cases h2 : k' = k
      · subst h2; simp [hk, filled]
      · simp [h2]

theorem fill_spec (dflts d d' : Dict) (hn : (dflts.map (·.1)).Nodup) (h : fill dflts d = .ok d') (k : String) :
    dget d' k = match dget dflts k with
      | some v => some (filled v (dget d k))
      | none => dget d k := by
  induction dflts generalizing d with
  | nil => cases h; rfl
  | cons p t ih =>
    obtain ⟨k0, v0⟩ := p
    unfold fill at h
    rw [List.foldlM_cons, bind_ok_iff] at h
    obtain ⟨d1, h1, h2⟩ := h
    have s1 := fillKey_spec d d1 k0 v0 h1
    have hn' : k0 ∉ t.map (·.1) ∧ (t.map (·.1)).Nodup := by simpa using hn
    have := ih d1 hn'.2 h2
    rw [this, s1]
    by_cases hk : k = k0
    · subst hk
      rw [(dget_none_iff t k).mpr hn'.1]
      simp [dget]
    · simp [dget, hk]

/-- Filling succeeds exactly when no sub-dictionary is given for a key with a scalar default. -/
theorem fill_ok_iff (dflts d : Dict) (hn : (dflts.map (·.1)).Nodup) :
    (∃ d', fill dflts d = .ok d') ↔
      ∀ k v, (k, v) ∈ dflts → (∃ s, dget d k = some (.sub s)) → ∃ t, v = .sub t := by
  induction dflts generalizing d with
  | nil => simp [fill, pure, Except.pure]
  | cons p t ih =>
    obtain ⟨k0, v0⟩ := p
    have hn' : k0 ∉ t.map (·.1) ∧ (t.map (·.1)).Nodup := by simpa using hn
    have hfold : fill ((k0, v0) :: t) d = (fillKey d (k0, v0) >>= fun d1 => fill t d1) := by
      unfold fill; rw [List.foldlM_cons]
    rw [hfold]
    have hstep : ∀ d1, fillKey d (k0, v0) = .ok d1 → ((∃ d', fill t d1 = .ok d') ↔
        ∀ k v, (k, v) ∈ t → (∃ s, dget d k = some (.sub s)) → ∃ t, v = .sub t) := by
      intro d1 h1
      rw [ih d1 hn'.2]
      have s1 := fillKey_spec d d1 k0 v0 h1
      constructor
      · intro H k v hm hs
        refine H k v hm ?_
        have : k ≠ k0 := by
          rintro rfl; exact hn'.1 (List.mem_map.mpr ⟨_, hm, rfl⟩)
        simpa [s1, this] using hs
      · intro H k v hm hs
        refine H k v hm ?_
        have : k ≠ k0 := by
          rintro rfl; exact hn'.1 (List.mem_map.mpr ⟨_, hm, rfl⟩)
        simpa [s1, this] using hs
    cases h1 : fillKey d (k0, v0) with
    | error e =>
      simp only [bind_error, reduceCtorEq, exists_false, false_iff, not_forall]
      unfold fillKey at h1
      simp only at h1
      cases hk : dget d k0 with
      | none => rw [hk] at h1; simp at h1
      | some x =>
        rw [hk] at h1
        cases x with
        | sub s =>
          cases v0 with
          | sub t => simp at h1
          | flag => exact ⟨k0, .flag, by simp, ⟨s, hk⟩, by simp⟩
          | num x => exact ⟨k0, .num x, by simp, ⟨s, hk⟩, by simp⟩
          | list x => exact ⟨k0, .list x, by simp, ⟨s, hk⟩, by simp⟩
        | _ => simp at h1
    | ok d1 =>
      rw [bind_ok, hstep d1 h1]
      constructor
      · intro H k v hm hs
        rcases List.mem_cons.mp hm with hm | hm
        · cases hm
          obtain ⟨s, hs⟩ := hs
          unfold fillKey at h1
          rw [hs] at h1
          cases v0 with
          | sub t => exact ⟨t, rfl⟩
          | _ => simp at h1
        · exact H k v hm hs
      · intro H k v hm hs
        exact H k v (List.mem_cons_of_mem _ hm) hs

/-- Filling changes nothing when every default key is present and every sub-dictionary complete. -/
theorem fill_id (dflts d : Dict)
    (h : ∀ k v, (k, v) ∈ dflts → (∃ x, dget d k = some x ∧ ∀ s, x ≠ .sub s) ∨
      (∃ s t, dget d k = some (.sub s) ∧ v = .sub t ∧ ∀ k ∈ t.map (·.1), (dget s k).isSome)) :
    fill dflts d = .ok d := by
  induction dflts with
  | nil => rfl
  | cons p t ih =>
    obtain ⟨k0, v0⟩ := p
    have h1 : fillKey d (k0, v0) = .ok d := by
      rcases h k0 v0 (by simp) with ⟨x, hx, hns⟩ | ⟨s, t, hs, rfl, hk⟩
      · unfold fillKey
        rw [hx]
        cases x with
        | sub s => exact absurd rfl (hns s)
        | _ => rfl
      · unfold fillKey
        rw [hs]
        simp only
        rw [fillSub_id t s hk, dset_self d k0 _ hs]
    unfold fill
    rw [List.foldlM_cons, h1]
    exact ih (fun k v hm => h k v (List.mem_cons_of_mem _ hm))

/-! ### Averaging -/

/-- Entry after averaging. -/
def averaged : Val → Val
  | .list xs => .num (xs.sum / xs.length)
  | x => x

theorem averageKey_spec (d d' : Dict) (k : String) (h : averageKey d k = .ok d') (k' : String) :
    dget d' k' = if k' = k then (dget d k).map averaged else dget d k' := by
  unfold averageKey at h
  rw [bind_ok_iff] at h
  obtain ⟨x, hx, h⟩ := h
  rw [dgetE_ok_iff] at hx
  cases x with
  | list xs =>
    simp only [bind_ok_iff] at h
    obtain ⟨m, hm, h⟩ := h
    cases h
    unfold pyMean at hm
    split_ifs at hm
    cases hm
    rw [dget_dset, hx]; rfl
  | _ =>
    cases h
    by_cases h2 : k' = k
    · subst h2; simp [hx, averaged]
    · simp [h2]

theorem average_spec (dflts d d' : Dict) (hn : (dflts.map (·.1)).Nodup) (h : average dflts d = .ok d') (k : String) :
    dget d' k = if k ∈ dflts.map (·.1) then (dget d k).map averaged else dget d k := by
  unfold average at h
  generalize dflts.map (·.1) = ks at *
  induction ks generalizing d with
  | nil => cases h; simp
  | cons k0 t ih =>
    rw [List.foldlM_cons, bind_ok_iff] at h
    obtain ⟨d1, h1, h2⟩ := h
    have s1 := averageKey_spec d d1 k0 h1
    have hn' : k0 ∉ t ∧ t.Nodup := by simpa using hn
    rw [ih d1 hn'.2 h2, s1]
    by_cases hk : k = k0
    · subst hk; simp [hn'.1, s1]
    · simp [hk, s1]

/-- Averaging succeeds when every key is present and no list is empty; it raises ZeroDivisionError when
every key is present and some list is empty. -/
theorem average_ok (dflts d : Dict) (hn : (dflts.map (·.1)).Nodup) (hp : ∀ k ∈ dflts.map (·.1), (dget d k).isSome) :
    ((∀ k ∈ dflts.map (·.1), dget d k ≠ some (.list [])) → ∃ d', average dflts d = .ok d') ∧
    ((∃ k ∈ dflts.map (·.1), dget d k = some (.list [])) → average dflts d = .error .zeroDivisionError) := by
  unfold average
  generalize dflts.map (·.1) = ks at *
  induction ks generalizing d with
  | nil => exact ⟨fun _ => ⟨d, rfl⟩, fun h => by simp at h⟩
  | cons k0 t ih =>
    have hn' : k0 ∉ t ∧ t.Nodup := by simpa using hn
    obtain ⟨x, hx⟩ := Option.isSome_iff_exists.mp (hp k0 (by simp))
    rw [List.foldlM_cons]
    by_cases he : x = .list []
    · have : averageKey d k0 = .error .zeroDivisionError := by
        unfold averageKey
        rw [(dgetE_ok_iff _ _ _).mpr hx, he, bind_ok]
        simp only [pyMean, if_true]
        rfl
      rw [this]
      exact ⟨fun h => absurd (he ▸ hx) (h k0 (by simp)), fun _ => rfl⟩
    · have : ∃ d1, averageKey d k0 = .ok d1 := by
        unfold averageKey
        rw [(dgetE_ok_iff _ _ _).mpr hx, bind_ok]
        cases x with
        | list xs =>
          have : xs ≠ [] := by rintro rfl; exact he rfl
          simp only [pyMean, if_neg this]
          exact ⟨_, rfl⟩
        | _ => exact ⟨_, rfl⟩
      obtain ⟨d1, h1⟩ := this
      rw [h1, bind_ok]
      have s1 := averageKey_spec d d1 k0 h1
      have e : ∀ k ∈ t, dget d1 k = dget d k := by
        intro k hk
        have : k ≠ k0 := by rintro rfl; exact hn'.1 hk
        simp [s1, this]
      obtain ⟨i1, i2⟩ := ih d1 hn'.2 (fun k hk => by rw [e k hk]; exact hp k (by simp [hk]))
      refine ⟨fun h => i1 (fun k hk => by rw [e k hk]; exact h k (by simp [hk])), ?_⟩
      rintro ⟨k, hk, hke⟩
      refine i2 ⟨k, ?_, ?_⟩
      · rcases List.mem_cons.mp hk with rfl | hk
        · rw [hx] at hke; exact absurd (Option.some.inj hke) he
        · exact hk
      · rcases List.mem_cons.mp hk with rfl | hk
        · rw [hx] at hke; exact absurd (Option.some.inj hke) he
        · rw [e k hk, hke]

/-- Averaging changes nothing when there is no list. -/
theorem average_id (dflts d : Dict) (h : ∀ k ∈ dflts.map (·.1), ∃ x, dget d k = some x ∧ ∀ xs, x ≠ .list xs) :
    average dflts d = .ok d := by
  unfold average
  generalize dflts.map (·.1) = ks at *
  induction ks with
  | nil => rfl
  | cons k0 t ih =>
    obtain ⟨x, hx, hl⟩ := h k0 (by simp)
    have : averageKey d k0 = .ok d := by
      unfold averageKey
      rw [(dgetE_ok_iff _ _ _).mpr hx, bind_ok]
      cases x with
      | list xs => exact absurd rfl (hl xs)
      | _ => rfl
    rw [List.foldlM_cons, this, bind_ok]
    exact ih (fun k hk => h k (by simp [hk]))

end

end Verif.Aircraft
