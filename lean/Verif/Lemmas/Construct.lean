import Verif.Lemmas.Dict

/-
Stage by stage description of the constructor.
-/

namespace Verif.Aircraft
open Verif

noncomputable section

theorem nodup_brief : (default_brief.map (·.1)).Nodup := by
  simp only [default_brief, List.map]; decide
theorem nodup_design : (default_design.map (·.1)).Nodup := by
  simp only [default_design, List.map]; decide
theorem nodup_performance : (default_performance.map (·.1)).Nodup := by
  simp only [default_performance, List.map]; decide

theorem leDefault_spec (d d' : Dict) (h : leDefault d = .ok d') :
    (∀ k, k ≠ "sweep_le_deg" → dget d' k = dget d k) ∧
    ∃ v, dget d "sweep_le_deg" = some v ∧
      dget d' "sweep_le_deg" = some (match v with | .flag => .num 0 | x => x) := by
  unfold leDefault at h
  rw [bind_ok_iff] at h
  obtain ⟨v, hv, h⟩ := h
  rw [dgetE_ok_iff] at hv
  cases v <;> cases h
  · exact ⟨fun k hk => by simp [dget_dset, hk], _, hv, by simp [dget_dset]⟩
  all_goals exact ⟨fun k hk => rfl, _, hv, hv⟩

theorem mtDefault_spec (d d' : Dict) (h : mtDefault d = .ok d') :
    (∀ k, k ≠ "sweep_mt_deg" → dget d' k = dget d k) ∧
    ∃ v, dget d "sweep_mt_deg" = some v ∧
      dget d' "sweep_mt_deg" = match v with | .flag => dget d "sweep_le_deg" | x => some x := by
  unfold mtDefault at h
  rw [bind_ok_iff] at h
  obtain ⟨v, hv, h⟩ := h
  rw [dgetE_ok_iff] at hv
  cases v
  · simp only [bind_ok_iff, dgetE_ok_iff] at h
    obtain ⟨le, hle, h⟩ := h
    cases h
    exact ⟨fun k hk => by simp [dget_dset, hk], _, hv, by simp [dget_dset, hle]⟩
  all_goals (cases h; exact ⟨fun k hk => rfl, _, hv, hv⟩)

theorem sweep25Default_spec (d d' : Dict) (h : sweep25Default d = .ok d') :
    (∀ k, k ≠ "sweep_25_deg" → dget d' k = dget d k) ∧
    ((∃ le mt, dget d "sweep_25_deg" = some .flag ∧ dget d "sweep_le_deg" = some (.num le) ∧
        dget d "sweep_mt_deg" = some (.num mt) ∧ dget d' "sweep_25_deg" = some (.num (2 * le + (5 * mt) / 7))) ∨
      (∃ v, dget d "sweep_25_deg" = some v ∧ v ≠ .flag ∧ dget d' "sweep_25_deg" = some v)) := by
  unfold sweep25Default at h
  rw [bind_ok_iff] at h
  obtain ⟨v, hv, h⟩ := h
  rw [dgetE_ok_iff] at hv
  cases v
  · simp only [bind_ok_iff, dgetE_ok_iff] at h
    obtain ⟨le, hle, mt, hmt, h⟩ := h
    cases le <;> cases mt <;> first | (exfalso; cases h; done) | skip
    cases h
    exact ⟨fun k hk => by simp [dget_dset, hk], Or.inl ⟨_, _, hv, hle, hmt, by simp [dget_dset]⟩⟩
  all_goals (cases h; exact ⟨fun k hk => rfl, Or.inr ⟨_, hv, by simp, hv⟩⟩)

theorem taperDefault_spec (d d' : Dict) (t : Bool) (h : taperDefault d = .ok (d', t)) :
    (∀ k, k ≠ "roottaperratio" → dget d' k = dget d k) ∧
    ((∃ v a, dget d "roottaperratio" = some .flag ∧ dget d "sweep_25_deg" = some v ∧ sweepAvg v = .ok a ∧
        dget d' "roottaperratio" = some (.num (0.45 * Real.exp (-0.0375 * a))) ∧ t = true) ∨
      (∃ v, dget d "roottaperratio" = some v ∧ v ≠ .flag ∧ dget d' "roottaperratio" = some v ∧ t = false)) := by
  unfold taperDefault at h
  rw [bind_ok_iff] at h
  obtain ⟨v, hv, h⟩ := h
  rw [dgetE_ok_iff] at hv
  cases v
  · simp only [bind_ok_iff, dgetE_ok_iff] at h
    obtain ⟨w, hw, a, ha, h⟩ := h
    cases h
    exact ⟨fun k hk => by simp [dget_dset, hk], Or.inl ⟨w, a, hv, hw, ha, by simp [dget_dset], rfl⟩⟩
  all_goals (cases h; exact ⟨fun k hk => rfl, Or.inr ⟨_, hv, by simp, hv, rfl⟩⟩)

theorem etaLoop_spec (s s' : SubDict) (n : ℕ) (h : etaLoop s = .ok (s', n)) :
    (∀ k, dget s' k = (dget s k).map (fun v => match v with | some x => some x | none => dget default_etaprop k)) ∧
    n = s.countP (fun kv => kv.2.isNone) ∧
    (∀ k, (k, none) ∈ s → (dget default_etaprop k).isSome) ∧
    (∀ k v, (k, v) ∈ s' → v.isSome) := by
  induction s generalizing s' n with
  | nil => cases h; simp [dget]
  | cons p t ih =>
    obtain ⟨k0, v0⟩ := p
    cases v0 with
    | none =>
      simp only [etaLoop, bind_ok_iff, dgetE_ok_iff] at h
      obtain ⟨v, hv, ⟨t', m⟩, ht, h⟩ := h
      cases h
      obtain ⟨i1, i2, i3, i4⟩ := ih t' m ht
      refine ⟨?_, ?_, ?_, ?_⟩
      · intro k
        by_cases hk : k = k0
        · subst hk; simp [dget, hv]
        · simp [dget, hk, i1]
      · simp [i2]
      · intro k hk
        rcases List.mem_cons.mp hk with hk | hk
        · cases hk; simp [hv]
        · exact i3 k hk
      · intro k w hk
        rcases List.mem_cons.mp hk with hk | hk
        · cases hk; simp
        · exact i4 k w hk
    | some x =>
      simp only [etaLoop, bind_ok_iff] at h
      obtain ⟨⟨t', m⟩, ht, h⟩ := h
      cases h
      obtain ⟨i1, i2, i3, i4⟩ := ih t' m ht
      refine ⟨?_, ?_, ?_, ?_⟩
      · intro k
        by_cases hk : k = k0
        · subst hk; simp [dget]
        · simp [dget, hk, i1]
      · simp [i2]
      · intro k hk
        rcases List.mem_cons.mp hk with hk | hk
        · cases hk
        · exact i3 k hk
      · intro k w hk
        rcases List.mem_cons.mp hk with hk | hk
        · cases hk; simp
        · exact i4 k w hk

/-- No flagged entry: nothing to do. -/
theorem etaLoop_id (s : SubDict) (h : ∀ k v, (k, v) ∈ s → v.isSome) : etaLoop s = .ok (s, 0) := by
  induction s with
  | nil => rfl
  | cons p t ih =>
    obtain ⟨k0, v0⟩ := p
    cases v0 with
    | none => have := h k0 none (by simp); simp at this
    | some x =>
      show (etaLoop t >>= _) = _
      rw [ih (fun k v hm => h k v (List.mem_cons_of_mem _ hm))]
      rfl

theorem etaDefault_spec (d d' : Dict) (n : ℕ) (h : etaDefault d = .ok (d', n)) :
    (∀ k, k ≠ "etaprop" → dget d' k = dget d k) ∧
    ∃ s s', dget d "etaprop" = some (.sub s) ∧ etaLoop s = .ok (s', n) ∧ dget d' "etaprop" = some (.sub s') := by
  unfold etaDefault at h
  rw [bind_ok_iff] at h
  obtain ⟨v, hv, h⟩ := h
  rw [dgetE_ok_iff] at hv
  cases v with
  | sub s =>
    simp only [bind_ok_iff] at h
    obtain ⟨⟨s', m⟩, hs, h⟩ := h
    cases h
    exact ⟨fun k hk => by simp [dget_dset, hk], s, s', hv, hs, by simp [dget_dset]⟩
  | _ => cases h

/-- The stages of a successful construction. -/
theorem construct_ok {b d p : Dict} {a : Option Atmos.Atm} {pa : PropArg} {r : Built}
    (h : construct b d p a pa = .ok r) :
    ∃ fb fd fp d1 d2 d3 d4 p1 n, fill default_brief b = .ok fb ∧ fill default_design d = .ok fd ∧
      fill default_performance p = .ok fp ∧ leDefault fd = .ok d1 ∧ mtDefault d1 = .ok d2 ∧
      sweep25Default d2 = .ok d3 ∧ taperDefault d3 = .ok (d4, r.taperdefaultflag) ∧
      etaDefault fp = .ok (p1, n) ∧ r.space = (fb, d4, p1) ∧ average default_brief fb = .ok r.brief ∧
      average default_design d4 = .ok r.design ∧ average default_performance p1 = .ok r.performance ∧
      readConcept r.brief r.design r.performance n (a.getD (.isa 0)) (parsePropulsion pa) = .ok r.concept := by
  unfold construct at h
  simp only [bind_ok_iff] at h
  obtain ⟨fb, h1, fd, h2, fp, h3, d1, h4, d2, h5, d3, h6, ⟨d4, t⟩, h7, ⟨p1, n⟩, h8, b2, h9, d5, h10, p2, h11, c, h12, h⟩ := h
  cases h
  exact ⟨fb, fd, fp, d1, d2, d3, d4, p1, n, h1, h2, h3, h4, h5, h6, h7, h8, rfl, h9, h10, h11, h12⟩

/-- `False` or a number as a dictionary value. -/
def toVal : Option ℝ → Val
  | none => .flag
  | some x => .num x

theorem attr_ok_iff (d : Dict) (k : String) (x : Option ℝ) : attr d k = .ok x ↔ dget d k = some (toVal x) := by
  unfold attr
  rw [bind_ok_iff]
  constructor
  · rintro ⟨v, hv, h⟩
    rw [dgetE_ok_iff] at hv
    cases v <;> cases h <;> exact hv
  · intro h
    refine ⟨_, (dgetE_ok_iff _ _ _).mpr h, ?_⟩
    cases x <;> rfl

theorem subAttr_ok_iff (d : Dict) (k k2 : String) (x : Option ℝ) :
    subAttr d k k2 = .ok x ↔ ∃ s, dget d k = some (.sub s) ∧ dget s k2 = some x := by
  unfold subAttr
  rw [bind_ok_iff]
  constructor
  · rintro ⟨v, hv, h⟩
    rw [dgetE_ok_iff] at hv
    cases v with
    | sub s => exact ⟨s, hv, (dgetE_ok_iff _ _ _).mp h⟩
    | _ => cases h
  · rintro ⟨s, hs, h⟩
    exact ⟨_, (dgetE_ok_iff _ _ _).mpr hs, (dgetE_ok_iff _ _ _).mpr h⟩

end

end Verif.Aircraft
