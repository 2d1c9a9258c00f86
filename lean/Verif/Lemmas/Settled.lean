import Verif.Props.Concept2
import Verif.Model.Sensitivity

/-
Design states: what the constructor does to dictionaries it has completed before, with one entry changed.
-/

namespace Verif.Props
open Verif Verif.Aircraft

noncomputable section

/-- Entry `k` with default `v` is present and, if it is a sub-dictionary, complete. -/
def Fillable (d : Dict) (k : String) (v : Val) : Prop :=
  (∃ x, dget d k = some x ∧ ∀ s, x ≠ .sub s) ∨
    (∃ s t, dget d k = some (.sub s) ∧ v = .sub t ∧ ∀ k ∈ t.map (·.1), (dget s k).isSome)

/-- Every documented entry of the dictionary is present and not a range. -/
def Flat (dflts d : Dict) : Prop :=
  (∀ k v, (k, v) ∈ dflts → Fillable d k v) ∧ ∀ k ∈ dflts.map (·.1), ∃ x, dget d k = some x ∧ ∀ xs, x ≠ .list xs

/-- Three dictionaries in which nothing is left to be filled in, resolved or averaged. -/
structure Settled (b d p : Dict) : Prop where
  brief : Flat default_brief b
  design : Flat default_design d
  performance : Flat default_performance p
  resolved : ∀ k, Resolved k → ∃ x, dget d k = some x ∧ x ≠ .flag
  eta : ∃ es : SubDict, dget p "etaprop" = some (.sub es) ∧ ∀ k v, (k, v) ∈ es → v.isSome

theorem settled_construct {b d p : Dict} {a : Option Atmos.Atm} {pa : PropArg} {r : Built}
    (h : construct b d p a pa = .ok r) : Settled r.brief r.design r.performance := by
  obtain ⟨q1, q2, q3⟩ := C32_present h
  have h' := C33_idempotent h
  obtain ⟨_, _, _, _, _, _, _, _, _, _, _, _, _, _, _, _, _, _, a1, a2, a3, hr⟩ := construct_ok h
  obtain ⟨hat, -⟩ := readConcept_ok hr
  obtain ⟨fb, fd, fp, d1, d2, d3, d4, p1, n, h1, h2, h3, h4, h5, h6, h7, h8, hs, h9, h10, h11, h12⟩ := construct_ok h'
  simp only at hs h1 h2 h3 h7
  simp only [Prod.mk.injEq] at hs
  obtain ⟨rfl, rfl, hp1⟩ := hs
  obtain ⟨t1, t2⟩ := taperDefault_spec _ _ _ h7
  obtain ⟨s1, s2⟩ := sweep25Default_spec _ _ h6
  obtain ⟨m1, mv, m2, m3⟩ := mtDefault_spec _ _ h5
  obtain ⟨l1, lv, l2, l3⟩ := leDefault_spec _ _ h4
  obtain ⟨e1, es, es', e2, e3, e4⟩ := etaDefault_spec _ _ _ h8
  obtain ⟨i1, i2, i3, i4⟩ := etaLoop_spec _ _ _ e3
  have rle : ∃ x, dget d1 "sweep_le_deg" = some x ∧ x ≠ .flag := ⟨_, l3, by cases lv <;> simp⟩
  have rmt : ∃ x, dget d2 "sweep_mt_deg" = some x ∧ x ≠ .flag := by
    cases mv with
    | flag => simp only at m3; rw [m3]; exact rle
    | _ => exact ⟨_, m3, by simp⟩
  have r25 : ∃ x, dget d3 "sweep_25_deg" = some x ∧ x ≠ .flag := by
    rcases s2 with ⟨le, mt, _, _, _, e⟩ | ⟨v, hv, hf, e⟩
    · exact ⟨_, e, by simp⟩
    · exact ⟨_, e, hf⟩
  have rtp : ∃ x, dget r.design "roottaperratio" = some x ∧ x ≠ .flag := by
    rcases t2 with ⟨_, _, _, _, _, e, _⟩ | ⟨v, hv, hf, e, _⟩
    · exact ⟨_, e, by simp⟩
    · exact ⟨_, e, hf⟩
  have res : ∀ k, Resolved k → ∃ x, dget r.design k = some x ∧ x ≠ .flag := by
    rintro k (rfl | rfl | rfl | rfl)
    · rw [t1 _ (by decide), s1 _ (by decide), m1 _ (by decide)]; exact rle
    · rw [t1 _ (by decide), s1 _ (by decide)]; exact rmt
    · rw [t1 _ (by decide)]; exact r25
    · exact rtp
  have nosub : ∀ y : Option ℝ, ∀ s, toVal y ≠ .sub s := by intro y s; cases y <;> simp [toVal]
  have flat2 : ∀ dflts g x : Dict, (dflts.map (·.1)).Nodup → average dflts x = .ok g →
      (∀ k ∈ dflts.map (·.1), ∃ v, dget g k = some v) → ∀ k ∈ dflts.map (·.1), ∃ x, dget g k = some x ∧ ∀ xs, x ≠ .list xs := by
    intro dflts g x hn h2 h3 k hk
    obtain ⟨v, hv⟩ := h3 k hk
    refine ⟨v, hv, ?_⟩
    have hs := average_spec _ _ _ hn h2 k
    rw [if_pos hk, hv] at hs
    cases hx : dget x k with
    | none => rw [hx] at hs; cases hs
    | some y => rw [hx] at hs; cases hs; exact averaged_not_list y
  refine ⟨⟨filled_fillable _ _ _ nodup_brief h1, flat2 _ _ _ nodup_brief a1 q1⟩, ⟨?_, flat2 _ _ _ nodup_design a2 q2⟩,
    ⟨?_, flat2 _ _ _ nodup_performance a3 q3⟩, res, ⟨es', by rw [hp1]; exact e4, i4⟩⟩
  · intro k v hm
    by_cases hk : Resolved k
    · rcases hk with rfl | rfl | rfl | rfl
      · exact Or.inl ⟨_, hat.sweep_le_deg, nosub _⟩
      · exact Or.inl ⟨_, hat.sweep_mt_deg, nosub _⟩
      · exact Or.inl ⟨_, hat.sweep_25_deg, nosub _⟩
      · exact Or.inl ⟨_, hat.roottaperratio, nosub _⟩
    · have hf := filled_fillable _ _ _ nodup_design h2 k v hm
      simp only [Resolved, not_or] at hk
      unfold Fillable
      rw [t1 k hk.2.2.2, s1 k hk.2.2.1, m1 k hk.2.1, l1 k hk.1]
      exact hf
  · intro k v hm
    have hf := filled_fillable _ _ _ nodup_performance h3 k v hm
    by_cases hk : k = "etaprop"
    · subst hk
      rcases hf with ⟨x, hx, hns⟩ | ⟨s, t, hx, hv, hk⟩
      · rw [e2] at hx; cases hx; exact absurd rfl (hns es)
      · rw [e2] at hx; cases hx
        refine Or.inr ⟨es', t, by rw [hp1]; exact e4, hv, fun k hk' => ?_⟩
        rw [i1]
        have := hk k hk'
        cases he : dget es k with
        | none => rw [he] at this; simp at this
        | some y => rfl
    · unfold Fillable
      rw [hp1, e1 k hk]
      exact hf

/-- The constructor leaves settled dictionaries as they are. -/
theorem construct_settled {b d p : Dict} (h : Settled b d p) {c : Concept} (hc : AttrsFrom b d p c) (a : Option Atmos.Atm)
    (pa : PropArg) (h1 : c.designatm = a.getD (.isa 0)) (h2 : c.propulsion = parsePropulsion pa) :
    construct b d p a pa = .ok
      { brief := b, design := d, performance := p, space := (b, d, p), taperdefaultflag := false,
        concept := { c with etadefaultflag := 0 } } := by
  have k4 : leDefault d = .ok d := by
    obtain ⟨x, hx, hf⟩ := h.resolved "sweep_le_deg" (Or.inl rfl)
    unfold leDefault
    rw [(dgetE_ok_iff _ _ _).mpr hx, bind_ok]
    cases x <;> first | exact absurd rfl hf | rfl
  have k5 : mtDefault d = .ok d := by
    obtain ⟨x, hx, hf⟩ := h.resolved "sweep_mt_deg" (Or.inr (Or.inl rfl))
    unfold mtDefault
    rw [(dgetE_ok_iff _ _ _).mpr hx, bind_ok]
    cases x <;> first | exact absurd rfl hf | rfl
  have k6 : sweep25Default d = .ok d := by
    obtain ⟨x, hx, hf⟩ := h.resolved "sweep_25_deg" (Or.inr (Or.inr (Or.inl rfl)))
    unfold sweep25Default
    rw [(dgetE_ok_iff _ _ _).mpr hx, bind_ok]
    cases x <;> first | exact absurd rfl hf | rfl
  have k7 : taperDefault d = .ok (d, false) := by
    obtain ⟨x, hx, hf⟩ := h.resolved "roottaperratio" (Or.inr (Or.inr (Or.inr rfl)))
    unfold taperDefault
    rw [(dgetE_ok_iff _ _ _).mpr hx, bind_ok]
    cases x <;> first | exact absurd rfl hf | rfl
  have k8 : etaDefault p = .ok (p, 0) := by
    obtain ⟨es, hre, i4⟩ := h.eta
    unfold etaDefault
    rw [(dgetE_ok_iff _ _ _).mpr hre, bind_ok]
    simp only
    rw [etaLoop_id es i4, bind_ok]
    simp only
    rw [dset_self _ _ _ hre]; rfl
  unfold construct
  simp only [fill_id _ _ h.brief.1, fill_id _ _ h.design.1, fill_id _ _ h.performance.1, k4, k5, k6, k7, k8,
    average_id _ _ h.brief.2, average_id _ _ h.design.2, average_id _ _ h.performance.2, bind_ok]
  rw [← h1, ← h2, readConcept_of hc 0]
  rfl

/-! ### One entry changed -/

/-- The concept with the attribute read from entry `k` of dictionary `i` set to `v`, every other attribute as
it was. -/
def varied (c : Concept) (i : Fin 3) (k : String) (v : ℝ) : Concept :=
  let s (j : Fin 3) (n : String) (x : Option ℝ) : Option ℝ := if i = j ∧ k = n then some v else x
  { c with
    climbalt_m := s 0 "climbalt_m" c.climbalt_m
    climbspeed_kias := s 0 "climbspeed_kias" c.climbspeed_kias
    climbrate_fpm := s 0 "climbrate_fpm" c.climbrate_fpm
    cruisealt_m := s 0 "cruisealt_m" c.cruisealt_m
    cruisespeed_ktas := s 0 "cruisespeed_ktas" c.cruisespeed_ktas
    cruisethrustfact := s 0 "cruisethrustfact" c.cruisethrustfact
    servceil_m := s 0 "servceil_m" c.servceil_m
    secclimbspd_kias := s 0 "secclimbspd_kias" c.secclimbspd_kias
    vstallclean_kcas := s 0 "vstallclean_kcas" c.vstallclean_kcas
    groundrun_m := s 0 "groundrun_m" c.groundrun_m
    rwyelevation_m := s 0 "rwyelevation_m" c.rwyelevation_m
    turnalt_m := s 0 "turnalt_m" c.turnalt_m
    turnspeed_ktas := s 0 "turnspeed_ktas" c.turnspeed_ktas
    stloadfactor := s 0 "stloadfactor" c.stloadfactor
    aspectratio := s 1 "aspectratio" c.aspectratio
    sweep_le_deg := s 1 "sweep_le_deg" c.sweep_le_deg
    sweep_25_deg := s 1 "sweep_25_deg" c.sweep_25_deg
    sweep_mt_deg := s 1 "sweep_mt_deg" c.sweep_mt_deg
    roottaperratio := s 1 "roottaperratio" c.roottaperratio
    wingarea_m2 := s 1 "wingarea_m2" c.wingarea_m2
    wingheightratio := s 1 "wingheightratio" c.wingheightratio
    bpr := s 1 "bpr" c.bpr
    throttle_r := s 1 "tr" c.throttle_r
    weight_n := s 1 "weight_n" c.weight_n
    cdto := s 2 "CDTO" c.cdto
    cdminclean := s 2 "CDminclean" c.cdminclean
    mu_r := s 2 "mu_R" c.mu_r
    clto := s 2 "CLTO" c.clto
    clmaxclean := s 2 "CLmaxclean" c.clmaxclean
    clminclean := s 2 "CLminclean" c.clminclean
    clmaxto := s 2 "CLmaxTO" c.clmaxto
    a_0i := s 2 "CLslope" c.a_0i }

/-- The entry is not one of the two sub-dictionaries. -/
def Scalar (i : Fin 3) (k : String) : Prop := ¬ (i = 1 ∧ k = "weightfractions") ∧ ¬ (i = 2 ∧ k = "etaprop")

theorem fillable_set {d : Dict} {k' : String} {x : Val} (h : Fillable d k' x) (k : String) (v : ℝ) :
    Fillable (dset d k (.num v)) k' x := by
  by_cases e : k' = k
  · exact Or.inl ⟨.num v, by rw [dget_dset, if_pos e], by simp⟩
  · unfold Fillable; rw [dget_dset, if_neg e]; exact h

theorem flat_set {dflts d : Dict} (h : Flat dflts d) (k : String) (v : ℝ) : Flat dflts (dset d k (.num v)) := by
  refine ⟨fun k' x hm => fillable_set (h.1 k' x hm) k v, fun k' hk => ?_⟩
  by_cases e : k' = k
  · exact ⟨.num v, by rw [dget_dset, if_pos e], by simp⟩
  · rw [dget_dset, if_neg e]; exact h.2 k' hk

theorem settled_set {s : Design3} (h : Settled s.brief s.design s.performance) (i : Fin 3) (k : String) (v : ℝ)
    (hk : Scalar i k) : Settled (s.set i k v).brief (s.set i k v).design (s.set i k v).performance := by
  match i with
  | 0 => exact ⟨flat_set h.brief k v, h.design, h.performance, h.resolved, h.eta⟩
  | 1 =>
    refine ⟨h.brief, flat_set h.design k v, h.performance, fun k' hr => ?_, h.eta⟩
    show ∃ x, dget (dset s.design k (.num v)) k' = some x ∧ _
    by_cases e : k' = k
    · exact ⟨.num v, by rw [dget_dset, if_pos e], by simp⟩
    · rw [dget_dset, if_neg e]; exact h.resolved k' hr
  | 2 =>
    refine ⟨h.brief, h.design, flat_set h.performance k v, h.resolved, ?_⟩
    obtain ⟨es, h1, h2⟩ := h.eta
    refine ⟨es, ?_, h2⟩
    show dget (dset s.performance k (.num v)) _ = _
    rw [dget_dset, if_neg (fun e => hk.2 ⟨rfl, e.symm⟩)]
    exact h1

theorem attrs_set {s : Design3} {c : Concept} (h : AttrsFrom s.brief s.design s.performance c) (i : Fin 3) (k : String) (v : ℝ)
    (hk : Scalar i k) : AttrsFrom (s.set i k v).brief (s.set i k v).design (s.set i k v).performance (varied c i k v) := by
  have key : ∀ (d : Dict) (n : String) (x : Option ℝ), dget d n = some (toVal x) →
      dget (dset d k (.num v)) n = some (toVal (if k = n then some v else x)) := by
    intro d n x hx
    rw [dget_dset]
    by_cases e : n = k
    · rw [if_pos e, if_pos e.symm]; rfl
    · rw [if_neg e, if_neg (fun h => e h.symm)]; exact hx
  have sub : ∀ (d : Dict) (n m : String) (x : Option ℝ), k ≠ n → SubEntry d n m x →
      SubEntry (dset d k (.num v)) n m x := by
    rintro d n m x hn ⟨t, ht, hx⟩
    exact ⟨t, by rw [dget_dset, if_neg (fun h => hn h.symm)]; exact ht, hx⟩
  obtain ⟨a0, a1, a2, a3, a4, a5, a6, a7, a8, a9, a10, a11, a12, a13, a14, a15, a16, a17, a18, a19, a20, a21, a22, a23, a24, a25, a26, a27, a28, a29, a30, a31, a32, a33, a34, a35, a36, a37, a38, a39, a40⟩ := h
  match i with
  | 0 =>
    constructor <;> simp only [varied, Design3.set, true_and, false_and, if_false, Fin.reduceEq, zero_ne_one, one_ne_zero, Fin.isValue] <;>
      first | assumption | exact key _ _ _ (by assumption)
  | 1 =>
    have hn : k ≠ "weightfractions" := fun e => hk.1 ⟨rfl, e⟩
    constructor <;> simp only [varied, Design3.set, true_and, false_and, if_false, Fin.reduceEq, zero_ne_one, one_ne_zero, Fin.isValue] <;>
      first | assumption | exact key _ _ _ (by assumption) | exact sub _ _ _ _ hn (by assumption)
  | 2 =>
    have hn : k ≠ "etaprop" := fun e => hk.2 ⟨rfl, e⟩
    constructor <;> simp only [varied, Design3.set, true_and, false_and, if_false, Fin.reduceEq, zero_ne_one, one_ne_zero, Fin.isValue] <;>
      first | assumption | exact key _ _ _ (by assumption) | exact sub _ _ _ _ hn (by assumption)

/-- Building a concept from a design state with one scalar entry changed changes the attribute read from this
entry and nothing else: derived defaults stay at their nominal values. -/
theorem construct_varied {b d p : Dict} {a a' : Option Atmos.Atm} {pa pa' : PropArg} {r : Built}
    (h : construct b d p a pa = .ok r) (i : Fin 3) (k : String) (v : ℝ) (hk : Scalar i k) :
    ∃ r', construct ((Design3.mk r.brief r.design r.performance).set i k v).brief
        ((Design3.mk r.brief r.design r.performance).set i k v).design
        ((Design3.mk r.brief r.design r.performance).set i k v).performance a' pa' = .ok r' ∧
      r'.concept = { varied r.concept i k v with etadefaultflag := 0, designatm := a'.getD (.isa 0), propulsion := parsePropulsion pa' } := by
  obtain ⟨_, _, _, _, _, _, _, _, _, _, _, _, _, _, _, _, _, _, _, _, _, hr⟩ := construct_ok h
  obtain ⟨hat, -⟩ := readConcept_ok hr
  have hs := settled_set (s := ⟨r.brief, r.design, r.performance⟩) (settled_construct h) i k v hk
  have ha := attrs_set (s := ⟨r.brief, r.design, r.performance⟩) hat i k v hk
  obtain ⟨c, hc⟩ : ∃ c : Concept, c = { varied r.concept i k v with designatm := a'.getD (.isa 0), propulsion := parsePropulsion pa' } := ⟨_, rfl⟩
  have ha' : AttrsFrom ((Design3.mk r.brief r.design r.performance).set i k v).brief
        ((Design3.mk r.brief r.design r.performance).set i k v).design
        ((Design3.mk r.brief r.design r.performance).set i k v).performance c := by
    subst hc
    obtain ⟨a0, a1, a2, a3, a4, a5, a6, a7, a8, a9, a10, a11, a12, a13, a14, a15, a16, a17, a18, a19, a20, a21, a22, a23, a24, a25, a26, a27, a28, a29, a30, a31, a32, a33, a34, a35, a36, a37, a38, a39, a40⟩ := ha
    exact ⟨a0, a1, a2, a3, a4, a5, a6, a7, a8, a9, a10, a11, a12, a13, a14, a15, a16, a17, a18, a19, a20, a21, a22, a23, a24, a25, a26, a27, a28, a29, a30, a31, a32, a33, a34, a35, a36, a37, a38, a39, a40⟩
  refine ⟨_, construct_settled hs ha' a' pa' (by rw [hc]) (by rw [hc]), ?_⟩
  rw [hc]

/-- Ranged entries are scalar. -/
theorem ranged_scalar {b d p : Dict} {a : Option Atmos.Atm} {pa : PropArg} {r : Built}
    (h : construct b d p a pa = .ok r) : (∀ xs, dget r.space.2.1 "weightfractions" ≠ some (.list xs)) ∧
      ∀ xs, dget r.space.2.2 "etaprop" ≠ some (.list xs) := by
  obtain ⟨fb, fd, fp, d1, d2, d3, d4, p1, n, h1, h2, h3, h4, h5, h6, h7, h8, hs, h9, h10, h11, h12⟩ := construct_ok h
  obtain ⟨hat, -⟩ := readConcept_ok h12
  obtain ⟨e1, es, es', e2, e3, e4⟩ := etaDefault_spec _ _ _ h8
  rw [hs]
  refine ⟨fun xs hx => ?_, fun xs hx => ?_⟩
  · have ha := average_spec _ _ _ nodup_design h10 "weightfractions"
    rw [if_pos (by simp [default_design])] at ha
    simp only at hx
    rw [hx] at ha
    obtain ⟨s, hs', -⟩ := hat.climb_weight_fraction
    rw [hs'] at ha
    simp [averaged] at ha
  · simp only at hx
    rw [e4] at hx; cases hx

end

end Verif.Props
