import Verif.Model.SensShow
import Verif.Props.SensPlot

/-
C116: the call of the sensitivity study, its charts, layers, colours and labels.
-/

namespace Verif.Props
open Verif Verif.Aircraft Verif.Units

noncomputable section

/-! ### Specification -/

/-- The parameter `k` is shown in the chart of constraint `q` with the effect `v`: it is given as a range and its effect vanishes at no wing
loading. -/
def ShownWith (X : Ext) (power : Bool) (mass : ℝ) (ws : List ℝ) (r : Built) (q : Constr) (k : String) (v : List ℝ) : Prop :=
  ∃ i xs, (k, Val.list xs) ∈ dictNo (spaceOf r) i ∧ IsEffect X power mass ws (studied r.concept) i k xs q v ∧ ∀ x ∈ v, x ≠ 0

/-- All keys of the design space, in the order of the three dictionaries. -/
def allKeys (r : Built) : List String :=
  (spaceOf r).brief.map (·.1) ++ (spaceOf r).design.map (·.1) ++ (spaceOf r).performance.map (·.1)

/-- The label of a parameter: the one given by the user (the first for the key), or else its name. -/
def IsLabel (labels : List (String × String)) (k l : String) : Prop :=
  (∃ a b, labels = a ++ (k, l) :: b ∧ k ∉ a.map Prod.fst) ∨ (k ∉ labels.map Prod.fst ∧ l = k)

/-! ### What is recorded -/

theorem dset_append {α : Type} (d : List (String × α)) (k : String) (v : α) (h : k ∉ d.map (·.1)) : dset d k v = d ++ [(k, v)] := by
  induction d with
  | nil => rfl
  | cons e d ih =>
    obtain ⟨k', v'⟩ := e
    simp only [List.map_cons, List.mem_cons, not_or] at h
    rw [dset, if_neg h.1, ih h.2]
    rfl

theorem isEffect_unique {X : Ext} {power : Bool} {m : ℝ} {ws : List ℝ} {c : Concept} {i : Fin 3} {k : String} {xs : List ℝ} {q : Constr}
    {v v' : List ℝ} (h : IsEffect X power m ws c i k xs q v) (h' : IsEffect X power m ws c i k xs q v') : v = v' := by
  obtain ⟨hi, lo, rmax, rmin, f, g, h1, h2, h3, h4, h5, h6, rfl⟩ := h
  obtain ⟨hi', lo', rmax', rmin', f', g', h1', h2', h3', h4', h5', h6', rfl⟩ := h'
  have e1 : hi = hi' := le_antisymm (h1'.2 _ h1.1) (h1.2 _ h1'.1)
  have e2 : lo = lo' := le_antisymm (h2.2 _ h2'.1) (h2'.2 _ h2.1)
  subst e1 e2
  rw [h3] at h3'; rw [h4] at h4'
  cases h3'; cases h4'
  rw [h5] at h5'; rw [h6] at h6'
  refine List.map_congr_left fun w hw => ?_
  rw [List.map_inj_left.mp h5' w hw, List.map_inj_left.mp h6' w hw]

/-- What a loop over one dictionary adds to the records of a constraint. -/
theorem loop_list {b dd p : Dict} {a : Option Atmos.Atm} {pa : PropArg} {r : Built} (hb : construct b dd p a pa = .ok r)
    {X : Ext} {S : StudyIn} {ws : List ℝ} (hS : StudyOf r S ws) (hw : ws ≠ []) {i : Fin 3} (d : Dict)
    (hsc : ∀ k xs, (k, .list xs) ∈ d → Scalar i k) (hd : (d.map (·.1)).Nodup)
    {R R' : Recorded} (h : d.foldlM (studyEntry X S i) R = .ok R') (q : Constr) (hdis : ∀ k ∈ d.map (·.1), k ∉ (R.prime q).map (·.1)) :
    ∃ L : List (String × List ℝ), R'.prime q = R.prime q ++ L ∧ (L.map (·.1)).Sublist (d.map (·.1)) ∧
      ∀ k v, (k, v) ∈ L ↔ ∃ xs, (k, Val.list xs) ∈ d ∧ IsEffect X S.power S.mass ws (studied r.concept) i k xs q v ∧ ∀ x ∈ v, x ≠ 0 := by
  induction d generalizing R with
  | nil =>
    cases h
    exact ⟨[], by simp, by simp, fun k v => by simp⟩
  | cons e d ih =>
    simp only [List.foldlM_cons, bind_ok_iff] at h
    obtain ⟨R1, h1, h2⟩ := h
    simp only [List.map_cons, List.nodup_cons] at hd
    obtain ⟨ke, ve⟩ := e
    have hke : ke ∉ (R.prime q).map (·.1) := hdis ke (by simp)
    -- the head adds at most its own key
    have head : ∃ L1 : List (String × List ℝ), R1.prime q = R.prime q ++ L1 ∧ (L1.map (·.1)).Sublist [ke] ∧
        ∀ k v, (k, v) ∈ L1 ↔ k = ke ∧ ∃ xs, ve = Val.list xs ∧ IsEffect X S.power S.mass ws (studied r.concept) i ke xs q v ∧ ∀ x ∈ v, x ≠ 0 := by
      by_cases hl : ∃ xs, ve = .list xs
      · obtain ⟨xs, rfl⟩ := hl
        obtain ⟨v, hv, t, f⟩ := studyEntry_ok hb hS hw (hsc ke xs (by simp)) h1 q
        by_cases hx : ∀ x ∈ v, x ≠ 0
        · refine ⟨[(ke, v)], by rw [t hx, dset_append _ _ _ hke], by simp, fun k v' => ?_⟩
          constructor
          · intro hm
            simp only [List.mem_singleton, Prod.mk.injEq] at hm
            obtain ⟨rfl, rfl⟩ := hm
            exact ⟨rfl, xs, rfl, hv, hx⟩
          · rintro ⟨rfl, xs', e, hv', -⟩
            cases e
            rw [isEffect_unique hv' hv]; simp
        · refine ⟨[], by rw [f hx]; simp, by simp, fun k v' => ?_⟩
          constructor
          · intro hm; simp at hm
          · rintro ⟨rfl, xs', e, hv', hz⟩
            cases e
            rw [isEffect_unique hv' hv] at hz
            exact absurd hz hx
      · refine ⟨[], by rw [studyEntry_other (fun xs hx => hl ⟨xs, hx⟩) h1]; simp, by simp, fun k v' => ?_⟩
        constructor
        · intro hm; simp at hm
        · rintro ⟨-, xs, e, -⟩
          exact absurd ⟨xs, e⟩ hl
    obtain ⟨L1, e1, s1, m1⟩ := head
    obtain ⟨L2, e2, s2, m2⟩ := ih (fun k xs hm => hsc k xs (List.mem_cons_of_mem _ hm)) hd.2 h2 (by
      intro k hk
      rw [e1, List.map_append, List.mem_append, not_or]
      refine ⟨hdis k (List.mem_cons_of_mem _ hk), fun hm => ?_⟩
      have : k ∈ [ke] := s1.subset hm
      rw [List.mem_singleton] at this
      exact hd.1 (this ▸ hk))
    refine ⟨L1 ++ L2, by rw [e2, e1, List.append_assoc], ?_, fun k v => ?_⟩
    · rw [List.map_append, List.map_cons]
      exact s1.append s2
    · rw [List.mem_append, m1, m2]
      constructor
      · rintro (⟨rfl, xs, rfl, hv⟩ | ⟨xs, hm, hv⟩)
        · exact ⟨xs, by simp, hv⟩
        · exact ⟨xs, List.mem_cons_of_mem _ hm, hv⟩
      · rintro ⟨xs, hm, hv⟩
        rcases List.mem_cons.mp hm with hm | hm
        · cases hm
          exact Or.inl ⟨rfl, xs, rfl, hv⟩
        · exact Or.inr ⟨xs, hm, hv⟩

/-- The records of a study. -/
theorem study_list {b dd p : Dict} {a : Option Atmos.Atm} {pa : PropArg} {r : Built} (hb : construct b dd p a pa = .ok r)
    (X : Ext) (w : NumArg) (power : Bool) (hw : recastArray w ≠ []) (hn : KeysDistinct (spaceOf r)) {R : Recorded} {nom : Req}
    (h : study X r w power = .ok (R, nom)) :
    ∃ W, r.concept.weight_n = some W ∧ ∀ q, ((R.prime q).map (·.1)).Sublist (allKeys r) ∧
      ∀ k v, (k, v) ∈ R.prime q ↔ ShownWith X power (W / gAcc) (recastArray w) r q k v := by
  obtain ⟨S, W, hS, hW, rfl, hm, hl, -⟩ := study_ok h
  refine ⟨W, hW, fun q => ?_⟩
  rw [← hm]
  unfold studyLoop at hl
  simp only [bind_ok_iff] at hl
  obtain ⟨R1, l1, R2, l2, l3⟩ := hl
  unfold KeysDistinct spaceOf at hn
  simp only [List.nodup_append, List.mem_append] at hn
  obtain ⟨⟨n1, n2, n12⟩, n3, n123⟩ := hn
  obtain ⟨rs1, rs2⟩ := ranged_scalar hb
  have sc0 : ∀ k xs, (k, Val.list xs) ∈ r.space.1 → Scalar 0 k := fun k xs _ => ⟨by simp, by simp⟩
  have sc1 : ∀ k xs, (k, Val.list xs) ∈ r.space.2.1 → Scalar 1 k := fun k xs hm =>
    ⟨fun e => rs1 xs (by rw [← e.2]; exact dget_of_mem_nodup _ n2 _ _ hm), by simp⟩
  have sc2 : ∀ k xs, (k, Val.list xs) ∈ r.space.2.2 → Scalar 2 k := fun k xs hm =>
    ⟨by simp, fun e => rs2 xs (by rw [← e.2]; exact dget_of_mem_nodup _ n3 _ _ hm)⟩
  obtain ⟨L1, e1, s1, m1⟩ := loop_list hb hS hw _ sc0 n1 l1 q (by simp)
  rw [List.nil_append] at e1
  obtain ⟨L2, e2, s2, m2⟩ := loop_list hb hS hw _ sc1 n2 l2 q (by
    intro k hk
    rw [e1]
    exact fun hm' => n12 k (s1.subset hm') k hk rfl)
  obtain ⟨L3, e3, s3, m3⟩ := loop_list hb hS hw _ sc2 n3 l3 q (by
    intro k hk
    rw [e2, e1, List.map_append, List.mem_append, not_or]
    exact ⟨fun hm' => n123 k (Or.inl (s1.subset hm')) k hk rfl, fun hm' => n123 k (Or.inr (s2.subset hm')) k hk rfl⟩)
  constructor
  · rw [e3, e2, e1, List.map_append, List.map_append]
    exact (s1.append s2).append s3
  · intro k v
    rw [e3, e2, e1, List.mem_append, List.mem_append, m1, m2, m3]
    constructor
    · rintro ((⟨xs, h⟩ | ⟨xs, h⟩) | ⟨xs, h⟩)
      · exact ⟨0, xs, h⟩
      · exact ⟨1, xs, h⟩
      · exact ⟨2, xs, h⟩
    · rintro ⟨i, xs, hm1, hm2⟩
      have hi : i = 0 ∨ i = 1 ∨ i = 2 := by
        clear hm1 hm2
        fin_cases i <;> simp
      rcases hi with rfl | rfl | rfl
      · exact Or.inl (Or.inl ⟨xs, hm1, hm2⟩)
      · exact Or.inl (Or.inr ⟨xs, hm1, hm2⟩)
      · exact Or.inr ⟨xs, hm1, hm2⟩

/-! ### Colours -/

theorem study_coloured {X : Ext} {r : Built} {w : NumArg} {power : Bool} {R : Recorded} {nom : Req}
    (h : study X r w power = .ok (R, nom)) : Coloured R := by
  obtain ⟨S, W, -, -, -, -, hl, -⟩ := study_ok h
  unfold studyLoop at hl
  simp only [bind_ok_iff] at hl
  obtain ⟨R1, l1, R2, l2, l3⟩ := hl
  have g0 : Coloured ⟨fun _ => [], []⟩ := ⟨by simp, fun q e he => absurd he (by simp)⟩
  have g1 := foldlM_inv Coloured _ (fun _ _ _ hx hf => studyEntry_coloured hx hf) _ g0 l1
  have g2 := foldlM_inv Coloured _ (fun _ _ _ hx hf => studyEntry_coloured hx hf) _ g1 l2
  have g3 := foldlM_inv Coloured _ (fun _ _ _ hx hf => studyEntry_coloured hx hf) _ g2 l3
  exact g3

/-- The colour of a parameter. -/
def colourAt (R : Recorded) (k : String) : String := clr_list.getD (R.coloured.idxOf k) ""

theorem clrDict_ok {R : Recorded} (hR : Coloured R) {k : String} (hk : k ∈ R.coloured) : clrDict R k = .ok (colourAt R k) := by
  unfold clrDict colourAt Propulsion.getIdx
  rw [if_pos hk]
  have : R.coloured.idxOf k < clr_list.length :=
    lt_of_lt_of_le (List.idxOf_lt_length_iff.mpr hk) (hR.1.trans (by decide))
  rw [List.getElem?_eq_getElem this, List.getD_eq_getElem _ _ this]

theorem clr_nodup : clr_list.Nodup := by decide

theorem colourAt_inj {R : Recorded} (hR : Coloured R) : Set.InjOn (colourAt R) {k | k ∈ R.coloured} := by
  intro k hk k' hk' e
  have lt : ∀ k ∈ R.coloured, R.coloured.idxOf k < clr_list.length := fun k hk =>
    lt_of_lt_of_le (List.idxOf_lt_length_iff.mpr hk) (hR.1.trans (by decide))
  unfold colourAt at e
  rw [List.getD_eq_getElem _ _ (lt k hk), List.getD_eq_getElem _ _ (lt k' hk')] at e
  have := (clr_nodup.getElem_inj_iff).mp e
  exact (List.idxOf_inj hk).mp this

/-! ### The charts -/

theorem lookup_label (labels : List (String × String)) (k : String) : IsLabel labels k (labelOf labels k) := by
  unfold labelOf
  induction labels with
  | nil => exact Or.inr ⟨by simp, rfl⟩
  | cons e t ih =>
    obtain ⟨k', v⟩ := e
    by_cases h : k = k'
    · subst h
      exact Or.inl ⟨[], t, by simp, by simp⟩
    · have hl : ((k', v) :: t).lookup k = t.lookup k := by
        rw [List.lookup_cons]
        have : (k == k') = false := by simpa using h
        rw [this]
      rw [hl]
      rcases ih with ⟨a, b, e, ha⟩ | ⟨ha, e⟩
      · exact Or.inl ⟨(k', v) :: a, b, by rw [List.cons_append, ← e], by simp [h, ha]⟩
      · exact Or.inr ⟨by simp [h, ha], e⟩

/-- The layer of a recorded effect. -/
def layerOf (R : Recorded) (labels : List (String × String)) (n : ℕ) (q : Constr) (e : String × List ℝ) : Layer :=
  ⟨labelOf labels e.1, colourAt R e.1, shareList (R.prime q) n e.2⟩

theorem stackLayers_ok {R : Recorded} (hR : Coloured R) (labels : List (String × String)) (n : ℕ) (q : Constr) :
    stackLayers R labels n q = .ok (if R.prime q = [] then ([⟨"N/A", "red", List.replicate n (some 0)⟩], true)
      else ((R.prime q).map (layerOf R labels n q), false)) := by
  have : (R.prime q).mapM (fun e => do
      let c ← clrDict R e.1
      pure (⟨labelOf labels e.1, c, shareList (R.prime q) n e.2⟩ : Layer)) = .ok ((R.prime q).map (layerOf R labels n q)) := by
    refine mapM_okAll fun e he => ?_
    rw [clrDict_ok hR (hR.2 q e he)]
    rfl
  unfold stackLayers
  rw [this]
  simp only [bind_ok, List.length_map]
  by_cases h : R.prime q = []
  · rw [if_pos h, if_pos (by rw [h]; rfl)]; rfl
  · rw [if_neg h, if_neg (by rwa [List.length_eq_zero_iff])]; rfl

theorem sensData_ok {X : Ext} {r : Built} {w : NumArg} {y x : String} {yl : Option ℝ} {D : SensData}
    (h : sensData X r w y x yl = .ok D) :
    ∃ W, r.concept.weight_n = some W ∧ study X r w (decide (y = "p_hp")) = .ok (D.recd, D.nom) ∧
      D.n = (recastArray w).length ∧ D.xs = xAxis W (decide (x = "s_m2")) (recastArray w) ∧
      xcritStall r.concept (decide (x = "s_m2")) (W / gAcc) = .ok D.xcrit ∧ ylimHi yl D.nom = .ok D.ylim ∧
      infeasBounds D.xs D.nom.combined.toList = .ok D.bounds := by
  unfold sensData at h
  simp only [bind_ok_iff, pure_ok_iff] at h
  obtain ⟨W, hW, ⟨R, nom⟩, hst, xc, hxc, yl, hyl, b, hb, rfl⟩ := h
  exact ⟨W, need_ok_plot hW, hst, rfl, rfl, hxc, hyl, hb⟩

theorem sp_ok {D : SensData} (hR : Coloured D.recd) {y x : String} {labels : List (String × String)} {mb : Bool} {q : Constr} {d : Drawn}
    (h : sensitivityplots D y x labels mb q = .ok d) : ∃ c : StackChart, d = .stack q c ∧ c.title = predefinedlabel q ∧ c.xs = D.xs ∧
      (c.layers, c.cross) = (if D.recd.prime q = [] then ([⟨"N/A", "red", List.replicate D.n (some 0)⟩], true)
        else ((D.recd.prime q).map (layerOf D.recd labels D.n q), false)) ∧
      listMin D.xs = .ok c.xlim.1 ∧ listMax D.xs = .ok c.xlim.2 ∧ c.xlabel = xLabelling x ∧
      c.ylabel = "Rel. sensitivity of " ++ (if y = "p_hp" then "P" else "TW") ∧
      (if mb then focusMasks D.xs (recastArray (D.nom.entry q)) D.nom.combined.toList else .ok []) = .ok c.masks := by
  unfold sensitivityplots at h
  rw [stackLayers_ok hR] at h
  cases mb with
  | true =>
    simp only [bind_ok_iff, pure_ok_iff, Except.ok.injEq, if_true] at h
    obtain ⟨⟨l, cr⟩, e, lo, hlo, hi, hhi, m, hm, rfl⟩ := h
    exact ⟨_, rfl, rfl, rfl, e.symm, hlo, hhi, rfl, rfl, hm⟩
  | false =>
    simp only [bind_ok_iff, pure_ok_iff, Except.ok.injEq, Bool.false_eq_true, if_false] at h
    obtain ⟨⟨l, cr⟩, e, lo, hlo, hi, hhi, m, rfl, rfl⟩ := h
    exact ⟨_, rfl, rfl, rfl, e.symm, hlo, hhi, rfl, rfl, rfl⟩

theorem curve_ok (nom : Req) (q : Constr) : ∃ i col, constrCurve nom i q = .ok ⟨predefinedlabel q, col, (recastArray (nom.entry q)).map some⟩ := by
  cases q
  · exact ⟨0, "royalblue", rfl⟩
  · exact ⟨1, "orange", rfl⟩
  · exact ⟨2, "darkturquoise", rfl⟩
  · exact ⟨3, "red", rfl⟩
  · exact ⟨4, "yellowgreen", rfl⟩

theorem cp_ok {D : SensData} {y x : String} {d : Drawn} (h : combinedplot D y x = .ok d) : ∃ c : CombChart, d = .combined c ∧ c.xs = D.xs ∧
    c.curves = [⟨"Combined front \nup to turn stall line", "k", D.nom.combined.toList⟩,
      ⟨"Climb", "royalblue", (recastArray D.nom.climb).map some⟩, ⟨"Cruise", "orange", (recastArray D.nom.cruise).map some⟩,
      ⟨"Service ceiling", "darkturquoise", (recastArray D.nom.servceil).map some⟩,
      ⟨"Take-off ground roll", "red", (recastArray D.nom.takeoff).map some⟩,
      ⟨"Sustained turn", "yellowgreen", (recastArray D.nom.turn).map some⟩] ∧
    stallLine D.xs D.xcrit = .ok c.stall ∧ turnLine D.xs D.nom.combined.toList = .ok c.turn ∧
    listMin D.xs = .ok c.xlim.1 ∧ listMax D.xs = .ok c.xlim.2 ∧ c.ylim = D.ylim ∧ c.xlabel = xLabelling x ∧ c.ylabel = yLabelling y ∧
    c.mask = clMask D.xcrit D.bounds ∧ c.front = feasFront D.xs D.nom.combined.toList c.mask := by
  have k0 : constrCurve D.nom 0 .climb = .ok ⟨"Climb", "royalblue", (recastArray D.nom.climb).map some⟩ := rfl
  have k1 : constrCurve D.nom 1 .cruise = .ok ⟨"Cruise", "orange", (recastArray D.nom.cruise).map some⟩ := rfl
  have k2 : constrCurve D.nom 2 .servceil = .ok ⟨"Service ceiling", "darkturquoise", (recastArray D.nom.servceil).map some⟩ := rfl
  have k3 : constrCurve D.nom 3 .takeoff = .ok ⟨"Take-off ground roll", "red", (recastArray D.nom.takeoff).map some⟩ := rfl
  have k4 : constrCurve D.nom 4 .turn = .ok ⟨"Sustained turn", "yellowgreen", (recastArray D.nom.turn).map some⟩ := rfl
  unfold combinedplot at h
  simp only [k0, k1, k2, k3, k4, bind_ok] at h
  simp only [bind_ok_iff, pure_ok_iff] at h
  obtain ⟨sl, hsl, tl, htl, lo, hlo, hi, hhi, rfl⟩ := h
  exact ⟨_, rfl, rfl, rfl, hsl, htl, hlo, hhi, rfl, rfl, rfl, rfl, rfl⟩

/-- The data of a call and what the six charts are. -/
theorem call_ok {X : Ext} {r : Built} {w : NumArg} {A : SensArgs} {L : List Drawn} (h : propulsionsensitivity_monothetic X r w A = .ok L) :
    ∃ D, sensData X r w (yVar A.y_var) (xVar A.x_var) (yLim A.y_lim) = .ok D ∧
      ∀ d ∈ L, (∃ q, sensitivityplots D (yVar A.y_var) (xVar A.x_var) (A.customlabels.getD []) A.maskbool q = .ok d) ∨
        combinedplot D (yVar A.y_var) (xVar A.x_var) = .ok d := by
  unfold propulsionsensitivity_monothetic at h
  simp only [bind_ok_iff] at h
  obtain ⟨D, hD, h⟩ := h
  refine ⟨D, hD, ?_⟩
  cases hs : A.shown with
  | yes =>
    rw [hs] at h
    simp only [List.mapM_cons, List.mapM_nil, bind_ok_iff, pure_ok_iff] at h
    obtain ⟨a, ⟨a1, h1, b1, ⟨a2, h2, b2, ⟨a3, h3, b3, ⟨a4, h4, b4, ⟨a5, h5, b5, rfl, rfl⟩, rfl⟩, rfl⟩, rfl⟩, rfl⟩, c, hc, rfl⟩ := h
    intro d hd
    simp only [List.mem_append, List.mem_cons, List.not_mem_nil, or_false] at hd
    rcases hd with (rfl | rfl | rfl | rfl | rfl) | rfl
    exacts [Or.inl ⟨_, h1⟩, Or.inl ⟨_, h2⟩, Or.inl ⟨_, h3⟩, Or.inl ⟨_, h4⟩, Or.inl ⟨_, h5⟩, Or.inr hc]
  | no =>
    rw [hs] at h
    cases h
    simp
  | text s =>
    rw [hs] at h
    simp only at h
    cases hq : constrOf s with
    | some q =>
      rw [hq] at h
      simp only [bind_ok_iff, pure_ok_iff] at h
      obtain ⟨a, ha, rfl⟩ := h
      intro d hd
      rw [List.mem_singleton] at hd
      exact Or.inl ⟨q, hd ▸ ha⟩
    | none =>
      rw [hq] at h
      simp only at h
      split at h
      · simp only [bind_ok_iff, pure_ok_iff] at h
        obtain ⟨a, ha, rfl⟩ := h
        intro d hd
        rw [List.mem_singleton] at hd
        exact Or.inr (hd ▸ ha)
      · cases h
        simp

theorem yVar_power (s : String) : decide (yVar s = "p_hp") = decide (s = "p_hp") := by
  unfold yVar
  split_ifs with h
  · rfl
  · have h1 : s ≠ "p_hp" := fun e => h (by simp [e])
    simp [h1]

theorem xVar_area (s : String) : decide (xVar s = "s_m2") = decide (s = "s_m2") := by
  unfold xVar
  split_ifs with h
  · rfl
  · have h1 : s ≠ "s_m2" := fun e => h (by simp [e])
    simp [h1]

/-! ### Theorems -/

/-- Arguments that are not supported are replaced by the documented defaults: any quantity other than "tw" and "p_hp" stands for "tw", any
axis other than "ws_pa" and "s_m2" for "ws_pa", a limit that is no number for none, and labels need not be given. -/
theorem C116_arguments (X : Ext) (r : Built) (w : NumArg) (A : SensArgs) :
    (A.y_var ≠ "tw" → A.y_var ≠ "p_hp" →
      propulsionsensitivity_monothetic X r w A = propulsionsensitivity_monothetic X r w { A with y_var := "tw" }) ∧
    (A.x_var ≠ "ws_pa" → A.x_var ≠ "s_m2" →
      propulsionsensitivity_monothetic X r w A = propulsionsensitivity_monothetic X r w { A with x_var := "ws_pa" }) ∧
    (A.y_lim = .other → propulsionsensitivity_monothetic X r w A = propulsionsensitivity_monothetic X r w { A with y_lim := .none }) ∧
    (A.customlabels = none →
      propulsionsensitivity_monothetic X r w A = propulsionsensitivity_monothetic X r w { A with customlabels := some [] }) := by
  obtain ⟨yv, yl, xv, cl, sh, mb⟩ := A
  refine ⟨fun h1 h2 => ?_, fun h1 h2 => ?_, fun h => ?_, fun h => ?_⟩
  · dsimp only at h1 h2
    have : yVar yv = yVar "tw" := by simp [yVar, h1, h2]
    simp only [propulsionsensitivity_monothetic, this]
  · dsimp only at h1 h2
    have : xVar xv = xVar "ws_pa" := by simp [xVar, h1, h2]
    simp only [propulsionsensitivity_monothetic, this]
  · dsimp only at h
    subst h
    rfl
  · dsimp only at h
    subst h
    rfl

/-- The names of the charts, in the order in which they are drawn. -/
def chartNames : List String := ["climb", "cruise", "servceil", "take-off", "turn", "combined"]

/-- With `show=True` all six charts are drawn: the five constraints and then the combined chart. The name of a chart draws that same chart
alone. False and any other text draw nothing. -/
theorem C116_show (X : Ext) (r : Built) (w : NumArg) (A : SensArgs) {L : List Drawn}
    (h : propulsionsensitivity_monothetic X r w { A with shown := .yes } = .ok L) :
    (∃ c1 c2 c3 c4 c5 c6, L = [.stack .climb c1, .stack .cruise c2, .stack .servceil c3, .stack .takeoff c4, .stack .turn c5, .combined c6]) ∧
    (∀ (i : ℕ) s d, chartNames[i]? = some s → L[i]? = some d → propulsionsensitivity_monothetic X r w { A with shown := .text s } = .ok [d]) ∧
    propulsionsensitivity_monothetic X r w { A with shown := .no } = .ok [] ∧
    (∀ s, s ∉ chartNames → propulsionsensitivity_monothetic X r w { A with shown := .text s } = .ok []) := by
  unfold propulsionsensitivity_monothetic at h ⊢
  simp only [bind_ok_iff] at h
  obtain ⟨D, hD, h⟩ := h
  simp only [List.mapM_cons, List.mapM_nil, bind_ok_iff, pure_ok_iff] at h
  obtain ⟨a, ⟨a1, h1, b1, ⟨a2, h2, b2, ⟨a3, h3, b3, ⟨a4, h4, b4, ⟨a5, h5, b5, rfl, rfl⟩, rfl⟩, rfl⟩, rfl⟩, rfl⟩, c, hc, rfl⟩ := h
  obtain ⟨W, -, hst, -⟩ := sensData_ok hD
  have hR := study_coloured hst
  refine ⟨?_, ?_, ?_, ?_⟩
  · obtain ⟨c1, rfl, -⟩ := sp_ok hR h1
    obtain ⟨c2, rfl, -⟩ := sp_ok hR h2
    obtain ⟨c3, rfl, -⟩ := sp_ok hR h3
    obtain ⟨c4, rfl, -⟩ := sp_ok hR h4
    obtain ⟨c5, rfl, -⟩ := sp_ok hR h5
    obtain ⟨c6, rfl, -⟩ := cp_ok hc
    exact ⟨c1, c2, c3, c4, c5, c6, rfl⟩
  · intro i s d hi hd
    simp only [hD, bind_ok]
    match i with
    | 0 => cases hi; cases hd; simp [constrOf, h1]
    | 1 => cases hi; cases hd; simp [constrOf, h2]
    | 2 => cases hi; cases hd; simp [constrOf, h3]
    | 3 => cases hi; cases hd; simp [constrOf, h4]
    | 4 => cases hi; cases hd; simp [constrOf, h5]
    | 5 => cases hi; cases hd; simp [constrOf, hc]
    | n + 6 => simp [chartNames] at hi
  · simp only [hD, bind_ok]
    rfl
  · intro s hs
    simp only [hD, bind_ok]
    simp only [chartNames, List.mem_cons, List.not_mem_nil, or_false, not_or] at hs
    obtain ⟨s1, s2, s3, s4, s5, s6⟩ := hs
    simp [constrOf, s1, s2, s3, s4, s5, s6]
    rfl

/-- Titles and axes. -/
theorem C116_titles (X : Ext) (r : Built) (w : NumArg) (A : SensArgs) {L : List Drawn}
    (h : propulsionsensitivity_monothetic X r w A = .ok L) :
    (∀ q c, Drawn.stack q c ∈ L →
      c.title = (match q with
        | .climb => "Climb" | .cruise => "Cruise" | .servceil => "Service ceiling" | .takeoff => "Take-off ground roll"
        | .turn => "Sustained turn") ∧
      c.ylabel = (if A.y_var = "p_hp" then "Rel. sensitivity of P" else "Rel. sensitivity of TW") ∧
      c.xlabel = (if A.x_var = "s_m2" then "Wing area [m$^2$]" else "Wing loading [Pa]")) ∧
    ∀ c, Drawn.combined c ∈ L →
      c.ylabel = (if A.y_var = "p_hp" then "Power required [hp]" else "Thrust to weight ratio [-]") ∧
      c.xlabel = (if A.x_var = "s_m2" then "Wing area [m$^2$]" else "Wing loading [Pa]") := by
  obtain ⟨D, hD, hL⟩ := call_ok h
  obtain ⟨W, -, hst, -⟩ := sensData_ok hD
  have hR := study_coloured hst
  have hy : (yVar A.y_var = "p_hp") ↔ A.y_var = "p_hp" := decide_eq_decide.mp (yVar_power A.y_var)
  have hx : (xVar A.x_var = "s_m2") ↔ A.x_var = "s_m2" := decide_eq_decide.mp (xVar_area A.x_var)
  constructor
  · intro q c hm
    rcases hL _ hm with ⟨q', h'⟩ | h'
    · obtain ⟨c', e, e1, -, -, -, -, e2, e3, -⟩ := sp_ok hR h'
      cases e
      refine ⟨by rw [e1]; cases q <;> rfl, ?_, ?_⟩
      · rw [e3]; simp only [hy]; split_ifs <;> rfl
      · rw [e2]; unfold xLabelling; simp only [hx]
    · obtain ⟨c', e, -⟩ := cp_ok h'
      cases e
  · intro c hm
    rcases hL _ hm with ⟨q', h'⟩ | h'
    · obtain ⟨c', e, -⟩ := sp_ok hR h'
      cases e
    · obtain ⟨c', e, -, -, -, -, -, -, -, e1, e2, -⟩ := cp_ok h'
      cases e
      refine ⟨?_, ?_⟩
      · rw [e2]; unfold yLabelling; simp only [hy]
      · rw [e1]; unfold xLabelling; simp only [hx]

theorem effect_pos {X : Ext} {power : Bool} {m : ℝ} {ws : List ℝ} {r : Built} {q : Constr} {k : String} {v : List ℝ}
    (h : ShownWith X power m ws r q k v) : v.length = ws.length ∧ ∀ i, i < ws.length → 0 < v.getD i 0 := by
  obtain ⟨i, xs, -, ⟨hi, lo, rmax, rmin, f, g, -, -, -, -, -, -, rfl⟩, hz⟩ := h
  refine ⟨by simp, fun j hj => ?_⟩
  rw [getD_map' _ _ _ hj]
  have := hz _ (List.mem_map_of_mem (f := fun w => |f w - g w|) (List.getElem_mem hj))
  rw [List.getD_eq_getElem _ _ hj]
  exact lt_of_le_of_ne (abs_nonneg _) (Ne.symm this)

/-- The layers of the chart of a constraint are the relative sensitivities of exactly the parameters given as ranges whose effect on the
requirement vanishes nowhere, in the order of the dictionaries; each is labelled by the user's label or by its name, and each parameter has
one colour in all charts that no other parameter has. A chart without layers is crossed out. -/
theorem C116_layers {b dd p : Dict} {a : Option Atmos.Atm} {pa : PropArg} {r : Built} (hb : construct b dd p a pa = .ok r)
    (X : Ext) (w : NumArg) (A : SensArgs) (hw : recastArray w ≠ []) (hn : KeysDistinct (spaceOf r)) {L : List Drawn}
    (h : propulsionsensitivity_monothetic X r w A = .ok L) :
    ∃ (W : ℝ) (col : String → String), r.concept.weight_n = some W ∧
      Set.InjOn col {k | ∃ q v, ShownWith X (decide (A.y_var = "p_hp")) (W / gAcc) (recastArray w) r q k v} ∧
      ∀ q c, Drawn.stack q c ∈ L → ∃ ps : List (String × List ℝ), (ps.map Prod.fst).Sublist (allKeys r) ∧
        (∀ k v, (k, v) ∈ ps ↔ ShownWith X (decide (A.y_var = "p_hp")) (W / gAcc) (recastArray w) r q k v) ∧
        (ps = [] → c.cross = true ∧ c.layers = [⟨"N/A", "red", (recastArray w).map (fun _ => some 0)⟩]) ∧
        (ps ≠ [] → c.cross = false ∧ List.Forall₂ (fun e l => IsLabel (A.customlabels.getD []) e.1 l.label ∧ l.colour = col e.1 ∧
          l.values = (List.range (recastArray w).length).map
            (fun i => some (e.2.getD i 0 / (ps.map (fun e' => e'.2.getD i 0)).sum))) ps c.layers) := by
  obtain ⟨D, hD, hL⟩ := call_ok h
  obtain ⟨W, hW, hst, hn', -⟩ := sensData_ok hD
  have hR := study_coloured hst
  rw [yVar_power] at hst
  obtain ⟨W', hW', hps⟩ := study_list hb X w _ hw hn hst
  rw [hW] at hW'; cases hW'
  refine ⟨W, colourAt D.recd, hW, ?_, ?_⟩
  · refine (colourAt_inj hR).mono ?_
    rintro k ⟨q, v, hv⟩
    exact hR.2 q (k, v) ((hps q).2 k v |>.mpr hv)
  · intro q c hm
    rcases hL _ hm with ⟨q', h'⟩ | h'
    · obtain ⟨c', e, -, -, e1, -⟩ := sp_ok hR h'
      cases e
      refine ⟨D.recd.prime q, (hps q).1, (hps q).2, fun he => ?_, fun he => ?_⟩
      · rw [if_pos he, hn'] at e1
        obtain ⟨e1, e2⟩ := Prod.mk.inj e1
        refine ⟨e2, e1.trans ?_⟩
        rw [List.map_const']
      · rw [if_neg he, hn'] at e1
        obtain ⟨e1, e2⟩ := Prod.mk.inj e1
        refine ⟨e2, ?_⟩
        rw [e1, List.forall₂_map_right_iff]
        refine List.forall₂_same.mpr fun e hem => ⟨lookup_label _ _, rfl, ?_⟩
        show shareList _ _ _ = _
        unfold shareList
        refine List.map_congr_left fun i hi => ?_
        rw [List.mem_range] at hi
        refine if_neg ?_
        have hpos : 0 < primeSum (D.recd.prime q) i := by
          unfold primeSum
          refine List.sum_pos _ (fun x hx => ?_) (by simpa using he)
          obtain ⟨e', he', rfl⟩ := List.mem_map.mp hx
          exact (effect_pos (((hps q).2 e'.1 e'.2).mp he')).2 i hi
        exact hpos.ne'
    · obtain ⟨c', e, -⟩ := cp_ok h'
      cases e

/-- At every wing loading the layers fill the chart: each takes a positive share and the shares add up to 1. -/
theorem C116_filled {b dd p : Dict} {a : Option Atmos.Atm} {pa : PropArg} {r : Built} (hb : construct b dd p a pa = .ok r)
    (X : Ext) (w : NumArg) (A : SensArgs) (hw : recastArray w ≠ []) (hn : KeysDistinct (spaceOf r)) {L : List Drawn}
    (h : propulsionsensitivity_monothetic X r w A = .ok L) (q : Constr) (c : StackChart) (hm : Drawn.stack q c ∈ L) (hc : c.cross = false)
    (i : ℕ) (hi : i < (recastArray w).length) :
    ∃ xs : List ℝ, List.Forall₂ (fun l x => l.values[i]? = some (some x) ∧ 0 < x) c.layers xs ∧ xs.sum = 1 := by
  obtain ⟨W, col, hW, -, hall⟩ := C116_layers hb X w A hw hn h
  obtain ⟨ps, -, hps, h0, h1⟩ := hall q c hm
  have hne : ps ≠ [] := fun e => by
    have := (h0 e).1
    rw [hc] at this
    cases this
  obtain ⟨-, hf⟩ := h1 hne
  have hpos : ∀ e ∈ ps, 0 < e.2.getD i 0 := fun e he => (effect_pos ((hps e.1 e.2).mp he)).2 i hi
  have hsum : 0 < (ps.map (fun e' => e'.2.getD i 0)).sum := by
    refine List.sum_pos _ (fun x hx => ?_) (by simpa using hne)
    obtain ⟨e', he', rfl⟩ := List.mem_map.mp hx
    exact hpos e' he'
  obtain ⟨s, hs⟩ : ∃ s, s = (ps.map (fun e' => e'.2.getD i 0)).sum := ⟨_, rfl⟩
  refine ⟨ps.map (fun e => e.2.getD i 0 / s), ?_, ?_⟩
  · rw [List.forall₂_map_right_iff]
    have hf' := hf.flip
    refine List.Forall₂.imp (fun l e hle => hle) ?_
    have : ∀ (l1 : List (String × List ℝ)) (l2 : List Layer), (∀ e ∈ l1, 0 < e.2.getD i 0) →
        List.Forall₂ (fun e l => IsLabel (A.customlabels.getD []) e.1 l.label ∧ l.colour = col e.1 ∧
          l.values = (List.range (recastArray w).length).map
            (fun i => some (e.2.getD i 0 / (ps.map (fun e' => e'.2.getD i 0)).sum))) l1 l2 →
        List.Forall₂ (fun l e => l.values[i]? = some (some (e.2.getD i 0 / s)) ∧ 0 < e.2.getD i 0 / s) l2 l1 := by
      intro l1 l2 hp hf
      induction hf with
      | nil => exact .nil
      | cons hd _ ih =>
        refine .cons ⟨?_, div_pos (hp _ (by simp)) (hs ▸ hsum)⟩ (ih fun e he => hp e (List.mem_cons_of_mem _ he))
        rw [hd.2.2, List.getElem?_map, List.getElem?_range hi, hs]
        rfl
    exact this _ _ hpos hf
  · have : ∀ l : List (String × List ℝ), (l.map (fun e => e.2.getD i 0 / s)).sum = (l.map (fun e => e.2.getD i 0)).sum / s := by
      intro l
      induction l with
      | nil => simp
      | cons e l ih => simp only [List.map_cons, List.sum_cons, ih]; ring
    rw [this, ← hs, div_self (hs ▸ hsum.ne')]

/-- The combined chart shows the nominal requirements at sea level, one curve for each constraint and one for all, with different labels and
colours. -/
theorem C116_curves {b dd p : Dict} {a : Option Atmos.Atm} {pa : PropArg} {r : Built} (hb : construct b dd p a pa = .ok r)
    (X : Ext) (w : NumArg) (A : SensArgs) {L : List Drawn} (h : propulsionsensitivity_monothetic X r w A = .ok L)
    (c : CombChart) (hm : Drawn.combined c ∈ L) :
    ∃ W nom, r.concept.weight_n = some W ∧
      seaLevelReq X (decide (A.y_var = "p_hp")) (W / gAcc) (recastArray w) (studied r.concept) = .ok nom ∧
      c.curves.map (fun l => (l.label, l.values)) =
        [("Combined front \nup to turn stall line", nom.combined.toList), ("Climb", (recastArray nom.climb).map some),
         ("Cruise", (recastArray nom.cruise).map some), ("Service ceiling", (recastArray nom.servceil).map some),
         ("Take-off ground roll", (recastArray nom.takeoff).map some), ("Sustained turn", (recastArray nom.turn).map some)] ∧
      (c.curves.map Layer.colour).Nodup := by
  obtain ⟨D, hD, hL⟩ := call_ok h
  obtain ⟨W, hW, hst, -⟩ := sensData_ok hD
  have hR := study_coloured hst
  rw [yVar_power] at hst
  obtain ⟨W', hW', hn⟩ := C54_nominal hb X w _ hst
  rw [hW] at hW'; cases hW'
  rcases hL _ hm with ⟨q', h'⟩ | h'
  · obtain ⟨c', e, -⟩ := sp_ok hR h'
    cases e
  · obtain ⟨c', e, -, e1, -⟩ := cp_ok h'
    cases e
    refine ⟨W, D.nom, hW, hn, ?_, ?_⟩
    · rw [e1]; rfl
    · rw [e1]
      show (["k", "royalblue", "orange", "darkturquoise", "red", "yellowgreen"] : List String).Nodup
      decide

theorem xAxis_ne {W : ℝ} {area : Bool} {ws : List ℝ} (h : ws ≠ []) : xAxis W area ws ≠ [] := by
  unfold xAxis
  split
  · simpa using h
  · exact h

/-- With `show=True` the call draws exactly when the charts described by C97 to C99 exist, and it draws those. -/
theorem C116_charts (X : Ext) (r : Built) (w : NumArg) (A : SensArgs) (hw : recastArray w ≠ []) :
    ((∃ L, propulsionsensitivity_monothetic X r w { A with shown := .yes } = .ok L) ↔
      ∃ C, charts X r w (decide (A.y_var = "p_hp")) (decide (A.x_var = "s_m2")) (yLim A.y_lim) A.maskbool = .ok C) ∧
    ∀ L C, propulsionsensitivity_monothetic X r w { A with shown := .yes } = .ok L →
      charts X r w (decide (A.y_var = "p_hp")) (decide (A.x_var = "s_m2")) (yLim A.y_lim) A.maskbool = .ok C →
      (∀ q c, Drawn.stack q c ∈ L → c.xs = C.x ∧ c.masks = C.focus q ∧ IsSmallest C.x c.xlim.1 ∧ IsLargest C.x c.xlim.2) ∧
      (∀ c, Drawn.combined c ∈ L → c.xs = C.x ∧ c.ylim = C.ylim ∧ c.stall = C.stall ∧ c.turn = C.turn ∧ c.mask = C.mask ∧
        c.front = C.front ∧ IsSmallest C.x c.xlim.1 ∧ IsLargest C.x c.xlim.2) := by
  constructor
  · constructor
    · rintro ⟨L, h⟩
      unfold propulsionsensitivity_monothetic at h
      simp only [bind_ok_iff] at h
      obtain ⟨D, hD, h⟩ := h
      simp only [List.mapM_cons, List.mapM_nil, bind_ok_iff, pure_ok_iff] at h
      obtain ⟨a, ⟨a1, h1, b1, ⟨a2, h2, b2, ⟨a3, h3, b3, ⟨a4, h4, b4, ⟨a5, h5, b5, rfl, rfl⟩, rfl⟩, rfl⟩, rfl⟩, rfl⟩, c, hc, rfl⟩ := h
      obtain ⟨W, hW, hst, hn', hx, hxc, hyl, hbd⟩ := sensData_ok hD
      have hR := study_coloured hst
      rw [yVar_power] at hst
      rw [xVar_area] at hx hxc
      obtain ⟨c1, -, -, -, -, -, -, -, -, m1⟩ := sp_ok hR h1
      obtain ⟨c2, -, -, -, -, -, -, -, -, m2⟩ := sp_ok hR h2
      obtain ⟨c3, -, -, -, -, -, -, -, -, m3⟩ := sp_ok hR h3
      obtain ⟨c4, -, -, -, -, -, -, -, -, m4⟩ := sp_ok hR h4
      obtain ⟨c5, -, -, -, -, -, -, -, -, m5⟩ := sp_ok hR h5
      obtain ⟨c6, -, -, -, sl, tl, -⟩ := cp_ok hc
      rw [hx] at m1 m2 m3 m4 m5 sl tl hbd
      unfold charts
      simp only [hW, need, bind_ok, hst, hxc, hyl, hbd, m1, m2, m3, m4, m5, sl, tl]
      exact ⟨_, rfl⟩
    · rintro ⟨C, h⟩
      obtain ⟨W, R, nom, bd, hW, hst, hx, hxc, hyl, hbd, -, -, hsl, htl, hfo⟩ := charts_ok h
      have hR := study_coloured hst
      have hD : sensData X r w (yVar A.y_var) (xVar A.x_var) (yLim A.y_lim) =
          .ok ⟨R, nom, (recastArray w).length, C.x, C.xcrit, C.ylim, bd⟩ := by
        unfold sensData
        rw [yVar_power, xVar_area]
        simp only [hW, need, bind_ok, hst, hxc, hyl, hbd, ← hx]
        rfl
      have hne : C.x ≠ [] := hx ▸ xAxis_ne hw
      obtain ⟨hi, ehi, -⟩ := listMax_mem hne
      obtain ⟨lo, elo, -⟩ := listMin_mem hne
      have hsp : ∀ q, ∃ d, sensitivityplots ⟨R, nom, (recastArray w).length, C.x, C.xcrit, C.ylim, bd⟩ (yVar A.y_var) (xVar A.x_var)
          (A.customlabels.getD []) A.maskbool q = .ok d := by
        intro q
        have hq := hfo q
        unfold sensitivityplots
        rw [stackLayers_ok hR]
        cases hmb : A.maskbool with
        | true =>
          rw [hmb, if_pos rfl] at hq
          simp only [bind_ok, ehi, elo, if_true, hq]
          exact ⟨_, rfl⟩
        | false =>
          simp only [bind_ok, ehi, elo, Bool.false_eq_true, if_false]
          exact ⟨_, rfl⟩
      obtain ⟨d1, e1⟩ := hsp .climb
      obtain ⟨d2, e2⟩ := hsp .cruise
      obtain ⟨d3, e3⟩ := hsp .servceil
      obtain ⟨d4, e4⟩ := hsp .takeoff
      obtain ⟨d5, e5⟩ := hsp .turn
      have hcp : ∃ d, combinedplot ⟨R, nom, (recastArray w).length, C.x, C.xcrit, C.ylim, bd⟩ (yVar A.y_var) (xVar A.x_var) = .ok d := by
        have k0 : constrCurve nom 0 .climb = .ok ⟨"Climb", "royalblue", (recastArray nom.climb).map some⟩ := rfl
        have k1 : constrCurve nom 1 .cruise = .ok ⟨"Cruise", "orange", (recastArray nom.cruise).map some⟩ := rfl
        have k2 : constrCurve nom 2 .servceil = .ok ⟨"Service ceiling", "darkturquoise", (recastArray nom.servceil).map some⟩ := rfl
        have k3 : constrCurve nom 3 .takeoff = .ok ⟨"Take-off ground roll", "red", (recastArray nom.takeoff).map some⟩ := rfl
        have k4 : constrCurve nom 4 .turn = .ok ⟨"Sustained turn", "yellowgreen", (recastArray nom.turn).map some⟩ := rfl
        unfold combinedplot
        simp only [k0, k1, k2, k3, k4, bind_ok, hsl, htl, ehi, elo]
        exact ⟨_, rfl⟩
      obtain ⟨d6, e6⟩ := hcp
      refine ⟨[d1, d2, d3, d4, d5] ++ [d6], ?_⟩
      unfold propulsionsensitivity_monothetic
      simp only [hD, bind_ok, List.mapM_cons, List.mapM_nil, e1, e2, e3, e4, e5, e6]
      rfl
  · intro L C h hC
    obtain ⟨D, hD, hL⟩ := call_ok h
    obtain ⟨W, R, nom, bd, hW, hst, hx, hxc, hyl, hbd, hma, hfr, hsl, htl, hfo⟩ := charts_ok hC
    obtain ⟨W', hW', hst', -, hx', hxc', hyl', hbd'⟩ := sensData_ok hD
    simp only at hst' hx' hxc' hyl' hL
    have hR := study_coloured hst'
    rw [hW] at hW'; cases hW'
    rw [yVar_power, hst] at hst'
    obtain ⟨eR, eN⟩ := Prod.mk.inj (Except.ok.inj hst')
    rw [xVar_area] at hx' hxc'
    have ex : D.xs = C.x := hx'.trans hx.symm
    rw [hxc] at hxc'
    have exc : C.xcrit = D.xcrit := Except.ok.inj hxc'
    rw [← eN, hyl] at hyl'
    have eyl : C.ylim = D.ylim := Except.ok.inj hyl'
    rw [← eN, ex, hbd] at hbd'
    have ebd : bd = D.bounds := Except.ok.inj hbd'
    constructor
    · intro q c hm
      rcases hL _ hm with ⟨q', h'⟩ | h'
      · obtain ⟨c', e, -, e0, -, e1, e2, -, -, e3⟩ := sp_ok hR h'
        cases e
        rw [ex] at e0 e1 e2 e3
        refine ⟨e0, ?_, listMin_ok e1, listMax_ok e2⟩
        have hq := hfo q
        cases hmb : A.maskbool with
        | true =>
          rw [hmb, if_pos rfl] at hq
          rw [hmb, if_pos rfl, ← eN, hq] at e3
          exact (Except.ok.inj e3).symm
        | false =>
          rw [hmb] at hq e3
          simp only [Bool.false_eq_true, if_false] at hq e3
          rw [hq]
          exact (Except.ok.inj e3).symm
      · obtain ⟨c', e, -⟩ := cp_ok h'
        cases e
    · intro c hm
      rcases hL _ hm with ⟨q', h'⟩ | h'
      · obtain ⟨c', e, -⟩ := sp_ok hR h'
        cases e
      · obtain ⟨c', e, e0, -, sl, tl, e1, e2, e3, -, -, e4, e5⟩ := cp_ok h'
        cases e
        rw [ex] at e0 e1 e2 e5 sl tl
        rw [← exc, hsl] at sl
        rw [← eN, htl] at tl
        have em : c.mask = C.mask := by rw [e4, hma, exc, ebd]
        exact ⟨e0, e3.trans eyl.symm, (Except.ok.inj sl).symm, (Except.ok.inj tl).symm, em, by rw [e5, em, hfr, eN],
          listMin_ok e1, listMax_ok e2⟩

/-- A single wing loading cannot be studied for the thrust to weight ratio, whatever is to be shown. -/
theorem C116_single {b dd p : Dict} {a : Option Atmos.Atm} {pa : PropArg} {r : Built} (hb : construct b dd p a pa = .ok r)
    (X : Ext) (x : ℝ) (A : SensArgs) (hA : A.y_var ≠ "p_hp") (L : List Drawn) :
    propulsionsensitivity_monothetic X r (.scalar x) A ≠ .ok L ∧ propulsionsensitivity_monothetic X r (.array [x]) A ≠ .ok L := by
  have key : ∀ w : NumArg, recastArray w = [x] → propulsionsensitivity_monothetic X r w A ≠ .ok L := by
    intro w hw h
    obtain ⟨D, hD, -⟩ := call_ok h
    obtain ⟨W, hW, hst, -, -, -, hyl, -⟩ := sensData_ok hD
    rw [yVar_power] at hst
    obtain ⟨W', -, hn⟩ := C54_nominal hb X w _ hst
    rw [decide_eq_false hA, hw] at hn
    unfold seaLevelReq at hn
    simp only [Bool.false_eq_true, if_false] at hn
    rcases tw_point X (studied r.concept) true true with ⟨e, he⟩ | ⟨R, hR, -⟩
    · rw [he _ (by simp [recastArray])] at hn
      cases hn
    · rw [hR] at hn
      have e := Except.ok.inj hn
      unfold ylimHi at hyl
      rw [← e] at hyl
      cases hyl
  exact ⟨key _ rfl, key _ rfl⟩

/-- A limit given as a number is the upper end of the combined chart, but a numpy number other than 0 is ignored, though it is a number: the
result is the one without a limit. -/
theorem C116_numpy_violated (X : Ext) (r : Built) (w : NumArg) (A : SensArgs) (x : ℝ) :
    (∀ L c, propulsionsensitivity_monothetic X r w { A with y_lim := .number x } = .ok L → Drawn.combined c ∈ L → c.ylim = x) ∧
    (x ≠ 0 → propulsionsensitivity_monothetic X r w { A with y_lim := .numpy x } =
      propulsionsensitivity_monothetic X r w { A with y_lim := .none }) := by
  constructor
  · intro L c h hm
    obtain ⟨D, hD, hL⟩ := call_ok h
    obtain ⟨W, hW, hst, -, -, -, hyl, -⟩ := sensData_ok hD
    have hR := study_coloured hst
    rcases hL _ hm with ⟨q', h'⟩ | h'
    · obtain ⟨c', e, -⟩ := sp_ok hR h'
      cases e
    · obtain ⟨c', e, -, -, -, -, -, -, e1, -⟩ := cp_ok h'
      cases e
      rw [e1]
      unfold ylimHi yLim at hyl
      simp only at hyl
      split at hyl
      · cases hyl
      · exact (Except.ok.inj hyl).symm
  · intro hx
    have : yLim (.numpy x) = yLim .none := if_pos hx
    simp only [propulsionsensitivity_monothetic, this]

/-! ### Worked case -/

/-- A call for the worked case: wing loadings 500 and 1000 Pa, an unknown quantity (so the thrust to weight ratio), a label for the ground run. -/
def stArgs : SensArgs :=
  { y_var := "thrust", y_lim := .none, x_var := "s_m2", customlabels := some [("groundrun_m", "Ground run")], shown := .yes, maskbool := false }

theorem st_call (X : Ext) (A : SensArgs) (hm : A.maskbool = false) :
    ∃ L, propulsionsensitivity_monothetic X stBuilt (.array [500, 1000]) { A with shown := .yes } = .ok L := by
  refine (C116_charts X stBuilt (.array [500, 1000]) A (by simp [recastArray])).1.mpr ?_
  rw [hm]
  exact st_charts X _ _ _ [500, 1000] (by simp) (by norm_num) (by norm_num)

theorem st_shown (X : Ext) (W : ℝ) : ∃ v, ShownWith X false (W / gAcc) [500, 1000] stBuilt .takeoff "groundrun_m" v := by
  obtain ⟨rmax, e1⟩ := st_req X false (W / gAcc) [500, 1000] (by simp) _ (st_varied_ready 500)
    (by simp [Missing, stBuilt, stC, studied, exC, varied])
  obtain ⟨rmin, e2⟩ := st_req X false (W / gAcc) [500, 1000] (by simp) _ (st_varied_ready 300)
    (by simp [Missing, stBuilt, stC, studied, exC, varied])
  have t1 := st_takeoff X 500 (by norm_num) [500, 1000] (by norm_num) (by simp) rmax _ e1
  have t2 := st_takeoff X 300 (by norm_num) [500, 1000] (by norm_num) (by simp) rmin _ e2
  refine ⟨_, 0, [300, 500], by simp [dictNo, spaceOf, stBuilt, stBrief],
    ⟨500, 300, rmax, rmin, _, _, ⟨by simp, by norm_num⟩, ⟨by simp, by norm_num⟩, e1, e2, t1, t2, rfl⟩, ?_⟩
  intro x hx
  simp only [List.map_cons, List.map_nil, List.mem_cons, List.not_mem_nil, or_false] at hx
  rcases hx with rfl | rfl <;> norm_num [gAcc]

/-- All charts are drawn; the take-off chart has the one layer of the ground run, labelled by the user and of height 1, over the wing areas
20 and 10 m²; shown alone it is the same. -/
example (X : Ext) : ∃ L c l, propulsionsensitivity_monothetic X stBuilt (.array [500, 1000]) stArgs = .ok L ∧
    Drawn.stack .takeoff c ∈ L ∧ c.cross = false ∧ c.layers = [l] ∧ l.label = "Ground run" ∧ l.values = [some 1, some 1] ∧
    c.title = "Take-off ground roll" ∧ c.ylabel = "Rel. sensitivity of TW" ∧ c.xlabel = "Wing area [m$^2$]" ∧
    propulsionsensitivity_monothetic X stBuilt (.array [500, 1000]) { stArgs with shown := .text "take-off" } = .ok [.stack .takeoff c] := by
  obtain ⟨L, hL⟩ := st_call X stArgs rfl
  have hL' : propulsionsensitivity_monothetic X stBuilt (.array [500, 1000]) stArgs = .ok L := hL
  obtain ⟨⟨c1, c2, c3, c4, c5, c6, rfl⟩, htext, -⟩ := C116_show X stBuilt (.array [500, 1000]) stArgs hL
  have hm : Drawn.stack .takeoff c4 ∈ [Drawn.stack .climb c1, .stack .cruise c2, .stack .servceil c3, .stack .takeoff c4, .stack .turn c5, .combined c6] := by
    simp
  obtain ⟨W, col, hW, -, hall⟩ := C116_layers st_built X (.array [500, 1000]) stArgs (by simp [recastArray]) st_distinct hL'
  obtain ⟨ps, hsub, hps, -, h1⟩ := hall .takeoff c4 hm
  obtain ⟨v, hv⟩ := st_shown X W
  have hmem : ("groundrun_m", v) ∈ ps := (hps _ _).mpr hv
  have hone : ps = [("groundrun_m", v)] := by
    have all : ∀ e ∈ ps, e.1 = "groundrun_m" := fun e he => by
      obtain ⟨i, xs, h2, -⟩ := (hps e.1 e.2).mp he
      exact (st_ranged i e.1 xs h2).2.1
    have nd : (ps.map Prod.fst).Nodup := hsub.nodup st_distinct
    match ps, hmem, all, nd with
    | [e], hmem, _, _ => rw [List.mem_singleton] at hmem; rw [hmem]
    | e :: e' :: t, _, all, nd =>
      rw [List.map_cons, List.map_cons, all e (by simp), all e' (by simp)] at nd
      simp at nd
  obtain ⟨hc, hf⟩ := h1 (by rw [hone]; simp)
  have hf0 := C116_filled st_built X (.array [500, 1000]) stArgs (by simp [recastArray]) st_distinct hL' .takeoff c4 hm hc
  obtain ⟨t1, t2, t3⟩ := (C116_titles X stBuilt (.array [500, 1000]) stArgs hL').1 .takeoff c4 hm
  rw [hone] at hf
  obtain ⟨l, hl⟩ : ∃ l, c4.layers = [l] := by
    generalize c4.layers = ls at hf
    cases hf with
    | cons _ h => cases h; exact ⟨_, rfl⟩
  rw [hl] at hf
  cases hf with
  | cons h _ =>
    obtain ⟨hlab, -, hval⟩ := h
    refine ⟨_, c4, l, hL', hm, hc, hl, ?_, ?_, t1, t2, t3, htext 3 "take-off" _ rfl rfl⟩
    · rcases hlab with ⟨a, b, e, -⟩ | ⟨hn, -⟩
      · have e' : [("groundrun_m", "Ground run")] = a ++ ("groundrun_m", l.label) :: b := e
        match a, e' with
        | [], e' => exact (Prod.mk.inj (List.cons.inj e').1).2.symm
        | _ :: a, e' => simp at e'
      · exact absurd (show "groundrun_m" ∈ [("groundrun_m", "Ground run")].map Prod.fst by simp) hn
    · obtain ⟨-, hpos⟩ := effect_pos hv
      have p0 := hpos 0 (by simp)
      have p1 := hpos 1 (by simp)
      rw [hval]
      simp only [recastArray, List.length_cons, List.length_nil, List.map_cons, List.map_nil, List.sum_cons, List.sum_nil, add_zero]
      show [some (v.getD 0 0 / v.getD 0 0), some (v.getD 1 0 / v.getD 1 0)] = _
      rw [div_self p0.ne', div_self p1.ne']

/-- The limit 5 as a number and as a numpy number. -/
example (X : Ext) : ∃ L L' c c', propulsionsensitivity_monothetic X stBuilt (.array [500, 1000]) { stArgs with y_lim := .number 5 } = .ok L ∧
    Drawn.combined c ∈ L ∧ c.ylim = 5 ∧ c.curves.length = 6 ∧
    propulsionsensitivity_monothetic X stBuilt (.array [500, 1000]) { stArgs with y_lim := .numpy 5 } = .ok L' ∧
    propulsionsensitivity_monothetic X stBuilt (.array [500, 1000]) { stArgs with y_lim := .none } = .ok L' ∧ Drawn.combined c' ∈ L' := by
  obtain ⟨L, hL⟩ := st_call X { stArgs with y_lim := .number 5 } rfl
  obtain ⟨L', hL'⟩ := st_call X { stArgs with y_lim := .none } rfl
  have n1 := (C116_numpy_violated X stBuilt (.array [500, 1000]) stArgs 5).1
  have n2 := (C116_numpy_violated X stBuilt (.array [500, 1000]) stArgs 5).2 (by norm_num)
  obtain ⟨⟨c1, c2, c3, c4, c5, c6, rfl⟩, -⟩ := C116_show X stBuilt (.array [500, 1000]) _ hL
  obtain ⟨⟨d1, d2, d3, d4, d5, d6, rfl⟩, -⟩ := C116_show X stBuilt (.array [500, 1000]) _ hL'
  obtain ⟨W, nom, -, -, hcur, -⟩ := C116_curves st_built X (.array [500, 1000]) _ hL c6 (by simp)
  have := congrArg List.length hcur
  simp only [List.length_map, List.length_cons, List.length_nil] at this
  exact ⟨_, _, c6, d6, hL, by simp, n1 _ c6 hL (by simp), this, n2.trans hL', hL', by simp⟩

example (X : Ext) (L : List Drawn) : propulsionsensitivity_monothetic X stBuilt (.scalar 1000) stArgs ≠ .ok L :=
  (C116_single st_built X 1000 stArgs (by decide) L).1

end

end Verif.Props
