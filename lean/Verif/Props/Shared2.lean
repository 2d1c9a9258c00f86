import Verif.Props.Shared

/-
Property C137: entries and attributes set after a concept was made.
-/

namespace Verif.Props

open Verif Verif.Aircraft Verif.Units

noncomputable section

theorem view_written {X : Ext} {M M1 M2 : Memory} {a : Fin 3 → ℕ} {atm : Option Atmos.Atm} {pa : PropArg} {i : Fin 3} {k : String} {v : ℝ}
    (ha : ∀ j, a j < (M.store j).next) (h : newConcept M a atm pa = .ok M1) (hne : (M.store i).get (a i) ≠ [])
    (hw : exec X M1 (.write i (a i) k (.num v)) = .ok M2) :
    ∃ r o, construct ((M.store 0).get (a 0)) ((M.store 1).get (a 1)) ((M.store 2).get (a 2)) atm pa = .ok r ∧
      M2.objs[M.objs.length]? = some o ∧ o.addr i = a i ∧ (∀ j, (M2.store j).get (o.addr j) =
        dictNo ((Design3.mk r.brief r.design r.performance).set i k v) j) ∧ (∀ j, o.addr j < (M2.store j).next) ∧
      o.concept = r.concept ∧ o.space = r.space := by
  obtain ⟨r, o, h1, h2, h3, h4, h5, -⟩ := new_made ha h
  have ho : M2.objs[M.objs.length]? = some o := exec_obj h2 (op := .write i (a i) k (.num v)) trivial hw
  have hai := h5 i hne
  refine ⟨r, o, h1, ho, hai, ?_, ?_, by rw [← h4]; rfl, by rw [← h4]; rfl⟩
  all_goals
    intro j
    simp only [exec] at hw
    cases hw
    simp only
  · by_cases e : j = i
    · subst e
      rw [Function.update_self, ← hai]
      simp only [Store.put, Function.update_self, (h3 j).1]
      match j with
      | 0 => rfl
      | 1 => rfl
      | 2 => rfl
    · rw [Function.update_of_ne e, (h3 j).1]
      match i, j with
      | 0, 0 => exact absurd rfl e
      | 1, 1 => exact absurd rfl e
      | 2, 2 => exact absurd rfl e
      | 0, 1 => rfl
      | 0, 2 => rfl
      | 1, 0 => rfl
      | 1, 2 => rfl
      | 2, 0 => rfl
      | 2, 1 => rfl
  · by_cases e : j = i
    · subst e
      rw [Function.update_self]
      exact (h3 j).2
    · rw [Function.update_of_ne e]
      exact (h3 j).2

/-- An entry set after the concept was made does not reach its attributes, but a later study takes it for its nominal curve, with the
mass and the ranges of the concept as it was. -/
theorem C137_study_written {X : Ext} {M M1 M2 : Memory} {a : Fin 3 → ℕ} {atm : Option Atmos.Atm} {pa : PropArg} {i : Fin 3} {k : String} {v : ℝ}
    (ha : ∀ j, a j < (M.store j).next) (h : newConcept M a atm pa = .ok M1) (hne : (M.store i).get (a i) ≠ []) (hk : Scalar i k)
    (hw : exec X M1 (.write i (a i) k (.num v)) = .ok M2) :
    ∃ r o, construct ((M.store 0).get (a 0)) ((M.store 1).get (a 1)) ((M.store 2).get (a 2)) atm pa = .ok r ∧
      M2.objs[M.objs.length]? = some o ∧ o.concept = r.concept ∧ o.space = r.space ∧
      ∀ w power R nom, study X (o.view M2) w power = .ok (R, nom) →
        ∃ W, r.concept.weight_n = some W ∧
          seaLevelReq X power (W / gAcc) (recastArray w) (varied (studied r.concept) i k v) = .ok nom := by
  obtain ⟨r, o, h1, h2, -, h4, -, h5, h6⟩ := view_written ha h hne hw
  refine ⟨r, o, h1, h2, h5, h6, ?_⟩
  intro w power R nom hst
  obtain ⟨S, W, hS, hW, rfl, hm, -, hn⟩ := study_ok hst
  have hc : (o.view M2).concept = r.concept := h5
  rw [hc] at hW
  refine ⟨W, hW, ?_⟩
  obtain ⟨T, hT⟩ : ∃ T : StudyIn, T = { S with state := ⟨r.brief, r.design, r.performance⟩ } := ⟨_, rfl⟩
  have hTS : StudyOf r T (recastArray w) := by
    rw [hT]
    exact ⟨hS.ws, by rw [← hc]; exact hS.atm, by rw [← hc]; exact hS.propulsion, rfl⟩
  have e := evalState_varied h1 X hTS i k v hk
  have hst : S.state = T.state.set i k v := by
    rw [hS.state, hTS.state]
    have e0 := h4 0
    have e1 := h4 1
    have e2 := h4 2
    simp only [Obj.view]
    rw [e0, e1, e2]
    rfl
  rw [hst] at hn
  have e' : evalState X S (T.state.set i k v) = evalState X T (T.state.set i k v) := by rw [hT]; rfl
  rw [e', e] at hn
  rw [← hn, ← hm, hT]

/-- A concept made from the same dictionaries after the entry was set has it, everything else being as in the first concept (the loop in
the documentation of `wigfactor`). -/
theorem C137_rebuild {X : Ext} {M M1 M2 M3 : Memory} {a : Fin 3 → ℕ} {atm : Option Atmos.Atm} {pa : PropArg} {i : Fin 3} {k : String} {v : ℝ}
    (ha : ∀ j, a j < (M.store j).next) (h : newConcept M a atm pa = .ok M1) (hne : ∀ j, (M.store j).get (a j) ≠ []) (hk : Scalar i k)
    (hw : exec X M1 (.write i (a i) k (.num v)) = .ok M2) (h3 : newConcept M2 a atm pa = .ok M3) :
    ∃ o o', M3.objs[M.objs.length]? = some o ∧ M3.objs[M2.objs.length]? = some o' ∧
      o'.concept = { varied o.concept i k v with etadefaultflag := 0 } := by
  obtain ⟨r, o, h1, h2, -, h4, hl, h5, -⟩ := view_written ha h (hne i) hw
  obtain ⟨r0, o0, h10, h20, -, -, h50, -⟩ := new_made ha h
  have hoo : o0 = o := by
    have := exec_obj h20 (op := .write i (a i) k (.num v)) trivial hw
    rw [h2] at this
    exact (Option.some.inj this).symm
  subst hoo
  have haddr : ∀ j, o0.addr j = a j := fun j => h50 j (hne j)
  simp only [haddr] at h4 hl
  obtain ⟨r', o', h1', h2', -, h4', -, -⟩ := new_made hl h3
  refine ⟨o0, o', exec_obj (X := X) (op := .new a atm pa) h2 trivial h3, h2', ?_⟩
  obtain ⟨r'', hv, hv'⟩ := construct_varied (a' := atm) (pa' := pa) h1 i k v hk
  rw [h4 0, h4 1, h4 2] at h1'
  have : r' = r'' := by
    have e : Except.ok r' = Except.ok (ε := PyErr) r'' := by rw [← h1', ← hv]; rfl
    injection e
  rw [show o'.concept = r'.concept by rw [← h4']; rfl, this, hv', h5]
  obtain ⟨_, _, _, _, _, _, _, _, _, _, _, _, _, _, _, _, _, _, _, _, _, hr⟩ := construct_ok h1
  obtain ⟨-, -, hat, hp⟩ := readConcept_ok hr
  rw [← hat, ← hp]
  rfl

/-- Attributes set after the concept was made are used in its requirements, but not in the nominal curve of its study, which takes from
them only the atmosphere, the propulsion and the mass. -/
theorem C137_study_attribute {X : Ext} {M M1 M2 : Memory} {a : Fin 3 → ℕ} {atm : Option Atmos.Atm} {pa : PropArg} {c : Concept}
    (ha : ∀ j, a j < (M.store j).next) (h : newConcept M a atm pa = .ok M1)
    (hw : exec X M1 (.setattr M.objs.length c) = .ok M2) :
    ∃ r o, construct ((M.store 0).get (a 0)) ((M.store 1).get (a 1)) ((M.store 2).get (a 2)) atm pa = .ok r ∧
      M2.objs[M.objs.length]? = some o ∧ o.concept = c ∧
      ∀ w power R nom, study X (o.view M2) w power = .ok (R, nom) →
        ∃ W, c.weight_n = some W ∧ seaLevelReq X power (W / gAcc) (recastArray w)
          (studied { r.concept with designatm := c.designatm, propulsion := c.propulsion }) = .ok nom := by
  obtain ⟨r, o, h1, h2, h3, h4, -, -⟩ := new_made ha h
  simp only [exec] at hw
  cases hw
  refine ⟨r, { o with concept := c }, h1, ?_, rfl, ?_⟩
  · simp only [List.getElem?_modify, h2]
    simp
  intro w power R nom hst
  obtain ⟨S, W, hS, hW, rfl, hm, -, hn⟩ := study_ok hst
  refine ⟨W, hW, ?_⟩
  obtain ⟨_, _, _, _, _, _, _, _, _, _, _, _, _, _, _, _, _, _, _, _, _, hr⟩ := construct_ok h1
  obtain ⟨hat, -, -, -⟩ := readConcept_ok hr
  obtain ⟨c', hc'⟩ : ∃ c', c' = studied { r.concept with designatm := c.designatm, propulsion := c.propulsion } := ⟨_, rfl⟩
  have hat' : AttrsFrom r.brief r.design r.performance c' := by
    rw [hc']
    obtain ⟨a0, a1, a2, a3, a4, a5, a6, a7, a8, a9, a10, a11, a12, a13, a14, a15, a16, a17, a18, a19, a20, a21, a22, a23, a24, a25, a26, a27, a28, a29, a30, a31, a32, a33, a34, a35, a36, a37, a38, a39, a40⟩ := hat
    exact ⟨a0, a1, a2, a3, a4, a5, a6, a7, a8, a9, a10, a11, a12, a13, a14, a15, a16, a17, a18, a19, a20, a21, a22, a23, a24, a25, a26, a27, a28, a29, a30, a31, a32, a33, a34, a35, a36, a37, a38, a39, a40⟩
  have hst' : S.state = ⟨r.brief, r.design, r.performance⟩ := by
    rw [hS.state]
    have e0 : (M1.store 0).get (o.addr 0) = r.brief := (h3 0).1
    have e1 : (M1.store 1).get (o.addr 1) = r.design := (h3 1).1
    have e2 : (M1.store 2).get (o.addr 2) = r.performance := (h3 2).1
    simp only [Obj.view]
    rw [e0, e1, e2]
  have hc := construct_settled (settled_construct h1) hat' (some S.atm) S.propulsion.asArg (by rw [hS.atm, hc']; rfl)
    (by rw [parse_asArg, hS.propulsion, hc']; rfl)
  unfold evalState at hn
  rw [hst', hc, bind_ok] at hn
  rw [← hc', ← hn, ← hm, ← seaLevelReq_weight X S.power S.mass _ c' 0 c'.weight_n]
  unfold yFunction seaLevelReq
  rw [hS.ws]
  rfl

/-! ### A worked case -/

/-- The memory of the worked case: one dictionary of each kind, no concept yet. -/
def shM : Memory := ⟨fun i => ⟨1, fun _ => dictNo ⟨stBriefAvg, stDesign, stPerf⟩ i⟩, []⟩

/-- The concept of the worked case. -/
def shC : Concept := studied stC

/-- What the constructor makes in the worked case. -/
def shBuilt : Built := ⟨stBriefAvg, stDesign, stPerf, (stBriefAvg, stDesign, stPerf), false, { shC with etadefaultflag := 0 }⟩

theorem sh_built : construct stBriefAvg stDesign stPerf (some exAtm) (.obj .other) = .ok shBuilt := by
  have hat : AttrsFrom stBriefAvg stDesign stPerf shC := by
    obtain ⟨a0, a1, a2, a3, a4, a5, a6, a7, a8, a9, a10, a11, a12, a13, a14, a15, a16, a17, a18, a19, a20, a21, a22, a23, a24, a25, a26, a27, a28, a29, a30, a31, a32, a33, a34, a35, a36, a37, a38, a39, a40⟩ := st_attrs
    exact ⟨a0, a1, a2, a3, a4, a5, a6, a7, a8, a9, a10, a11, a12, a13, a14, a15, a16, a17, a18, a19, a20, a21, a22, a23, a24, a25, a26, a27, a28, a29, a30, a31, a32, a33, a34, a35, a36, a37, a38, a39, a40⟩
  exact construct_settled (settled_construct st_built) hat (some exAtm) (.obj .other) rfl rfl

theorem sh_new : ∃ M1, newConcept shM (fun _ => 0) (some exAtm) (.obj .other) = .ok M1 := by
  have hn : ∀ i, ((shM.store i).get 0) ≠ [] := by
    intro i
    match i with
    | 0 => simp [shM, dictNo, stBriefAvg, stBrief, dset]
    | 1 => simp [shM, dictNo, stDesign]
    | 2 => simp [shM, dictNo, stPerf]
  unfold newConcept
  simp only [orNew_given (hn _)]
  rw [show construct ((shM.store 0).get 0) ((shM.store 1).get 0) ((shM.store 2).get 0) (some exAtm) (.obj .other) = .ok shBuilt from sh_built,
    bind_ok]
  exact ⟨_, rfl⟩


theorem sh_given (i : Fin 3) : (shM.store i).get 0 ≠ [] := by
  match i with
  | 0 => simp [shM, dictNo, stBriefAvg, stBrief, dset]
  | 1 => simp [shM, dictNo, stDesign]
  | 2 => simp [shM, dictNo, stPerf]

theorem sh_lt (i : Fin 3) : 0 < (shM.store i).next := by simp [shM]

theorem sh_scalar : Scalar 0 "groundrun_m" := ⟨by simp, by simp⟩

/-- The study of a concept without ranges is its nominal evaluation. -/
theorem study_plain (X : Ext) (v : Built) (w : NumArg) (power : Bool) (W : ℝ) (hW : v.concept.weight_n = some W) (nom : Req)
    (hs : v.space = (stBriefAvg, stDesign, stPerf))
    (hn : evalState X ⟨.array (recastArray w), power, v.concept.designatm, v.concept.propulsion, W / gAcc,
      ⟨v.brief, v.design, v.performance⟩⟩ ⟨v.brief, v.design, v.performance⟩ = .ok nom) :
    study X v w power = .ok (⟨fun _ => [], []⟩, nom) := by
  have hl : ∀ S, studyLoop X S ⟨v.space.1, v.space.2.1, v.space.2.2⟩ = .ok ⟨fun _ => [], []⟩ := by
    intro S
    rw [hs]
    simp [studyLoop, stBriefAvg, stBrief, stDesign, stPerf, dset, studyEntry, List.foldlM, bind, Except.bind, pure, Except.pure]
  unfold study studyIn
  rw [hW]
  simp only [need, bind_ok, pure, Except.pure]
  show ((studyLoop X _ _).bind fun R => _) = _
  rw [hl]
  simp only [Except.bind]
  show ((evalState X _ _).bind fun n => _) = _
  rw [hn]
  rfl


/-- The concept of the worked case with a given ground run. -/
theorem sh_varied : ({ shC with etadefaultflag := 0 } : Concept) = varied (studied stC) 0 "groundrun_m" 400 := by
  simp [shC, varied, studied, stC, exC]

theorem sh_req (X : Ext) (v : ℝ) : ∃ q, seaLevelReq X false (10000 / gAcc) [500, 1000] (varied (studied stC) 0 "groundrun_m" v) = .ok q :=
  st_req X false _ _ (by simp) _ (st_varied_ready v) (by simp [Missing, stC, studied, exC, varied])

theorem sh_differ (X : Ext) {v u m : ℝ} (hv : 0 < v) (hu : 0 < u) (hne : v ≠ u) {q q' : Req}
    (h : seaLevelReq X false m [500, 1000] (varied (studied stC) 0 "groundrun_m" v) = .ok q)
    (h' : seaLevelReq X false m [500, 1000] (varied (studied stC) 0 "groundrun_m" u) = .ok q') :
    recastArray q.takeoff ≠ recastArray q'.takeoff := by
  rw [st_takeoff X v hv _ (by simp) (by simp) _ _ h, st_takeoff X u hu _ (by simp) (by simp) _ _ h']
  simp only [List.map_cons, List.map_nil]
  intro e
  injection e with e1 e2
  have hg : (0 : ℝ) < gAcc := by unfold gAcc; norm_num
  have e3 : 1.21 * 500 / (1.6 * gAcc * v) = 1.21 * 500 / (1.6 * gAcc * u) := by linarith
  rw [div_eq_div_iff (by positivity) (by positivity)] at e3
  apply hne
  have : (1.21 * 500 * 1.6 * gAcc) * u = (1.21 * 500 * 1.6 * gAcc) * v := by linarith
  exact (mul_left_cancel₀ (by positivity) this).symm

/-- The nominal curve of the study belongs to the concept. False once an entry was set: in the worked case with any ground run other than
400 m written into the brief afterwards, the take-off curve of the study is not the take-off requirement of the concept. -/
theorem C137_written_violated (X : Ext) (v : ℝ) (hv : 0 < v) (hne : v ≠ 400) :
    ∃ M1 M2 o R nom own, newConcept shM (fun _ => 0) (some exAtm) (.obj .other) = .ok M1 ∧
      exec X M1 (.write 0 0 "groundrun_m" (.num v)) = .ok M2 ∧ M2.objs[0]? = some o ∧
      study X (o.view M2) (.array [500, 1000]) false = .ok (R, nom) ∧
      twrequired X o.concept (.array [500, 1000]) true true = .ok own ∧
      recastArray nom.takeoff ≠ recastArray own.takeoff := by
  obtain ⟨M1, h1⟩ := sh_new
  obtain ⟨M2, h2⟩ : ∃ M2, exec X M1 (.write 0 0 "groundrun_m" (.num v)) = .ok M2 := ⟨_, rfl⟩
  obtain ⟨r, o, hr, ho, -, hd, -, hc, hsp⟩ := view_written sh_lt h1 (sh_given 0) h2
  have hrb : r = shBuilt := by
    have e : construct stBriefAvg stDesign stPerf (some exAtm) (.obj .other) = .ok r := hr
    rw [sh_built] at e
    injection e with e
    exact e.symm
  subst hrb
  obtain ⟨own, hown⟩ := sh_req X 400
  obtain ⟨nom, hnom⟩ := sh_req X v
  obtain ⟨T, hT⟩ : ∃ T : StudyIn, T = ⟨.array (recastArray (.array [500, 1000])), false, shC.designatm, shC.propulsion, 10000 / gAcc,
      ⟨stBriefAvg, stDesign, stPerf⟩⟩ := ⟨_, rfl⟩
  have hTS : StudyOf shBuilt T (recastArray (.array [500, 1000])) := by rw [hT]; exact ⟨rfl, rfl, rfl, rfl⟩
  have e := evalState_varied sh_built X hTS 0 "groundrun_m" v sh_scalar
  have hn : evalState X ⟨.array (recastArray (.array [500, 1000])), false, (o.view M2).concept.designatm, (o.view M2).concept.propulsion,
      10000 / gAcc, ⟨(o.view M2).brief, (o.view M2).design, (o.view M2).performance⟩⟩
      ⟨(o.view M2).brief, (o.view M2).design, (o.view M2).performance⟩ = .ok nom := by
    have e0 := hd 0
    have e1 := hd 1
    have e2 := hd 2
    simp only [Obj.view]
    rw [e0, e1, e2, hc, ← hnom]
    have e3 : varied (studied shBuilt.concept) 0 "groundrun_m" v = varied (studied stC) 0 "groundrun_m" v := by
      simp [shBuilt, shC, varied, studied, handedOn, stC, exC]
    rw [e3] at e
    have e4 : T.power = false ∧ T.mass = 10000 / gAcc := by rw [hT]; exact ⟨rfl, rfl⟩
    rw [e4.1, e4.2] at e
    rw [show [500, 1000] = recastArray (.array [500, 1000]) from rfl, ← e, hT]
    rfl
  have hs := study_plain X (o.view M2) (.array [500, 1000]) false 10000 (by simp only [Obj.view]; rw [hc]; rfl) nom hsp hn
  refine ⟨M1, M2, o, _, nom, own, h1, h2, ho, hs, ?_, sh_differ X hv (by norm_num) hne hnom hown⟩
  rw [hc, show shBuilt.concept = varied (studied stC) 0 "groundrun_m" 400 from sh_varied]
  exact hown

/-- Likewise for an attribute: with any ground run other than 400 m set in the concept itself, its take-off requirement changes and the take-off
curve of its study does not. -/
theorem C137_attribute_violated (X : Ext) (v : ℝ) (hv : 0 < v) (hne : v ≠ 400) :
    ∃ M1 M2 o R nom own, newConcept shM (fun _ => 0) (some exAtm) (.obj .other) = .ok M1 ∧
      exec X M1 (.setattr 0 (varied (studied stC) 0 "groundrun_m" v)) = .ok M2 ∧ M2.objs[0]? = some o ∧ o.concept.groundrun_m = some v ∧
      study X (o.view M2) (.array [500, 1000]) false = .ok (R, nom) ∧
      twrequired X o.concept (.array [500, 1000]) true true = .ok own ∧
      recastArray nom.takeoff ≠ recastArray own.takeoff := by
  obtain ⟨M1, h1⟩ := sh_new
  obtain ⟨r, o, hr, ho, hH, hview, -, -⟩ := new_made sh_lt h1
  have hrb : r = shBuilt := by
    have e : construct stBriefAvg stDesign stPerf (some exAtm) (.obj .other) = .ok r := hr
    rw [sh_built] at e
    injection e with e
    exact e.symm
  subst hrb
  obtain ⟨own, hown⟩ := sh_req X v
  obtain ⟨nom, hnom⟩ := sh_req X 400
  obtain ⟨o', ho'⟩ : ∃ o' : Obj, o' = { o with concept := varied (studied stC) 0 "groundrun_m" v } := ⟨_, rfl⟩
  obtain ⟨M2, hM2⟩ : ∃ M2 : Memory, M2 = { M1 with objs := M1.objs.modify 0 (fun o => { o with concept := varied (studied stC) 0 "groundrun_m" v }) } :=
    ⟨_, rfl⟩
  have hobj : M2.objs[0]? = some o' := by
    have ho0 : M1.objs[0]? = some o := ho
    rw [hM2, ho']
    simp only [List.getElem?_modify, ho0]
    simp
  have hst : M2.store = M1.store := by rw [hM2]
  have hadr : o'.addr = o.addr := by rw [ho']
  have hc : o'.concept = varied (studied stC) 0 "groundrun_m" v := by rw [ho']
  have hat : AttrsFrom stBriefAvg stDesign stPerf shC := by
    obtain ⟨a0, a1, a2, a3, a4, a5, a6, a7, a8, a9, a10, a11, a12, a13, a14, a15, a16, a17, a18, a19, a20, a21, a22, a23, a24, a25, a26, a27, a28, a29, a30, a31, a32, a33, a34, a35, a36, a37, a38, a39, a40⟩ := st_attrs
    exact ⟨a0, a1, a2, a3, a4, a5, a6, a7, a8, a9, a10, a11, a12, a13, a14, a15, a16, a17, a18, a19, a20, a21, a22, a23, a24, a25, a26, a27, a28, a29, a30, a31, a32, a33, a34, a35, a36, a37, a38, a39, a40⟩
  have hn : evalState X ⟨.array (recastArray (.array [500, 1000])), false, (o'.view M2).concept.designatm, (o'.view M2).concept.propulsion,
      10000 / gAcc, ⟨(o'.view M2).brief, (o'.view M2).design, (o'.view M2).performance⟩⟩
      ⟨(o'.view M2).brief, (o'.view M2).design, (o'.view M2).performance⟩ = .ok nom := by
    have e0 : (M1.store 0).get (o.addr 0) = stBriefAvg := (hH 0).1
    have e1 : (M1.store 1).get (o.addr 1) = stDesign := (hH 1).1
    have e2 : (M1.store 2).get (o.addr 2) = stPerf := (hH 2).1
    simp only [Obj.view]
    rw [hst, hadr, e0, e1, e2, hc]
    unfold evalState
    have hcs := construct_settled (settled_construct st_built) hat (some shC.designatm) shC.propulsion.asArg rfl rfl
    show (construct stBriefAvg stDesign stPerf (some shC.designatm) shC.propulsion.asArg >>= fun b => _) = _
    rw [show construct stBriefAvg stDesign stPerf (some shC.designatm) shC.propulsion.asArg = .ok shBuilt from hcs, bind_ok, ← hnom, ← sh_varied]
    rfl
  have hs := study_plain X (o'.view M2) (.array [500, 1000]) false 10000 (by simp only [Obj.view]; rw [hc]; rfl) nom
    (by simp only [Obj.view]; rw [ho']; rw [show o.space = shBuilt.space by rw [← hview]; rfl]; rfl) hn
  refine ⟨M1, M2, o', _, nom, own, h1, by rw [hM2]; rfl, hobj, by rw [hc]; simp [varied], hs, ?_, ?_⟩
  · rw [hc]; exact hown
  · exact sh_differ X (by norm_num) hv (Ne.symm hne) hnom hown

/-! ### The hypotheses can be met -/

/-- Two concepts from the same dictionaries and a later entry in another dictionary. -/
example (X : Ext) : ∃ M1 M2, newConcept shM (fun _ => 0) (some exAtm) (.obj .other) = .ok M1 ∧ (∀ i, 0 < (shM.store i).next) ∧
    run X M1 [.write 0 7 "groundrun_m" (.num 800), .new (fun _ => 0) none .pyNone] = .ok M2 ∧
    ∃ o, M2.objs[0]? = some o ∧ o.view M2 = shBuilt := by
  obtain ⟨M1, h1⟩ := sh_new
  obtain ⟨r, o, hr, ho, hH, hview, hadr, -⟩ := new_made sh_lt h1
  have hrb : r = shBuilt := by
    have e : construct stBriefAvg stDesign stPerf (some exAtm) (.obj .other) = .ok r := hr
    rw [sh_built] at e
    injection e with e
    exact e.symm
  subst hrb
  obtain ⟨N, hN⟩ : ∃ N, exec X M1 (.write 0 7 "groundrun_m" (.num 800)) = .ok N := ⟨_, rfl⟩
  have hsp : SparesDicts o (.write 0 7 "groundrun_m" (.num 800)) := by
    show 7 ≠ o.addr 0
    rw [hadr 0 (sh_given 0)]; decide
  have hHN := exec_holds (roleDict_fixed hr) hH hsp hN
  have ha0 : ∀ i, o.addr i = 0 := fun i => hadr i (sh_given i)
  have hdict : ∀ i, (N.store i).get 0 = shBuilt.dict i := fun i => by have := (hHN i).1; rwa [ha0] at this
  obtain ⟨M2, hM2⟩ : ∃ M2, newConcept N (fun _ => 0) none .pyNone = .ok M2 := by
    unfold newConcept
    have hn : ∀ i, (N.store i).get 0 ≠ [] := fun i => by rw [hdict]; exact dict_nonempty hr i
    simp only [orNew_given (hn _), hdict]
    obtain ⟨r2, h2⟩ : ∃ r2, construct stBriefAvg stDesign stPerf none .pyNone = .ok r2 := by
      have hat : AttrsFrom stBriefAvg stDesign stPerf { shC with designatm := .isa 0, propulsion := .pyFalse } := by
        obtain ⟨a0, a1, a2, a3, a4, a5, a6, a7, a8, a9, a10, a11, a12, a13, a14, a15, a16, a17, a18, a19, a20, a21, a22, a23, a24, a25, a26, a27, a28, a29, a30, a31, a32, a33, a34, a35, a36, a37, a38, a39, a40⟩ := st_attrs
        exact ⟨a0, a1, a2, a3, a4, a5, a6, a7, a8, a9, a10, a11, a12, a13, a14, a15, a16, a17, a18, a19, a20, a21, a22, a23, a24, a25, a26, a27, a28, a29, a30, a31, a32, a33, a34, a35, a36, a37, a38, a39, a40⟩
      exact ⟨_, construct_settled (settled_construct st_built) hat none .pyNone rfl rfl⟩
    show ∃ M2, (construct stBriefAvg stDesign stPerf none .pyNone >>= fun r => _) = .ok M2
    rw [h2, bind_ok]
    exact ⟨_, rfl⟩
  have hrun : run X M1 [.write 0 7 "groundrun_m" (.num 800), .new (fun _ => 0) none .pyNone] = .ok M2 :=
    run_cons.mpr ⟨N, hN, run_cons.mpr ⟨M2, hM2, rfl⟩⟩
  obtain ⟨r', o', hr', ho', hv', -⟩ := C137_others (X := X) sh_lt h1 (by simp [SparesAttrs, shM])
    (by
      intro o'' ho'' op hop
      have : o'' = o := by
        have := ho''.symm.trans ho
        exact Option.some.inj this
      subst this
      simp only [List.mem_cons, List.not_mem_nil, or_false] at hop
      rcases hop with rfl | rfl
      · exact hsp
      · trivial) hrun
  have : r' = shBuilt := by
    have e := hr'.symm.trans hr
    injection e
  exact ⟨M1, M2, h1, sh_lt, hrun, o', ho', by rw [hv', this]⟩

/-- A concept from empty dictionaries, and an entry set in the brief it was made from. -/
example (X : Ext) : ∃ M1 M2 r o, newConcept ⟨fun _ => ⟨1, fun _ => []⟩, []⟩ (fun _ => 0) none .pyNone = .ok M1 ∧
    run X M1 [.write 0 0 "groundrun_m" (.num 800)] = .ok M2 ∧ construct [] [] [] none .pyNone = .ok r ∧
    M2.objs[0]? = some o ∧ o.view M2 = r ∧ dget ((M2.store 0).get 0) "groundrun_m" = some (.num 800) := by
  obtain ⟨r, hr, -⟩ := C32_all_defaults
  obtain ⟨M1, h1⟩ : ∃ M1, newConcept ⟨fun _ => ⟨1, fun _ => []⟩, []⟩ (fun _ => 0) none .pyNone = .ok M1 := by
    unfold newConcept
    simp only [Store.orNew, Function.update_self]
    rw [hr, bind_ok]
    exact ⟨_, rfl⟩
  obtain ⟨M2, h2⟩ : ∃ M2, run X M1 [.write 0 0 "groundrun_m" (.num 800)] = .ok M2 := ⟨_, rfl⟩
  obtain ⟨r', o, hr', ho, hv⟩ := C137_private (X := X) (fun _ => by simp) (fun _ => rfl) h1
    (by simp [SparesAttrs]) (by simp +contextual) h2
  refine ⟨M1, M2, r', o, h1, h2, hr', ho, hv, ?_⟩
  cases h2
  simp [Store.put, dget_dset]

/-- The entry set between two concepts. -/
example (X : Ext) : ∃ M1 M2 M3 o o', newConcept shM (fun _ => 0) (some exAtm) (.obj .other) = .ok M1 ∧
    exec X M1 (.write 0 0 "groundrun_m" (.num 800)) = .ok M2 ∧ newConcept M2 (fun _ => 0) (some exAtm) (.obj .other) = .ok M3 ∧
    M3.objs[0]? = some o ∧ M3.objs[M2.objs.length]? = some o' ∧ o'.concept.groundrun_m = some 800 := by
  obtain ⟨M1, h1⟩ := sh_new
  obtain ⟨M2, h2⟩ : ∃ M2, exec X M1 (.write 0 0 "groundrun_m" (.num 800)) = .ok M2 := ⟨_, rfl⟩
  obtain ⟨r, o, hr, ho, -, hd, -, -, -⟩ := view_written sh_lt h1 (sh_given 0) h2
  obtain ⟨r0, o0, -, h20, -, -, h50, -⟩ := new_made sh_lt h1
  have hoo : o0 = o := by
    have := exec_obj h20 (op := .write 0 0 "groundrun_m" (.num 800)) trivial h2
    exact Option.some.inj (this.symm.trans ho)
  subst hoo
  have ha0 : ∀ i, o0.addr i = 0 := fun i => h50 i (sh_given i)
  obtain ⟨r2, hr2, -⟩ := construct_varied (a' := some exAtm) (pa' := .obj .other) hr 0 "groundrun_m" 800 sh_scalar
  obtain ⟨M3, h3⟩ : ∃ M3, newConcept M2 (fun _ => 0) (some exAtm) (.obj .other) = .ok M3 := by
    simp only [ha0] at hd
    have hn : ∀ i, (M2.store i).get 0 ≠ [] := by
      intro i
      rw [hd]
      match i with
      | 0 =>
        intro e
        have := congrArg (fun l => dget l "groundrun_m") (show dset r.brief "groundrun_m" (.num 800) = [] from e)
        simp [dget_dset, dget] at this
      | 1 => exact dict_nonempty hr 1
      | 2 => exact dict_nonempty hr 2
    unfold newConcept
    simp only [orNew_given (hn _), hd]
    show ∃ M3, (construct ((Design3.mk r.brief r.design r.performance).set 0 "groundrun_m" 800).brief
        ((Design3.mk r.brief r.design r.performance).set 0 "groundrun_m" 800).design
        ((Design3.mk r.brief r.design r.performance).set 0 "groundrun_m" 800).performance (some exAtm) (.obj .other) >>= fun r => _) = .ok M3
    rw [hr2, bind_ok]
    exact ⟨_, rfl⟩
  obtain ⟨o1, o2, k1, k2, k3⟩ := C137_rebuild sh_lt h1 sh_given sh_scalar h2 h3
  exact ⟨M1, M2, M3, o1, o2, h1, h2, h3, k1, k2, by rw [k3]; simp [varied]⟩

end
end Verif.Props
