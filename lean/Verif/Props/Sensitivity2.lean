import Verif.Props.Sensitivity

/-
Property C54, continued: a worked case, the two violations; C84, C85.
-/

namespace Verif.Props
open Verif Verif.Aircraft Verif.Units

noncomputable section

/-! ### A worked case -/

/-- brief of the case: two ground runs are listed -/
def stBrief : Dict :=
  [("climbalt_m", .num 0), ("climbspeed_kias", .num 100), ("climbrate_fpm", .num 1000), ("cruisealt_m", .num 3000),
   ("cruisespeed_ktas", .num 150), ("cruisethrustfact", .num 1), ("servceil_m", .num 6000),
   ("secclimbspd_kias", .num 90), ("vstallclean_kcas", .num 60), ("groundrun_m", .list [300, 500]),
   ("rwyelevation_m", .num 0), ("to_headwind_kts", .num 0), ("to_slope_perc", .num 0), ("stloadfactor", .num 2),
   ("turnalt_m", .num 1000), ("turnspeed_ktas", .num 120)]

/-- the brief with the averaged ground run -/
def stBriefAvg : Dict := dset stBrief "groundrun_m" (.num 400)

/-- design of the case -/
def stDesign : Dict :=
  [("aspectratio", .num 9), ("sweep_le_deg", .num 0), ("sweep_mt_deg", .num 0), ("sweep_25_deg", .num 0),
   ("roottaperratio", .num 0.5), ("wingarea_m2", .num 12), ("wingheightratio", .num 0.1), ("bpr", .num (-1)),
   ("spooluptime_s", .num 5), ("totalstaticthrust_n", .flag), ("tr", .num 1), ("weight_n", .num 10000),
   ("weightfractions", .sub [("climb", some 1), ("cruise", some 1), ("servceil", some 1), ("turn", some 1)]),
   ("runwayalpha_deg", .num 0), ("runwayalpha_max_deg", .flag)]

/-- performance of the case -/
def stPerf : Dict :=
  [("CD0TO", .flag), ("CDTO", .num 0.04), ("CDminclean", .num 0.025), ("mu_R", .num 0.03), ("CL0TO", .flag),
   ("CLTO", .num 0.6), ("CLmaxTO", .num 1.6), ("CLmaxclean", .num 1.5), ("CLminclean", .num (-1)), ("CLslope", .num 6),
   ("etaprop", .sub [("climb", some 0.75), ("cruise", some 0.85), ("servceil", some 0.75), ("take-off", some 0.45),
     ("turn", some 0.85)])]

/-- the concept of the case, without a propulsion argument -/
def stC : Concept := { exC with propulsion := .pyFalse }

/-- the result of the constructor -/
def stBuilt : Built := ⟨stBriefAvg, stDesign, stPerf, (stBrief, stDesign, stPerf), false, stC⟩

theorem st_fill : fill default_brief stBrief = .ok stBrief ∧ fill default_design stDesign = .ok stDesign ∧
    fill default_performance stPerf = .ok stPerf := by
  refine ⟨?_, ?_, ?_⟩
  · simp [fill, fillKey, dget, stBrief, default_brief, bind, Except.bind, pure, Except.pure]
  · simp [fill, fillKey, dget, dset, fillSub, stDesign, default_design, bind, Except.bind, pure, Except.pure]
  · simp [fill, fillKey, dget, dset, fillSub, stPerf, default_performance, bind, Except.bind, pure, Except.pure]

theorem st_average : average default_brief stBrief = .ok stBriefAvg ∧ average default_design stDesign = .ok stDesign ∧
    average default_performance stPerf = .ok stPerf := by
  refine ⟨?_, ?_, ?_⟩
  · simp [average, averageKey, dgetE, dget, dset, stBrief, stBriefAvg, default_brief, bind, Except.bind, pure, Except.pure, pyMean]
    norm_num
  · simp [average, averageKey, dgetE, dget, stDesign, default_design, bind, Except.bind, pure, Except.pure]
  · simp [average, averageKey, dgetE, dget, stPerf, default_performance, bind, Except.bind, pure, Except.pure]

theorem st_attrs : AttrsFrom stBriefAvg stDesign stPerf stC := by
  constructor <;> first
    | exact ⟨_, by simp [dget, stDesign]; rfl, by simp [dget, stC, exC]⟩
    | exact ⟨_, by simp [dget, stPerf]; rfl, by simp [dget, stC, exC]⟩
    | (simp [dget, dset, stBriefAvg, stBrief, stDesign, stPerf, toVal, stC, exC])

theorem st_built : construct stBrief stDesign stPerf (some exAtm) .pyNone = .ok stBuilt := by
  obtain ⟨f1, f2, f3⟩ := st_fill
  obtain ⟨a1, a2, a3⟩ := st_average
  have k4 : leDefault stDesign = .ok stDesign := by simp [leDefault, dgetE, dget, stDesign, bind, Except.bind, pure, Except.pure]
  have k5 : mtDefault stDesign = .ok stDesign := by simp [mtDefault, dgetE, dget, stDesign, bind, Except.bind, pure, Except.pure]
  have k6 : sweep25Default stDesign = .ok stDesign := by
    simp [sweep25Default, dgetE, dget, stDesign, bind, Except.bind, pure, Except.pure]
  have k7 : taperDefault stDesign = .ok (stDesign, false) := by
    simp [taperDefault, dgetE, dget, stDesign, bind, Except.bind, pure, Except.pure]
  have k8 : etaDefault stPerf = .ok (stPerf, 0) := by
    simp [etaDefault, etaLoop, dgetE, dget, dset, stPerf, bind, Except.bind, pure, Except.pure]
  unfold construct
  simp only [f1, f2, f3, k4, k5, k6, k7, k8, a1, a2, a3, bind_ok]
  rw [show (some exAtm).getD (.isa 0) = stC.designatm from rfl, show parsePropulsion .pyNone = stC.propulsion from rfl,
    readConcept_of st_attrs 0]
  rfl

theorem st_distinct : KeysDistinct (spaceOf stBuilt) := by
  unfold KeysDistinct spaceOf stBuilt stBrief stDesign stPerf
  decide

/-! ### When the study succeeds -/

/-- Number of ranged entries. -/
def ranged (d : Dict) : ℕ := (d.filter (fun e => match e.2 with | .list _ => true | _ => false)).length

/-- An array entry for every constraint. -/
theorem seaLevelReq_array {X : Ext} {power : Bool} {m : ℝ} {ws : List ℝ} {c : Concept} {r : Req}
    (h : seaLevelReq X power m ws c = .ok r) (hw : 2 ≤ ws.length) (q : Constr) :
    ∃ l, r.entry q = .array l ∧ l.length = ws.length := by
  have hne : ws ≠ [] := by rintro rfl; simp at hw
  obtain ⟨x, y, l, rfl⟩ : ∃ x y l, ws = x :: y :: l := by
    match ws, hw with
    | x :: y :: l, _ => exact ⟨x, y, l, rfl⟩
  unfold seaLevelReq at h
  have hw' : recastArray (.array (x :: y :: l)) ≠ [] := by simp [recastArray]
  split at h
  · rcases power_point X c m true true with ⟨e, he⟩ | ⟨R, vc, vs, pto, ptrn, pclm, pcrs, psec, -, -, -, hp⟩
    · rw [he _ hw'] at h; cases h
    · rw [hp _ hw'] at h
      cases h
      have key : ∀ (b : Bool) (f : ℝ → ℝ), ∃ l', shp b ((x :: y :: l).map f) = .array l' ∧ l'.length = (x :: y :: l).length := by
        intro b f
        cases b
        · exact ⟨_, rfl, by simp⟩
        · exact ⟨_, rfl, by simp⟩
      cases q <;> exact key _ _
  · rcases tw_point X c true true with ⟨e, he⟩ | ⟨R, hR, -⟩
    · rw [he _ hw'] at h; cases h
    · rw [hR] at h
      cases h
      cases q <;> exact ⟨_, rfl, by simp⟩

/-- Either nothing new has a colour or only `k` has. -/
def Grown (C : List String) (k : String) (C' : List String) : Prop := C' = C ∨ C' = C ++ [k]

theorem recordOne_success {k : String} {rmax rmin : Req} {R : Recorded} {q : Constr} {C : List String} {l m : List ℝ}
    (h1 : rmax.entry q = .array l) (h2 : rmin.entry q = .array m) (hlen : l.length = m.length)
    (hC : C.length < nColours) (hR : Grown C k R.coloured) :
    ∃ R', recordOne k rmax rmin R q = .ok R' ∧ Grown C k R'.coloured := by
  have hb : ∃ xs, broadcast2 (fun x y => |x - y|) l m = .ok xs := by
    unfold broadcast2
    simp [hlen]
  obtain ⟨xs, hxs⟩ := hb
  have ho : op2 (fun x y => |x - y|) (rmax.entry q) (rmin.entry q) = .ok (.array xs) := by
    rw [h1, h2]
    simp only [op2, recastArray, hxs, bind_ok]
    rfl
  unfold recordOne
  rw [ho, bind_ok]
  simp only
  split
  · split
    · exact ⟨_, rfl, hR⟩
    · rename_i hk
      rcases hR with hR | hR
      · rw [if_pos (by rw [hR]; exact hC)]
        exact ⟨_, rfl, Or.inr (by rw [hR])⟩
      · exact absurd (by rw [hR]; simp) hk
  · exact ⟨_, rfl, hR⟩

theorem recordAll_success {k : String} {rmax rmin : Req} {R : Recorded} {n : ℕ}
    (h1 : ∀ q, ∃ l, rmax.entry q = .array l ∧ l.length = n) (h2 : ∀ q, ∃ l, rmin.entry q = .array l ∧ l.length = n)
    (hC : R.coloured.length < nColours) :
    ∃ R', recordAll k rmax rmin R = .ok R' ∧ R'.coloured.length ≤ R.coloured.length + 1 := by
  have key : ∀ (qs : List Constr) (R0 : Recorded), Grown R.coloured k R0.coloured →
      ∃ R', qs.foldlM (recordOne k rmax rmin) R0 = .ok R' ∧ Grown R.coloured k R'.coloured := by
    intro qs
    induction qs with
    | nil => intro R0 h; exact ⟨R0, rfl, h⟩
    | cons q qs ih =>
      intro R0 h
      obtain ⟨l, e1, n1⟩ := h1 q
      obtain ⟨m, e2, n2⟩ := h2 q
      obtain ⟨R1, o1, g1⟩ := recordOne_success e1 e2 (n1.trans n2.symm) hC h
      obtain ⟨R2, o2, g2⟩ := ih R1 g1
      refine ⟨R2, ?_, g2⟩
      rw [List.foldlM_cons, o1, bind_ok, o2]
  obtain ⟨R', h, g⟩ := key [Constr.climb, .cruise, .servceil, .takeoff, .turn] R (Or.inl rfl)
  refine ⟨R', h, ?_⟩
  rcases g with g | g <;> rw [g] <;> simp

/-- One dictionary: the loop succeeds if every ranged entry is non-empty, every varied concept can be evaluated
and there are enough colours. -/
theorem loop_success {b dd p : Dict} {a : Option Atmos.Atm} {pa : PropArg} {r : Built} (hb : construct b dd p a pa = .ok r)
    {X : Ext} {S : StudyIn} {ws : List ℝ} (hS : StudyOf r S ws) (hw : 2 ≤ ws.length) {i : Fin 3} (d : Dict)
    (hsc : ∀ k xs, (k, .list xs) ∈ d → Scalar i k)
    (hne : ∀ k xs, (k, Val.list xs) ∈ d → xs ≠ [])
    (hev : ∀ k xs, (k, Val.list xs) ∈ d → ∀ v ∈ xs, ∃ q, seaLevelReq X S.power S.mass ws (varied (studied r.concept) i k v) = .ok q)
    {R : Recorded} (hC : R.coloured.length + ranged d ≤ nColours) :
    ∃ R', d.foldlM (studyEntry X S i) R = .ok R' ∧ R'.coloured.length ≤ R.coloured.length + ranged d := by
  induction d generalizing R with
  | nil => exact ⟨R, rfl, by simp⟩
  | cons e d ih =>
    obtain ⟨ke, ve⟩ := e
    have ih' := fun {R : Recorded} => ih (R := R) (fun k xs hm => hsc k xs (List.mem_cons_of_mem _ hm))
      (fun k xs hm => hne k xs (List.mem_cons_of_mem _ hm)) (fun k xs hm => hev k xs (List.mem_cons_of_mem _ hm))
    have other : (∀ xs, ve ≠ .list xs) → ∃ R', ((ke, ve) :: d).foldlM (studyEntry X S i) R = .ok R' ∧
        R'.coloured.length ≤ R.coloured.length + ranged ((ke, ve) :: d) := by
      intro hl
      have hr : ranged ((ke, ve) :: d) = ranged d := by
        cases ve with
        | list xs => exact absurd rfl (hl xs)
        | _ => rfl
      rw [hr] at hC ⊢
      obtain ⟨R', o, g⟩ := ih' hC
      refine ⟨R', ?_, g⟩
      rw [List.foldlM_cons]
      have : studyEntry X S i R (ke, ve) = .ok R := by
        cases ve with
        | list xs => exact absurd rfl (hl xs)
        | _ => rfl
      rw [this, bind_ok, o]
    cases ve with
    | list xs =>
      have hm : (ke, Val.list xs) ∈ (ke, Val.list xs) :: d := List.mem_cons_self
      have hr : ranged ((ke, .list xs) :: d) = ranged d + 1 := by simp [ranged]
      rw [hr] at hC ⊢
      obtain ⟨y, ys, rfl⟩ := List.exists_cons_of_ne_nil (hne ke xs hm)
      have hmax : listMax (y :: ys) = .ok (ys.foldl max y) := rfl
      have hmin : listMin (y :: ys) = .ok (ys.foldl min y) := rfl
      obtain ⟨rmax, e1⟩ := hev ke _ hm _ (listMax_ok hmax).1
      obtain ⟨rmin, e2⟩ := hev ke _ hm _ (listMin_ok hmin).1
      obtain ⟨R1, o1, g1⟩ := recordAll_success (k := ke) (R := R) (fun q => seaLevelReq_array e1 hw q)
        (fun q => seaLevelReq_array e2 hw q) (by omega)
      obtain ⟨R2, o2, g2⟩ := ih' (R := R1) (by omega)
      refine ⟨R2, ?_, by omega⟩
      have : studyEntry X S i R (ke, .list (y :: ys)) = .ok R1 := by
        unfold studyEntry
        simp only [hmax, hmin, bind_ok, evalState_varied hb X hS _ _ _ (hsc ke _ hm), e1, e2, o1]
      rw [List.foldlM_cons, this, bind_ok, o2]
    | flag => exact other (by simp)
    | num _ => exact other (by simp)
    | sub _ => exact other (by simp)

theorem nominal_eval {b dd p : Dict} {a : Option Atmos.Atm} {pa : PropArg} {r : Built} (hb : construct b dd p a pa = .ok r)
    (X : Ext) {S : StudyIn} {ws : List ℝ} (hS : StudyOf r S ws) :
    evalState X S S.state = seaLevelReq X S.power S.mass ws (studied r.concept) := by
  obtain ⟨_, _, _, _, _, _, _, _, _, _, _, _, _, _, _, _, _, _, _, _, _, hr⟩ := construct_ok hb
  obtain ⟨hat, -, ha, hp⟩ := readConcept_ok hr
  have hat' : AttrsFrom r.brief r.design r.performance (studied r.concept) := by
    obtain ⟨a0, a1, a2, a3, a4, a5, a6, a7, a8, a9, a10, a11, a12, a13, a14, a15, a16, a17, a18, a19, a20, a21, a22, a23, a24, a25, a26, a27, a28, a29, a30, a31, a32, a33, a34, a35, a36, a37, a38, a39, a40⟩ := hat
    exact ⟨a0, a1, a2, a3, a4, a5, a6, a7, a8, a9, a10, a11, a12, a13, a14, a15, a16, a17, a18, a19, a20, a21, a22, a23, a24, a25, a26, a27, a28, a29, a30, a31, a32, a33, a34, a35, a36, a37, a38, a39, a40⟩
  have hc := construct_settled (settled_construct hb) hat' (some S.atm) S.propulsion.asArg (by rw [hS.atm]; rfl)
    (by rw [parse_asArg, hS.propulsion]; rfl)
  unfold evalState
  rw [hS.state, hc, bind_ok, ← seaLevelReq_weight X S.power S.mass _ _ 0 (studied r.concept).weight_n]
  unfold yFunction seaLevelReq
  rw [hS.ws]
  rfl

/-- With a take-off weight, at least two wing loadings, no empty range, no more than 24 ranged parameters, and if
the nominal concept and every concept with a single listed value can be evaluated, the study succeeds. -/
theorem C85_succeeds {b dd p : Dict} {a : Option Atmos.Atm} {pa : PropArg} {r : Built} (hb : construct b dd p a pa = .ok r)
    (X : Ext) (w : NumArg) (power : Bool) (hw : 2 ≤ (recastArray w).length) (hn : KeysDistinct (spaceOf r))
    (W : ℝ) (hW : r.concept.weight_n = some W)
    (hne : ∀ i k xs, (k, Val.list xs) ∈ dictNo (spaceOf r) i → xs ≠ [])
    (hc : ranged (spaceOf r).brief + ranged (spaceOf r).design + ranged (spaceOf r).performance ≤ 24)
    (hnom : ∃ q, seaLevelReq X power (W / gAcc) (recastArray w) (studied r.concept) = .ok q)
    (hev : ∀ i k xs, (k, Val.list xs) ∈ dictNo (spaceOf r) i → ∀ v ∈ xs,
      ∃ q, seaLevelReq X power (W / gAcc) (recastArray w) (varied (studied r.concept) i k v) = .ok q) :
    ∃ R nom, study X r w power = .ok (R, nom) := by
  obtain ⟨S, hS'⟩ : ∃ S : StudyIn, S = StudyIn.mk (.array (recastArray w)) power r.concept.designatm
    r.concept.propulsion (W / gAcc) ⟨r.brief, r.design, r.performance⟩ := ⟨_, rfl⟩
  have hsi : studyIn r w power = .ok S := by
    unfold studyIn
    rw [hW, hS']; rfl
  have hS : StudyOf r S (recastArray w) := by rw [hS']; exact ⟨rfl, rfl, rfl, rfl⟩
  have hp : S.power = power := by rw [hS']
  have hm : S.mass = W / gAcc := by rw [hS']
  rw [← hp, ← hm] at hnom hev
  unfold KeysDistinct spaceOf at hn
  simp only [List.nodup_append, List.mem_append] at hn
  obtain ⟨⟨n1, n2, n12⟩, n3, n123⟩ := hn
  obtain ⟨rs1, rs2⟩ := ranged_scalar hb
  have sc0 : ∀ k xs, (k, Val.list xs) ∈ r.space.1 → Scalar 0 k := fun k xs _ => ⟨by simp, by simp⟩
  have sc1 : ∀ k xs, (k, Val.list xs) ∈ r.space.2.1 → Scalar 1 k := fun k xs hm =>
    ⟨fun e => rs1 xs (by rw [← e.2]; exact dget_of_mem_nodup _ n2 _ _ hm), by simp⟩
  have sc2 : ∀ k xs, (k, Val.list xs) ∈ r.space.2.2 → Scalar 2 k := fun k xs hm =>
    ⟨by simp, fun e => rs2 xs (by rw [← e.2]; exact dget_of_mem_nodup _ n3 _ _ hm)⟩
  have hc' : ranged r.space.1 + ranged r.space.2.1 + ranged r.space.2.2 ≤ nColours := hc
  obtain ⟨R1, l1, g1⟩ := loop_success hb hS hw _ sc0 (hne 0) (hev 0) (R := ⟨fun _ => [], []⟩) (by simp only [List.length_nil]; omega)
  simp only [List.length_nil] at g1
  obtain ⟨R2, l2, g2⟩ := loop_success hb hS hw _ sc1 (hne 1) (hev 1) (R := R1) (by omega)
  obtain ⟨R3, l3, g3⟩ := loop_success hb hS hw _ sc2 (hne 2) (hev 2) (R := R2) (by omega)
  obtain ⟨q, hq⟩ := hnom
  refine ⟨R3, q, ?_⟩
  unfold study
  rw [hsi, bind_ok]
  unfold studyLoop
  simp only [l1, l2, l3, bind_ok, nominal_eval hb X hS, hq]
  rfl

/-! ### The number of parameters -/

/-- Every recorded parameter has a colour, and there are 24 colours. -/
def Coloured (R : Recorded) : Prop :=
  R.coloured.length ≤ 24 ∧ ∀ q e, e ∈ R.prime q → e.1 ∈ R.coloured

theorem foldlM_inv {α β : Type} (P : β → Prop) (f : β → α → PyM β) (hf : ∀ x a y, P x → f x a = .ok y → P y) (l : List α)
    {x y : β} (hx : P x) (h : l.foldlM f x = .ok y) : P y := by
  induction l generalizing x with
  | nil => cases h; exact hx
  | cons a l ih =>
    simp only [List.foldlM_cons, bind_ok_iff] at h
    obtain ⟨z, h1, h2⟩ := h
    exact ih (hf _ _ _ hx h1) h2

theorem recordOne_coloured {k : String} {rmax rmin : Req} {R R' : Recorded} {q : Constr} (hR : Coloured R)
    (h : recordOne k rmax rmin R q = .ok R') : Coloured R' := by
  unfold recordOne at h
  simp only [bind_ok_iff] at h
  obtain ⟨y, hy, h⟩ := h
  cases y with
  | scalar x => cases h
  | array xs =>
    simp only at h
    have mem : ∀ C : List String, k ∈ C → (∀ c ∈ R.coloured, c ∈ C) → ∀ q' e,
        e ∈ (if q' = q then dset (R.prime q) k xs else R.prime q') → e.1 ∈ C := by
      intro C hk hC q' e he
      split at he
      · rcases mem_dset he with he | rfl
        · exact hC _ (hR.2 _ _ he)
        · exact hk
      · exact hC _ (hR.2 _ _ he)
    split at h
    · split at h
      · rename_i hk
        cases h
        exact ⟨hR.1, mem _ hk (fun _ h => h)⟩
      · split at h
        · rename_i hlt
          cases h
          refine ⟨?_, mem _ (by simp) (fun c hc => by simp [hc])⟩
          simp only [List.length_append, List.length_singleton]
          unfold nColours at hlt
          omega
        · cases h
    · cases h; exact hR

theorem studyEntry_coloured {X : Ext} {S : StudyIn} {i : Fin 3} {R R' : Recorded} {e : String × Val} (hR : Coloured R)
    (h : studyEntry X S i R e = .ok R') : Coloured R' := by
  unfold studyEntry at h
  split at h
  · simp only [bind_ok_iff] at h
    obtain ⟨hi, -, lo, -, rmax, -, rmin, -, h⟩ := h
    exact foldlM_inv Coloured _ (fun _ _ _ hx hf => recordOne_coloured hx hf) _ hR h
  · cases h; exact hR

/-- No study can show more than 24 parameters. -/
theorem C85_limit (X : Ext) (r : Built) (w : NumArg) (power : Bool) {R : Recorded} {nom : Req}
    (h : study X r w power = .ok (R, nom)) (ks : List String) (hk : ks.Nodup)
    (hr : ∀ k ∈ ks, ∃ q v, dget (R.prime q) k = some v) : ks.length ≤ 24 := by
  obtain ⟨S, W, -, -, -, -, hl, -⟩ := study_ok h
  unfold studyLoop at hl
  simp only [bind_ok_iff] at hl
  obtain ⟨R1, l1, R2, l2, l3⟩ := hl
  have g0 : Coloured ⟨fun _ => [], []⟩ := ⟨by simp, fun q e he => absurd he (by simp)⟩
  have g1 := foldlM_inv Coloured _ (fun _ _ _ hx hf => studyEntry_coloured hx hf) _ g0 l1
  have g2 := foldlM_inv Coloured _ (fun _ _ _ hx hf => studyEntry_coloured hx hf) _ g1 l2
  have g3 := foldlM_inv Coloured _ (fun _ _ _ hx hf => studyEntry_coloured hx hf) _ g2 l3
  have hsub : ks ⊆ R.coloured := fun k hkm => by
    obtain ⟨q, v, hv⟩ := hr k hkm
    exact g3.2 q _ (dget_some_mem _ _ _ hv)
  exact (List.Nodup.length_le_of_subset hk hsub).trans g3.1

/-! ### The worked case, continued -/

theorem st_studied : studied stC = { stC with propulsion := .pair .other } := rfl

theorem st_ready : Ready (studied stC) := by
  refine ⟨?_, ?_, ?_, ?_, ?_, ?_, trivial⟩
  · exact exAtm_env 0 (by norm_num) (by norm_num)
  · exact exAtm_env 0 (by norm_num) (by norm_num)
  · exact exAtm_env 0 (by norm_num) (by norm_num)
  · exact exAtm_env 1000 (by norm_num) (by norm_num)
  · intro alt h; cases h; exact exAtm_env 3000 (by norm_num) (by norm_num)
  · intro alt h; cases h; exact exAtm_env 6000 (by norm_num) (by norm_num)

theorem st_varied_ready (v : ℝ) : Ready (varied (studied stC) 0 "groundrun_m" v) := by
  refine ⟨?_, ?_, ?_, ?_, ?_, ?_, trivial⟩
  · exact exAtm_env 0 (by norm_num) (by norm_num)
  · exact exAtm_env 0 (by norm_num) (by norm_num)
  · exact exAtm_env 0 (by norm_num) (by norm_num)
  · exact exAtm_env 1000 (by norm_num) (by norm_num)
  · intro alt h; cases h; exact exAtm_env 3000 (by norm_num) (by norm_num)
  · intro alt h; cases h; exact exAtm_env 6000 (by norm_num) (by norm_num)

theorem st_req (X : Ext) (power : Bool) (m : ℝ) (ws : List ℝ) (hw : ws ≠ []) (c : Concept) (hr : Ready c) (hm : ¬ Missing c) :
    ∃ q, seaLevelReq X power m ws c = .ok q := by
  unfold seaLevelReq
  cases power
  · exact (C48_given X c (.array ws) true true hr hm).1
  · exact (C48_given X c (.array ws) true true hr hm).2 hw m

theorem st_ranged (i : Fin 3) (k : String) (xs : List ℝ) (h : (k, Val.list xs) ∈ dictNo (spaceOf stBuilt) i) :
    i = 0 ∧ k = "groundrun_m" ∧ xs = [300, 500] := by
  match i with
  | 0 => simpa [dictNo, spaceOf, stBuilt, stBrief] using h
  | 1 => simp [dictNo, spaceOf, stBuilt, stDesign] at h
  | 2 => simp [dictNo, spaceOf, stBuilt, stPerf] at h

/-- The study of the worked case succeeds for thrust and power and any two or more wing loadings. -/
theorem st_study (X : Ext) (power : Bool) (w : NumArg) (hw : 2 ≤ (recastArray w).length) :
    ∃ R nom, study X stBuilt w power = .ok (R, nom) := by
  have hne : recastArray w ≠ [] := by intro h; rw [h] at hw; simp at hw
  refine C85_succeeds st_built X w power hw st_distinct 10000 rfl ?_ ?_ ?_ ?_
  · intro i k xs h
    obtain ⟨-, -, rfl⟩ := st_ranged i k xs h
    simp
  · simp [ranged, spaceOf, stBuilt, stBrief, stDesign, stPerf]
  · exact st_req X power _ _ hne _ st_ready (by simp [Missing, stBuilt, stC, studied, exC])
  · intro i k xs h v _
    obtain ⟨rfl, rfl, -⟩ := st_ranged i k xs h
    exact st_req X power _ _ hne _ (st_varied_ready v) (by simp [Missing, stBuilt, stC, studied, exC, varied])

example (X : Ext) : ∃ R nom, study X stBuilt (.array [500, 1000, 1500]) true = .ok (R, nom) :=
  st_study X true _ (by simp [recastArray])

theorem other_corr {X : Ext} {c : Concept} (hp : c.propulsion = .pair .other) {v alt t p : ℝ} (h : CorrAt X c v alt t p) :
    t = 1 ∧ p = 1 := by
  obtain ⟨tc, pc, h1, h2, h3⟩ := h
  simp only [slcorr, resolvePropulsion, hp, bind_ok, bind_ok_iff, corrOf, engineCorr] at h1
  obtain ⟨ms, -, h1⟩ := h1
  cases h1
  simp only [recastArray] at h2 h3
  match ms with
  | [] => cases h2
  | [m] =>
    simp only [List.map_cons, List.map_nil, List.cons.injEq, and_true] at h2 h3
    exact ⟨h2.symm, h3.symm⟩
  | _ :: _ :: _ => cases h2

/-- Take-off requirement of the worked case. -/
theorem st_takeoff (X : Ext) (v : ℝ) (hv : 0 < v) (ws : List ℝ) (hw : ∀ w ∈ ws, 0 ≤ w) (hne : ws ≠ []) (r : Req) (m : ℝ)
    (h : seaLevelReq X false m ws (varied (studied stC) 0 "groundrun_m" v) = .ok r) :
    recastArray r.takeoff = ws.map (fun w => 1.21 * w / (1.6 * gAcc * v) + 0.5 * 0.04 / 0.6 + 0.5 * 0.03) := by
  obtain ⟨c, hc⟩ : ∃ c, c = varied (studied stC) 0 "groundrun_m" v := ⟨_, rfl⟩
  rw [← hc] at h
  have hprop : c.propulsion = .pair .other := by rw [hc]; rfl
  have hrun : c.groundrun_m = some v := by rw [hc]; simp [varied]
  have hsig : TakeoffSigns c := by
    rw [hc]
    constructor <;> simp [varied, studied, stC, exC, pyNum] <;> try first | exact hv | norm_num
  have hs : map2static c = 1 := by
    rw [hc]; simp [map2static, varied, studied, stC, exC, pyNum]
  have h' : twrequired X c (.array ws) true true = .ok r := h
  rcases tw_point X c true true with ⟨e, he⟩ | ⟨R, hR, hto, -⟩
  · rw [he (.array ws) hne] at h'; cases h'
  rw [hR] at h'; cases h'
  rcases to_point X c true with ⟨e, he⟩ | ⟨g, d, t, hi, hcorr, hto'⟩
  · have := he (.array ws) hne
    rw [hto] at this
    cases this
  have h1 := hto (.array ws)
  rw [hto' (.array ws)] at h1
  injection h1 with h1
  injection h1 with h1 h2
  have hd : d = 1 := by
    have := hi.dens
    rw [show c.designatm = exAtm by rw [hc]; rfl, show pyNum c.rwyelevation_m = 0 by rw [hc]; simp [varied, studied, stC, exC, pyNum],
      exAtm_dens 0 (by norm_num) (by norm_num)] at this
    cases this; rfl
  show recastArray (Atmos.revert _) = _
  rw [recast_revert]
  have h3 := congrArg recastArray h1
  rw [recast_revert, recast_revert] at h3
  rw [← h3]
  show ws.map _ = _
  apply List.map_congr_left
  intro w hww
  obtain ⟨p, hp⟩ := hcorr rfl w
  unfold toReq sl
  rw [(other_corr hprop hp).1, toStatic_eq hi hsig (by rw [hd]; norm_num) (hw w hww), hs, hd]
  rw [show pyNum c.groundrun_m = v by rw [hrun]; rfl]
  have e1 : pyNum c.clmaxto = 1.6 := by rw [hc]; simp [varied, studied, stC, exC, pyNum]
  have e2 : pyNum c.cdto = 0.04 := by rw [hc]; simp [varied, studied, stC, exC, pyNum]
  have e3 : pyNum c.clto = 0.6 := by rw [hc]; simp [varied, studied, stC, exC, pyNum]
  have e4 : pyNum c.mu_r = 0.03 := by rw [hc]; simp [varied, studied, stC, exC, pyNum]
  rw [e1, e2, e3, e4]
  simp

/-- A parameter whose effect vanishes at one of the wing loadings is not recorded although it has an effect at
another: in the worked case with wing loadings 0 and 1000 Pa the available ground run. -/
theorem C54_recorded_violated (X : Ext) : ∃ R nom v, study X stBuilt (.array [0, 1000]) false = .ok (R, nom) ∧
    IsEffect X false (10000 / gAcc) [0, 1000] (studied stC) 0 "groundrun_m" [300, 500] .takeoff v ∧
    (∃ x ∈ v, x ≠ 0) ∧ dget (R.prime .takeoff) "groundrun_m" = none := by
  obtain ⟨R, nom, h⟩ := st_study X false (.array [0, 1000]) (by simp [recastArray])
  obtain ⟨W, hW, hh⟩ := C54_extremes st_built X (.array [0, 1000]) false (by simp [recastArray]) st_distinct h
  have hW' : W = 10000 := by
    have : some (10000:ℝ) = some W := hW
    cases this; rfl
  subst hW'
  obtain ⟨v, hv, -, hnone⟩ := hh 0 "groundrun_m" [300, 500] .takeoff (by simp [dictNo, spaceOf, stBuilt, stBrief])
  refine ⟨R, nom, v, h, hv, ?_, ?_⟩
  all_goals
    obtain ⟨hi, lo, rmax, rmin, f, g, ⟨a1, a2⟩, ⟨b1, b2⟩, e1, e2, e3, e4, e5⟩ := hv
    have ehi : hi = 500 := by
      have := a2 500 (by simp)
      simp at a1
      rcases a1 with rfl | rfl
      · norm_num at this
      · rfl
    have elo : lo = 300 := by
      have := b2 300 (by simp)
      simp at b1
      rcases b1 with rfl | rfl
      · rfl
      · norm_num at this
    subst ehi elo
    have t1 := st_takeoff X 500 (by norm_num) [0, 1000] (by simp) (by simp) rmax _ e1
    have t2 := st_takeoff X 300 (by norm_num) [0, 1000] (by simp) (by simp) rmin _ e2
    have e3' : recastArray rmax.takeoff = _ := e3
    have e4' : recastArray rmin.takeoff = _ := e4
    rw [t1] at e3'
    rw [t2] at e4'
    simp only [recastArray, List.map_cons, List.map_nil, List.cons.injEq, and_true] at e3' e4' e5
  · refine ⟨_, by rw [e5]; exact List.mem_cons_of_mem _ List.mem_cons_self, ?_⟩
    rw [← e3'.2, ← e4'.2]
    norm_num [gAcc]
  · apply hnone
    refine ⟨0, ?_, rfl⟩
    rw [e5, ← e3'.1, ← e4'.1]
    norm_num

/-- Without a propulsion argument the nominal curve carries no sea-level correction: for a piston engine
(bypass ratio -1) the nominal cruise requirement is the concept's own one times the piston power factor at the
cruise altitude. -/
theorem C54_nominal_violated {b dd p : Dict} {a : Option Atmos.Atm} {pa : PropArg} {r : Built} (hb : construct b dd p a pa = .ok r)
    (X : Ext) (w : NumArg) (hw : recastArray w ≠ []) {R : Recorded} {nom own : Req} (hp : r.concept.propulsion = .pyFalse)
    (hbpr : pyNum r.concept.bpr = -1) (h : study X r w false = .ok (R, nom)) (ho : twrequired X r.concept w true true = .ok own)
    (alt d : ℝ) (hal : r.concept.cruisealt_m = some alt) (hd : Atmos.dens1 r.concept.designatm alt = .ok d)
    (hf : Atmos.pistonpowerfactor d ≠ 0) :
    recastArray nom.cruise = (recastArray own.cruise).map (fun x => x * Atmos.pistonpowerfactor d) := by
  obtain ⟨W, -, hn⟩ := C54_nominal hb X w false h
  obtain ⟨c, hc⟩ : ∃ c, c = r.concept := ⟨_, rfl⟩
  rw [← hc] at hp hbpr ho hal hd hn
  have hn' : twrequired X (studied c) (.array (recastArray w)) true true = .ok nom := hn
  have hsp : (studied c).propulsion = .pair .other := by
    show handedOn c.propulsion = _
    rw [hp]; rfl
  rcases tw_point X (studied c) true true with ⟨e, he⟩ | ⟨R1, hR1, -, -, -, hc1, -⟩
  · rw [he (.array (recastArray w)) hw] at hn'; cases hn'
  rw [hR1] at hn'; cases hn'
  rcases tw_point X c true true with ⟨e, he⟩ | ⟨R2, hR2, -, -, -, hc2, -⟩
  · rw [he _ hw] at ho; cases ho
  rw [hR2] at ho; cases ho
  rcases crs_point X (studied c) true with ⟨e, he⟩ | ⟨s, al, t, q, m, K, hi, hcr⟩
  · have := hc1 w
    rw [he w] at this; cases this
  rcases crs_point X c true with ⟨e, he⟩ | ⟨s', al', t', q', m', K', hi', hcr'⟩
  · have := hc2 w
    rw [he w] at this; cases this
  have es : s = s' := by
    have h1 : c.cruisespeed_ktas = some s := hi.speed
    rw [hi'.speed] at h1; cases h1; rfl
  have eal : al = al' ∧ al' = alt := by
    have h1 : c.cruisealt_m = some al := hi.altitude
    have h2 := hi'.altitude
    rw [hal] at h1 h2; cases h1; cases h2; exact ⟨rfl, rfl⟩
  obtain ⟨rfl, rfl⟩ := eal
  subst es
  have eq : q = q' := by
    have h1 : Atmos.dynamicpressure_pa c.designatm (kts2mps s) al = .ok q := hi.press
    rw [hi'.press] at h1; cases h1; rfl
  have em : m = m' := by
    have h1 : Atmos.mach1 c.designatm (kts2mps s) al = .ok m := hi.mach
    rw [hi'.mach] at h1; cases h1; rfl
  subst eq em
  have eK : K = K' := KFun.unique (c := c) hi.drag hi'.drag
  subst eK
  obtain ⟨p1, k1⟩ := hi.corr
  obtain ⟨p2, tc, pc, k2, k3, k4⟩ := hi'.corr
  have et : t = 1 := (other_corr hsp k1).1
  have et' : t' = Atmos.pistonpowerfactor d := by
    have hr : resolvePropulsion c = .ok (.str "piston") := by
      unfold resolvePropulsion
      rw [hp]
      simp only [hbpr, bprPropulsion]
      norm_num
    simp only [slcorr, hr, bind_ok, bind_ok_iff, corrOf] at k2
    obtain ⟨ms, -, T, -, P, -, d', hd', ts, hts, k2⟩ := k2
    rw [hd] at hd'; cases hd'
    cases k2
    have hst : ∀ x, strCorr X c "piston" T P d x = .ok (Atmos.pistonpowerfactor d) := fun x => rfl
    match ms with
    | [] => cases hts; cases k3
    | [x] =>
      simp only [List.mapM_cons, List.mapM_nil, hst, bind_ok] at hts
      cases hts
      simp only [recastArray, List.cons.injEq, and_true] at k3
      exact k3.symm
    | x :: y :: l => simp [recastArray] at k4
  have f1 := hc1 w
  rw [hcr w] at f1
  have f2 := hc2 w
  rw [hcr' w] at f2
  injection f1 with f1
  injection f2 with f2
  have f1' := congrArg recastArray f1
  have f2' := congrArg recastArray f2
  simp only [recast_revert] at f1' f2'
  show recastArray (Atmos.revert _) = (recastArray (Atmos.revert _)).map _
  rw [recast_revert, recast_revert, ← f2', List.map_map]
  show (recastArray w).map _ = _
  rw [← f1']
  apply List.map_congr_left
  intro x _
  simp only [Function.comp, cruiseReq, sl, if_true, et, et', div_one]
  show cruisePoint _ (pyNum c.cdminclean) (K x (x * pyNum c.cruise_weight_fraction / q)) _ * pyNum c.cruise_weight_fraction * (1 / pyNum c.cruisethrustfact) = _
  field_simp
  rfl

/-- The worked case meets the hypotheses, with a factor different from 1. -/
example (X : Ext) : (∃ R nom, study X stBuilt (.array [500, 1000]) false = .ok (R, nom)) ∧
    (∃ own, twrequired X stBuilt.concept (.array [500, 1000]) true true = .ok own) ∧
    stBuilt.concept.propulsion = .pyFalse ∧ pyNum stBuilt.concept.bpr = -1 ∧
    stBuilt.concept.cruisealt_m = some 3000 ∧ Atmos.dens1 stBuilt.concept.designatm 3000 = .ok 1 ∧
    Atmos.pistonpowerfactor 1 ≠ 0 ∧ Atmos.pistonpowerfactor 1 ≠ 1 := by
  refine ⟨st_study X false _ (by simp [recastArray]), ?_, rfl, by simp [stBuilt, stC, exC, pyNum], rfl,
    exAtm_dens 3000 (by norm_num) (by norm_num), by norm_num [Atmos.pistonpowerfactor], by norm_num [Atmos.pistonpowerfactor]⟩
  refine (C48_given X stC _ true true ?_ (by simp [Missing, stC, exC])).1
  refine ⟨?_, ?_, ?_, ?_, ?_, ?_, ?_⟩
  · exact exAtm_env 0 (by norm_num) (by norm_num)
  · exact exAtm_env 0 (by norm_num) (by norm_num)
  · exact exAtm_env 0 (by norm_num) (by norm_num)
  · exact exAtm_env 1000 (by norm_num) (by norm_num)
  · intro alt h; cases h; exact exAtm_env 3000 (by norm_num) (by norm_num)
  · intro alt h; cases h; exact exAtm_env 6000 (by norm_num) (by norm_num)
  · simp [PropOK, stC, exC, pyNum]

/-! ### C84 -/

/-- Although the power requirement is proportional to the mass. -/
theorem C84_power_proportional (X : Ext) (c : Concept) (w : NumArg) (hw : recastArray w ≠ []) (m k : ℝ) {r r' : Req}
    (h : powerrequired X c w m true true = .ok r) (h' : powerrequired X c w (k * m) true true = .ok r') (q : Constr) :
    recastArray (fieldOf q r') = (recastArray (fieldOf q r)).map (fun x => k * x) := by
  rw [fieldOf_eq, fieldOf_eq]
  rcases power_point X c m true true with ⟨e, he⟩ | ⟨R, vc, vs, pto, ptrn, pclm, pcrs, psec, hi, hR, -, hP⟩
  · rw [he w hw] at h; cases h
  rcases power_point X c (k * m) true true with ⟨e, he⟩ | ⟨R', vc', vs', pto', ptrn', pclm', pcrs', psec', hi', hR', -, hP'⟩
  · rw [he w hw] at h'; cases h'
  rw [hP w hw] at h; cases h
  rw [hP' w hw] at h'; cases h'
  have hvc : vc' = vc := by
    obtain ⟨s, h1, rfl⟩ := hi.climbspeed
    obtain ⟨s', h2, rfl⟩ := hi'.climbspeed
    rw [h1] at h2; cases h2; rfl
  have hvs : vs' = vs := by
    obtain ⟨s, h1, rfl⟩ := hi.secspeed
    obtain ⟨s', h2, rfl⟩ := hi'.secspeed
    rw [h1] at h2; cases h2; rfl
  subst hvc hvs
  have hpt : ∀ v, pto' v = pto v := by
    intro v
    obtain ⟨t, h1⟩ := hi.tko rfl v
    obtain ⟨t', h2⟩ := hi'.tko rfl v
    exact (CorrAt.unique h2 h1).2
  have htr : ptrn' = ptrn := by
    obtain ⟨t, h1⟩ := hi.trn rfl
    obtain ⟨t', h2⟩ := hi'.trn rfl
    exact (CorrAt.unique h2 h1).2
  have hcl : pclm' = pclm := by
    obtain ⟨t, h1⟩ := hi.clm rfl
    obtain ⟨t', h2⟩ := hi'.clm rfl
    exact (CorrAt.unique h2 h1).2
  have hcr : pcrs' = pcrs := by
    obtain ⟨t, h1⟩ := hi.crs rfl
    obtain ⟨t', h2⟩ := hi'.crs rfl
    exact (CorrAt.unique h2 h1).2
  have hse : psec' = psec := by
    obtain ⟨t, h1⟩ := hi.sec rfl
    obtain ⟨t', h2⟩ := hi'.sec rfl
    exact (CorrAt.unique h2 h1).2
  have hRR : ∀ x, (R' x).takeoff = (R x).takeoff ∧ (R' x).liftoffspeed = (R x).liftoffspeed ∧ (R' x).turn = (R x).turn ∧
      (R' x).climb = (R x).climb ∧ (R' x).cruise = (R x).cruise ∧ (R' x).servceil = (R x).servceil := by
    intro x
    have h1 := hR (.scalar x)
    rw [hR' (.scalar x)] at h1
    injection h1 with h1
    simp only [reqOf, recastArray, List.map_cons, List.map_nil, Atmos.revert, Req.mk.injEq, NumArg.scalar.injEq] at h1
    tauto
  cases q
  all_goals
    simp only [Req.entry, preqOf, recast_shp, List.map_map]
    apply List.map_congr_left
    intro x _
    obtain ⟨a1, a2, a3, a4, a5, a6⟩ := hRR x
    simp only [Function.comp, powerAt, sl, hp, a1, a2, a3, a4, a5, a6, hpt, htr, hcl, hcr, hse, if_true]
    ring_nf

example (X : Ext) : (∃ r, powerrequired X (studied stC) (.array [500, 1000]) 1000 true true = .ok r) ∧
    ∃ r, powerrequired X (studied stC) (.array [500, 1000]) (1.1 * 1000) true true = .ok r := by
  have h := C48_given X (studied stC) (.array [500, 1000]) true true st_ready (by simp [Missing, stC, studied, exC])
  exact ⟨h.2 (by simp [recastArray]) _, h.2 (by simp [recastArray]) _⟩

/-- a design with a range of weights -/
def wgDesign : Dict := dset stDesign "weight_n" (.list [8000, 12000])

/-- the result of the constructor with a range of weights -/
def wgBuilt : Built := ⟨stBriefAvg, stDesign, stPerf, (stBrief, wgDesign, stPerf), false, stC⟩

theorem wg_built : construct stBrief wgDesign stPerf (some exAtm) .pyNone = .ok wgBuilt := by
  obtain ⟨f1, -, f3⟩ := st_fill
  obtain ⟨a1, -, a3⟩ := st_average
  have f2 : fill default_design wgDesign = .ok wgDesign := by
    simp [fill, fillKey, dget, dset, fillSub, wgDesign, stDesign, default_design, bind, Except.bind, pure, Except.pure]
  have a2 : average default_design wgDesign = .ok stDesign := by
    simp [average, averageKey, dgetE, dget, dset, wgDesign, stDesign, default_design, bind, Except.bind, pure, Except.pure, pyMean]
    norm_num
  have k4 : leDefault wgDesign = .ok wgDesign := by
    simp [leDefault, dgetE, dget, dset, wgDesign, stDesign, bind, Except.bind, pure, Except.pure]
  have k5 : mtDefault wgDesign = .ok wgDesign := by
    simp [mtDefault, dgetE, dget, dset, wgDesign, stDesign, bind, Except.bind, pure, Except.pure]
  have k6 : sweep25Default wgDesign = .ok wgDesign := by
    simp [sweep25Default, dgetE, dget, dset, wgDesign, stDesign, bind, Except.bind, pure, Except.pure]
  have k7 : taperDefault wgDesign = .ok (wgDesign, false) := by
    simp [taperDefault, dgetE, dget, dset, wgDesign, stDesign, bind, Except.bind, pure, Except.pure]
  have k8 : etaDefault stPerf = .ok (stPerf, 0) := by
    simp [etaDefault, etaLoop, dgetE, dget, dset, stPerf, bind, Except.bind, pure, Except.pure]
  unfold construct
  simp only [f1, f2, f3, k4, k5, k6, k7, k8, a1, a2, a3, bind_ok]
  rw [show (some exAtm).getD (.isa 0) = stC.designatm from rfl, show parsePropulsion .pyNone = stC.propulsion from rfl,
    readConcept_of st_attrs 0]
  rfl

/-- A design with a range of weights that meets the hypotheses of `C84_weight_violated`. -/
example (X : Ext) (power : Bool) : ("weight_n", Val.list [8000, 12000]) ∈ (spaceOf wgBuilt).design ∧
    KeysDistinct (spaceOf wgBuilt) ∧ ∃ R nom, study X wgBuilt (.array [500, 1000]) power = .ok (R, nom) := by
  have hd : KeysDistinct (spaceOf wgBuilt) := by
    unfold KeysDistinct spaceOf wgBuilt wgDesign stBrief stDesign stPerf
    simp [dset]
  have hrg : ∀ (i : Fin 3) (k : String) (xs : List ℝ), (k, Val.list xs) ∈ dictNo (spaceOf wgBuilt) i →
      (i = 0 ∧ k = "groundrun_m" ∧ xs = [300, 500]) ∨ (i = 1 ∧ k = "weight_n" ∧ xs = [8000, 12000]) := by
    intro i k xs h
    match i with
    | 0 => left; simpa [dictNo, spaceOf, wgBuilt, stBrief] using h
    | 1 => right; simpa [dictNo, spaceOf, wgBuilt, wgDesign, stDesign, dset] using h
    | 2 => simp [dictNo, spaceOf, wgBuilt, stPerf] at h
  have hwr : ∀ v, Ready (varied (studied stC) 1 "weight_n" v) := by
    intro v
    refine ⟨?_, ?_, ?_, ?_, ?_, ?_, trivial⟩
    · exact exAtm_env 0 (by norm_num) (by norm_num)
    · exact exAtm_env 0 (by norm_num) (by norm_num)
    · exact exAtm_env 0 (by norm_num) (by norm_num)
    · exact exAtm_env 1000 (by norm_num) (by norm_num)
    · intro alt h; cases h; exact exAtm_env 3000 (by norm_num) (by norm_num)
    · intro alt h; cases h; exact exAtm_env 6000 (by norm_num) (by norm_num)
  refine ⟨by simp [spaceOf, wgBuilt, wgDesign, stDesign, dset], hd, ?_⟩
  refine C85_succeeds wg_built X _ power (by simp [recastArray]) hd 10000 rfl ?_ ?_ ?_ ?_
  · intro i k xs h
    rcases hrg i k xs h with ⟨-, -, rfl⟩ | ⟨-, -, rfl⟩ <;> simp
  · simp [ranged, spaceOf, wgBuilt, wgDesign, stBrief, stDesign, stPerf, dset]
  · exact st_req X power _ _ (by simp [recastArray]) _ st_ready (by simp [Missing, wgBuilt, stC, studied, exC])
  · intro i k xs h v _
    rcases hrg i k xs h with ⟨rfl, rfl, -⟩ | ⟨rfl, rfl, -⟩
    · exact st_req X power _ _ (by simp [recastArray]) _ (st_varied_ready v) (by simp [Missing, wgBuilt, stC, studied, exC, varied])
    · exact st_req X power _ _ (by simp [recastArray]) _ (hwr v) (by simp [Missing, wgBuilt, stC, studied, exC, varied])

/-- The study of the worked case has the properties of C54 and C85. -/
example (X : Ext) (power : Bool) : ∃ R nom, study X stBuilt (.array [500, 1000, 1500]) power = .ok (R, nom) ∧
    (∃ W, stBuilt.concept.weight_n = some W ∧
      seaLevelReq X power (W / gAcc) (recastArray (.array [500, 1000, 1500])) (studied stBuilt.concept) = .ok nom) ∧
    (∀ q k v, dget (R.prime q) k = some v → ∃ i xs, (k, Val.list xs) ∈ dictNo (spaceOf stBuilt) i) ∧
    (∀ q, R.prime q ≠ [] → ∀ j, j < 3 → (shares (R.prime q) j).sum = 1) ∧
    (∀ ks : List String, ks.Nodup → (∀ k ∈ ks, ∃ q v, dget (R.prime q) k = some v) → ks.length ≤ 24) := by
  obtain ⟨R, nom, h⟩ := st_study X power (.array [500, 1000, 1500]) (by simp [recastArray])
  have hw : recastArray (.array [500, 1000, 1500]) ≠ [] := by simp [recastArray]
  exact ⟨R, nom, h, C54_nominal st_built X _ power h, fun q k v hk => C54_ranged st_built X _ power hw st_distinct h q k v hk,
    fun q hq j hj => (C54_shares st_built X _ power hw st_distinct h q hq j (by simpa [recastArray] using hj)).2,
    fun ks hk hr => C85_limit X stBuilt _ power h ks hk hr⟩

end

end Verif.Props
