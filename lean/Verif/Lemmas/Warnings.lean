import Verif.Model.Warnings
import Verif.Lemmas.PyM

/-
Computations with warnings: the results are those of the model without warnings.
-/

namespace Verif.Aircraft
open Verif Verif.Units

variable {α β : Type}

theorem erase_step {x : W α} {y : PyM α} {f : α → W β} {g : α → PyM β} (h : x.2 = y) (k : ∀ a, (f a).2 = g a) :
    (x >>= f).2 = y >>= g := by
  subst h
  obtain ⟨ws, r⟩ := x
  cases r with
  | error e => rfl
  | ok a => exact k a

theorem warn_step {w : Warning} {p : Prop} [Decidable p] {f : Unit → W β} {y : PyM β} (k : (f ()).2 = y) :
    (warnIf p w >>= f).2 = y := by
  unfold warnIf
  split
  · exact k
  · exact k

theorem erase_ok {x : W α} {a : α} {f : α → W β} {y : PyM β} (h : x.2 = .ok a) (k : (f a).2 = y) : (x >>= f).2 = y := by
  obtain ⟨ws, r⟩ := x
  cases h
  exact k

theorem machW_erase (a : Atmos.Atm) (v alt : NumArg) : (machW a v alt).2 = Atmos.mach a v alt := warn_step rfl

theorem mach1W_erase (a : Atmos.Atm) (v alt : ℝ) : (mach1W a v alt).2 = Atmos.mach1 a v alt := by
  refine erase_step (machW_erase a _ _) fun l => ?_
  match l with
  | [] => rfl
  | [_] => rfl
  | _ :: _ :: _ => rfl

theorem givenMach_erase (m : Option ℝ) : (givenMach m).2 = .ok (m.getD 0.3) := by cases m <;> rfl

theorem oswald4_erase (c : Concept) (m : Option ℝ) : (oswaldspaneff4W c m).2 = .ok (oswaldspaneff4 c m) := by
  refine erase_ok (givenMach_erase m) ?_
  show _ = Except.ok (if oswaldRaw c (m.getD 0.3) < 1e-3 then 1e-3 else oswaldRaw c (m.getD 0.3))
  unfold boundedW
  split <;> rfl

theorem oswaldlist_erase (c : Concept) (sel : Option ℤ) (m : Option ℝ) : (oswaldlistW c sel m).2 = oswaldlist c sel m := by
  cases sel with
  | none => rfl
  | some s =>
    unfold oswaldlistW oswaldlist
    dsimp only
    by_cases hs : s < 0
    · rw [if_pos hs, if_pos hs]; rfl
    · rw [if_neg hs, if_neg hs]
      by_cases h4 : 4 ∈ Nat.digits 10 s.toNat
      · rw [if_pos h4, if_pos h4]
        refine erase_ok (givenMach_erase m) ?_
        exact erase_ok (oswald4_erase c _) rfl
      · rw [if_neg h4, if_neg h4, List.append_nil]; rfl

theorem induced_erase (c : Concept) (sel : Option ℤ) (m : Option ℝ) : (induceddragfactW c sel m).2 = induceddragfact c sel m := by
  refine erase_step (oswaldlist_erase c sel m) fun l => ?_
  dsimp only
  by_cases h : l.length > 0
  · rw [if_pos h, if_pos h]; rfl
  · rw [if_neg h, if_neg h]; exact erase_ok (oswald4_erase c _) rfl

theorem liftslope_erase (X : Ext) (c : Concept) (m : Option ℝ) : (liftslope_pradW X c m).2 = liftslope_prad X c m := by
  refine erase_ok (givenMach_erase m) ?_
  cases m <;> rfl

theorem kFactors_erase (X : Ext) (c : Concept) (m : ℝ) : (kFactorsW X c m).2 = kFactors X c m := by
  refine erase_step (induced_erase c _ _) fun k => ?_
  refine erase_step (liftslope_erase X c _) fun a => ?_
  exact erase_step (liftslope_erase X c _) fun b => rfl

theorem clCruise_erase (c : Concept) (ws : List ℝ) : (clCruiseW c ws).2 = clCruise c ws := warn_step rfl

theorem lesm_erase (X : Ext) (c : Concept) (ws cl : Option (List ℝ)) (m : Option ℝ) :
    (induceddragfact_lesmW X c ws cl m).2 = induceddragfact_lesm X c ws cl m := by
  refine erase_ok (givenMach_erase m) (warn_step ?_)
  refine erase_step rfl fun ws => ?_
  refine erase_step (clCruise_erase c ws) fun cc => ?_
  refine erase_step (kFactors_erase X c _) fun ⟨k1, k2, k3⟩ => ?_
  cases cl with
  | none => exact erase_ok rfl rfl
  | some cl => exact erase_step rfl fun d => rfl

theorem bpr_erase (bpr : ℝ) : (bprPropulsionW bpr).2 = bprPropulsion bpr := by
  unfold bprPropulsionW bprPropulsion
  split_ifs <;> rfl

theorem resolve_erase (c : Concept) : (resolvePropulsionW c).2 = resolvePropulsion c := by
  unfold resolvePropulsionW resolvePropulsion
  cases c.propulsion with
  | pyFalse => exact erase_ok rfl (bpr_erase _)
  | str s => rfl
  | pair e => rfl

theorem strCorr_erase (X : Ext) (c : Concept) (s : String) (t p d m : ℝ) : (strCorrW X c s t p d m).2 = strCorr X c s t p d m := by
  unfold strCorrW strCorr
  split_ifs <;> rfl

theorem strCorrAll_erase (X : Ext) (c : Concept) (s : String) (t p d : ℝ) (ms : List ℝ) :
    (strCorrAllW X c s t p d ms).2 = ms.mapM (strCorr X c s t p d) := by
  induction ms with
  | nil => rfl
  | cons m ms ih =>
    rw [List.mapM_cons]
    refine erase_step (strCorr_erase X c s t p d m) fun x => ?_
    exact erase_step ih fun xs => rfl

theorem corrOf_erase (X : Ext) (c : Concept) (pr : PropAttr) (ms : List ℝ) (alt : ℝ) : (corrOfW X c pr ms alt).2 = corrOf X c pr ms alt := by
  cases pr with
  | pyFalse => rfl
  | pair e => rfl
  | str s =>
    refine erase_step rfl fun t => erase_step rfl fun p => erase_step rfl fun d => ?_
    exact erase_step (strCorrAll_erase X c s t p d ms) fun ts => rfl

theorem slcorr_erase (X : Ext) (c : Concept) (v : NumArg) (alt : ℝ) : (slcorrW X c v alt).2 = slcorr X c v alt := by
  refine erase_step (resolve_erase c) fun pr => ?_
  exact erase_step (machW_erase _ _ _) fun ms => corrOf_erase X c pr ms alt

theorem clm_erase (X : Ext) (c : Concept) (w : NumArg) (b : Bool) : (twrequired_clmW X c w b).2 = twrequired_clm X c w b := by
  refine erase_step rfl fun x => erase_step rfl fun y => erase_step rfl fun v => erase_step rfl fun roc => ?_
  refine erase_step (slcorr_erase X c _ _) fun ⟨t, _⟩ => erase_step rfl fun q => ?_
  refine erase_step (mach1W_erase _ _ _) fun m => erase_step (lesm_erase X c _ _ _) fun k => ?_
  exact erase_step rfl fun tw => erase_step rfl fun tw => rfl

theorem crs_erase (X : Ext) (c : Concept) (w : NumArg) (b : Bool) : (twrequired_crsW X c w b).2 = twrequired_crs X c w b := by
  refine erase_step rfl fun x => erase_step rfl fun y => ?_
  refine erase_step (slcorr_erase X c _ _) fun ⟨t, _⟩ => erase_step rfl fun q => ?_
  refine erase_step (mach1W_erase _ _ _) fun m => erase_step (lesm_erase X c _ _ _) fun k => ?_
  exact erase_step rfl fun tw => erase_step rfl fun tw => rfl

theorem sec_erase (X : Ext) (c : Concept) (w : NumArg) (b : Bool) : (twrequired_secW X c w b).2 = twrequired_sec X c w b := by
  refine erase_step rfl fun x => erase_step rfl fun y => erase_step rfl fun v => ?_
  refine erase_step (slcorr_erase X c _ _) fun ⟨t, _⟩ => erase_step rfl fun q => ?_
  refine erase_step (mach1W_erase _ _ _) fun m => erase_step (lesm_erase X c _ _ _) fun k => erase_step rfl fun roc => ?_
  exact erase_step rfl fun tw => erase_step rfl fun tw => rfl

theorem takeoffSl_erase (X : Ext) (c : Concept) (tw lof : ℝ) : (takeoffSlW X c tw lof).2 = takeoffSl X c tw lof := by
  refine erase_step (slcorr_erase X c _ _) fun ⟨t, _⟩ => ?_
  dsimp only
  cases recastArray t with
  | nil => rfl
  | cons a l => cases l <;> rfl

theorem takeoffSlAll_erase (X : Ext) (c : Concept) (tws lofs : List ℝ) : (takeoffSlAllW X c tws lofs).2 = takeoffSlAll X c tws lofs := by
  induction tws generalizing lofs with
  | nil => cases lofs <;> rfl
  | cons t tws ih =>
    cases lofs with
    | nil => rfl
    | cons l lofs => exact erase_step (takeoffSl_erase X c t l) fun x => erase_step (ih lofs) fun xs => rfl

theorem to_erase (X : Ext) (c : Concept) (w : NumArg) (b : Bool) : (twrequired_toW X c w b).2 = twrequired_to X c w b := by
  refine erase_step rfl fun x => erase_step rfl fun ⟨tw, lof⟩ => ?_
  cases b with
  | false => exact erase_ok rfl rfl
  | true => exact erase_step (takeoffSlAll_erase X c _ _) fun x => rfl

theorem turn_erase (X : Ext) (c : Concept) (ws : List ℝ) : (thrusttoweight_sustainedturnW X c ws).2 = thrusttoweight_sustainedturn X c ws := by
  refine erase_step (mach1W_erase _ _ _) fun m => erase_step rfl fun q => erase_step (lesm_erase X c _ _ _) fun k => ?_
  exact erase_step rfl fun tw => rfl

theorem trn_erase (X : Ext) (c : Concept) (w : NumArg) (b : Bool) : (twrequired_trnW X c w b).2 = twrequired_trn X c w b := by
  refine erase_step rfl fun x => erase_step rfl fun y => erase_step (turn_erase X c _) fun ⟨tw, cl⟩ => ?_
  refine erase_step (slcorr_erase X c _ _) fun ⟨t, _⟩ => ?_
  exact erase_step rfl fun tw => rfl

theorem tw_erase (X : Ext) (c : Concept) (w : NumArg) (f b : Bool) : (twrequiredW X c w f b).2 = twrequired X c w f b := by
  refine erase_step (to_erase X c _ _) fun ⟨_, _, _⟩ => erase_step (trn_erase X c _ _) fun ⟨_, _, _⟩ => ?_
  refine erase_step (clm_erase X c _ _) fun _ => erase_step (crs_erase X c _ _) fun _ => erase_step (sec_erase X c _ _) fun _ => ?_
  exact erase_step rfl fun _ => rfl

theorem powerSl_erase (X : Ext) (c : Concept) (b : Bool) (v : NumArg) (alt : ℝ) (p : NumArg) :
    (powerSlW X c b v alt p).2 = powerSl X c b v alt p := by
  cases b with
  | false => rfl
  | true => exact erase_step (slcorr_erase X c _ _) fun ⟨_, _⟩ => rfl

theorem powerSlTurn_erase (X : Ext) (c : Concept) (b : Bool) (v : NumArg) (alt : ℝ) (p : NumArg) (fe : NanArg) :
    (powerSlTurnW X c b v alt p fe).2 = powerSlTurn X c b v alt p fe := by
  cases b with
  | false => rfl
  | true => exact erase_step (slcorr_erase X c _ _) fun ⟨_, _⟩ => erase_step rfl fun _ => erase_step rfl fun _ => rfl

theorem power_erase (X : Ext) (c : Concept) (w : NumArg) (tow : ℝ) (f b : Bool) :
    (powerrequiredW X c w tow f b).2 = powerrequired X c w tow f b := by
  refine warn_step ?_
  refine erase_step (tw_erase X c _ _ _) fun r => erase_step rfl fun _ => erase_step (powerSl_erase X c _ _ _ _) fun _ => ?_
  refine erase_step rfl fun fe => warn_step ?_
  refine erase_step rfl fun _ => erase_step (powerSlTurn_erase X c _ _ _ _ _) fun ⟨_, _⟩ => ?_
  refine erase_step rfl fun _ => erase_step rfl fun _ => erase_step (powerSl_erase X c _ _ _ _) fun _ => ?_
  refine erase_step rfl fun _ => erase_step (powerSl_erase X c _ _ _ _) fun _ => ?_
  refine erase_step rfl fun _ => erase_step rfl fun _ => erase_step (powerSl_erase X c _ _ _ _) fun _ => ?_
  exact erase_step rfl fun _ => rfl

/-! ### The warnings of a computation that succeeds -/

theorem bind_success {x : W α} {f : α → W β} {b : β} (h : (x >>= f).2 = .ok b) :
    ∃ a, x.2 = .ok a ∧ (f a).2 = .ok b ∧ (x >>= f).1 = x.1 ++ (f a).1 := by
  obtain ⟨ws, r⟩ := x
  cases r with
  | error e => cases h
  | ok a => exact ⟨a, rfl, h, rfl⟩

/-- A computation that, when it succeeds, issues of the warnings other than `outOfBounds` exactly those of the set. -/
def Issues (x : W α) (S : Warning → Prop) : Prop := ∀ a, x.2 = .ok a → ∀ w, w ≠ .outOfBounds → (w ∈ x.1 ↔ S w)

theorem Issues.bind {x : W α} {f : α → W β} {S T : Warning → Prop} (h : Issues x S) (k : ∀ a, x.2 = .ok a → Issues (f a) T) :
    Issues (x >>= f) (fun w => S w ∨ T w) := by
  intro b hb w hw
  obtain ⟨a, h1, h2, h3⟩ := bind_success hb
  rw [h3, List.mem_append, h a h1 w hw, k a h1 b h2 w hw]

/-- No warnings. -/
def Nothing : Warning → Prop := fun _ => False

theorem Issues.silent {x : W α} {f : α → W β} {S : Warning → Prop} (h : Issues x Nothing) (k : ∀ a, x.2 = .ok a → Issues (f a) S) :
    Issues (x >>= f) S := by
  intro b hb w hw
  rw [(Issues.bind h k) b hb w hw]
  simp [Nothing]

theorem Issues.last {x : W α} {f : α → W β} {S : Warning → Prop} (h : Issues x S) (k : ∀ a, x.2 = .ok a → Issues (f a) Nothing) :
    Issues (x >>= f) S := by
  intro b hb w hw
  rw [(Issues.bind h k) b hb w hw]
  simp [Nothing]

theorem Issues.both {x : W α} {f : α → W β} {S : Warning → Prop} (h : Issues x S) (k : ∀ a, x.2 = .ok a → Issues (f a) S) :
    Issues (x >>= f) S := by
  intro b hb w hw
  rw [(Issues.bind h k) b hb w hw]
  simp

theorem issues_quiet (x : PyM α) : Issues (quiet x) Nothing := by
  intro a _ w _
  simp [quiet, Nothing]

theorem issues_pure (a : α) : Issues (pure a : W α) Nothing := issues_quiet (.ok a)

theorem machW_silent (a : Atmos.Atm) (v alt : NumArg) : (machW a v alt).1 = [] := by
  unfold machW warnIf
  dsimp only
  have h : ¬ (if ((recastArray v).any fun x => decide (x ≠ 0)) = true then (1 : ℤ) else 0) < 0 := by split <;> norm_num
  rw [if_neg h]
  rfl

theorem issues_nil {x : W α} (h : x.1 = []) : Issues x Nothing := by
  intro a _ w _
  rw [h]; simp [Nothing]

theorem issues_mach1 (a : Atmos.Atm) (v alt : ℝ) : Issues (mach1W a v alt) Nothing :=
  (issues_nil (machW_silent a _ _)).silent fun _ _ => issues_quiet _

theorem issues_oswald4 (c : Concept) (m : ℝ) : Issues (oswaldspaneff4W c (some m)) Nothing := by
  refine (issues_pure m).silent fun m _ => ?_
  unfold boundedW
  split
  · intro a _ w hw
    show w ∈ [Warning.outOfBounds] ↔ _
    simp [Nothing, hw]
  · exact issues_pure _

theorem issues_induced (c : Concept) (sel : Option ℤ) (m : ℝ) : Issues (induceddragfactW c sel (some m)) Nothing := by
  refine Issues.silent ?_ fun l _ => ?_
  · cases sel with
    | none => exact issues_pure _
    | some s =>
      unfold oswaldlistW
      dsimp only
      split
      · exact issues_quiet _
      · split
        · exact (issues_pure m).silent fun _ _ => (issues_oswald4 c _).silent fun _ _ => issues_pure _
        · exact issues_pure _
  · split
    · exact issues_pure _
    · exact (issues_oswald4 c _).silent fun _ _ => issues_pure _

theorem issues_lesm (X : Ext) (c : Concept) (ws : Option (List ℝ)) (cl : List ℝ) (m : ℝ) :
    Issues (induceddragfact_lesmW X c ws (some cl) (some m))
      (fun w => w = .cruiseMissing ∧ (c.cruisespeed_ktas = none ∨ c.cruisealt_m = none)) := by
  refine (issues_pure m).silent fun m _ => ?_
  refine Issues.silent (issues_pure ()) fun _ _ => ?_
  refine (issues_quiet _).silent fun ws _ => ?_
  refine Issues.last ?_ fun cc _ => ?_
  · refine Issues.last ?_ fun _ _ => issues_quiet _
    intro a _ w hw
    unfold warnIf
    split
    next h => simp [warn, h]
    next h => rw [issues_pure () () rfl w hw]; simp [Nothing, h]
  · refine Issues.silent ?_ fun ⟨_, _, _⟩ _ => (issues_quiet _).silent fun _ _ => issues_quiet _
    refine (issues_induced c _ _).silent fun _ _ => ?_
    refine Issues.silent ?_ fun _ _ => Issues.silent ?_ fun _ _ => issues_pure _
    · exact (issues_pure m).silent fun _ _ => issues_quiet _
    · exact (issues_pure _).silent fun _ _ => issues_quiet _

end Verif.Aircraft
