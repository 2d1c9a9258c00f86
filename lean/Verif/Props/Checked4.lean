import Verif.Lemmas.Checked
import Verif.Props.Constraint

/-
Property C135, fourth part: whole requirements, true airspeed and Mach number, and the certification formulas.
-/

namespace Verif.Props
open Verif Verif.Aircraft Verif.Checked Verif.Units

noncomputable section

theorem Exactly.mapped {a : Num} {P : Prop} {x : ℝ} (h : Exactly a P x) (b : Bool) (t : ℝ) :
    Exactly (Checked.mapped b a (some t)) (P ∧ (b = true → t ≠ 0)) (sl b t x) := by
  unfold Checked.mapped sl
  cases b with
  | true => simpa using h.div (Exactly.leaf t)
  | false => simpa using h

theorem C135_cruise_whole (X : Ext) (c : Concept) (b : Bool) {s alt t q m : ℝ} {K : ℝ → ℝ → ℝ} (h : CruiseIn X c s alt t q m K) (w : ℝ) :
    ∃ k r, twrequired_crs X c (.scalar w) b = .ok (.scalar r) ∧
      Exactly (reqCruise b (some q) (some (pyNum c.cdminclean)) (some k) (some w) (some (pyNum c.cruise_weight_fraction)) (some t)
        (some (pyNum c.cruisethrustfact)))
        (w ≠ 0 ∧ pyNum c.cruise_weight_fraction ≠ 0 ∧ q ≠ 0 ∧ (b = true → t ≠ 0) ∧ pyNum c.cruisethrustfact ≠ 0) r := by
  refine ⟨K w (w * pyNum c.cruise_weight_fraction / q), _, h.eval b (.scalar w), ?_⟩
  unfold reqCruise cruise Aircraft.cruiseReq cruisePoint
  apply Exactly.of
  · apply Exactly.mul
    · apply Exactly.mul
      · apply Exactly.mapped
        walk
      · walk
    · walk
  · simp only [true_and, and_true, ne_eq, mul_eq_zero, not_or]
    tauto

example (X : Ext) : ∃ q t k r, twrequired_crs X exC (.scalar 0) true = .ok (.scalar r) ∧
    reqCruise true (some q) (some (pyNum exC.cdminclean)) (some k) (some 0) (some (pyNum exC.cruise_weight_fraction)) (some t)
      (some (pyNum exC.cruisethrustfact)) = none := by
  obtain ⟨t, q, m, K, h⟩ := crs_given (X := X) exC_ready rfl rfl
  obtain ⟨k, r, e1, e2⟩ := C135_cruise_whole X exC true h 0
  exact ⟨q, t, k, r, e1, e2.2 (fun h => h.1 rfl)⟩

theorem C135_climb_whole (X : Ext) (c : Concept) (b : Bool) {s r v roc t q m : ℝ} {K : ℝ → ℝ → ℝ} (h : ClimbIn X c s r v roc t q m K) (w : ℝ) :
    ∃ k y, twrequired_clm X c (.scalar w) b = .ok (.scalar y) ∧
      Exactly (reqClimb b (some roc) (some v) (some q) (some (pyNum c.cdminclean)) (some k) (some w) (some (pyNum c.climb_weight_fraction)) (some t))
        (v ≠ 0 ∧ w ≠ 0 ∧ pyNum c.climb_weight_fraction ≠ 0 ∧ q ≠ 0 ∧ (b = true → t ≠ 0)) y := by
  refine ⟨K w (w * pyNum c.climb_weight_fraction / q), _, h.eval b (.scalar w), ?_⟩
  unfold reqClimb climb Aircraft.climbReq climbPoint
  apply Exactly.of
  · apply Exactly.mul
    · apply Exactly.mapped
      walk
    · walk
  · simp only [true_and, and_true, ne_eq, mul_eq_zero, not_or]
    tauto

example (X : Ext) : ∃ v roc q t k r, twrequired_clm X exC (.scalar 0) true = .ok (.scalar r) ∧
    reqClimb true (some roc) (some v) (some q) (some (pyNum exC.cdminclean)) (some k) (some 0) (some (pyNum exC.climb_weight_fraction)) (some t) = none := by
  obtain ⟨v, roc, t, q, m, K, h⟩ := clm_given (X := X) exC_ready rfl rfl
  obtain ⟨k, r, e1, e2⟩ := C135_climb_whole X exC true h 0
  exact ⟨v, roc, q, t, k, r, e1, e2.2 (fun h => h.2.1 rfl)⟩

theorem C135_ceiling_whole (X : Ext) (c : Concept) (b : Bool) {s alt v roc t q m : ℝ} {K : ℝ → ℝ → ℝ} (h : CeilIn X c s alt v roc t q m K) (w : ℝ) :
    ∃ k y, twrequired_sec X c (.scalar w) b = .ok (.scalar y) ∧
      Exactly (reqCeiling b (some roc) (some v) (some q) (some (pyNum c.cdminclean)) (some k) (some w) (some (pyNum c.sec_weight_fraction)) (some t))
        (v ≠ 0 ∧ w ≠ 0 ∧ pyNum c.sec_weight_fraction ≠ 0 ∧ q ≠ 0 ∧ (b = true → t ≠ 0)) y := by
  refine ⟨K w (w * pyNum c.sec_weight_fraction / q), _, h.eval b (.scalar w), ?_⟩
  unfold reqCeiling ceiling Aircraft.ceilReq ceilingPoint
  apply Exactly.of
  · apply Exactly.mul
    · apply Exactly.mapped
      walk
    · walk
  · simp only [true_and, and_true, ne_eq, mul_eq_zero, not_or]
    tauto

example (X : Ext) : ∃ v roc q t k r, twrequired_sec X exC (.scalar 0) true = .ok (.scalar r) ∧
    reqCeiling true (some roc) (some v) (some q) (some (pyNum exC.cdminclean)) (some k) (some 0) (some (pyNum exC.sec_weight_fraction)) (some t) = none := by
  obtain ⟨v, roc, t, q, m, K, h⟩ := sec_given (X := X) exC_ready rfl rfl
  obtain ⟨k, r, e1, e2⟩ := C135_ceiling_whole X exC true h 0
  exact ⟨v, roc, q, t, k, r, e1, e2.2 (fun h => h.2.1 rfl)⟩

theorem C135_turn_whole (X : Ext) (c : Concept) (b : Bool) {s n t q m : ℝ} {K : ℝ → ℝ → ℝ} (h : TurnIn X c s n t q m K) (w : ℝ) :
    ∃ k y cl f, twrequired_trn X c (.scalar w) b = .ok (.scalar y, cl, f) ∧
      Exactly (reqTurn b (some q) (some (pyNum c.cdminclean)) (some n) (some k) (some w) (some (pyNum c.turn_weight_fraction))
        (some (pyNum c.climb_weight_fraction)) (some t))
        (w ≠ 0 ∧ pyNum c.turn_weight_fraction ≠ 0 ∧ q ≠ 0 ∧ (b = true → t ≠ 0)) y := by
  refine ⟨K (w * pyNum c.turn_weight_fraction) (turnCl c n q w), _, _, _, h.eval b (.scalar w), ?_⟩
  unfold reqTurn turn Aircraft.turnReq turnPoint
  apply Exactly.of
  · apply Exactly.mul
    · apply Exactly.mapped
      walk
    · walk
  · simp only [true_and, and_true, ne_eq, mul_eq_zero, not_or]
    tauto

example (X : Ext) : ∃ q t k r cl f, twrequired_trn X exC (.scalar 0) true = .ok (.scalar r, cl, f) ∧
    reqTurn true (some q) (some (pyNum exC.cdminclean)) (some 2) (some k) (some 0) (some (pyNum exC.turn_weight_fraction))
      (some (pyNum exC.climb_weight_fraction)) (some t) = none := by
  obtain ⟨t, q, m, K, h⟩ := trn_given (X := X) exC_ready rfl rfl
  obtain ⟨k, r, cl, f, e1, e2⟩ := C135_turn_whole X exC true h 0
  exact ⟨q, t, k, r, cl, f, e1, e2.2 (fun h => h.1 rfl)⟩

/-! ### Airspeeds -/

theorem C135_mach {a : Atmos.Atm} {alt T : ℝ} (hT : Atmos.airtemp_k a (.scalar alt) = .ok (.scalar T)) (h0 : 0 ≤ T) (v : ℝ) :
    ∃ m, Atmos.mach1 a v alt = .ok m ∧ Exactly (Checked.mach (some v) (some T)) (0 < T) m := by
  have hc : Atmos.vsound_mps a (.scalar alt) = .ok (.scalar (Atmos.vsound T)) := by
    have h1 := hT
    unfold Atmos.airtemp_k at h1
    simp only [bind_ok_iff] at h1
    obtain ⟨alts, h2, h3⟩ := h1
    have e1 := Props.alttest_ok h2
    simp only [recastArray] at e1
    obtain ⟨rfl, e2⟩ := e1
    have h4 : Atmos.airtemp_k a (.array [alt]) = .ok (.scalar T) := by
      rw [← hT]; unfold Atmos.airtemp_k; rw [e2, h2]
    unfold Atmos.vsound_mps
    simp only [h2, bind_ok, h4, Atmos.vsoundE, not_lt.mpr h0, if_false]
    rfl
  refine ⟨_, Atmos.mach1_of hc, ?_⟩
  unfold Checked.mach Atmos.vsound Atmos.R_JPKGPK
  apply Exactly.of
  · walk
  · simp only [true_and]
    constructor
    · rintro ⟨-, h2⟩
      rcases h0.lt_or_eq with h | h
      · exact h
      · exact absurd (by rw [← h, mul_zero, Real.sqrt_zero]) h2
    · intro h
      have : (0 : ℝ) < 1.4 * 287.05287 * T := by positivity
      exact ⟨this.le, (Real.sqrt_pos.2 this).ne'⟩

example : ∃ m, Atmos.mach1 (.isa 0) 100 0 = .ok m ∧ Checked.mach (some 100) (some (Atmos.isatemp 0 0)) = some m := by
  have hT : 0 < Atmos.isatemp 0 0 := by norm_num [Atmos.isatemp, Atmos.Level1, Atmos.A1, Atmos.B1]
  obtain ⟨m, h1, h2⟩ := C135_mach (isa_scalar 0 0 (by norm_num)).1 hT.le 100
  exact ⟨m, h1, h2.1 hT⟩

theorem C135_eas2tas {a : Atmos.Atm} {alt d d0 : ℝ} (hd : Atmos.dens1 a alt = .ok d) (hd0 : Atmos.dens1 a 0 = .ok d0) (v : ℝ) :
    (0 < d / d0 → ∃ u, Atmos.eas2tas a v alt = .ok u ∧ Checked.eas2tas (some v) (some d) (some d0) = some u) ∧
    (¬ 0 < d / d0 → Checked.eas2tas (some v) (some d) (some d0) = none) := by
  have h : Exactly (Checked.eas2tas (some v) (some d) (some d0)) (0 < d / d0) (v / √(d / d0)) := by
    unfold Checked.eas2tas
    apply Exactly.of
    · walk
    · simp only [true_and]
      constructor
      · rintro ⟨⟨-, h1⟩, h2⟩
        rcases h1.lt_or_eq with h | h
        · exact h
        · exact absurd (by rw [← h, Real.sqrt_zero]) h2
      · intro h
        refine ⟨⟨fun h0 => ?_, h.le⟩, (Real.sqrt_pos.2 h).ne'⟩
        rw [h0, div_zero] at h
        exact lt_irrefl _ h
  refine ⟨fun p => ⟨_, ?_, h.1 p⟩, h.2⟩
  unfold Atmos.eas2tas Atmos.dratio
  simp only [hd, hd0, bind_ok, not_lt.2 p.le, if_false]
  rfl

example : ∃ u, Atmos.eas2tas exC.designatm 100 3000 = .ok u ∧ Checked.eas2tas (some 100) (some 1) (some 1) = some u :=
  (C135_eas2tas (exAtm_dens 3000 (by norm_num) (by norm_num)) (exAtm_dens 0 (by norm_num) (by norm_num)) 100).1 (by norm_num)

/-! ### The whole requirements on physical data -/

/-- With complete data, a positive airspeed, weight fraction and wing loading, a nonzero thrust fraction and, when the requirement is mapped
to sea level, a nonzero correction, no operation of the cruise requirement is undefined. -/
theorem C135_cruise_physical (X : Ext) {c : Concept} (hr : Ready c) {s alt : ℝ} (h1 : c.cruisespeed_ktas = some s) (h2 : c.cruisealt_m = some alt)
    (hs : 0 < s) (hf : 0 < pyNum c.cruise_weight_fraction) (ht : pyNum c.cruisethrustfact ≠ 0) (b : Bool)
    (hc : ∀ t p, CorrAt X c (kts2mps s) alt t p → b = true → t ≠ 0) {w : ℝ} (hw : 0 < w) :
    ∃ t q k r, twrequired_crs X c (.scalar w) b = .ok (.scalar r) ∧
      reqCruise b (some q) (some (pyNum c.cdminclean)) (some k) (some w) (some (pyNum c.cruise_weight_fraction)) (some t)
        (some (pyNum c.cruisethrustfact)) = some r := by
  obtain ⟨t, q, m, K, h⟩ := crs_given (X := X) hr h1 h2
  obtain ⟨k, r, e1, e2⟩ := C135_cruise_whole X c b h w
  obtain ⟨p, hp⟩ := h.corr
  refine ⟨t, q, k, r, e1, e2.1 ⟨hw.ne', hf.ne', ?_, hc t p hp, ht⟩⟩
  obtain ⟨d, hd, hd1⟩ := (hr.cruise alt h2).dens
  have hq := h.press
  unfold Atmos.dynamicpressure_pa at hq
  rw [hd1] at hq
  cases hq
  have : 0 < kts2mps s := by unfold kts2mps; positivity
  positivity

example (X : Ext) : ∃ t q k r, twrequired_crs X exC (.scalar 900) false = .ok (.scalar r) ∧
    reqCruise false (some q) (some (pyNum exC.cdminclean)) (some k) (some 900) (some (pyNum exC.cruise_weight_fraction)) (some t)
      (some (pyNum exC.cruisethrustfact)) = some r :=
  C135_cruise_physical X exC_ready rfl rfl (by norm_num) (by norm_num [exC, pyNum]) (by norm_num [exC, pyNum]) false
    (fun _ _ _ h => absurd h (by decide)) (by norm_num)

end

end Verif.Props
