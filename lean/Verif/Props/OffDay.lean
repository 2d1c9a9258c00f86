import Verif.Props.Airworthiness
import Verif.Props.Constraint6

/-
Property C134: equivalent and calibrated airspeeds on days that are not standard. An equivalent airspeed is defined with the sea level
density of the standard day, whatever the day; parts of the code use the sea level density of the design atmosphere instead.
-/

namespace Verif.Props
open Verif Verif.Aircraft Verif.Units Verif.Airworthiness

noncomputable section

/-- The textbook definition: at equivalent airspeed `e` (m/s) the dynamic pressure is that of `e` in air of density 1.225 kg/m³. -/
def IsEquivalent (e q : ℝ) : Prop := q = 1.225 * e ^ 2 / 2

theorem temp_sl (off : ℝ) : Atmos.isatemp off 0 = 288.15 + off := by
  rw [isatemp_eq_spec]; unfold isaTempSpec; norm_num

theorem dens_sl_pos (off : ℝ) (ho : -288.15 < off) : 0 < Atmos.isadens off 0 :=
  C13_positive off 0 (by rw [temp_sl]; linarith)

/-- Sea level density on two days. -/
theorem dens_sl (off off' : ℝ) (ho : -288.15 < off) (ho' : -288.15 < off') :
    Atmos.isadens off 0 * (288.15 + off) = Atmos.isadens off' 0 * (288.15 + off') := by
  have := C13_offset_law off off' 0 (by rw [temp_sl]; linarith) (by rw [temp_sl]; linarith)
  rwa [temp_sl, temp_sl] at this

/-! ### The two pairs of functions -/

/-- C134: the equivalent airspeed of an atmosphere object and that of the unit conversion at the same density stand in the ratio of the
roots of 1.225 and the object's own sea level density; so do the true airspeeds, and they agree only when this density is 1.225. -/
theorem C134_conversions (a : Atmos.Atm) (h d d0 v : ℝ) (hd : Atmos.dens1 a h = .ok d) (hd0 : Atmos.dens1 a 0 = .ok d0)
    (p : 0 < d) (p0 : 0 < d0) :
    ∃ e t, Atmos.tas2eas a v h = .ok e ∧ Atmos.eas2tas a v h = .ok t ∧
      Units.tas2eas v d = √(d0 / 1.225) * e ∧ t = √(d0 / 1.225) * Units.eas2tas v d ∧
      (v ≠ 0 → (Units.tas2eas v d = e ↔ d0 = 1.225) ∧ (Units.eas2tas v d = t ↔ d0 = 1.225)) := by
  have k := dratio_ok hd hd0 p p0
  have s1 : √d ≠ 0 := (Real.sqrt_pos.mpr p).ne'
  have s0 : √d0 ≠ 0 := (Real.sqrt_pos.mpr p0).ne'
  have s2 : √(1.225:ℝ) ≠ 0 := (Real.sqrt_pos.mpr (by norm_num)).ne'
  obtain ⟨r, hr⟩ : ∃ r : ℝ, r = 1.225 := ⟨_, rfl⟩
  have r0 : 0 < r := by rw [hr]; norm_num
  rw [← hr] at s2 ⊢
  have hu : Units.tas2eas v d = v * √(d / r) := by unfold Units.tas2eas; rw [Real.sqrt_eq_rpow, hr]; norm_num
  have hu' : Units.eas2tas v d = v / √(d / r) := by unfold Units.eas2tas; rw [Real.sqrt_eq_rpow, hr]; norm_num
  have key : √(d0 / r) = 1 ↔ d0 = r := by
    rw [Real.sqrt_eq_one, div_eq_one_iff_eq r0.ne']
  have h1 : Units.tas2eas v d = √(d0 / r) * (v * √(d / d0)) := by
    rw [hu, Real.sqrt_div p.le, Real.sqrt_div p0.le, Real.sqrt_div p.le]; field_simp
  have h2 : v / √(d / d0) = √(d0 / r) * Units.eas2tas v d := by
    rw [hu', Real.sqrt_div p.le, Real.sqrt_div p0.le, Real.sqrt_div p.le]; field_simp
  refine ⟨v * √(d / d0), v / √(d / d0), by unfold Atmos.tas2eas; rw [k]; rfl, by unfold Atmos.eas2tas; rw [k]; rfl, h1, h2, fun hv => ?_⟩
  have q0 : v * √(d / d0) ≠ 0 := mul_ne_zero hv (Real.sqrt_pos.mpr (by positivity)).ne'
  have q1 : Units.eas2tas v d ≠ 0 := by rw [hu']; exact div_ne_zero hv (Real.sqrt_pos.mpr (by positivity)).ne'
  constructor
  · rw [h1, ← key]
    constructor
    · intro e; exact mul_right_cancel₀ q0 (by rw [e, one_mul])
    · intro e; rw [e, one_mul]
  · rw [h2, ← key]
    constructor
    · intro e; exact mul_right_cancel₀ q1 (by rw [one_mul]; exact e.symm)
    · intro e; rw [e, one_mul]

example : ∃ e t, Atmos.tas2eas (.isa 10) 200 9000 = .ok e ∧ Atmos.eas2tas (.isa 10) 200 9000 = .ok t ∧
    Units.tas2eas 200 (Atmos.isadens 10 9000) = √(Atmos.isadens 10 0 / 1.225) * e := by
  obtain ⟨h1, h2, h3, h4⟩ := c19_ex
  obtain ⟨e, t, a, b, c, -⟩ := C134_conversions (.isa 10) 9000 _ _ 200 h1 h2 h3 h4
  exact ⟨e, t, a, b, c⟩

/-- C134: the dynamic pressure at the true airspeed that an atmosphere object returns for the equivalent airspeed `e` belongs to `e` in the
sense of the definition only if the object's sea level density is 1.225. -/
theorem C134_definition_violated (a : Atmos.Atm) (h d d0 e : ℝ) (hd : Atmos.dens1 a h = .ok d) (hd0 : Atmos.dens1 a 0 = .ok d0)
    (p : 0 < d) (p0 : 0 < d0) :
    ∃ t q, Atmos.eas2tas a e h = .ok t ∧ Atmos.dynamicpressure_pa a t h = .ok q ∧ q = d0 / 1.225 * (1.225 * e ^ 2 / 2) ∧
      (e ≠ 0 → (IsEquivalent e q ↔ d0 = 1.225)) := by
  obtain ⟨t, ht, h2, -⟩ := (C19_inverse a h d d0 e hd hd0 p p0).2.2
  refine ⟨t, 0.5 * d * t ^ 2, ht, by unfold Atmos.dynamicpressure_pa; rw [hd]; rfl, ?_, fun he => ?_⟩
  · rw [show 0.5 * d * t ^ 2 = 0.5 * (d * t ^ 2) by ring, h2]; ring
  · unfold IsEquivalent
    rw [show 0.5 * d * t ^ 2 = 0.5 * (d * t ^ 2) by ring, h2]
    have : 0 < e ^ 2 := by positivity
    constructor
    · intro h; exact mul_right_cancel₀ this.ne' (by linarith)
    · intro h; rw [h]; ring

/-- The unit conversion follows the definition in any air. -/
theorem C134_definition_units (d e : ℝ) (p : 0 < d) : IsEquivalent e (d * (Units.eas2tas e d) ^ 2 / 2) := by
  have hu : Units.eas2tas e d = e / √(d / 1.225) := by unfold Units.eas2tas; rw [Real.sqrt_eq_rpow]; norm_num
  unfold IsEquivalent
  rw [hu, div_pow, Real.sq_sqrt (by positivity)]
  field_simp

example : IsEquivalent 100 (0.5 * (Units.eas2tas 100 0.5) ^ 2 / 2) := C134_definition_units 0.5 100 (by norm_num)

example : ∃ t q, Atmos.eas2tas (.isa 10) 100 9000 = .ok t ∧ Atmos.dynamicpressure_pa (.isa 10) t 9000 = .ok q ∧
    q = Atmos.isadens 10 0 / 1.225 * (1.225 * 100 ^ 2 / 2) := by
  obtain ⟨h1, h2, h3, h4⟩ := c19_ex
  obtain ⟨t, q, a, b, c, -⟩ := C134_definition_violated (.isa 10) 9000 _ _ 100 h1 h2 h3 h4
  exact ⟨t, q, a, b, c⟩

/-- C134: with a temperature offset the dynamic pressure of a given equivalent airspeed is the one of the standard day times the ratio of
the sea level temperatures, at every altitude. -/
theorem C134_offset (off h e : ℝ) (ho : -216.65 < off) (hh : h ≤ 50000) :
    ∃ t t₀ q q₀, Atmos.eas2tas (.isa off) e h = .ok t ∧ Atmos.dynamicpressure_pa (.isa off) t h = .ok q ∧
      Atmos.eas2tas (.isa 0) e h = .ok t₀ ∧ Atmos.dynamicpressure_pa (.isa 0) t₀ h = .ok q₀ ∧
      q = 288.15 / (288.15 + off) * q₀ := by
  have hT : ∀ o : ℝ, -216.65 < o → 0 < Atmos.isatemp o h := fun o ho => by linarith [(C11_bounds o h).1]
  have k : ∀ o : ℝ, -216.65 < o → ∃ t q, Atmos.eas2tas (.isa o) e h = .ok t ∧ Atmos.dynamicpressure_pa (.isa o) t h = .ok q ∧
      q = Atmos.isadens o 0 / 1.225 * (1.225 * e ^ 2 / 2) := by
    intro o ho
    obtain ⟨t, q, a, b, c, -⟩ := C134_definition_violated (.isa o) h _ _ e (isa_dens1 o h hh) (isa_dens1 o 0 (by norm_num))
      (C13_positive o h (hT o ho)) (dens_sl_pos o (by linarith))
    exact ⟨t, q, a, b, c⟩
  obtain ⟨t, q, a, b, c⟩ := k off ho
  obtain ⟨t₀, q₀, a₀, b₀, c₀⟩ := k 0 (by norm_num)
  refine ⟨t, t₀, q, q₀, a, b, a₀, b₀, ?_⟩
  have hs := dens_sl off 0 (by linarith) (by norm_num)
  have hp : 0 < 288.15 + off := by linarith
  rw [c, c₀]
  have : Atmos.isadens off 0 = 288.15 / (288.15 + off) * Atmos.isadens 0 0 := by
    rw [div_mul_eq_mul_div, eq_div_iff hp.ne', hs]; ring
  rw [this]; ring

example : ∃ t t₀ q q₀, Atmos.eas2tas (.isa 20) 100 3000 = .ok t ∧ Atmos.dynamicpressure_pa (.isa 20) t 3000 = .ok q ∧
    Atmos.eas2tas (.isa 0) 100 3000 = .ok t₀ ∧ Atmos.dynamicpressure_pa (.isa 0) t₀ 3000 = .ok q₀ ∧
    q = 288.15 / (288.15 + 20) * q₀ := C134_offset 20 3000 100 (by norm_num) (by norm_num)

/-! ### The stall limit on the wing loading -/

/-- C134: the stall speed (calibrated, standard day) at the stall limit of the wing loading (design atmosphere): the speed of the brief times
the root of the ratio of the sea level temperatures. -/
theorem C134_stall (c : Concept) (off vs cl : ℝ) (ha : c.designatm = .isa off) (ho : -288.15 < off) (hv : c.vstallclean_kcas = some vs)
    (hc : c.clmaxclean = some cl) (hv0 : 0 ≤ vs) (hc0 : 0 < cl) :
    ∃ ws v, wsmaxcleanstall_pa c = .ok ws ∧ vstall_kias c (.scalar ws) (.num cl) = .ok v ∧
      v = vs * ktsDrift * √(288.15 / (288.15 + off)) := by
  have hd := isa_dens1 off 0 (by norm_num)
  have hd0 := isa_dens1 0 0 (by norm_num)
  have p := dens_sl_pos off ho
  have p0 := dens_sl_pos 0 (by norm_num)
  have hs := dens_sl off 0 ho (by norm_num)
  have hk : 0 ≤ kts2mps vs := by unfold kts2mps; positivity
  have hp : 0 < 288.15 + off := by linarith
  have hr : Atmos.isadens off 0 / Atmos.isadens 0 0 = 288.15 / (288.15 + off) := by
    rw [div_eq_div_iff p0.ne' hp.ne', hs]; ring
  refine ⟨0.5 * Atmos.isadens off 0 * (kts2mps vs) ^ 2 * cl, _, ?_, ?_, rfl⟩
  · unfold wsmaxcleanstall_pa Atmos.dynamicpressure_pa
    rw [hc, hv, ha, hd]; rfl
  · have e : 2 * (0.5 * Atmos.isadens off 0 * (kts2mps vs) ^ 2 * cl) / (Atmos.isadens 0 0 * cl) =
        (kts2mps vs) ^ 2 * (288.15 / (288.15 + off)) := by
      rw [← hr]; field_simp; norm_num
    unfold vstall_kias
    rw [hd0]
    have nn : ¬ (kts2mps vs) ^ 2 * (288.15 / (288.15 + off)) < 0 := not_lt.mpr (by positivity)
    simp only [recastArray, bind_ok, e, nn, if_false, Real.sqrt_mul (sq_nonneg (kts2mps vs)), Real.sqrt_sq hk]
    show Except.ok _ = _
    unfold ktsDrift mps2kts kts2mps
    congr 1; ring

/-- C134: a wing loading at the limit found on a cold day stalls above the stall speed of the brief, one found on a hot day below it, by
the code's own stall speed: the two functions are inverse to each other on the standard day only. -/
theorem C134_stall_violated (c : Concept) (off vs cl : ℝ) (ha : c.designatm = .isa off) (ho : -288.15 < off)
    (hv : c.vstallclean_kcas = some vs) (hc : c.clmaxclean = some cl) (hv0 : 0 < vs) (hc0 : 0 < cl) :
    ∃ ws v, wsmaxcleanstall_pa c = .ok ws ∧ vstall_kias c (.scalar ws) (.num cl) = .ok v ∧
      (off ≤ -0.001 → vs < v) ∧ (0.001 ≤ off → v < vs) := by
  obtain ⟨ws, v, h1, h2, h3⟩ := C134_stall c off vs cl ha ho hv hc hv0.le hc0
  have hp : 0 < 288.15 + off := by linarith
  have kd : (1 - 2e-7) < ktsDrift ∧ ktsDrift < 1 + 2e-7 := by
    have := abs_lt.mp ktsDrift_close; constructor <;> linarith [this.1, this.2]
  refine ⟨ws, v, h1, h2, fun h => ?_, fun h => ?_⟩
  · have s : 1 + 1e-6 ≤ √(288.15 / (288.15 + off)) := by
      apply Real.le_sqrt_of_sq_le
      rw [le_div_iff₀ hp]; nlinarith
    have : 1 < ktsDrift * √(288.15 / (288.15 + off)) := by nlinarith [kd.1]
    rw [h3, mul_assoc]
    nlinarith
  · have s : √(288.15 / (288.15 + off)) ≤ 1 - 1e-6 := by
      apply Real.sqrt_le_iff.mpr
      refine ⟨by norm_num, ?_⟩
      rw [div_le_iff₀ hp]; nlinarith
    have s0 : 0 < √(288.15 / (288.15 + off)) := Real.sqrt_pos.mpr (by positivity)
    have : ktsDrift * √(288.15 / (288.15 + off)) < 1 := by nlinarith [kd.2]
    rw [h3, mul_assoc]
    nlinarith

example : ∃ ws v, wsmaxcleanstall_pa { exC with designatm := .isa (-20) } = .ok ws ∧
    vstall_kias { exC with designatm := .isa (-20) } (.scalar ws) (.num 1.5) = .ok v ∧ (60:ℝ) < v := by
  obtain ⟨ws, v, a, b, c, -⟩ := C134_stall_violated { exC with designatm := .isa (-20) } (-20) 60 1.5 rfl (by norm_num) rfl
    (by rfl) (by norm_num) (by norm_num)
  exact ⟨ws, v, a, b, c (by norm_num)⟩

/-- C134: the limit itself is that of the standard day times the ratio of the sea level temperatures: the smallest wing grows with the
temperature, though a calibrated stall speed does not depend on it. -/
theorem C134_area (c : Concept) (off m vs cl : ℝ) (ho : -288.15 < off) (hv : c.vstallclean_kcas = some vs)
    (hc : c.clmaxclean = some cl) (hv0 : 0 < vs) (hc0 : 0 < cl) :
    ∃ s s₀, smincleanstall_m2 { c with designatm := .isa off } m = .ok s ∧ smincleanstall_m2 { c with designatm := .isa 0 } m = .ok s₀ ∧
      s = (1 + off / 288.15) * s₀ := by
  have k : ∀ o : ℝ, smincleanstall_m2 { c with designatm := .isa o } m =
      .ok (kg2n m / (0.5 * Atmos.isadens o 0 * (kts2mps vs) ^ 2 * cl)) := by
    intro o
    unfold smincleanstall_m2 wsmaxcleanstall_pa Atmos.dynamicpressure_pa
    simp only [hc, hv, isa_dens1 o 0 (by norm_num)]; rfl
  have p := dens_sl_pos off ho
  have p0 := dens_sl_pos 0 (by norm_num)
  have hs := dens_sl off 0 ho (by norm_num)
  have hk : 0 < kts2mps vs := by unfold kts2mps; positivity
  refine ⟨_, _, k off, k 0, ?_⟩
  have h0 : Atmos.isadens 0 0 = (1 + off / 288.15) * Atmos.isadens off 0 := by
    have : Atmos.isadens 0 0 * 288.15 = Atmos.isadens off 0 * (288.15 + off) := by rw [hs]; ring
    field_simp; linarith
  rw [h0, mul_div_assoc', div_eq_div_iff (by positivity) (by
    have : 0 < (1 + off / 288.15) * Atmos.isadens off 0 := by rw [← h0]; exact p0
    positivity)]
  ring

example : ∃ s s₀, smincleanstall_m2 { exC with designatm := .isa 20 } 1500 = .ok s ∧
    smincleanstall_m2 { exC with designatm := .isa 0 } 1500 = .ok s₀ ∧ s = (1 + 20 / 288.15) * s₀ :=
  C134_area exC 20 1500 60 1.5 (by norm_num) rfl rfl (by norm_num) (by norm_num)

/-! ### The flight envelope -/

/-- The same certification study on a day `off` degrees warmer than standard. -/
def certDay (o : Cert) (off : ℝ) : Cert := { o with acobj := { o.acobj with designatm := .isa off } }

/-- C134: the equivalent stall speeds of the V-n diagram grow with the root of the sea level temperature of the design atmosphere. -/
theorem C134_envelope (o : Cert) (off off' n W S cl : ℝ) (ho : -288.15 < off) (ho' : -288.15 < off') (hW : o.acobj.weight_n = some W)
    (hS : o.acobj.wingarea_m2 = some S) (pW : 0 ≤ W) (pS : 0 < S)
    (hcl : (if 0 ≤ n then o.acobj.clmaxclean else o.acobj.clminclean) = some cl) (hs : 0 ≤ n * cl) :
    ∃ v v', vs_keas (certDay o off) n = .ok v ∧ vs_keas (certDay o off') n = .ok v' ∧
      v' = √((288.15 + off') / (288.15 + off)) * v := by
  have p := dens_sl_pos off ho
  have p' := dens_sl_pos off' ho'
  have h1 := C75_succeeds (certDay o off) n W S _ cl hW hS (isa_dens1 off 0 (by norm_num)) pW pS p hcl hs
  have h2 := C75_succeeds (certDay o off') n W S _ cl hW hS (isa_dens1 off' 0 (by norm_num)) pW pS p' hcl hs
  refine ⟨_, _, h1, h2, ?_⟩
  have hd := dens_sl off off' ho ho'
  have a : 0 < 288.15 + off := by linarith
  have a' : 0 < 288.15 + off' := by linarith
  have e : 2 * n * W / (Atmos.isadens off' 0 * S * cl) =
      (288.15 + off') / (288.15 + off) * (2 * n * W / (Atmos.isadens off 0 * S * cl)) := by
    have : Atmos.isadens off 0 = Atmos.isadens off' 0 * ((288.15 + off') / (288.15 + off)) := by
      rw [mul_div_assoc', eq_div_iff a.ne', hd]
    rw [this]
    by_cases c0 : cl = 0
    · rw [c0]; simp
    · field_simp
  rw [e, Real.sqrt_mul (by positivity)]
  ring

/-- C134: so a warmer design atmosphere moves the stall boundary of the envelope to higher equivalent airspeeds, although the equivalent
stall speed does not depend on the day. -/
theorem C134_envelope_violated (o : Cert) (off off' n W S cl : ℝ) (ho : -288.15 < off) (hoo : off < off')
    (hW : o.acobj.weight_n = some W) (hS : o.acobj.wingarea_m2 = some S) (pW : 0 < W) (pS : 0 < S)
    (hcl : (if 0 ≤ n then o.acobj.clmaxclean else o.acobj.clminclean) = some cl) (hs : 0 < n * cl) :
    ∃ v v', vs_keas (certDay o off) n = .ok v ∧ vs_keas (certDay o off') n = .ok v' ∧ v < v' := by
  obtain ⟨v, v', h1, h2, h3⟩ := C134_envelope o off off' n W S cl ho (by linarith) hW hS pW.le pS hcl hs.le
  refine ⟨v, v', h1, h2, ?_⟩
  have p := dens_sl_pos off ho
  have e := C75_succeeds (certDay o off) n W S _ cl hW hS (isa_dens1 off 0 (by norm_num)) pW.le pS p hcl hs.le
  rw [h1] at e
  have cl0 : cl ≠ 0 := by rintro rfl; simp at hs
  have vp : 0 < v := by
    rw [Except.ok.inj e]
    have : 0 < 2 * n * W / (Atmos.isadens off 0 * S * cl) := by
      have : 2 * n * W / (Atmos.isadens off 0 * S * cl) = 2 * (n * cl) * W / (Atmos.isadens off 0 * S * cl ^ 2) := by field_simp
      rw [this]; positivity
    have := Real.sqrt_pos.mpr this
    positivity
  have : 1 < √((288.15 + off') / (288.15 + off)) := by
    rw [show (1:ℝ) = √1 by simp]
    apply Real.sqrt_lt_sqrt (by norm_num)
    rw [lt_div_iff₀ (by linarith)]; linarith
  rw [h3]; nlinarith

example : ∃ v v', vs_keas (certDay exCert 0) 3.8 = .ok v ∧ vs_keas (certDay exCert 20) 3.8 = .ok v' ∧ v < v' :=
  C134_envelope_violated exCert 0 20 3.8 10000 12 1.5 (by norm_num) (by norm_num) rfl rfl (by norm_num) (by norm_num)
    (by rw [if_pos (by norm_num)]; rfl) (by norm_num)

example : ∃ v v', vs_keas (certDay exCert (-15)) (-1.5) = .ok v ∧ vs_keas (certDay exCert 20) (-1.5) = .ok v' ∧
    v' = √((288.15 + 20) / (288.15 + -15)) * v :=
  C134_envelope exCert (-15) 20 (-1.5) 10000 12 (-1) (by norm_num) (by norm_num) rfl rfl (by norm_num) (by norm_num)
    (by rw [if_neg (by norm_num)]; rfl) (by norm_num)

end

end Verif.Props
