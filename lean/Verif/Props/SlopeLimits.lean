import Verif.Props.Aero3
import Mathlib.Analysis.SpecialFunctions.Pow.Continuity
import Mathlib.Topology.Algebra.Order.Field

/-
Property C108: the subsonic lift slope estimates of an unswept wing.
-/

namespace Verif.Props
open Verif Verif.Aircraft Verif.Units Verif.Spec Filter Topology

noncomputable section

/-- A wing without sweep, by the angles the estimates use. -/
structure Unswept (c : Concept) : Prop where
  le : c.sweep_le_rad = 0
  qc : c.sweep_25_rad = 0
  mt : c.sweep_mt_rad = 0

/-- The wing with another aspect ratio. -/
abbrev withAR (c : Concept) (ar : ℝ) : Concept := { c with aspectratio := some ar }

theorem Unswept.ar {c : Concept} (u : Unswept c) (ar : ℝ) : Unswept (withAR c ar) := ⟨u.le, u.qc, u.mt⟩

/-- Helmbold's formula for the lift slope of a straight wing, with the Prandtl-Glauert factor `β`. -/
def helmbold (a0 ar β : ℝ) : ℝ := Real.pi * ar / (1 + √(1 + (Real.pi * ar * β / a0) ^ 2))

/-- The half chord line of an unswept wing is unswept. -/
theorem unswept_half {c : Concept} (u : Unswept c) : findchordsweep_rad c (some 0.5) = .ok 0 := by
  unfold findchordsweep_rad
  norm_num [u.le, u.qc]

/-- Four of the estimates are one and the same for an unswept wing: Helmbold's formula. -/
theorem C108_helmbold {c : Concept} (u : Unswept c) (har : 0 < pyNum c.aspectratio) (ha : 0 < pyNum c.a_0i) {m : ℝ}
    (h0 : 0 ≤ m) (h1 : m < 1) :
    aSub0 c m = helmbold (pyNum c.a_0i) (pyNum c.aspectratio) (√(1 - m ^ 2)) ∧
    aSub4 c m = helmbold (pyNum c.a_0i) (pyNum c.aspectratio) (√(1 - m ^ 2)) ∧
    aSub5 c m = helmbold (pyNum c.a_0i) (pyNum c.aspectratio) (√(1 - m ^ 2)) ∧
    aSub6 c m 0 = helmbold (pyNum c.a_0i) (pyNum c.aspectratio) (√(1 - m ^ 2)) := by
  have hb := beta_pos h0 h1
  have hp := Real.pi_pos
  obtain ⟨a, hae⟩ : ∃ b, b = pyNum c.a_0i := ⟨_, rfl⟩
  obtain ⟨r, hre⟩ : ∃ b, b = pyNum c.aspectratio := ⟨_, rfl⟩
  obtain ⟨β, hβ⟩ : ∃ b, b = √(1 - m ^ 2) := ⟨_, rfl⟩
  rw [← hae] at ha; rw [← hre] at har; rw [← hβ] at hb
  have four : a / (√(β ^ 2 + (a / (Real.pi * r)) ^ 2) + a / (Real.pi * r)) = helmbold a r β := by
    unfold helmbold
    have e : √(β ^ 2 + (a / (Real.pi * r)) ^ 2) = (a / (Real.pi * r)) * √(1 + (Real.pi * r * β / a) ^ 2) := by
      rw [Real.sqrt_eq_iff_mul_self_eq (by positivity) (by positivity)]
      have := Real.mul_self_sqrt (show 0 ≤ 1 + (Real.pi * r * β / a) ^ 2 by positivity)
      rw [mul_mul_mul_comm, this]
      field_simp
      ring
    rw [e]
    have : 0 < 1 + √(1 + (Real.pi * r * β / a) ^ 2) := by positivity
    rw [div_eq_div_iff (by positivity) (by positivity)]
    field_simp
    ring
  refine ⟨?_, ?_, ?_, ?_⟩
  · unfold aSub0 helmbold
    simp only [u.qc, Real.cos_zero, div_one, ← hae, ← hre, ← hβ]
    rw [show (Real.pi * r / a) ^ 2 * β ^ 2 = (Real.pi * r * β / a) ^ 2 by ring]
  · unfold aSub4
    simp only [← hae, ← hre, ← hβ]
    exact four
  · unfold aSub5
    simp only [u.le, Real.cos_zero, mul_one, ← hae, ← hre, ← hβ]
    exact four
  · unfold aSub6 helmbold
    simp only [Real.tan_zero, zero_div, ← hae, ← hre, ← hβ]
    have e : √((r * β / (a / (2 * Real.pi))) ^ 2 * (1 + 0 ^ 2) + 4) = 2 * √(1 + (Real.pi * r * β / a) ^ 2) := by
      rw [Real.sqrt_eq_iff_mul_self_eq (by positivity) (by positivity)]
      have := Real.mul_self_sqrt (show 0 ≤ 1 + (Real.pi * r * β / a) ^ 2 by positivity)
      rw [mul_mul_mul_comm, this]
      field_simp
      ring
    rw [e]
    have : 0 < 1 + √(1 + (Real.pi * r * β / a) ^ 2) := by positivity
    rw [div_eq_div_iff (by positivity) (by positivity)]
    ring

/-- Kuchemann's estimate of an unswept wing as a function of the section slope and the aspect ratio. -/
def kuchemann (a q : ℝ) : ℝ :=
  let n := 1 - 1 / (2 * (1 + q ^ 2) ^ (1 / 4 : ℝ))
  2 * a * n / (1 - Real.pi * n * (Real.cos (Real.pi * n) / Real.sin (Real.pi * n)) + 4 * n ^ 2 * q)

theorem aSub7_unswept (c : Concept) (m : ℝ) :
    aSub7 c m 0 = kuchemann (pyNum c.a_0i / √(1 - m ^ 2)) (pyNum c.a_0i / √(1 - m ^ 2) / (Real.pi * pyNum c.aspectratio)) := by
  have e : ∀ x : ℝ, 1 / Real.tan x = Real.cos x / Real.sin x := fun x => by rw [Real.tan_eq_sin_div_cos, one_div_div]
  unfold aSub7 kuchemann
  simp only [zero_div, Real.cos_zero, mul_one, abs_zero, add_zero, e]
  congr 2
  ring

/-- The Prandtl-Glauert rule: the lift slope of an unswept wing in compressible flow, times the factor `β`, is that of the
wing with the aspect ratio reduced by `β` in incompressible flow. It holds for five of the seven estimates. -/
theorem C108_prandtl_glauert {c : Concept} (u : Unswept c) (har : 0 < pyNum c.aspectratio) (ha : 0 < pyNum c.a_0i) {m : ℝ}
    (h0 : 0 ≤ m) (h1 : m < 1) :
    √(1 - m ^ 2) * aSub0 c m = aSub0 (withAR c (pyNum c.aspectratio * √(1 - m ^ 2))) 0 ∧
    √(1 - m ^ 2) * aSub4 c m = aSub4 (withAR c (pyNum c.aspectratio * √(1 - m ^ 2))) 0 ∧
    √(1 - m ^ 2) * aSub5 c m = aSub5 (withAR c (pyNum c.aspectratio * √(1 - m ^ 2))) 0 ∧
    √(1 - m ^ 2) * aSub6 c m 0 = aSub6 (withAR c (pyNum c.aspectratio * √(1 - m ^ 2))) 0 0 ∧
    √(1 - m ^ 2) * aSub7 c m 0 = aSub7 (withAR c (pyNum c.aspectratio * √(1 - m ^ 2))) 0 0 := by
  have hb := beta_pos h0 h1
  have hp := Real.pi_pos
  have k := C108_helmbold u har ha h0 h1
  have k' := C108_helmbold (u.ar (pyNum c.aspectratio * √(1 - m ^ 2))) (by simpa [pyNum] using mul_pos har hb) ha le_rfl zero_lt_one
  have e : ∀ β r a : ℝ, β * helmbold a r β = helmbold a (r * β) (√(1 - 0 ^ 2)) := by
    intro β r a
    unfold helmbold
    rw [show √(1 - (0:ℝ) ^ 2) = 1 by norm_num]
    rw [show Real.pi * (r * β) * 1 / a = Real.pi * r * β / a by ring]
    ring
  refine ⟨?_, ?_, ?_, ?_, ?_⟩
  · rw [k.1, k'.1]; exact e _ _ _
  · rw [k.2.1, k'.2.1]; exact e _ _ _
  · rw [k.2.2.1, k'.2.2.1]; exact e _ _ _
  · rw [k.2.2.2, k'.2.2.2]; exact e _ _ _
  · rw [aSub7_unswept, aSub7_unswept]
    rw [show √(1 - (0:ℝ) ^ 2) = 1 by norm_num]
    have q : pyNum c.a_0i / √(1 - m ^ 2) / (Real.pi * pyNum c.aspectratio) =
        pyNum (withAR c (pyNum c.aspectratio * √(1 - m ^ 2))).a_0i / 1 / (Real.pi * pyNum (withAR c (pyNum c.aspectratio * √(1 - m ^ 2))).aspectratio) := by
      simp only [pyNum, Option.getD_some, div_one]
      rw [div_div]
      congr 1
      ring
    rw [q]
    unfold kuchemann
    simp only [div_one]
    rw [mul_div_assoc']
    congr 1
    rw [show pyNum (withAR c (pyNum c.aspectratio * √(1 - m ^ 2))).a_0i = pyNum c.a_0i from rfl]
    field_simp

/-- The limit of a long wing: each of the seven estimates, and so the subsonic lift slope, tends to the slope of the wing
section in compressible flow. -/
theorem C108_long {c : Concept} (u : Unswept c) (ha : 0 < pyNum c.a_0i) {m : ℝ} (h0 : 0 ≤ m) (h1 : m < 1) :
    (∀ f ∈ [aSub0, aSub3, aSub4, aSub5, fun c m => aSub6 c m 0, fun c m => aSub7 c m 0, aSub8],
      Tendsto (fun ar => f (withAR c ar) m) atTop (𝓝 (pyNum c.a_0i / √(1 - m ^ 2)))) ∧
    ∀ a : ℝ → ℝ, (∀ ar, a_subsonic (withAR c ar) m = .ok (a ar)) → Tendsto a atTop (𝓝 (pyNum c.a_0i / √(1 - m ^ 2))) := by
  have hb := beta_pos h0 h1
  have hp := Real.pi_pos
  obtain ⟨a, hae⟩ : ∃ b, b = pyNum c.a_0i := ⟨_, rfl⟩
  obtain ⟨β, hβ⟩ : ∃ b, b = √(1 - m ^ 2) := ⟨_, rfl⟩
  have hx : Tendsto (fun ar : ℝ => a / (Real.pi * ar)) atTop (𝓝 0) :=
    tendsto_const_nhds.div_atTop (tendsto_id.const_mul_atTop hp)
  have hinv : Tendsto (fun ar : ℝ => ar⁻¹) atTop (𝓝 0) := tendsto_inv_atTop_zero
  have s4 : Tendsto (fun ar => aSub4 (withAR c ar) m) atTop (𝓝 (a / β)) := by
    have k : Tendsto (fun x : ℝ => a / (√(β ^ 2 + x ^ 2) + x)) (𝓝 0) (𝓝 (a / (√(β ^ 2 + 0 ^ 2) + 0))) := by
      refine Tendsto.div tendsto_const_nhds ?_ ?_
      · exact Continuous.tendsto (by fun_prop) 0
      · rw [← hβ] at hb; simp only [ne_eq]; positivity
    rw [show a / (√(β ^ 2 + 0 ^ 2) + 0) = a / β by rw [← hβ] at hb; norm_num [Real.sqrt_sq hb.le]] at k
    have := k.comp hx
    rw [hae, hβ] at this ⊢
    exact this
  have hel : ∀ f : Concept → ℝ → ℝ, (∀ ar, 0 < ar → f (withAR c ar) m = aSub4 (withAR c ar) m) → Tendsto (fun ar => f (withAR c ar) m) atTop (𝓝 (a / β)) := by
    intro f hf
    refine s4.congr' ?_
    filter_upwards [eventually_gt_atTop 0] with ar har
    exact (hf ar har).symm
  have hh : ∀ ar : ℝ, 0 < ar → _ := fun ar har => C108_helmbold (u.ar ar) (by simpa [pyNum] using har) ha h0 h1
  have s0 := hel aSub0 (fun ar har => by rw [(hh ar har).1, (hh ar har).2.1])
  have s5 := hel aSub5 (fun ar har => by rw [(hh ar har).2.2.1, (hh ar har).2.1])
  have s6 := hel (fun c m => aSub6 c m 0) (fun ar har => by rw [(hh ar har).2.2.2, (hh ar har).2.1])
  have s3 : Tendsto (fun ar => aSub3 (withAR c ar) m) atTop (𝓝 (a / β)) := by
    have k : Tendsto (fun ar : ℝ => a / (β + (a / (Real.pi * ar)) / (2 / (2 - ar + √(4 + ar ^ 2 * (1 + 0 ^ 2)))))) atTop (𝓝 (a / (β + 0))) := by
      refine Tendsto.div tendsto_const_nhds (Tendsto.add tendsto_const_nhds ?_) (by rw [← hβ] at hb; simpa using hb.ne')
      have : Tendsto (fun ar : ℝ => (a / (Real.pi * ar)) * ((2 + 2) / 2)) atTop (𝓝 0) := by simpa using hx.mul_const ((2 + 2 : ℝ) / 2)
      refine squeeze_zero' ?_ ?_ this
      · filter_upwards [eventually_gt_atTop 0] with ar har
        have : ar ≤ √(4 + ar ^ 2 * (1 + 0 ^ 2)) := Real.le_sqrt_of_sq_le (by nlinarith)
        have : 0 < 2 - ar + √(4 + ar ^ 2 * (1 + 0 ^ 2)) := by linarith
        rw [← hae] at ha
        positivity
      · filter_upwards [eventually_gt_atTop 0] with ar har
        have l1 : √(4 + ar ^ 2 * (1 + 0 ^ 2)) ≤ ar + 2 := Real.sqrt_le_iff.mpr ⟨by linarith, by nlinarith⟩
        have l2 : ar ≤ √(4 + ar ^ 2 * (1 + 0 ^ 2)) := Real.le_sqrt_of_sq_le (by nlinarith)
        rw [div_div_eq_mul_div, mul_div_assoc]
        rw [← hae] at ha
        apply mul_le_mul_of_nonneg_left _ (by positivity)
        apply div_le_div_of_nonneg_right _ (by norm_num)
        linarith
    rw [add_zero] at k
    refine k.congr ?_
    intro ar
    unfold aSub3 oswaldspaneff2
    have mt : Concept.sweep_mt_rad (withAR c ar) = 0 := u.mt
    rw [mt, hae, hβ, Real.tan_zero]
    rfl
  have s7 : Tendsto (fun ar => aSub7 (withAR c ar) m 0) atTop (𝓝 (a / β)) := by
    have k : Tendsto (fun q : ℝ => kuchemann (a / β) q) (𝓝 0) (𝓝 (kuchemann (a / β) 0)) := by
      have hn : Tendsto (fun q : ℝ => 1 - 1 / (2 * (1 + q ^ 2) ^ (1 / 4 : ℝ))) (𝓝 0) (𝓝 (1 / 2)) := by
        have : Tendsto (fun q : ℝ => 1 - 1 / (2 * (1 + q ^ 2) ^ (1 / 4 : ℝ))) (𝓝 0) (𝓝 (1 - 1 / (2 * (1 + 0 ^ 2) ^ (1 / 4 : ℝ)))) := by
          refine Tendsto.sub tendsto_const_nhds (Tendsto.div tendsto_const_nhds (Tendsto.mul tendsto_const_nhds ?_) ?_)
          · exact Tendsto.rpow_const (Continuous.tendsto (by fun_prop) 0) (Or.inl (by norm_num))
          · norm_num
        rwa [show (1 - 1 / (2 * (1 + 0 ^ 2) ^ (1 / 4 : ℝ)) : ℝ) = 1 / 2 by norm_num] at this
      have e0 : kuchemann (a / β) 0 = 2 * (a / β) * (1 / 2) /
          (1 - Real.pi * (1 / 2) * (Real.cos (Real.pi * (1 / 2)) / Real.sin (Real.pi * (1 / 2))) + 4 * (1 / 2) ^ 2 * 0) := by
        unfold kuchemann; norm_num
      rw [e0]
      unfold kuchemann
      have hs : Real.sin (Real.pi * (1 / 2)) = 1 := by rw [mul_one_div]; exact Real.sin_pi_div_two
      have hc : Real.cos (Real.pi * (1 / 2)) = 0 := by rw [mul_one_div]; exact Real.cos_pi_div_two
      refine Tendsto.div (hn.const_mul _) (Tendsto.add (Tendsto.sub tendsto_const_nhds (Tendsto.mul (hn.const_mul _) (Tendsto.div ?_ ?_ ?_))) (Tendsto.mul ((hn.pow 2).const_mul _) tendsto_id)) ?_
      · exact (Real.continuous_cos.tendsto _).comp (hn.const_mul _)
      · exact (Real.continuous_sin.tendsto _).comp (hn.const_mul _)
      · rw [hs]; norm_num
      · rw [hs, hc]; norm_num
    have e0 : kuchemann (a / β) 0 = a / β := by
      have hs : Real.sin (Real.pi * (1 / 2)) = 1 := by rw [mul_one_div]; exact Real.sin_pi_div_two
      have hc : Real.cos (Real.pi * (1 / 2)) = 0 := by rw [mul_one_div]; exact Real.cos_pi_div_two
      unfold kuchemann
      norm_num
      rw [hc]
      norm_num
      ring
    rw [e0] at k
    have hq : Tendsto (fun ar : ℝ => a / β / (Real.pi * ar)) atTop (𝓝 0) :=
      tendsto_const_nhds.div_atTop (tendsto_id.const_mul_atTop hp)
    have := k.comp hq
    refine this.congr ?_
    intro ar
    rw [aSub7_unswept, ← hβ]
    rw [show pyNum (withAR c ar).a_0i = a from hae.symm]
    rfl
  have s8 : Tendsto (fun ar => aSub8 (withAR c ar) m) atTop (𝓝 (a / β)) := by
    have k : Tendsto (fun y : ℝ => a / β / (√(4 * y ^ 2 + 1 + (a / β / Real.pi * y) ^ 2) + a / β / Real.pi * y)) (𝓝 0)
        (𝓝 (a / β / (√(4 * 0 ^ 2 + 1 + (a / β / Real.pi * 0) ^ 2) + a / β / Real.pi * 0))) := by
      refine Tendsto.div tendsto_const_nhds (Continuous.tendsto (by fun_prop) 0) (by norm_num)
    rw [show a / β / (√(4 * 0 ^ 2 + 1 + (a / β / Real.pi * 0) ^ 2) + a / β / Real.pi * 0) = a / β by norm_num] at k
    refine (k.comp hinv).congr' ?_
    filter_upwards [eventually_gt_atTop 0] with ar har
    unfold aSub8
    simp only [Function.comp]
    rw [show pyNum (withAR c ar).a_0i = a from hae.symm, show pyNum (withAR c ar).aspectratio = ar from rfl, ← hβ]
    have e : √(4 + ar ^ 2 + (a / β / Real.pi) ^ 2) = ar * √(4 * ar⁻¹ ^ 2 + 1 + (a / β / Real.pi * ar⁻¹) ^ 2) := by
      rw [Real.sqrt_eq_iff_mul_self_eq (by positivity) (by positivity)]
      have := Real.mul_self_sqrt (show 0 ≤ 4 * ar⁻¹ ^ 2 + 1 + (a / β / Real.pi * ar⁻¹) ^ 2 by positivity)
      rw [mul_mul_mul_comm, this]
      field_simp
    rw [e]
    have e2 : ar * √(4 * ar⁻¹ ^ 2 + 1 + (a / β / Real.pi * ar⁻¹) ^ 2) + a / β / Real.pi =
        ar * (√(4 * ar⁻¹ ^ 2 + 1 + (a / β / Real.pi * ar⁻¹) ^ 2) + a / β / Real.pi * ar⁻¹) := by
      rw [mul_add]; congr 1; field_simp
    rw [e2, mul_comm (a / β) ar, mul_div_mul_left _ _ har.ne']
  rw [← hae, ← hβ]
  constructor
  · intro f hf
    simp only [List.mem_cons, List.not_mem_nil, or_false] at hf
    rcases hf with rfl | rfl | rfl | rfl | rfl | rfl | rfl
    exacts [s0, s3, s4, s5, s6, s7, s8]
  · intro b hb'
    have e : ∀ ar, b ar = (aSub0 (withAR c ar) m + (aSub3 (withAR c ar) m + (aSub4 (withAR c ar) m + (aSub5 (withAR c ar) m +
        (aSub6 (withAR c ar) m 0 + (aSub7 (withAR c ar) m 0 + (aSub8 (withAR c ar) m + 0))))))) / 7 := by
      intro ar
      have := hb' ar
      unfold a_subsonic at this
      rw [unswept_half (u.ar ar)] at this
      simp only [bind_ok, List.sum_cons, List.sum_nil, List.length_cons, List.length_nil] at this
      rw [← Except.ok.inj this]
      norm_num
    rw [funext e]
    have := (s0.add (s3.add (s4.add (s5.add (s6.add (s7.add (s8.add (tendsto_const_nhds (x := (0:ℝ)))))))))).div_const 7
    convert this using 2
    ring

/-- The limit of a slender wing: six of the estimates tend to half π times the aspect ratio. -/
theorem C108_slender {c : Concept} (u : Unswept c) (ha : 0 < pyNum c.a_0i) {m : ℝ} (h0 : 0 ≤ m) (h1 : m < 1) :
    ∀ f ∈ [aSub0, aSub3, aSub4, aSub5, fun c m => aSub6 c m 0, fun c m => aSub7 c m 0],
      Tendsto (fun ar => f (withAR c ar) m / ar) (𝓝[>] 0) (𝓝 (Real.pi / 2)) := by
  have hb := beta_pos h0 h1
  have hp := Real.pi_pos
  obtain ⟨a, hae⟩ : ∃ b, b = pyNum c.a_0i := ⟨_, rfl⟩
  obtain ⟨β, hβ⟩ : ∃ b, b = √(1 - m ^ 2) := ⟨_, rfl⟩
  have ha' : 0 < a := hae ▸ ha
  have hb' : 0 < β := hβ ▸ hb
  have hel : ∀ f : Concept → ℝ → ℝ, (∀ ar, 0 < ar → f (withAR c ar) m = helmbold a ar β) → Tendsto (fun ar => f (withAR c ar) m / ar) (𝓝[>] 0) (𝓝 (Real.pi / 2)) := by
    intro f hf
    have k : Tendsto (fun r : ℝ => Real.pi / (1 + √(1 + (Real.pi * r * β / a) ^ 2))) (𝓝 0) (𝓝 (Real.pi / (1 + √(1 + (Real.pi * 0 * β / a) ^ 2)))) := by
      refine Tendsto.div tendsto_const_nhds (Continuous.tendsto (by fun_prop) 0) (by norm_num)
    rw [show Real.pi / (1 + √(1 + (Real.pi * 0 * β / a) ^ 2)) = Real.pi / 2 by norm_num] at k
    refine (k.mono_left nhdsWithin_le_nhds).congr' ?_
    filter_upwards [self_mem_nhdsWithin] with ar har
    have har' : (0:ℝ) < ar := har
    rw [hf ar har']
    unfold helmbold
    have : 0 < 1 + √(1 + (Real.pi * ar * β / a) ^ 2) := by positivity
    field_simp
  have hh : ∀ ar : ℝ, 0 < ar → _ := fun ar har => C108_helmbold (u.ar ar) (by simpa [pyNum] using har) ha h0 h1
  have s3 : Tendsto (fun ar => aSub3 (withAR c ar) m / ar) (𝓝[>] 0) (𝓝 (Real.pi / 2)) := by
    have k : Tendsto (fun r : ℝ => a / (β * r + a / Real.pi / (2 / (2 - r + √(4 + r ^ 2 * (1 + 0 ^ 2)))))) (𝓝 0)
        (𝓝 (a / (β * 0 + a / Real.pi / (2 / (2 - 0 + √(4 + 0 ^ 2 * (1 + 0 ^ 2))))))) := by
      have s4 : √4 = (2:ℝ) := by rw [show (4:ℝ) = 2 ^ 2 by norm_num]; exact Real.sqrt_sq (by norm_num)
      refine Tendsto.div tendsto_const_nhds (Tendsto.add (Continuous.tendsto (by fun_prop) 0) (Tendsto.div tendsto_const_nhds (Tendsto.div tendsto_const_nhds (Continuous.tendsto (by fun_prop) 0) ?_) ?_)) ?_
      · norm_num [s4]
      · norm_num [s4]
      · norm_num [s4]; exact ha'.ne'
    have s4 : √4 = (2:ℝ) := by rw [show (4:ℝ) = 2 ^ 2 by norm_num]; exact Real.sqrt_sq (by norm_num)
    rw [show a / (β * 0 + a / Real.pi / (2 / (2 - 0 + √(4 + 0 ^ 2 * (1 + 0 ^ 2))))) = Real.pi / 2 by
      norm_num [s4]; field_simp] at k
    refine (k.mono_left nhdsWithin_le_nhds).congr' ?_
    filter_upwards [self_mem_nhdsWithin] with ar har
    have har' : (0:ℝ) < ar := har
    unfold aSub3 oswaldspaneff2
    have mt : Concept.sweep_mt_rad (withAR c ar) = 0 := u.mt
    rw [mt, Real.tan_zero, show pyNum (withAR c ar).a_0i = a from hae.symm, show pyNum (withAR c ar).aspectratio = ar from rfl, ← hβ]
    simp only
    generalize (2 / (2 - ar + √(4 + ar ^ 2 * (1 + 0 ^ 2)))) = e
    rw [div_div _ _ ar, add_mul]
    congr 2
    rw [div_div, div_div, div_mul_eq_mul_div, show Real.pi * ar * e = (Real.pi * e) * ar by ring, mul_div_mul_right _ _ har'.ne']
  have s7 : Tendsto (fun ar => aSub7 (withAR c ar) m 0 / ar) (𝓝[>] 0) (𝓝 (Real.pi / 2)) := by
    obtain ⟨A, hA⟩ : ∃ A, A = a / β := ⟨_, rfl⟩
    have hA0 : 0 < A := by rw [hA]; positivity
    obtain ⟨x, hx⟩ : ∃ x : ℝ → ℝ, x = fun r => (1 + (A / (Real.pi * r)) ^ 2) ^ (1 / 4 : ℝ) := ⟨_, rfl⟩
    have hx1 : ∀ r, 1 ≤ x r := fun r => by
      rw [hx]; exact Real.one_le_rpow (by nlinarith [sq_nonneg (A / (Real.pi * r))]) (by norm_num)
    obtain ⟨n, hn⟩ : ∃ n : ℝ → ℝ, n = fun r => 1 - 1 / (2 * x r) := ⟨_, rfl⟩
    have tq : Tendsto (fun r : ℝ => A / (Real.pi * r)) (𝓝[>] 0) atTop := by
      have := (tendsto_inv_nhdsGT_zero (𝕜 := ℝ)).const_mul_atTop (div_pos hA0 hp)
      refine this.congr (fun r => ?_)
      rw [← div_eq_mul_inv, div_div]
    have tx : Tendsto x (𝓝[>] 0) atTop := by
      rw [hx]
      refine (tendsto_rpow_atTop (by norm_num : (0:ℝ) < 1 / 4)).comp ?_
      exact tendsto_atTop_add_const_left _ _ ((tendsto_pow_atTop (by norm_num)).comp tq)
    have tn : Tendsto n (𝓝[>] 0) (𝓝 1) := by
      rw [hn]
      have : Tendsto (fun r => 1 / (2 * x r)) (𝓝[>] 0) (𝓝 0) := tendsto_const_nhds.div_atTop (tx.const_mul_atTop (by norm_num))
      simpa using tendsto_const_nhds (x := (1:ℝ)).sub this
    have trx : Tendsto (fun r => r * x r) (𝓝[>] 0) (𝓝 0) := by
      have k : Tendsto (fun r : ℝ => (r ^ 4 + (A / Real.pi) ^ 2 * r ^ 2) ^ (1 / 4 : ℝ)) (𝓝 0) (𝓝 ((0 ^ 4 + (A / Real.pi) ^ 2 * 0 ^ 2) ^ (1 / 4 : ℝ))) :=
        Tendsto.rpow_const (Continuous.tendsto (by fun_prop) 0) (Or.inr (by norm_num))
      rw [show ((0:ℝ) ^ 4 + (A / Real.pi) ^ 2 * 0 ^ 2) ^ (1 / 4 : ℝ) = 0 by
        rw [show (0:ℝ) ^ 4 + (A / Real.pi) ^ 2 * 0 ^ 2 = 0 by ring]; exact Real.zero_rpow (by norm_num)] at k
      refine (k.mono_left nhdsWithin_le_nhds).congr' ?_
      filter_upwards [self_mem_nhdsWithin] with r hr
      have hr' : (0:ℝ) < r := hr
      rw [hx]
      have e : r ^ 4 + (A / Real.pi) ^ 2 * r ^ 2 = r ^ 4 * (1 + (A / (Real.pi * r)) ^ 2) := by field_simp
      rw [e, Real.mul_rpow (by positivity) (by positivity)]
      congr 1
      rw [show r ^ 4 = r ^ (4:ℝ) by norm_cast, ← Real.rpow_mul hr'.le]
      norm_num
    have tc : Tendsto (fun r => r * (1 - Real.pi * n r * (Real.cos (Real.pi * n r) / Real.sin (Real.pi * n r)))) (𝓝[>] 0) (𝓝 0) := by
      have k : Tendsto (fun r => (1 + Real.pi) * (r * x r)) (𝓝[>] 0) (𝓝 0) := by simpa using trx.const_mul (1 + Real.pi)
      refine squeeze_zero_norm' ?_ k
      filter_upwards [self_mem_nhdsWithin] with r hr
      have hr' : (0:ℝ) < r := hr
      have h1x := hx1 r
      have he : 0 < 1 / (2 * x r) := by positivity
      have he2 : 1 / (2 * x r) ≤ 1 / 2 := by apply one_div_le_one_div_of_le <;> linarith
      have hn0 : 0 ≤ n r := by rw [hn]; simp only; linarith
      have hn1 : n r ≤ 1 := by rw [hn]; simp only; linarith
      have hsin : 1 / x r ≤ Real.sin (Real.pi * n r) := by
        have e : Real.sin (Real.pi * n r) = Real.sin (Real.pi * (1 / (2 * x r))) := by
          rw [hn, ← Real.sin_pi_sub]; congr 1; ring
        rw [e]
        have := Real.mul_le_sin (x := Real.pi * (1 / (2 * x r))) (by positivity) (by nlinarith)
        refine le_trans (le_of_eq ?_) this
        field_simp
      have hs0 : 0 < Real.sin (Real.pi * n r) := lt_of_lt_of_le (by positivity) hsin
      have hquot : |Real.cos (Real.pi * n r) / Real.sin (Real.pi * n r)| ≤ x r := by
        rw [abs_div, abs_of_pos hs0, div_le_iff₀ hs0]
        have : x r * (1 / x r) ≤ x r * Real.sin (Real.pi * n r) := mul_le_mul_of_nonneg_left hsin (by linarith)
        rw [mul_one_div_cancel (by linarith)] at this
        exact (Real.abs_cos_le_one _).trans this
      rw [Real.norm_eq_abs, abs_mul, abs_of_pos hr']
      have : |1 - Real.pi * n r * (Real.cos (Real.pi * n r) / Real.sin (Real.pi * n r))| ≤ 1 + Real.pi * x r := by
        refine (abs_sub _ _).trans ?_
        rw [abs_one, abs_mul, abs_of_nonneg (by positivity)]
        have : Real.pi * n r * |Real.cos (Real.pi * n r) / Real.sin (Real.pi * n r)| ≤ Real.pi * 1 * x r :=
          mul_le_mul (mul_le_mul_of_nonneg_left hn1 hp.le) hquot (abs_nonneg _) (by positivity)
        linarith
      nlinarith
    have k : Tendsto (fun r => 2 * A * n r / (r * (1 - Real.pi * n r * (Real.cos (Real.pi * n r) / Real.sin (Real.pi * n r))) + 4 * n r ^ 2 * (A / Real.pi)))
        (𝓝[>] 0) (𝓝 (2 * A * 1 / (0 + 4 * 1 ^ 2 * (A / Real.pi)))) := by
      refine Tendsto.div (tn.const_mul _) (tc.add (((tn.pow 2).const_mul _).mul_const _)) ?_
      positivity
    rw [show 2 * A * 1 / (0 + 4 * 1 ^ 2 * (A / Real.pi)) = Real.pi / 2 by field_simp; ring] at k
    refine k.congr' ?_
    filter_upwards [self_mem_nhdsWithin] with r hr
    have hr' : (0:ℝ) < r := hr
    rw [aSub7_unswept, ← hβ, show pyNum (withAR c r).a_0i = a from hae.symm, show pyNum (withAR c r).aspectratio = r from rfl, ← hA]
    unfold kuchemann
    have en : 1 - 1 / (2 * (1 + (A / (Real.pi * r)) ^ 2) ^ (1 / 4 : ℝ)) = n r := by rw [hn, hx]
    simp only [en]
    rw [div_div]
    congr 1
    rw [add_mul, mul_comm r]
    congr 1
    field_simp
  intro f hf
  simp only [List.mem_cons, List.not_mem_nil, or_false] at hf
  rcases hf with rfl | rfl | rfl | rfl | rfl | rfl
  · exact hel aSub0 (fun ar har => by rw [(hh ar har).1, hae, hβ]; rfl)
  · exact s3
  · exact hel aSub4 (fun ar har => by rw [(hh ar har).2.1, hae, hβ]; rfl)
  · exact hel aSub5 (fun ar har => by rw [(hh ar har).2.2.1, hae, hβ]; rfl)
  · exact hel (fun c m => aSub6 c m 0) (fun ar har => by rw [(hh ar har).2.2.2, hae, hβ]; rfl)
  · exact s7

/-- The example concept is unswept. -/
theorem exC_unswept : Unswept exC := by
  constructor <;> norm_num [exC, pyNum, Concept.sweep_le_rad, Concept.sweep_25_rad, Concept.sweep_mt_rad, Atmos.deg2rad]

example : aSub0 exC 0.5 = helmbold (pyNum exC.a_0i) (pyNum exC.aspectratio) (√(1 - 0.5 ^ 2)) :=
  (C108_helmbold exC_unswept exC_isWing.ar exC_isWing.a0 (by norm_num) (by norm_num)).1

example : √(1 - 0.5 ^ 2) * aSub7 exC 0.5 0 = aSub7 (withAR exC (pyNum exC.aspectratio * √(1 - 0.5 ^ 2))) 0 0 :=
  (C108_prandtl_glauert exC_unswept exC_isWing.ar exC_isWing.a0 (by norm_num) (by norm_num)).2.2.2.2

example : Tendsto (fun ar => aSub3 (withAR exC ar) 0.5) atTop (𝓝 (pyNum exC.a_0i / √(1 - 0.5 ^ 2))) :=
  (C108_long exC_unswept exC_isWing.a0 (by norm_num) (by norm_num)).1 _ (by simp)

example : Tendsto (fun ar => aSub3 (withAR exC ar) 0.5 / ar) (𝓝[>] 0) (𝓝 (Real.pi / 2)) :=
  C108_slender exC_unswept exC_isWing.a0 (by norm_num) (by norm_num) _ (by simp)

end

end Verif.Props
