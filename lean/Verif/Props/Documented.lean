import Verif.Lemmas.DocNum
import Verif.Props.AtmosArrays
import Verif.Props.Interior

/-
C125: the worked examples printed in the documentation, evaluated in the model: which of them hold to the digits printed, and which do not.
-/

namespace Verif.Props
open Verif Verif.Atmos Verif.Units Verif.Aircraft

noncomputable section

/-- A printed number: `x` agrees with it to half a unit `u` of the last place. -/
def Prints (x printed u : ℝ) : Prop := |x - printed| ≤ u / 2

theorem prints_of {x lo hi p u : ℝ} (h : lo ≤ x ∧ x ≤ hi) (h1 : p - u / 2 ≤ lo) (h2 : hi ≤ p + u / 2) : Prints x p u := by
  rw [Prints, abs_le]
  exact ⟨by linarith [h.1], by linarith [h.2]⟩

theorem sqrt_of {x lo hi : ℝ} (h1 : lo ^ 2 ≤ x) (h0 : 0 ≤ hi) (h2 : x ≤ hi ^ 2) : lo ≤ √x ∧ √x ≤ hi :=
  ⟨Real.le_sqrt_of_sq_le h1, Real.sqrt_le_iff.mpr ⟨h0, h2⟩⟩

/-! ### Atmospheres -/

/-- The density formula below 11 km on a standard day. -/
theorem doc_dens {h x : ℝ} (hh : h < 11000) (hx : x = 1.048840 + -23.659414e-6 * h) : isadens 0 h = x ^ (4.2558797 : ℝ) := by
  unfold isadens isadens0
  rw [if_pos (by rw [Level1]; exact hh), zero_div, add_zero, div_one, hx]
  rfl

/-- The pressure formula below 11 km. -/
theorem doc_press {h x : ℝ} (hh : h < 11000) (hx : x = 8.9619638 + -0.20216125e-3 * h) : isapress h = x ^ (5.2558797 : ℝ) := by
  unfold isapress
  rw [if_pos (by rw [Level1]; exact hh), hx]
  rfl

/-- atmospheres.py:332-356: density and speed of sound on a day ten degrees colder than standard at 38000 ft. -/
theorem C125_atmosphere : ∃ d a, airdens_kgpm3 (.isa (-10)) (.scalar (feet2m 38000)) = .ok (.scalar d) ∧
    vsound_mps (.isa (-10)) (.scalar (feet2m 38000)) = .ok (.scalar a) ∧
    Prints d 0.348049478999 1e-12 ∧ Prints a 288.1792251702055 1e-13 := by
  have e : feet2m 38000 = 11582.4 := by norm_num [feet2m]
  have hT : isatemp (-10) 11582.4 = 206.65 := by norm_num [isatemp, Level1, Level2, A2, B2]
  refine ⟨_, _, dens1_scalar (isa_dens1 (-10) _ (by rw [e]; norm_num)), isa_vsound (-10) _ (by rw [e]; norm_num) (by rw [e, hT]; norm_num), ?_, ?_⟩
  · rw [e]
    have k : isadens (-10) 11582.4 = 2.06214 * Real.exp (-1.826411514048) / (1 + -10 / 216.65) := by
      unfold isadens
      rw [hT]
      norm_num [isadens0, Level1, Level2, M2, N2]
    have b := DocNum.exp_38000
    norm_num at b
    rw [k, Prints, abs_le]
    norm_num
    constructor <;> linarith [b.1, b.2]
  · rw [e, hT]
    exact prints_of (sqrt_of (lo := 288.17922517020545) (hi := 288.17922517020555) (by norm_num) (by norm_num) (by norm_num)) (by norm_num) (by norm_num)

/-- atmospheres.py:605-616: temperatures at sea level, 5 and 10 km. -/
theorem C125_temperatures : airtemp_k (.isa 0) (.array [0, 5000, 10000]) = .ok (.array [288.15, 255.65, 223.15]) := by
  unfold airtemp_k
  rw [alttest_isa_ok (by simp [recastArray]; norm_num)]
  show Except.ok (NumArg.array [isatemp 0 0, isatemp 0 5000, isatemp 0 10000]) = _
  norm_num [isatemp, Level1, A1, B1]

theorem doc_q {y lo hi p : ℝ} (b : lo ≤ y ∧ y ≤ hi) (h1 : p - 1e-8 / 2 ≤ 2 * lo) (h2 : 2 * hi ≤ p + 1e-8 / 2) :
    Prints (pa2mbar (0.5 * y * 20 ^ 2)) p 1e-8 := by
  have e : pa2mbar (0.5 * y * 20 ^ 2) = 2 * y := by rw [pa2mbar]; norm_num; ring
  rw [e]
  exact prints_of (lo := 2 * lo) (hi := 2 * hi) ⟨by linarith [b.1], by linarith [b.2]⟩ h1 h2

/-- atmospheres.py:704-724: dynamic pressures at 20 m/s at four altitudes, in millibar. -/
theorem C125_dynamic_pressure : ∃ q₁ q₂ q₃ q₄, dynamicpressures_pa (.isa 0) (.scalar 20) (.array [0, 500, 1000, 1500]) = .ok (.array [q₁, q₂, q₃, q₄]) ∧
    Prints (pa2mbar q₁) 2.44999974 1e-8 ∧ Prints (pa2mbar q₂) 2.33453737 1e-8 ∧ Prints (pa2mbar q₃) 2.22328473 1e-8 ∧
    Prints (pa2mbar q₄) 2.11613426 1e-8 := by
  have k1 : airdens_kgpm3 (.isa 0) (.array [0, 500, 1000, 1500]) = .ok (.array [isadens 0 0, isadens 0 500, isadens 0 1000, isadens 0 1500]) := by
    unfold airdens_kgpm3
    rw [alttest_isa_ok (by simp [recastArray]; norm_num)]
    rfl
  refine ⟨0.5 * isadens 0 0 * 20 ^ 2, 0.5 * isadens 0 500 * 20 ^ 2, 0.5 * isadens 0 1000 * 20 ^ 2, 0.5 * isadens 0 1500 * 20 ^ 2,
    by unfold dynamicpressures_pa; rw [k1]; rfl, ?_, ?_, ?_, ?_⟩
  · rw [doc_dens (x := 1.04884) (by norm_num) (by norm_num)]; exact doc_q DocNum.dens_0 (by norm_num) (by norm_num)
  · rw [doc_dens (x := 1.037010293) (by norm_num) (by norm_num)]; exact doc_q DocNum.dens_500 (by norm_num) (by norm_num)
  · rw [doc_dens (x := 1.025180586) (by norm_num) (by norm_num)]; exact doc_q DocNum.dens_1000 (by norm_num) (by norm_num)
  · rw [doc_dens (x := 1.013350879) (by norm_num) (by norm_num)]; exact doc_q DocNum.dens_1500 (by norm_num) (by norm_num)

theorem mul_bounds {a b la ha lb hb : ℝ} (h0 : 0 ≤ la) (h1 : la ≤ a) (h2 : a ≤ ha) (k0 : 0 ≤ lb) (k1 : lb ≤ b) (k2 : b ≤ hb) :
    la * lb ≤ a * b ∧ a * b ≤ ha * hb :=
  ⟨mul_le_mul h1 k1 k0 (h0.trans h1), mul_le_mul h2 k2 (k0.trans k1) ((h0.trans h1).trans h2)⟩

/-- The conversion at 40000 ft on a standard day, with the density ratio `r` and the pressure ratio `δ` bracketed. -/
theorem doc_cas : ∃ r δ : ℝ, 4.062241414134523 ≤ r ∧ r ≤ 4.062241414134528 ∧ 0.1850863311254368 ≤ δ ∧ δ ≤ 0.185086331125437 ∧
    ∀ x, ∃ m, keas2kcas (.isa 0) x (feet2m 40000) = .ok (mps2kts (kts2mps x * (1 + (1 / 8) * (1 - δ) * (kts2mps x ^ 2 / 87066.0059997 * r) +
      (3 / 640) * (1 - 10 * δ + 9 * δ ^ 2) * (kts2mps x ^ 2 / 87066.0059997 * r) ^ 2)), m) := by
  have e : feet2m 40000 = 12192 := by norm_num [feet2m]
  have hT : isatemp 0 12192 = 216.65 := by norm_num [isatemp, Level1, Level2, A2, B2]
  have ed0 : isadens 0 0 = 1.04884 ^ (4.2558797 : ℝ) := doc_dens (by norm_num) (by norm_num)
  have ep0 : isapress 0 = 8.9619638 ^ (5.2558797 : ℝ) := doc_press (by norm_num) (by norm_num)
  have ed : isadens 0 12192 = 2.06214 * Real.exp (-1.92253843584) := by norm_num [isadens, isadens0, isatemp, Level1, Level2, M2, N2]
  have ep : isapress 12192 = 128244.5 * Real.exp (-1.92253843584) := by norm_num [isapress, Level1, Level2, F2, G2]
  have b := DocNum.exp_40000
  have b1 : (1.2249998682209657 : ℝ) ≤ isadens 0 0 ∧ isadens 0 0 ≤ 1.2249998682209658 := by rw [ed0]; exact DocNum.dens_0
  have b2 : (101324.98964538033 : ℝ) ≤ isapress 0 ∧ isapress 0 ≤ 101324.98964538034 := by rw [ep0]; exact DocNum.press_0
  clear ed0 ep0
  have pd : 0 < isadens 0 12192 := by rw [ed]; positivity
  have pd0 : 0 < isadens 0 0 := lt_of_lt_of_le (by norm_num) b1.1
  have pp0 : 0 < isapress 0 := lt_of_lt_of_le (by norm_num) b2.1
  refine ⟨isadens 0 0 / isadens 0 12192, isapress 12192 / isapress 0, ?_, ?_, ?_, ?_, fun x => ?_⟩
  · rw [le_div_iff₀ pd, ed]; linarith [b.2, b1.1]
  · rw [div_le_iff₀ pd, ed]; linarith [b.1, b1.2]
  · rw [le_div_iff₀ pp0, ep]; linarith [b.1, b2.2]
  · rw [div_le_iff₀ pp0, ep]; linarith [b.2, b2.1]
  · rw [e]
    have hd := isa_dens1 0 12192 (by norm_num)
    have hd0 := isa_dens1 0 0 (by norm_num)
    have hc := isa_vsound 0 12192 (by norm_num) (by rw [hT]; norm_num)
    have k' := dratio_ok hd hd0 pd pd0
    refine ⟨kts2mps x / √(isadens 0 12192 / isadens 0 0) / √(1.4 * 287.05287 * isatemp 0 12192), ?_⟩
    unfold keas2kcas mpseas2mpscas Atmos.eas2tas
    rw [k']
    simp only [bind_ok, pure_bind]
    have m1 : mach1 (.isa 0) (kts2mps x / √(isadens 0 12192 / isadens 0 0)) 12192 =
        .ok (kts2mps x / √(isadens 0 12192 / isadens 0 0) / √(1.4 * 287.05287 * isatemp 0 12192)) := by
      unfold mach1; rw [(C18_ratio (.isa 0) 12192 _ hc).1]; rfl
    rw [m1, isa_press1 0 12192 (by norm_num), isa_press1 0 0 (by norm_num)]
    have m2 : (kts2mps x / √(isadens 0 12192 / isadens 0 0) / √(1.4 * 287.05287 * isatemp 0 12192)) ^ 2 =
        kts2mps x ^ 2 / 87066.0059997 * (isadens 0 0 / isadens 0 12192) := by
      rw [div_pow, div_pow, Real.sq_sqrt (div_nonneg pd.le pd0.le), hT, Real.sq_sqrt (by norm_num)]
      have : (1.4 * 287.05287 * 216.65 : ℝ) = 87066.0059997 := by norm_num
      rw [this]
      field_simp
    rw [← m2]
    show Except.ok _ = Except.ok _
    congr 4
    ring

theorem doc_cas_at {r δ V m lo hi : ℝ} (r1 : 4.062241414134523 ≤ r) (r2 : r ≤ 4.062241414134528) (d1 : 0.1850863311254368 ≤ δ)
    (d2 : δ ≤ 0.185086331125437) (V0 : 0 ≤ V) (hm : m = V ^ 2 / 87066.0059997)
    (h1 : lo ≤ V * (1 + 0.125 * (0.814913668874563 * (m * 4.062241414134523)) - 0.0046875 * (0.8149136688745632 * 0.665776980128933 * (m * 4.062241414134528) ^ 2)) * 1.9438445)
    (h2 : V * (1 + 0.125 * (0.8149136688745632 * (m * 4.062241414134528)) - 0.0046875 * (0.814913668874563 * 0.6657769801289312 * (m * 4.062241414134523) ^ 2)) * 1.9438445 ≤ hi) :
    lo ≤ mps2kts (V * (1 + (1 / 8) * (1 - δ) * (V ^ 2 / 87066.0059997 * r) + (3 / 640) * (1 - 10 * δ + 9 * δ ^ 2) * (V ^ 2 / 87066.0059997 * r) ^ 2)) ∧
    mps2kts (V * (1 + (1 / 8) * (1 - δ) * (V ^ 2 / 87066.0059997 * r) + (3 / 640) * (1 - 10 * δ + 9 * δ ^ 2) * (V ^ 2 / 87066.0059997 * r) ^ 2)) ≤ hi := by
  rw [← hm]
  have m0 : 0 ≤ m := by rw [hm]; positivity
  norm_num at r1 r2 d1 d2 
  have a := mul_bounds m0 le_rfl le_rfl (lb := 4.062241414134523) (hb := 4.062241414134528) (by norm_num) (by norm_num; exact r1) (by norm_num; exact r2)
  have q := mul_bounds (lb := 0.814913668874563) (hb := 0.8149136688745632) (b := 1 - δ) (by positivity) a.1 a.2 (by norm_num) (by norm_num; linarith) (by norm_num; linarith)
  have s := mul_bounds (la := 0.814913668874563) (ha := 0.8149136688745632) (a := 1 - δ) (lb := 0.6657769801289312) (hb := 0.665776980128933) (b := 9 * δ - 1)
    (by norm_num) (by norm_num; linarith) (by norm_num; linarith) (by norm_num) (by norm_num; linarith) (by norm_num; linarith)
  have t := mul_bounds (lb := (m * 4.062241414134523) ^ 2) (hb := (m * 4.062241414134528) ^ 2) (b := (m * r) ^ 2) (by norm_num) s.1 s.2 (by positivity)
    (by have := a.1; gcongr) (by have := a.2; gcongr)
  have e : (1 + (1 / 8) * (1 - δ) * (m * r) + (3 / 640) * (1 - 10 * δ + 9 * δ ^ 2) * (m * r) ^ 2) =
      1 + 0.125 * (m * r * (1 - δ)) - 0.0046875 * ((1 - δ) * (9 * δ - 1) * (m * r) ^ 2) := by norm_num; ring
  rw [e, mps2kts]
  constructor
  · refine h1.trans ?_
    gcongr ?_ * _
    gcongr V * ?_
    gcongr 1 + 0.125 * ?_ - 0.0046875 * ?_
    · linarith [q.1]
    · exact t.2
  · refine le_trans ?_ h2
    gcongr ?_ * _
    gcongr V * ?_
    gcongr 1 + 0.125 * ?_ - 0.0046875 * ?_
    · linarith [q.2]
    · exact t.1

/-- atmospheres.py:774-830: calibrated airspeeds of 100, 200 and 300 KEAS at 40000 ft. -/
theorem C125_calibrated : ∃ c₁ c₂ c₃ ms, keas2kcasN (.isa 0) (.array [100, 200, 300]) (.scalar (feet2m 40000)) = .ok (.array [c₁, c₂, c₃], ms) ∧
    Prints c₁ 101.25392563 1e-8 ∧ Prints c₂ 209.93839073 1e-8 ∧ Prints c₃ 333.01861569 1e-8 := by
  have e : feet2m 40000 = 12192 := by norm_num [feet2m]
  have hT : isatemp 0 12192 = 216.65 := by norm_num [isatemp, Level1, Level2, A2, B2]
  have hT0 : isatemp 0 0 = 288.15 := by norm_num [isatemp, Level1, A1, B1]
  obtain ⟨f, m, g, n, -, -, h1, h2⟩ := C107_cas 0 (feet2m 40000) (by rw [e]; norm_num) (by rw [e, hT]; norm_num) (by rw [hT0]; norm_num)
    (.array [100, 200, 300])
  obtain ⟨r, δ, r1, r2, d1, d2, k⟩ := doc_cas
  have fin : ∀ x V p lo hi : ℝ, V = kts2mps x → 0 ≤ V → lo = p - 1e-8 / 2 → hi = p + 1e-8 / 2 →
      lo ≤ V * (1 + 0.125 * (0.814913668874563 * (V ^ 2 / 87066.0059997 * 4.062241414134523)) - 0.0046875 * (0.8149136688745632 * 0.665776980128933 * (V ^ 2 / 87066.0059997 * 4.062241414134528) ^ 2)) * 1.9438445 →
      V * (1 + 0.125 * (0.8149136688745632 * (V ^ 2 / 87066.0059997 * 4.062241414134528)) - 0.0046875 * (0.814913668874563 * 0.6657769801289312 * (V ^ 2 / 87066.0059997 * 4.062241414134523) ^ 2)) * 1.9438445 ≤ hi →
      Prints (g x) p 1e-8 := by
    intro x V p lo hi hV V0 hlo hhi b1 b2
    obtain ⟨mm, hx⟩ := k x
    rw [h2] at hx
    have hg := congrArg Prod.fst (Except.ok.inj hx)
    simp only at hg
    rw [hg, ← hV, Prints, abs_le]
    have := doc_cas_at r1 r2 d1 d2 V0 rfl b1 b2
    rw [hlo, hhi] at this
    constructor <;> linarith [this.1, this.2]
  refine ⟨g 100, g 200, g 300, _, h1, ?_, ?_, ?_⟩
  · exact fin 100 51.44444 _ _ _ (by norm_num [kts2mps]) (by norm_num) rfl rfl (by norm_num) (by norm_num)
  · exact fin 200 102.88888 _ _ _ (by norm_num [kts2mps]) (by norm_num) rfl rfl (by norm_num) (by norm_num)
  · exact fin 300 154.33332 _ _ _ (by norm_num [kts2mps]) (by norm_num) rfl rfl (by norm_num) (by norm_num)

end

end Verif.Props
