import Verif.Model.UnitsFloat
import Verif.Lemmas.FloatAcc

/-
C127: the unit conversions in floating point. The theorems hold for every rounding with the properties of `Rounding`; `binary64` (the
arithmetic of Python floats without overflow and underflow) is one.
-/

namespace Verif.Props
open Verif.Fl

/-- Converting there and back gives the value again up to the relative error `e`. -/
def BackWithin (e : ℝ) (f g : ℝ → ℝ) : Prop := ∀ x, |g (f x) - x| ≤ e * |x| ∧ |f (g x) - x| ≤ e * |x|

/-- `fh` computes `f` up to the relative error `e`. -/
def Computes (e : ℝ) (fh f : ℝ → ℝ) : Prop := ∀ x, |fh x - f x| ≤ e * |f x|

theorem rd_ne (F : Rounding) (x : ℝ) (hx : 0 < x) : F.rd x ≠ 0 := ((Acc.rd F x).pos hx).ne'

theorem back_factor (F : Rounding) (c : ℝ) (hc : c ≠ 0) :
    BackWithin (3 * F.u) (fun x => F.rd (x * c)) (fun x => F.rd (x / c)) := by
  intro x
  constructor
  · have h := ((Acc.rd F (x * c)).div (Acc.refl (F := F) c)).round
    rw [mul_div_assoc, div_self hc, mul_one] at h
    have := h.le (by norm_num)
    norm_num at this; exact this
  · have h := ((Acc.rd F (x / c)).mul (Acc.refl (F := F) c)).round
    rw [div_mul_cancel₀ _ hc] at h
    have := h.le (by norm_num)
    norm_num at this; exact this

theorem BackWithin.symm {e : ℝ} {f g : ℝ → ℝ} (h : BackWithin e f g) : BackWithin e g f := fun x => ⟨(h x).2, (h x).1⟩

/-- C127: converting a value there and back changes it by at most three units of rounding (five for the two step conversions between
Kelvin and Rankine), for every value. -/
theorem C127_back (F : Rounding) :
    BackWithin (3 * F.u) (feet2m F) (m2feet F) ∧ BackWithin (3 * F.u) (feet22m2 F) (m22feet2 F) ∧
    BackWithin (3 * F.u) (m2km F) (km2m F) ∧ BackWithin (3 * F.u) (pa2mbar F) (mbar2pa F) ∧
    BackWithin (3 * F.u) (inhg2mbar F) (mbar2inhg F) ∧ BackWithin (3 * F.u) (mbar2lbfft2 F) (lbfft22mbar F) ∧
    BackWithin (3 * F.u) (kg2n F) (n2kg F) ∧ BackWithin (3 * F.u) (lbs2kg F) (kg2lbs F) ∧
    BackWithin (3 * F.u) (lbf2n F) (n2lbf F) ∧ BackWithin (3 * F.u) (kw2hp F) (hp2kw F) ∧
    BackWithin (3 * F.u) (kgm32sft3 F) (sft32kgm3 F) ∧ BackWithin (3 * F.u) (pa2lbfft2 F) (lbfft22pa F) ∧
    BackWithin (5 * F.u) (k2r F) (r2k F) := by
  refine ⟨back_factor F _ (rd_ne F _ (by norm_num)), (back_factor F _ (rd_ne F _ (by norm_num))).symm,
    (back_factor F _ (by norm_num)).symm, back_factor F _ (rd_ne F _ (by norm_num)), back_factor F _ (rd_ne F _ (by norm_num)),
    back_factor F _ (rd_ne F _ (by norm_num)), back_factor F _ (rd_ne F _ (by norm_num)), back_factor F _ (rd_ne F _ (by norm_num)),
    (back_factor F _ (rd_ne F _ (by norm_num))).symm, back_factor F _ (rd_ne F _ (by norm_num)),
    back_factor F _ (rd_ne F _ (by norm_num)), back_factor F _ (rd_ne F _ (by norm_num)), fun x => ⟨?_, ?_⟩⟩
  · have h := (((((Acc.rd F (x * 9)).div (Acc.refl (F := F) 5)).round.mul (Acc.refl (F := F) 5)).round).div
      (Acc.refl (F := F) 9)).round
    have h' := h.le (by norm_num)
    rw [show x * 9 / 5 * 5 / 9 = x by ring] at h'
    norm_num at h'; exact h'
  · have h := (((((Acc.rd F (x * 5)).div (Acc.refl (F := F) 9)).round.mul (Acc.refl (F := F) 9)).round).div
      (Acc.refl (F := F) 5)).round
    have h' := h.le (by norm_num)
    rw [show x * 5 / 9 * 9 / 5 = x by ring] at h'
    norm_num at h'; exact h'

example : BackWithin (3 * (2 : ℝ) ^ (-53 : ℤ)) (feet2m binary64) (m2feet binary64) := (C127_back binary64).1

theorem mono_mul (F : Rounding) (c : ℝ) (hc : 0 ≤ c) : Monotone (fun x => F.rd (x * c)) :=
  fun _ _ h => F.mono (mul_le_mul_of_nonneg_right h hc)

theorem mono_div (F : Rounding) (c : ℝ) (hc : 0 ≤ c) : Monotone (fun x => F.rd (x / c)) :=
  fun _ _ h => F.mono (div_le_div_of_nonneg_right h hc)

theorem mono_add (F : Rounding) (c : ℝ) : Monotone (fun x => F.rd (x + c)) := fun _ _ h => F.mono (by linarith)

theorem mono_sub (F : Rounding) (c : ℝ) : Monotone (fun x => F.rd (x - c)) := fun _ _ h => F.mono (by linarith)

theorem rd_nonneg (F : Rounding) (x : ℝ) (hx : 0 < x) : 0 ≤ F.rd x := ((Acc.rd F x).pos hx).le

/-- C127: every conversion keeps the order of values in floating point: a larger value is never converted into a smaller one. -/
theorem C127_order (F : Rounding) :
    ((Monotone (feet2m F) ∧ Monotone (m2feet F) ∧ Monotone (feet22m2 F) ∧ Monotone (m22feet2 F) ∧ Monotone (m2km F) ∧
      Monotone (km2m F) ∧ Monotone (pa2mbar F) ∧ Monotone (mbar2pa F) ∧ Monotone (inhg2mbar F) ∧ Monotone (mbar2inhg F) ∧
      Monotone (mbar2lbfft2 F) ∧ Monotone (lbfft22mbar F)) ∧
    (Monotone (mps2kts F) ∧ Monotone (kts2mps F) ∧ Monotone (pa2kgm2 F) ∧ Monotone (kg2n F) ∧ Monotone (n2kg F) ∧
      Monotone (kgm22pa F) ∧ Monotone (lbs2kg F) ∧ Monotone (kg2lbs F) ∧ Monotone (lbf2n F) ∧ Monotone (n2lbf F) ∧
      Monotone (kw2hp F) ∧ Monotone (hp2kw F) ∧ Monotone (kgm32sft3 F) ∧ Monotone (sft32kgm3 F) ∧ Monotone (pa2lbfft2 F) ∧
      Monotone (lbfft22pa F))) ∧
    (Monotone (fpm2mps F) ∧ Monotone (wn2wkg F) ∧ Monotone (wn2kwkg F) ∧ Monotone (wn2hpkg F)) ∧
    (Monotone (c2f F) ∧ Monotone (c2k F) ∧ Monotone (k2c F) ∧ Monotone (c2r F) ∧ Monotone (r2c F) ∧ Monotone (k2r F) ∧
      Monotone (r2k F)) := by
  have M : ∀ c : ℝ, 0 < c → Monotone (fun x => F.rd (x * F.rd c)) := fun c hc => mono_mul F _ (rd_nonneg F c hc)
  have D : ∀ c : ℝ, 0 < c → Monotone (fun x => F.rd (x / F.rd c)) := fun c hc => mono_div F _ (rd_nonneg F c hc)
  have n0 : ∀ n : ℝ, 0 < n → Monotone (fun x => F.rd (x * n)) := fun n hn => mono_mul F n hn.le
  have d0 : ∀ n : ℝ, 0 < n → Monotone (fun x => F.rd (x / n)) := fun n hn => mono_div F n hn.le
  have hw : Monotone (wn2wkg F) := M 9.80665 (by norm_num)
  have hk : Monotone (wn2kwkg F) := (d0 1000 (by norm_num)).comp hw
  refine ⟨⟨⟨M _ (by norm_num), D _ (by norm_num), D _ (by norm_num), M _ (by norm_num), d0 _ (by norm_num), n0 _ (by norm_num),
    M _ (by norm_num), D _ (by norm_num), M _ (by norm_num), D _ (by norm_num), M _ (by norm_num), D _ (by norm_num)⟩,
    M _ (by norm_num), M _ (by norm_num), M _ (by norm_num), M _ (by norm_num), D _ (by norm_num), M _ (by norm_num),
    M _ (by norm_num), D _ (by norm_num), D _ (by norm_num), M _ (by norm_num), M _ (by norm_num), D _ (by norm_num),
    M _ (by norm_num), D _ (by norm_num), M _ (by norm_num), D _ (by norm_num)⟩,
    ⟨(d0 60 (by norm_num)).comp (M 0.3048 (by norm_num)), hw, hk, (M 1.34102 (by norm_num)).comp hk⟩,
    (mono_add F 32).comp ((d0 5 (by norm_num)).comp (n0 9 (by norm_num))), mono_add F _, mono_sub F _,
    (d0 5 (by norm_num)).comp ((n0 9 (by norm_num)).comp (mono_add F _)),
    (d0 9 (by norm_num)).comp ((n0 5 (by norm_num)).comp (mono_sub F _)),
    (d0 5 (by norm_num)).comp (n0 9 (by norm_num)), (d0 9 (by norm_num)).comp (n0 5 (by norm_num))⟩

example : feet2m binary64 35000 ≤ feet2m binary64 35000.1 := (C127_order binary64).1.1.1 (by norm_num)

theorem computes_mul (F : Rounding) (c : ℝ) : Computes (3 * F.u) (fun x => F.rd (x * F.rd c)) (fun x => x * c) := by
  intro x
  exact (((Acc.refl (F := F) x).mul (Acc.rd F c)).round).err 3 (by norm_num) (by norm_num)

theorem computes_div (F : Rounding) (c : ℝ) : Computes (3 * F.u) (fun x => F.rd (x / F.rd c)) (fun x => x / c) := by
  intro x
  exact (((Acc.refl (F := F) x).div (Acc.rd F c)).round).err 3 (by norm_num) (by norm_num)

theorem Computes.of_le {e e' : ℝ} {fh f : ℝ → ℝ} (h : Computes e fh f) (he : e ≤ e') : Computes e' fh f :=
  fun x => (h x).trans (mul_le_mul_of_nonneg_right he (abs_nonneg _))

/-- C127: the conversions by factors compute the exact conversion up to a few units of rounding, relative to the result. -/
theorem C127_accuracy (F : Rounding) :
    ((Computes (3 * F.u) (feet2m F) Units.feet2m ∧ Computes (3 * F.u) (m2feet F) Units.m2feet ∧
      Computes (3 * F.u) (feet22m2 F) Units.feet22m2 ∧ Computes (3 * F.u) (m22feet2 F) Units.m22feet2 ∧
      Computes (3 * F.u) (m2km F) Units.m2km ∧ Computes (3 * F.u) (km2m F) Units.km2m ∧
      Computes (3 * F.u) (pa2mbar F) Units.pa2mbar ∧ Computes (3 * F.u) (mbar2pa F) Units.mbar2pa ∧
      Computes (3 * F.u) (inhg2mbar F) Units.inhg2mbar ∧ Computes (3 * F.u) (mbar2inhg F) Units.mbar2inhg ∧
      Computes (3 * F.u) (mbar2lbfft2 F) Units.mbar2lbfft2 ∧ Computes (3 * F.u) (lbfft22mbar F) Units.lbfft22mbar) ∧
    (Computes (3 * F.u) (mps2kts F) Units.mps2kts ∧ Computes (3 * F.u) (kts2mps F) Units.kts2mps ∧
      Computes (3 * F.u) (pa2kgm2 F) Units.pa2kgm2 ∧ Computes (3 * F.u) (kg2n F) Units.kg2n ∧
      Computes (3 * F.u) (n2kg F) Units.n2kg ∧ Computes (3 * F.u) (kgm22pa F) Units.kgm22pa ∧
      Computes (3 * F.u) (lbs2kg F) Units.lbs2kg ∧ Computes (3 * F.u) (kg2lbs F) Units.kg2lbs ∧
      Computes (3 * F.u) (lbf2n F) Units.lbf2n ∧ Computes (3 * F.u) (n2lbf F) Units.n2lbf ∧
      Computes (3 * F.u) (kw2hp F) Units.kw2hp ∧ Computes (3 * F.u) (hp2kw F) Units.hp2kw ∧
      Computes (3 * F.u) (kgm32sft3 F) Units.kgm32sft3 ∧ Computes (3 * F.u) (sft32kgm3 F) Units.sft32kgm3 ∧
      Computes (3 * F.u) (pa2lbfft2 F) Units.pa2lbfft2 ∧ Computes (3 * F.u) (lbfft22pa F) Units.lbfft22pa)) ∧
    (Computes (4 * F.u) (fpm2mps F) Units.fpm2mps ∧ Computes (3 * F.u) (wn2wkg F) Units.wn2wkg ∧
      Computes (4 * F.u) (wn2kwkg F) Units.wn2kwkg ∧ Computes (6 * F.u) (wn2hpkg F) Units.wn2hpkg) ∧
    (Computes (3 * F.u) (k2r F) Units.k2r ∧ Computes (3 * F.u) (r2k F) Units.r2k) := by
  have hu := F.u_nonneg
  have M := computes_mul F
  have D := computes_div F
  have hw : ∀ x, Acc F 2 (wn2wkg F x) (Units.wn2wkg x) := fun x => ((Acc.refl (F := F) x).mul (Acc.rd F 9.80665)).round
  have hk : ∀ x, Acc F 3 (wn2kwkg F x) (Units.wn2kwkg x) := fun x => ((hw x).div (Acc.refl (F := F) 1000)).round
  refine ⟨⟨⟨M _, D _, D _, M _, fun x => ?_, fun x => ?_, M _, D _, M _, D _, M _, D _⟩, M _, M _, M _, M _, D _, M _, M _, D _, D _,
    M _, M _, D _, M _, D _, M _, D _⟩, ⟨fun x => ?_, M _, fun x => ?_, fun x => ?_⟩, fun x => ?_, fun x => ?_⟩
  · refine (F.err _).trans (mul_le_mul_of_nonneg_right ?_ (abs_nonneg _)); linarith
  · refine (F.err _).trans (mul_le_mul_of_nonneg_right ?_ (abs_nonneg _)); linarith
  · exact ((((Acc.refl (F := F) x).mul (Acc.rd F 0.3048)).round).div (Acc.refl (F := F) 60)).round.err 4 (by norm_num) (by norm_num)
  · exact (hk x).err 4 (by norm_num) (by norm_num)
  · exact (((hk x).mul (Acc.rd F 1.34102)).round).err 6 (by norm_num) (by norm_num)
  · exact (((Acc.rd F (x * 9)).div (Acc.refl (F := F) 5)).round).err 3 (by norm_num) (by norm_num)
  · exact (((Acc.rd F (x * 5)).div (Acc.refl (F := F) 9)).round).err 3 (by norm_num) (by norm_num)

example : |wn2hpkg binary64 80 - Units.wn2hpkg 80| ≤ 6 * (2 : ℝ) ^ (-53 : ℤ) * |Units.wn2hpkg 80| :=
  (C127_accuracy binary64).2.1.2.2.2 80

/-- C127: knots to metres per second and back keeps the drift of C03 in floating point. -/
theorem C127_knots (F : Rounding) : BackWithin (1e-7 + 6 * F.u) (mps2kts F) (kts2mps F) := by
  have hu := F.u_nonneg
  have key : ∀ x y : ℝ, Acc F 4 y (x * 1.9438445 * 0.5144444) → |y - x| ≤ (1e-7 + 6 * F.u) * |x| := by
    intro x y h
    have h1 := h.err 5 (by norm_num) (by norm_num)
    have h2 : |x * 1.9438445 * 0.5144444 - x| ≤ 1e-7 * |x| := by
      rw [show x * 1.9438445 * 0.5144444 - x = (1.9438445 * 0.5144444 - 1) * x by ring, abs_mul]
      refine mul_le_mul_of_nonneg_right ?_ (abs_nonneg x)
      norm_num [abs_le]
    have h3 : |x * 1.9438445 * 0.5144444| ≤ 1.01 * |x| := by
      rw [mul_assoc, abs_mul, mul_comm]
      refine mul_le_mul_of_nonneg_right ?_ (abs_nonneg x)
      norm_num [abs_le]
    have h4 : |y - x| ≤ |y - x * 1.9438445 * 0.5144444| + |x * 1.9438445 * 0.5144444 - x| := by
      have := abs_add_le (y - x * 1.9438445 * 0.5144444) (x * 1.9438445 * 0.5144444 - x)
      rwa [sub_add_sub_cancel] at this
    have h5 : 5 * F.u * |x * 1.9438445 * 0.5144444| ≤ 6 * F.u * |x| := by
      have : 0 ≤ F.u * |x| := by positivity
      nlinarith [mul_le_mul_of_nonneg_left h3 (by positivity : 0 ≤ 5 * F.u)]
    linarith
  intro x
  constructor
  · exact key x _ (((((Acc.refl (F := F) x).mul (Acc.rd F 1.9438445)).round).mul (Acc.rd F 0.5144444)).round)
  · have h := ((((Acc.refl (F := F) x).mul (Acc.rd F 0.5144444)).round).mul (Acc.rd F 1.9438445)).round
    rw [show x * 0.5144444 * 1.9438445 = x * 1.9438445 * 0.5144444 by ring] at h
    exact key x _ h

example : |kts2mps binary64 (mps2kts binary64 100) - 100| ≤ (1e-7 + 6 * (2 : ℝ) ^ (-53 : ℤ)) * |100| :=
  (C127_knots binary64 100).1

/-- C127: temperatures there and back, an absolute bound: the error is of the size of the rounding of 273.15 even for small values. -/
theorem C127_celsius (F : Rounding) (x : ℝ) :
    |k2c F (c2k F x) - x| ≤ F.u * (3 * |x| + 274) ∧ |c2k F (k2c F x) - x| ≤ F.u * (3 * |x| + 274) := by
  have hu := F.u_nonneg
  have hul := F.u_lt
  obtain ⟨t, ht⟩ : ∃ t, t = F.rd 273.15 := ⟨_, rfl⟩
  have ht1 : |t - 273.15| ≤ F.u * 273.15 := by
    have := F.err 273.15
    rwa [← ht, abs_of_pos (show (0 : ℝ) < 273.15 by norm_num)] at this
  rw [abs_le] at ht1
  have hx := abs_nonneg x
  have ht0 : |t| ≤ 273.2 := by rw [abs_le]; constructor <;> linarith [ht1.1, ht1.2]
  have key : ∀ a b : ℝ, |a| ≤ |x| + 273.2 → |b| ≤ F.u * |a| → ∀ c : ℝ, |c - (x + b)| ≤ F.u * |x + b| →
      |c - x| ≤ F.u * (3 * |x| + 274) := by
    intro a b ha hb c hc
    have h1 : |x + b| ≤ |x| + |b| := abs_add_le x b
    have h2 : |c - x| ≤ |c - (x + b)| + |b| := by
      have := abs_add_le (c - (x + b)) b
      rwa [show c - (x + b) + b = c - x by ring] at this
    have h3 : |b| ≤ F.u * (|x| + 273.2) := hb.trans (mul_le_mul_of_nonneg_left ha hu)
    have h4 : F.u * |x + b| ≤ F.u * (|x| + F.u * (|x| + 273.2)) := mul_le_mul_of_nonneg_left (by linarith) hu
    have h5 : F.u * (|x| + 273.2) ≤ 1 / 1000000 * (|x| + 273.2) := by gcongr
    have h6 : F.u * (|x| + F.u * (|x| + 273.2)) ≤ F.u * (|x| + 1 / 1000000 * (|x| + 273.2)) := by gcongr
    nlinarith [mul_nonneg hu hx]
  unfold k2c c2k
  rw [← ht]
  constructor
  · refine key (x + t) (F.rd (x + t) - (x + t)) ((abs_add_le x t).trans (by linarith)) (F.err _) _ ?_
    have := F.err (F.rd (x + t) - t)
    rwa [show F.rd (x + t) - t = x + (F.rd (x + t) - (x + t)) by ring] at this ⊢
  · refine key (x - t) (F.rd (x - t) - (x - t)) ((abs_sub x t).trans (by linarith)) (F.err _) _ ?_
    have := F.err (F.rd (x - t) + t)
    rwa [show F.rd (x - t) + t = x + (F.rd (x - t) - (x - t)) by ring] at this ⊢

example : |k2c binary64 (c2k binary64 15) - 15| ≤ (2 : ℝ) ^ (-53 : ℤ) * (3 * |15| + 274) := (C127_celsius binary64 15).1

theorem rankine_steps (F : Rounding) (x : ℝ) (y a b : ℝ) (hy : |y - a * b| ≤ 4 * F.u * |a * b|) (e : ℝ) (he : |a * b - x| ≤ e) :
    |y - x| ≤ 4 * F.u * (|x| + e) + e := by
  have hu := F.u_nonneg
  have h1 : |a * b| ≤ |x| + e := by
    have := abs_add_le x (a * b - x)
    rw [add_sub_cancel] at this; linarith
  have h2 : |y - x| ≤ |y - a * b| + |a * b - x| := by
    have := abs_add_le (y - a * b) (a * b - x)
    rwa [sub_add_sub_cancel] at this
  have := mul_le_mul_of_nonneg_left h1 (by positivity : 0 ≤ 4 * F.u)
  linarith

/-- C127: Celsius to Rankine and back, and Celsius to Fahrenheit: absolute bounds. -/
theorem C127_rankine (F : Rounding) (x : ℝ) :
    |r2c F (c2r F x) - x| ≤ F.u * (9 * |x| + 1700) ∧ |c2r F (r2c F x) - x| ≤ F.u * (9 * |x| + 3000) ∧
    |c2f F x - Units.c2f x| ≤ F.u * (8 * |x| + 40) := by
  have hu := F.u_nonneg
  have hul := F.u_lt
  have hx := abs_nonneg x
  have hux := mul_nonneg hu hx
  obtain ⟨t, ht⟩ : ∃ t, t = F.rd 273.15 := ⟨_, rfl⟩
  obtain ⟨s, hs⟩ : ∃ s, s = F.rd 491.67 := ⟨_, rfl⟩
  have ht1 : |t - 273.15| ≤ F.u * 273.15 := by
    have := F.err 273.15
    rwa [← ht, abs_of_pos (show (0 : ℝ) < 273.15 by norm_num)] at this
  have hs1 : |s - 491.67| ≤ F.u * 491.67 := by
    have := F.err 491.67
    rwa [← hs, abs_of_pos (show (0 : ℝ) < 491.67 by norm_num)] at this
  rw [abs_le] at ht1 hs1
  have ht0 : |t| ≤ 273.2 := by rw [abs_le]; constructor <;> linarith [ht1.1, ht1.2]
  have hs0 : |s| ≤ 491.7 := by rw [abs_le]; constructor <;> linarith [hs1.1, hs1.2]
  -- three roundings of `(z) * 9 / 5` and of `z * 5 / 9`
  have up : ∀ z : ℝ, |F.rd (F.rd (F.rd z * 9) / 5) - z * (9 / 5)| ≤ 4 * F.u * |z * (9 / 5)| := by
    intro z
    have h := ((((Acc.rd F z).mul (Acc.refl (F := F) 9)).round.div (Acc.refl (F := F) 5)).round).err 4 (by norm_num) (by norm_num)
    rwa [mul_div_assoc] at h
  have down : ∀ z : ℝ, |F.rd (F.rd (F.rd z * 5) / 9) - z * (5 / 9)| ≤ 4 * F.u * |z * (5 / 9)| := by
    intro z
    have h := ((((Acc.rd F z).mul (Acc.refl (F := F) 5)).round.div (Acc.refl (F := F) 9)).round).err 4 (by norm_num) (by norm_num)
    rwa [mul_div_assoc] at h
  refine ⟨?_, ?_, ?_⟩
  · obtain ⟨y, hy⟩ : ∃ y, y = F.rd (F.rd (F.rd (x + t) * 9) / 5) := ⟨_, rfl⟩
    have h1 := up (x + t)
    rw [← hy] at h1
    have h2 : |x + t| ≤ |x| + 273.2 := (abs_add_le x t).trans (by linarith)
    have h3 : |y - (x + t) * (9 / 5)| ≤ 4 * F.u * (9 / 5 * (|x| + 273.2)) := by
      refine h1.trans (mul_le_mul_of_nonneg_left ?_ (by positivity))
      rw [abs_mul, abs_of_pos (show (0 : ℝ) < 9 / 5 by norm_num)]; linarith
    have h4 : |(y - s) * (5 / 9) - x| ≤ F.u * (4 * |x| + 1640) := by
      rw [abs_le] at h3 ⊢
      constructor <;> nlinarith [h3.1, h3.2, ht1.1, ht1.2, hs1.1, hs1.2]
    have h5 := rankine_steps F x _ _ _ (down (y - s)) _ h4
    unfold r2c c2r
    rw [← ht, ← hs, ← hy]
    refine h5.trans ?_
    have h6 : F.u * (F.u * (4 * |x| + 1640)) ≤ F.u * (1 / 1000000 * (4 * |x| + 1640)) := by gcongr
    nlinarith
  · obtain ⟨y, hy⟩ : ∃ y, y = F.rd (F.rd (F.rd (x - s) * 5) / 9) := ⟨_, rfl⟩
    have h1 := down (x - s)
    rw [← hy] at h1
    have h2 : |x - s| ≤ |x| + 491.7 := (abs_sub x s).trans (by linarith)
    have h3 : |y - (x - s) * (5 / 9)| ≤ 4 * F.u * (5 / 9 * (|x| + 491.7)) := by
      refine h1.trans (mul_le_mul_of_nonneg_left ?_ (by positivity))
      rw [abs_mul, abs_of_pos (show (0 : ℝ) < 5 / 9 by norm_num)]; linarith
    have h4 : |(y + t) * (9 / 5) - x| ≤ F.u * (4 * |x| + 2951) := by
      rw [abs_le] at h3 ⊢
      constructor <;> nlinarith [h3.1, h3.2, ht1.1, ht1.2, hs1.1, hs1.2]
    have h5 := rankine_steps F x _ _ _ (up (y + t)) _ h4
    unfold r2c c2r
    rw [← ht, ← hs, ← hy]
    refine h5.trans ?_
    have h6 : F.u * (F.u * (4 * |x| + 2951)) ≤ F.u * (1 / 1000000 * (4 * |x| + 2951)) := by gcongr
    nlinarith
  · unfold c2f Units.c2f
    obtain ⟨y, hy⟩ : ∃ y, y = F.rd (F.rd (x * 9) / 5) := ⟨_, rfl⟩
    have h1 := (((Acc.rd F (x * 9)).div (Acc.refl (F := F) 5)).round).err 3 (by norm_num) (by norm_num)
    rw [← hy] at h1 ⊢
    have h2 := F.err (y + 32)
    have h0 : |x * 9 / 5| = 9 / 5 * |x| := by
      rw [mul_div_assoc, abs_mul, abs_of_pos (show (0 : ℝ) < 9 / 5 by norm_num)]; ring
    rw [h0] at h1
    have h3 : |y + 32| ≤ 9 / 5 * |x| + 3 * F.u * (9 / 5 * |x|) + 32 := by
      have a := abs_add_le (y - x * 9 / 5) (x * 9 / 5 + 32)
      have b := abs_add_le (x * 9 / 5) 32
      rw [show y - x * 9 / 5 + (x * 9 / 5 + 32) = y + 32 by ring] at a
      rw [h0, abs_of_pos (show (0 : ℝ) < 32 by norm_num)] at b
      linarith
    have h4 : |F.rd (y + 32) - (x * 9 / 5 + 32)| ≤ |F.rd (y + 32) - (y + 32)| + |y - x * 9 / 5| := by
      have := abs_add_le (F.rd (y + 32) - (y + 32)) (y - x * 9 / 5)
      rwa [show F.rd (y + 32) - (y + 32) + (y - x * 9 / 5) = F.rd (y + 32) - (x * 9 / 5 + 32) by ring] at this
    have h5 := mul_le_mul_of_nonneg_left h3 hu
    have h6 : F.u * (F.u * |x|) ≤ 1 / 1000000 * (F.u * |x|) := by gcongr
    nlinarith

example : |r2c binary64 (c2r binary64 15) - 15| ≤ (2 : ℝ) ^ (-53 : ℤ) * (9 * |15| + 1700) := (C127_rankine binary64 15).1

/-- C127 (False: the paired conversions of C01 give exactly the value they started from): in binary64 seven feet come back as
6.999999999999999 feet and 1001 m as 1000.9999999999999 m; and every temperature within 2⁻⁴⁵ °C of the freezing point comes back
as exactly 0 °C. -/
theorem C127_exact_violated :
    (m2feet binary64 (feet2m binary64 7) < 7 ∧ km2m binary64 (m2km binary64 1001) < 1001) ∧
    ∀ x : ℝ, |x| < (2 : ℝ) ^ (-45 : ℤ) → k2c binary64 (c2k binary64 x) = 0 := by
  refine ⟨⟨?_, ?_⟩, ?_⟩
  · have h1 : rd64 0.3048 = (5490788665690109 : ℤ) * (2 : ℝ) ^ (-54 : ℤ) :=
      rd64_eval _ _ _ (by norm_num) (by norm_num) (by norm_num [abs_lt])
    have h2 : rd64 (7 * rd64 0.3048) = (4804440082478845 : ℤ) * (2 : ℝ) ^ (-51 : ℤ) := by
      rw [h1]; exact rd64_eval _ _ _ (by norm_num) (by norm_num) (by norm_num [abs_lt])
    have h3 : rd64 (rd64 (7 * rd64 0.3048) / rd64 0.3048) = (7881299347898367 : ℤ) * (2 : ℝ) ^ (-50 : ℤ) := by
      rw [h2, h1]; exact rd64_eval _ _ _ (by norm_num) (by norm_num) (by norm_num [abs_lt])
    show rd64 (rd64 (7 * rd64 0.3048) / rd64 0.3048) < 7
    rw [h3]; norm_num
  · have h2 : rd64 (1001 / 1000) = (4508103226997866 : ℤ) * (2 : ℝ) ^ (-52 : ℤ) :=
      rd64_eval _ _ _ (by norm_num) (by norm_num) (by norm_num [abs_lt])
    have h3 : rd64 (rd64 (1001 / 1000) * 1000) = (8804889115230207 : ℤ) * (2 : ℝ) ^ (-43 : ℤ) := by
      rw [h2]; exact rd64_eval _ _ _ (by norm_num) (by norm_num) (by norm_num [abs_lt])
    show rd64 (rd64 (1001 / 1000) * 1000) < 1001
    rw [h3]; norm_num
  · intro x hx
    rw [abs_lt] at hx
    have h1 : rd64 273.15 = (4805305618032230 : ℤ) * (2 : ℝ) ^ (-44 : ℤ) :=
      rd64_eval _ _ _ (by norm_num) (by norm_num) (by norm_num [abs_lt])
    have h2 : rd64 (x + rd64 273.15) = (4805305618032230 : ℤ) * (2 : ℝ) ^ (-44 : ℤ) := by
      rw [h1]
      norm_num at hx
      refine rd64_eval _ _ _ ?_ ?_ ?_
      · norm_num; linarith [hx.1]
      · norm_num; linarith [hx.2]
      · rw [add_sub_cancel_right, abs_lt]; norm_num; constructor <;> linarith [hx.1, hx.2]
    show rd64 (rd64 (x + rd64 273.15) - rd64 273.15) = 0
    rw [h2, h1, sub_self]; simp [rd64]

example : k2c binary64 (c2k binary64 1e-20) = 0 := C127_exact_violated.2 _ (by norm_num [abs_lt])

end Verif.Props
