import Verif.Lemmas.ConstraintFloat
import Verif.Props.UnitsFloat

/-
C128: the formulas of the constraint analysis in floating point. The results are accurate to a stated number of units of rounding relative
to the exact formulas of `Model/Constraint.lean`, because nothing is subtracted (but for the climb, where the subtraction is harmless).
Quantities computed elsewhere (density, induced drag factor, thrust correction) may themselves carry `j` roundings: `Acc F j xh x`.
-/

namespace Verif.Props
open Verif.Fl

variable (F : Rounding) (M : Libm F)

/-- For the cases below, library functions as assumed of Python's `**` (for instance unitconversions.py:170), `math.exp` and
`math.log1p` (atmospheres.py:508, 530): the exact values, rounded. -/
noncomputable def exactPow (F : Rounding) : Libm F where
  pow x y := F.rd (x ^ y)
  pow_err x y hx := by
    have h := F.err (x ^ y)
    have hp : 0 < x ^ y := Real.rpow_pos_of_pos hx y
    rw [abs_of_pos hp] at h
    have := mul_nonneg F.u_nonneg hp.le
    linarith
  exp x := F.rd (Real.exp x)
  exp_err x := by
    have h := F.err (Real.exp x)
    have hp := Real.exp_pos x
    rw [abs_of_pos hp] at h
    have := mul_nonneg F.u_nonneg hp.le
    linarith
  log1p x := F.rd (Real.log (1 + x))
  log1p_err x _ := by
    have h := F.err (Real.log (1 + x))
    have := mul_nonneg F.u_nonneg (abs_nonneg (Real.log (1 + x)))
    linarith

theorem acc_drag {n m p : ℕ} {qh q kh k wh w : ℝ} (cd : ℝ) (hq : Acc F n qh q) (hk : Acc F m kh k) (hw : Acc F p wh w) :
    Acc F (n + p + 3) (F.rd (F.rd (F.rd (1 / wh) * qh) * cd)) ((1 / w) * q * cd) ∧
    Acc F (n + m + p + 2) (F.rd (F.rd (kh / qh) * wh)) ((k / q) * w) := by
  constructor
  · exact (((((Acc.refl (F := F) 1).div hw).round.mul hq).round.mul (Acc.refl (F := F) cd)).round).weaken (by omega)
  · exact (((hk.div hq).round.mul hw).round).weaken (by omega)

theorem acc_cruise (j : ℕ) (ktas cd w frac fact dh d kh k th t : ℝ) (hv : 0 < ktas) (hd0 : 0 < d) (hcd : 0 < cd) (hw : 0 < w)
    (hfr : 0 < frac) (hk0 : 0 < k) (hd : Acc F j dh d) (hk : Acc F j kh k) (ht : Acc F j th t) :
    Acc F (3 * j + 18) (cruiseTw F M ktas dh cd kh w frac th fact)
      (Aircraft.cruisePoint (0.5 * d * Units.kts2mps ktas ^ 2) cd k (w * frac) / t * frac * (1 / fact)) := by
  have hv' : 0 < Units.kts2mps ktas := by unfold Units.kts2mps; positivity
  have a1 := (Acc.refl (F := F) ktas).kts2mps
  have a2 := Acc.dynamicpressure M hd a1 hv'
  have a3 := ((Acc.refl (F := F) w).mul (Acc.refl (F := F) frac)).round
  obtain ⟨b1, b2⟩ := acc_drag F cd a2 hk a3
  have a4 := (b1.add b2 (by positivity) (by positivity)).round
  have a5 := ((((a4.div ht).round.mul (Acc.refl (F := F) frac)).round).mul
    (((Acc.refl (F := F) 1).div (Acc.refl (F := F) fact)).round)).round
  exact a5.weaken (by omega)

/-- C128: the cruise requirement of one wing loading is computed up to `3 j + 19` units of rounding. -/
theorem C128_cruise (j : ℕ) (hj : j ≤ 100) (ktas cd w frac fact dh d kh k th t : ℝ) (hv : 0 < ktas) (hd0 : 0 < d) (hcd : 0 < cd)
    (hw : 0 < w) (hfr : 0 < frac) (hk0 : 0 < k) (hd : Acc F j dh d) (hk : Acc F j kh k) (ht : Acc F j th t) :
    |cruiseTw F M ktas dh cd kh w frac th fact -
        Aircraft.cruisePoint (0.5 * d * Units.kts2mps ktas ^ 2) cd k (w * frac) / t * frac * (1 / fact)| ≤
      (3 * j + 19) * F.u * |Aircraft.cruisePoint (0.5 * d * Units.kts2mps ktas ^ 2) cd k (w * frac) / t * frac * (1 / fact)| :=
  (acc_cruise F M j ktas cd w frac fact dh d kh k th t hv hd0 hcd hw hfr hk0 hd hk ht).err _
    (by push_cast; linarith) (by omega)

example : |cruiseTw binary64 (exactPow binary64) 150 1.0 0.0254 0.04 900 1.0 0.8 1.0 -
      Aircraft.cruisePoint (0.5 * 1.0 * Units.kts2mps 150 ^ 2) 0.0254 0.04 (900 * 1.0) / 0.8 * 1.0 * (1 / 1.0)| ≤
    (3 * (0 : ℕ) + 19) * binary64.u *
      |Aircraft.cruisePoint (0.5 * 1.0 * Units.kts2mps 150 ^ 2) 0.0254 0.04 (900 * 1.0) / 0.8 * 1.0 * (1 / 1.0)| :=
  C128_cruise binary64 (exactPow binary64) 0 (by norm_num) _ _ _ _ _ _ _ _ _ _ _ (by norm_num) (by norm_num) (by norm_num) (by norm_num)
    (by norm_num) (by norm_num) (Acc.refl _) (Acc.refl _) (Acc.refl _)

theorem acc_eas2tas {j n : ℕ} {dh d d0h d0 vh v : ℝ} (hd : Acc F j dh d) (hd0 : Acc F j d0h d0) (hv : Acc F n vh v)
    (h : 0 < d) (h0 : 0 < d0) : Acc F (n + j + 3) (atm_eas2tas F dh d0h vh) (v / √(d / d0)) := by
  have a1 : Acc F (2 * (j + 1)) (F.rd (dh / d0h)) (d / d0) := ((hd.div hd0).round).weaken (by omega)
  exact ((hv.div (a1.sqrt (by positivity)).round).round).weaken (by omega)

/-- C128: the service ceiling requirement of one wing loading. -/
theorem C128_ceiling (j : ℕ) (hj : j ≤ 60) (kias cd w frac dh d d0h d0 kh k th t : ℝ) (hv : 0 < kias) (hd0 : 0 < d) (hd00 : 0 < d0)
    (hcd : 0 < cd) (hw : 0 < w) (hfr : 0 < frac) (hk0 : 0 < k) (hd : Acc F j dh d) (hdsl : Acc F j d0h d0) (hk : Acc F j kh k)
    (ht : Acc F j th t) :
    let v := Units.kts2mps kias / √(d / d0)
    let roc := Units.fpm2mps 100 / √(d / d0)
    let tw := Aircraft.ceilingPoint roc v (0.5 * d * v ^ 2) cd k (w * frac) / t * frac
    |ceilingTw F M kias dh d0h cd kh w frac th - tw| ≤ (5 * j + 24) * F.u * |tw| := by
  intro v roc tw
  have hs : 0 < √(d / d0) := Real.sqrt_pos.2 (by positivity)
  have hv' : 0 < v := div_pos (by unfold Units.kts2mps; positivity) hs
  have hr : 0 < roc := div_pos (by unfold Units.fpm2mps Units.feet2m; positivity) hs
  have a1 := acc_eas2tas F hd hdsl (Acc.refl (F := F) kias).kts2mps hd0 hd00
  have r1 := acc_eas2tas F hd hdsl (Acc.refl (F := F) 100).fpm2mps hd0 hd00
  have a2 := Acc.dynamicpressure M hd a1 hv'
  have a3 := ((Acc.refl (F := F) w).mul (Acc.refl (F := F) frac)).round
  obtain ⟨b1, b2⟩ := acc_drag F cd a2 hk a3
  have a4 := (((r1.div a1).round.add b1 (by positivity) (by positivity)).round.add b2 (by positivity) (by positivity)).round
  have a5 := ((a4.div ht).round.mul (Acc.refl (F := F) frac)).round
  exact (a5.weaken (n := 5 * j + 23) (by omega)).err _ (by push_cast; linarith) (by omega)

example := C128_ceiling binary64 (exactPow binary64) 0 (by norm_num) 92 0.0254 1000 1.0 0.65 0.65 1.225 1.225 0.04 0.04 0.5 0.5
  (by norm_num) (by norm_num) (by norm_num) (by norm_num) (by norm_num) (by norm_num) (by norm_num) (Acc.refl _) (Acc.refl _)
  (Acc.refl _) (Acc.refl _)

/-- C128: the climb requirement of one wing loading, for climb angles up to 45 degrees (the formula takes the squared sine of the climb
angle away from 1). -/
theorem C128_climb (j : ℕ) (hj : j ≤ 60) (kias fpm cd w frac dh d d0h d0 kh k th t : ℝ) (hv : 0 < kias) (hf : 0 < fpm) (hd0 : 0 < d)
    (hd00 : 0 < d0) (hcd : 0 < cd) (hw : 0 < w) (hfr : 0 < frac) (hk0 : 0 < k)
    (hangle : 2 * Units.fpm2mps fpm ^ 2 ≤ Units.kts2mps kias ^ 2) (hd : Acc F j dh d) (hdsl : Acc F j d0h d0) (hk : Acc F j kh k)
    (ht : Acc F j th t) :
    let v := Units.kts2mps kias / √(d / d0)
    let roc := Units.fpm2mps fpm / √(d / d0)
    let tw := Aircraft.climbPoint roc v (0.5 * d * v ^ 2) cd k (w * frac) / t * frac
    |climbTw F M kias fpm dh d0h cd kh w frac th - tw| ≤ (13 * j + 78) * F.u * |tw| := by
  intro v roc tw
  have hs : 0 < √(d / d0) := Real.sqrt_pos.2 (by positivity)
  have hV : 0 < Units.kts2mps kias := by unfold Units.kts2mps; positivity
  have hR : 0 < Units.fpm2mps fpm := by unfold Units.fpm2mps Units.feet2m; positivity
  have hv' : 0 < v := div_pos hV hs
  have hr : 0 < roc := div_pos hR hs
  have hang : (roc / v) ^ 2 ≤ 1 / 2 := by
    have : roc / v = Units.fpm2mps fpm / Units.kts2mps kias := by
      show Units.fpm2mps fpm / √(d / d0) / (Units.kts2mps kias / √(d / d0)) = _
      field_simp
    rw [this, div_pow, div_le_iff₀ (by positivity)]; linarith
  have a1 := acc_eas2tas F hd hdsl (Acc.refl (F := F) kias).kts2mps hd0 hd00
  have r1 := acc_eas2tas F hd hdsl (Acc.refl (F := F) fpm).fpm2mps hd0 hd00
  have a2 := Acc.dynamicpressure M hd a1 hv'
  have a3 := ((Acc.refl (F := F) w).mul (Acc.refl (F := F) frac)).round
  obtain ⟨b1, b2⟩ := acc_drag F cd a2 hk a3
  have g := ((((Acc.refl (F := F) 1).mul r1).round).div a1).round
  have c := (Acc.one_sub (Acc.libm_sq M (r1.div a1).round (by positivity)) (by positivity) hang (by omega)).round
  have hc0 : 0 ≤ 1 - (roc / v) ^ 2 := by linarith
  have b3 := (b2.mul c).round
  have a4 := ((g.add b1 (by positivity) (by positivity)).round.add b3 (by positivity)
    (mul_nonneg (by positivity) hc0)).round
  have a5 := ((a4.div ht).round.mul (Acc.refl (F := F) frac)).round
  exact (a5.weaken (n := 13 * j + 77) (by omega)).err _ (by push_cast; linarith) (by omega)

example := C128_climb binary64 (exactPow binary64) 0 (by norm_num) 101 1398 0.0254 1000 1.0 1.155 1.155 1.225 1.225 0.04 0.04 0.9 0.9
  (by norm_num) (by norm_num) (by norm_num) (by norm_num) (by norm_num) (by norm_num) (by norm_num) (by norm_num)
  (by norm_num [Units.fpm2mps, Units.feet2m, Units.kts2mps]) (Acc.refl _) (Acc.refl _) (Acc.refl _) (Acc.refl _)

/-- C128: lift-off speed and take-off requirement of one wing loading. -/
theorem C128_takeoff (j : ℕ) (hj : j ≤ 100) (clmaxto w groundrun cdto clto mu dh d : ℝ) (hd0 : 0 < d) (hcl : 0 < clmaxto) (hw : 0 < w)
    (hg : 0 < groundrun) (hcd : 0 < cdto) (hclto : 0 < clto) (hmu : 0 ≤ mu) (hd : Acc F j dh d) :
    let lof := Aircraft.liftoffPoint d clmaxto w
    let tw := Aircraft.takeoffPoint groundrun cdto clto mu lof
    |liftoffPoint F dh clmaxto w - lof| ≤ (j + 6) * F.u * lof ∧
    |takeoffPoint F M groundrun cdto clto mu (liftoffPoint F dh clmaxto w) - tw| ≤ (2 * j + 20) * F.u * tw := by
  intro lof tw
  have hs : 0 < √((2 * w) / (d * clmaxto)) := Real.sqrt_pos.2 (by positivity)
  have hlof : 0 < lof := by show 0 < 1.1 * √((2 * w) / (d * clmaxto)); positivity
  have hgp : 0 < Units.gAcc := by norm_num [Units.gAcc]
  have htw : 0 < tw := by
    show 0 < lof ^ 2 / (2 * Units.gAcc * groundrun) + 0.5 * cdto / clto + 0.5 * mu
    positivity
  have a0 : Acc F (2 * (j + 2)) (F.rd (F.rd (2 * w) / F.rd (dh * clmaxto))) ((2 * w) / (d * clmaxto)) :=
    (((Acc.rd F (2 * w)).div ((hd.mul (Acc.refl (F := F) clmaxto)).round)).round).weaken (by omega)
  have a1 : Acc F (j + 5) (liftoffPoint F dh clmaxto w) lof :=
    ((Acc.rd F 1.1).mul (a0.sqrt (by positivity)).round).round.weaken (by omega)
  have g0 : Acc F 1 (gAcc F) Units.gAcc := Acc.rd F _
  have g1 := (((Acc.refl (F := F) 2).mul g0).round.mul (Acc.refl (F := F) groundrun)).round
  have b1 := ((Acc.libm_sq M a1 hlof).div g1).round
  have b2 := ((Acc.rd F (0.5 * cdto)).div (Acc.refl (F := F) clto)).round
  have b3 := ((b1.add b2 (by positivity) (by positivity)).round.add (Acc.rd F (0.5 * mu)) (by positivity) (by positivity)).round
  constructor
  · have h := a1.err (j + 6) (by push_cast; linarith) (by omega)
    rwa [abs_of_pos hlof] at h
  · have h := (b3.weaken (n := 2 * j + 19) (by omega)).err (2 * j + 20) (by push_cast; linarith) (by omega)
    rwa [show lof ^ 2 / (2 * Units.gAcc * groundrun) + 0.5 * cdto / clto + 0.5 * mu = tw from rfl, abs_of_pos htw] at h

example := C128_takeoff binary64 (exactPow binary64) 0 (by norm_num) 1.6 1000 313 0.0414 0.59 0.02 1.225 1.225
  (by norm_num) (by norm_num) (by norm_num) (by norm_num) (by norm_num) (by norm_num) (by norm_num) (Acc.refl _)

/-- C128: the turn requirement of one wing loading, for the dynamic pressure of the turn. -/
theorem C128_turn (j : ℕ) (hj : j ≤ 100) (cd n w ws qh q kh k : ℝ) (hq0 : 0 < q) (hcd : 0 < cd) (hn : 0 < n) (hw : 0 < w)
    (hws : 0 < ws) (hk0 : 0 < k) (hq : Acc F j qh q) (hk : Acc F j kh k) :
    |turnPoint F M qh cd n kh w ws - Aircraft.turnPoint q cd n k w ws| ≤
      (4 * j + 10) * F.u * Aircraft.turnPoint q cd n k w ws := by
  have hp : 0 < Aircraft.turnPoint q cd n k w ws := by unfold Aircraft.turnPoint; positivity
  have a1 := Acc.libm_sq M ((Acc.refl (F := F) n).div hq).round (div_pos hn hq0)
  have a2 := ((hk.mul a1).round.mul (Acc.refl (F := F) ws)).round
  have a3 := (((Acc.refl (F := F) cd).div (Acc.refl (F := F) w)).round.add a2 (by positivity) (by positivity)).round
  have a4 : Acc F (4 * j + 9) (turnPoint F M qh cd n kh w ws) (Aircraft.turnPoint q cd n k w ws) :=
    ((hq.mul a3).round).weaken (by omega)
  have h := a4.err (4 * j + 10) (by push_cast; linarith) (by omega)
  rwa [abs_of_pos hp] at h

example := C128_turn binary64 (exactPow binary64) 2 (by norm_num) 0.0254 2 1000 990 2000 2000 0.04 0.04 (by norm_num) (by norm_num)
  (by norm_num) (by norm_num) (by norm_num) (by norm_num) ((Acc.refl _).weaken (by norm_num)) ((Acc.refl _).weaken (by norm_num))

/-- C128: whether a turn counts as possible (`CL ≤ CLmaxclean`) is decided in floating point as by the exact formula, unless the lift
coefficient is within `j + 14` units of rounding of the limit. -/
theorem C128_feasible (j : ℕ) (hj : j ≤ 100) (ktas n w ft fc clmax dh d : ℝ) (hv : 0 < ktas) (hn : 0 < n) (hw : 0 < w) (hft : 0 < ft)
    (hfc : 0 < fc) (hd0 : 0 < d) (hd : Acc F j dh d) :
    let cl := w * ft * fc * n / (0.5 * d * Units.kts2mps ktas ^ 2)
    (cl * (1 + (j + 14) * F.u) ≤ clmax → turnCl F M ktas dh n w ft fc ≤ clmax) ∧
    (clmax < cl * (1 - (j + 14) * F.u) → clmax < turnCl F M ktas dh n w ft fc) := by
  intro cl
  have hv' : 0 < Units.kts2mps ktas := by unfold Units.kts2mps; positivity
  have hcl : 0 < cl := by positivity
  have a2 := Acc.dynamicpressure M hd (Acc.refl (F := F) ktas).kts2mps hv'
  have a3 : Acc F (j + 13) (turnCl F M ktas dh n w ft fc) cl :=
    ((((((((Acc.refl (F := F) w).mul (Acc.refl (F := F) ft)).round).mul (Acc.refl (F := F) fc)).round).mul
      (Acc.refl (F := F) n)).round).div a2).round.weaken (by omega)
  have h := a3.err (j + 14) (by push_cast; linarith) (by omega)
  rw [abs_of_pos hcl, abs_le] at h
  constructor <;> intro hc <;> nlinarith [h.1, h.2]

example : turnCl binary64 (exactPow binary64) 140 1.0 2 1000 1.0 1.0 ≤ 1.45 := by
  refine (C128_feasible binary64 (exactPow binary64) 0 (by norm_num) 140 2 1000 1.0 1.0 1.45 1.0 1.0 (by norm_num) (by norm_num)
    (by norm_num) (by norm_num) (by norm_num) (by norm_num) (Acc.refl _)).1 ?_
  norm_num [Units.kts2mps, binary64]

/-- C128: power from thrust requirement, speed and efficiency. -/
theorem C128_power (j : ℕ) (hj : j ≤ 100) (tow eta twh tw vh v : ℝ) (ht : Acc F j twh tw) (hv : Acc F j vh v) :
    |powerPoint F tow eta twh vh - Units.wn2hpkg (Aircraft.tw2pw tw v eta) * tow| ≤
      (2 * j + 9) * F.u * |Units.wn2hpkg (Aircraft.tw2pw tw v eta) * tow| := by
  have a1 : Acc F (2 * j + 2) (tw2pw F twh vh eta) (Aircraft.tw2pw tw v eta) :=
    ((ht.mul hv).round.div (Acc.refl (F := F) eta)).round.weaken (by omega)
  have a2 : Acc F (2 * j + 7) (Fl.wn2hpkg F (tw2pw F twh vh eta)) (Units.wn2hpkg (Aircraft.tw2pw tw v eta)) :=
    ((((a1.mul (Acc.rd F 9.80665)).round).div (Acc.refl (F := F) 1000)).round.mul (Acc.rd F 1.34102)).round.weaken (by omega)
  exact (a2.mul (Acc.refl (F := F) tow)).round.err _ (by push_cast; linarith) (by omega)

example := C128_power binary64 0 (by norm_num) 1542 0.85 0.2 0.2 72 72 (Acc.refl _) (Acc.refl _)

/-- C128: the wing-in-ground factor. -/
theorem C128_wig (h : ℝ) (hh : 0 < h) : |wig F M h - Aircraft.wig h| ≤ 13 * F.u * Aircraft.wig h := by
  have hp : 0 < Aircraft.wig h := by unfold Aircraft.wig; positivity
  have a1 := Acc.libm_sq M (Acc.rd F (16 * h)) (by positivity)
  have a2 : Acc F 12 (wig F M h) (Aircraft.wig h) :=
    (a1.div ((Acc.refl (F := F) 1).add a1 (by positivity) (by positivity)).round).round.weaken (by norm_num)
  have := a2.err 13 (by norm_num) (by norm_num)
  rwa [abs_of_pos hp] at this

example := C128_wig binary64 (exactPow binary64) 0.1 (by norm_num)

/-- C128: equivalent and true airspeed are converted accurately, and there and back to three units of rounding. -/
theorem C128_airspeed (v d : ℝ) (hd : 0 < d) :
    |tas2eas F M v d - Units.tas2eas v d| ≤ 6 * F.u * |Units.tas2eas v d| ∧
    |eas2tas F M v d - Units.eas2tas v d| ≤ 6 * F.u * |Units.eas2tas v d| ∧
    |eas2tas F M (tas2eas F M v d) d - v| ≤ 3 * F.u * |v| ∧ |tas2eas F M (eas2tas F M v d) d - v| ≤ 3 * F.u * |v| := by
  have a0 : Acc F (2 * 1) (F.rd (d / F.rd 1.225)) (d / 1.225) := ((Acc.refl (F := F) d).div (Acc.rd F 1.225)).round
  have a1 := Acc.libm_sqrt M a0 (by positivity)
  have hs : M.pow (F.rd (d / F.rd 1.225)) 0.5 ≠ 0 := (a1.pos (by positivity)).ne'
  obtain ⟨h1, h2⟩ := back_factor F _ hs v
  exact ⟨((Acc.refl (F := F) v).mul a1).round.err 6 (by norm_num) (by norm_num),
    ((Acc.refl (F := F) v).div a1).round.err 6 (by norm_num) (by norm_num), h1, h2⟩

example := C128_airspeed binary64 (exactPow binary64) 100 0.9 (by norm_num)

end Verif.Props
