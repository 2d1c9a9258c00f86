import Verif.Props.Readme
import Mathlib.Analysis.Real.Pi.Bounds

/-
C133, continued: the numbers printed in the notebooks of docs/ADRpy/notebooks.
-/

namespace Verif.Props
open Verif Verif.Atmos Verif.Units Verif.Aircraft Verif.Propulsion

noncomputable section

/-! ### Introduction to Modelling the Atmosphere -/

/-- "Introduction to Modelling the Atmosphere", lines 240-254: the pressure at 1000 m in millibar. -/
theorem C133_pressure : ∃ p, airpress_pa (.isa 0) (.scalar 1000) = .ok (.scalar p) ∧ Prints (pa2mbar p) 898.74554058789 1e-11 := by
  refine ⟨_, press1_scalar (isa_press1 0 1000 (by norm_num)), ?_⟩
  obtain ⟨h1, h2⟩ := doc_to_press
  rw [pa2mbar, Prints, abs_le]
  generalize isapress 1000 = p at *
  norm_num at *
  constructor <;> linarith

/-- A quotient agrees with a printed number if its bounds do. -/
theorem div_prints {x c xlo xhi clo chi p u : ℝ} (x0 : 0 ≤ xlo) (h1 : xlo ≤ x) (h2 : x ≤ xhi) (c0 : 0 < clo) (k1 : clo ≤ c) (k2 : c ≤ chi)
    (l1 : (p - u / 2) * chi ≤ xlo) (l2 : xhi ≤ (p + u / 2) * clo) : Prints (x / c) p u := by
  have cp : 0 < c := lt_of_lt_of_le c0 k1
  refine prints_of (lo := xlo / chi) (hi := xhi / clo) ⟨?_, ?_⟩ ?_ ?_
  · exact div_le_div₀ (x0.trans h1) h1 cp k2
  · exact div_le_div₀ ((x0.trans h1).trans h2) h2 c0 k1
  · rw [le_div_iff₀ (cp.trans_le k2)]; exact l1
  · rw [div_le_iff₀ c0]; exact l2

theorem nb_dens0 : (1.2249998682209657 : ℝ) ≤ isadens 0 0 ∧ isadens 0 0 ≤ 1.2249998682209658 := by
  rw [doc_dens (x := 1.04884) (by norm_num) (by norm_num)]; exact DocNum.dens_0

theorem nb_dens7620 : (0.54894564162901627 : ℝ) ≤ isadens 0 7620 ∧ isadens 0 7620 ≤ 0.54894564162901628 := by
  rw [doc_dens (x := 0.86855526532) (by norm_num) (by norm_num)]; exact ReadmeNum.dens_7620

/-- "Introduction to Modelling the Atmosphere", lines 488-531: 292 knots equivalent airspeed at 25000 ft as true airspeed and as Mach number. -/
theorem C133_speeds : ∃ t m, eas2tas (.isa 0) 292 (feet2m 25000) = .ok t ∧ mach (.isa 0) (.scalar (kts2mps t)) (.scalar (feet2m 25000)) = .ok [m] ∧
    Prints t 436.20054290018567 1e-12 ∧ Prints m 0.7246466 1e-8 := by
  have e : feet2m 25000 = 7620 := by norm_num [feet2m]
  obtain ⟨d1, d2⟩ := nb_dens7620
  obtain ⟨s1, s2⟩ := nb_dens0
  have hd := isa_dens1 0 7620 (by norm_num)
  have hd0 := isa_dens1 0 0 (by norm_num)
  have hT : isatemp 0 7620 = 238.62 := by norm_num [isatemp, Level1, A1, B1]
  have hc := isa_vsound 0 7620 (by norm_num) (by rw [hT]; norm_num)
  rw [hT] at hc
  rw [e]
  generalize isadens 0 7620 = d at *
  generalize isadens 0 0 = d0 at *
  have p : 0 < d := lt_of_lt_of_le (by norm_num) d1
  have p0 : 0 < d0 := lt_of_lt_of_le (by norm_num) s1
  have k := dratio_ok hd hd0 p p0
  obtain ⟨t, ht⟩ : ∃ t, t = 292 / √(d / d0) := ⟨_, rfl⟩
  have r1 : 0.669410 ≤ √(d / d0) := by
    apply Real.le_sqrt_of_sq_le
    rw [le_div_iff₀ p0]; norm_num at *; linarith
  have t0 : 0 ≤ t := by rw [ht]; positivity
  have t2 : t ^ 2 * d = 85264 * d0 := by
    rw [ht, div_pow, Real.sq_sqrt (by positivity)]
    field_simp; norm_num
  have b1 : 436.20054290018535 ≤ t := by
    refine (sq_le_sq₀ (by norm_num) t0).mp ?_
    by_contra h
    push Not at h
    have : t ^ 2 * d ≤ 436.20054290018535 ^ 2 * 0.54894564162901628 := mul_le_mul h.le d2 p.le (by positivity)
    norm_num at this s1
    linarith
  have b2 : t ≤ 436.20054290018585 := by
    refine (sq_le_sq₀ t0 (by norm_num)).mp ?_
    by_contra h
    push Not at h
    have : 436.20054290018585 ^ 2 * 0.54894564162901627 ≤ t ^ 2 * d := mul_le_mul h.le d1 (by norm_num) (by positivity)
    norm_num at this s2
    linarith
  obtain ⟨c1, c2⟩ := sqrt_of (x := 1.4 * 287.05287 * 238.62) (lo := 309.669466) (hi := 309.669467) (by norm_num) (by norm_num) (by norm_num)
  refine ⟨t, kts2mps t / √(1.4 * 287.05287 * 238.62), ?_, (C18_ratio (.isa 0) 7620 _ hc).1 _, prints_of ⟨b1, b2⟩ (by norm_num) (by norm_num), ?_⟩
  · rw [ht]; unfold Atmos.eas2tas; rw [k]; rfl
  · exact div_prints (xlo := 436.20054290018535 * 0.5144444) (xhi := 436.20054290018585 * 0.5144444) (by norm_num)
      (by unfold kts2mps; gcongr) (by unfold kts2mps; gcongr) (by norm_num) c1 c2 (by norm_num) (by norm_num)

/-! ### The cruise and service ceiling constraints -/

/-- "The cruise and service ceiling constraints", lines 120-140: the cruise Mach number at 445 KTAS and 15000 m. -/
theorem C133_cruise : ∃ m, mach (.isa 0) (.scalar (kts2mps 445)) (.scalar 15000) = .ok [m] ∧ Prints m 0.77584353 1e-8 := by
  have hT : isatemp 0 15000 = 216.65 := by norm_num [isatemp, Level1, Level2, A2, B2]
  have hc := isa_vsound 0 15000 (by norm_num) (by rw [hT]; norm_num)
  rw [hT] at hc
  obtain ⟨c1, c2⟩ := sqrt_of (x := 1.4 * 287.05287 * 216.65) (lo := 295.069493) (hi := 295.069494) (by norm_num) (by norm_num) (by norm_num)
  refine ⟨_, (C18_ratio (.isa 0) 15000 _ hc).1 _, ?_⟩
  exact div_prints (xlo := 445 * 0.5144444) (xhi := 445 * 0.5144444) (by norm_num)
    (by unfold kts2mps; norm_num) (by unfold kts2mps; norm_num) (by norm_num) c1 c2 (by norm_num) (by norm_num)

/-- "The cruise and service ceiling constraints", lines 222-236: the design of the best climb speed example. -/
def nbDesign : Dict := [("aspectratio", .num 10), ("sweep_le_deg", .num 0), ("sweep_mt_deg", .num 0)]
/-- "The cruise and service ceiling constraints", lines 222-236: its performance. -/
def nbPerf : Dict := [("CDminclean", .num 0.02541)]
/-- "The cruise and service ceiling constraints", lines 222-236: its wing loading. -/
def nbLoading : ℝ := lbf2n 3400 / feet22m2 144.9

theorem nb_wing : ∃ r, construct [] nbDesign nbPerf (some (.isa 0)) (.str "piston") = .ok r ∧ r.concept.designatm = .isa 0 ∧
    r.concept.aspectratio = some 10 ∧ r.concept.cdminclean = some 0.02541 ∧ r.concept.sweep_25_deg = some 0 ∧
    r.concept.roottaperratio = some 0.45 ∧ r.concept.sweep_mt_rad = 0 := by
  obtain ⟨r, h, h1, h2, h3, h4, h5, h6⟩ : ∃ r, construct [] nbDesign nbPerf (some (.isa 0)) (.str "piston") = .ok r ∧ r.concept.designatm = .isa 0 ∧
      r.concept.aspectratio = some 10 ∧ r.concept.cdminclean = some 0.02541 ∧ r.concept.sweep_25_deg = some (2 * 0 + (5 * 0) / 7) ∧
      r.concept.roottaperratio = some (0.45 * Real.exp (-0.0375 * (2 * 0 + (5 * 0) / 7))) ∧ r.concept.sweep_mt_rad = 0 * (Real.pi / 180) := by
    apply Exists.intro; constructor
    · rfl
    · exact ⟨rfl, rfl, rfl, rfl, rfl, rfl⟩
  exact ⟨r, h, h1, h2, h3, by rw [h4]; norm_num, by rw [h5]; norm_num, by rw [h6]; norm_num⟩

theorem nb_factor {c : Concept} (ha : c.aspectratio = some 10) (hs : c.sweep_25_deg = some 0) (ht : c.roottaperratio = some 0.45)
    (hm : c.sweep_mt_rad = 0) : ∃ k, induceddragfact c none none = .ok k ∧ 0.0369559626268620118 ≤ k ∧ k ≤ 0.0369559626268620120 := by
  have e2 : oswaldspaneff2 c = 2 / (√104 - 8) := by
    unfold oswaldspaneff2
    rw [ha, hm, Real.tan_zero]
    simp only [pyNum, Option.getD_some]
    norm_num
    ring
  have e4 : 0.81274231797127992222 ≤ oswaldspaneff4 c (some 0.3) ∧ oswaldspaneff4 c (some 0.3) ≤ 0.81274231797127992223 := by
    unfold oswaldspaneff4 keMach hoernerfactor
    rw [ha, hs, ht]
    simp only [pyNum, Option.getD_some, lt_irrefl, gt_iff_lt, if_false]
    norm_num
  obtain ⟨q1, q2⟩ := sqrt_of (x := 104) (lo := 10.1980390271855696600564) (hi := 10.1980390271855696600565) (by norm_num) (by norm_num) (by norm_num)
  have f2 : 0.9099019513592784830 ≤ oswaldspaneff2 c ∧ oswaldspaneff2 c ≤ 0.9099019513592784831 := by
    rw [e2]
    generalize √(104:ℝ) = q at *
    have q0 : 0 < q - 8 := by norm_num at q1; linarith
    constructor
    · rw [le_div_iff₀ q0]; norm_num at *; linarith
    · rw [div_le_iff₀ q0]; norm_num at *; linarith
  have hk : induceddragfact c none none = .ok (1 / (Real.pi * 10 * (0.5 * (oswaldspaneff2 c + oswaldspaneff4 c (some 0.3))))) := by
    unfold induceddragfact oswaldlist
    rw [ha]
    rfl
  refine ⟨_, hk, ?_, ?_⟩
  all_goals
    have p1 := Real.pi_gt_d20
    have p2 := Real.pi_lt_d20
    obtain ⟨x1, x2⟩ := f2
    obtain ⟨y1, y2⟩ := e4
    generalize oswaldspaneff2 c = x at *
    generalize oswaldspaneff4 c (some 0.3) = y at *
    generalize Real.pi = π at *
    have s1 : 0.861322134665279202 ≤ 0.5 * (x + y) := by norm_num at *; linarith
    have s2 : 0.5 * (x + y) ≤ 0.861322134665279203 := by norm_num at *; linarith
    have π0 : 0 < π := lt_trans (by norm_num) p1
    have s0 : 0 < 0.5 * (x + y) := lt_of_lt_of_le (by norm_num) s1
  · rw [le_div_iff₀ (by positivity)]
    have := mul_bounds (a := π) (b := 0.5 * (x + y)) (by norm_num) p1.le p2.le (by norm_num) s1 s2
    generalize 0.5 * (x + y) = s at *
    have e : π * 10 * s = 10 * (π * s) := by ring
    rw [e]
    generalize π * s = z at *
    norm_num at *
    linarith [this.2]
  · rw [div_le_iff₀ (by positivity)]
    have := mul_bounds (a := π) (b := 0.5 * (x + y)) (by norm_num) p1.le p2.le (by norm_num) s1 s2
    generalize 0.5 * (x + y) = s at *
    have e : π * 10 * s = 10 * (π * s) := by ring
    rw [e]
    generalize π * s = z at *
    norm_num at *
    linarith [this.1]

theorem nb_dens3048 : (0.9046367971133249 : ℝ) ≤ isadens 0 3048 ∧ isadens 0 3048 ≤ 0.904636797113325 := by
  rw [doc_dens (x := 0.976726106128) (by norm_num) (by norm_num)]; exact DocNum.dens_3048

/-- A best climb speed in knots between two numbers. -/
theorem nb_best {d k dlo dhi lo hi : ℝ} (k1 : 0.0369559626268620118 ≤ k) (k2 : k ≤ 0.0369559626268620120) (d0 : 0 < dlo) (d1 : dlo ≤ d) (d2 : d ≤ dhi)
    (h0 : 0 ≤ lo) (h1 : lo ^ 2 * dhi ≤ 1.9438445 ^ 2 * (2 * nbLoading * 0.696272591590843699)) (h3 : 0 ≤ hi)
    (h2 : 1.9438445 ^ 2 * (2 * nbLoading * 0.696272591590843702) ≤ hi ^ 2 * dlo) :
    lo ≤ mps2kts (√(2 / d * nbLoading * √(k / (3 * 0.02541)))) ∧ mps2kts (√(2 / d * nbLoading * √(k / (3 * 0.02541)))) ≤ hi := by
  have dp : 0 < d := lt_of_lt_of_le d0 d1
  have w0 : 0 < nbLoading := by norm_num [nbLoading, lbf2n, feet22m2]
  obtain ⟨s1, s2⟩ := sqrt_of (x := k / (3 * 0.02541)) (lo := 0.696272591590843699) (hi := 0.696272591590843702)
    (by rw [le_div_iff₀ (by norm_num)]; norm_num at *; linarith) (by norm_num) (by rw [div_le_iff₀ (by norm_num)]; norm_num at *; linarith)
  generalize √(k / (3 * 0.02541)) = s at *
  have s0 : 0 < s := lt_of_lt_of_le (by norm_num) s1
  have v0 : 0 ≤ mps2kts (√(2 / d * nbLoading * s)) := by unfold mps2kts; positivity
  have v2 : mps2kts (√(2 / d * nbLoading * s)) ^ 2 = 1.9438445 ^ 2 * (2 * nbLoading * s) / d := by
    unfold mps2kts
    rw [mul_pow, Real.sq_sqrt (by positivity)]
    ring
  constructor
  · refine (sq_le_sq₀ h0 v0).mp ?_
    rw [v2, le_div_iff₀ dp]
    calc lo ^ 2 * d ≤ lo ^ 2 * dhi := by gcongr
      _ ≤ _ := h1
      _ ≤ _ := by gcongr
  · refine (sq_le_sq₀ v0 h3).mp ?_
    rw [v2, div_le_iff₀ dp]
    calc 1.9438445 ^ 2 * (2 * nbLoading * s) ≤ 1.9438445 ^ 2 * (2 * nbLoading * 0.696272591590843702) := by gcongr
      _ ≤ _ := h2
      _ ≤ _ := by gcongr

/-- "The cruise and service ceiling constraints", lines 222-308: the best climb speeds of a small aeroplane at sea level and at 10000 ft, and
the latter as equivalent airspeed. -/
theorem C133_best_climb : ∃ r v₀ v₁ e, construct [] nbDesign nbPerf (some (.isa 0)) (.str "piston") = .ok r ∧
    bestclimbspeedprop r.concept (.scalar nbLoading) 0 = .ok (.scalar v₀) ∧
    bestclimbspeedprop r.concept (.scalar nbLoading) (feet2m 10000) = .ok (.scalar v₁) ∧
    tas2eas (.isa 0) (mps2kts v₁) (feet2m 10000) = .ok e ∧
    Prints (mps2kts v₀) 69.46745571797726 1e-13 ∧ Prints (mps2kts v₁) 80.83739117544877 1e-13 ∧ Prints e 69.46745571797726 1e-13 := by
  have ef : feet2m 10000 = 3048 := by norm_num [feet2m]
  obtain ⟨r, hb, ha, h1, h2, h3, h4, h5⟩ := nb_wing
  obtain ⟨k, hk, k1, k2⟩ := nb_factor h1 h3 h4 h5
  have k0 : 0 < k := lt_of_lt_of_le (by norm_num) k1
  have w0 : 0 < nbLoading := by norm_num [nbLoading, lbf2n, feet22m2]
  obtain ⟨a1, a2⟩ := nb_dens0
  obtain ⟨b1, b2⟩ := nb_dens3048
  have p0 : 0 < isadens 0 0 := lt_of_lt_of_le (by norm_num) a1
  have p1 : 0 < isadens 0 3048 := lt_of_lt_of_le (by norm_num) b1
  have best : ∀ h, h ≤ 50000 → bestclimbspeedprop r.concept (.scalar nbLoading) h =
      .ok (.scalar (√(2 / isadens 0 h * nbLoading * √(k / (3 * 0.02541))))) := by
    intro h hh
    unfold bestclimbspeedprop
    rw [hk, ha, isa_dens1 0 h hh, h2]
    rfl
  have c0 := nb_best k1 k2 (by norm_num) a1 a2 (lo := 69.46745571797722) (hi := 69.46745571797730) (by norm_num)
    (by norm_num [nbLoading, lbf2n, feet22m2]) (by norm_num) (by norm_num [nbLoading, lbf2n, feet22m2])
  have c1 := nb_best k1 k2 (by norm_num) b1 b2 (lo := 80.83739117544873) (hi := 80.83739117544881) (by norm_num)
    (by norm_num [nbLoading, lbf2n, feet22m2]) (by norm_num) (by norm_num [nbLoading, lbf2n, feet22m2])
  have dr := dratio_ok (isa_dens1 0 3048 (by norm_num)) (isa_dens1 0 0 (by norm_num)) p1 p0
  have eq : mps2kts (√(2 / isadens 0 3048 * nbLoading * √(k / (3 * 0.02541)))) * √(isadens 0 3048 / isadens 0 0) =
      mps2kts (√(2 / isadens 0 0 * nbLoading * √(k / (3 * 0.02541)))) := by
    unfold mps2kts
    rw [mul_right_comm, ← Real.sqrt_mul (by positivity)]
    congr 2
    field_simp
  refine ⟨r, _, _, _, hb, best 0 (by norm_num), by rw [ef]; exact best 3048 (by norm_num), ?_, prints_of c0 (by norm_num) (by norm_num),
    prints_of c1 (by norm_num) (by norm_num), prints_of c0 (by norm_num) (by norm_num)⟩
  rw [ef, ← eq]
  unfold Atmos.tas2eas
  rw [dr]
  rfl

/-- "The cruise and service ceiling constraints", lines 96-112: the brief of the cruise example. -/
def nbBrief : Dict := [("rwyelevation_m", .num 1000), ("groundrun_m", .num 1200), ("stloadfactor", .num 2), ("turnalt_m", .num 5000),
  ("turnspeed_ktas", .num 300), ("climbalt_m", .num 1000), ("climbspeed_ktas", .num 250), ("climbrate_fpm", .num 1000),
  ("cruisealt_m", .num 15000), ("cruisespeed_ktas", .num 445)]

/-- "The cruise and service ceiling constraints", lines 96-112: its design. -/
def nbDesign2 : Dict := [("aspectratio", .num 7.3), ("sweep_le_deg", .num 10), ("sweep_mt_deg", .num 8), ("bpr", .num 3.9), ("tr", .num 1.05),
  ("weightfractions", .sub [("turn", some 1), ("climb", some 1), ("cruise", some 0.85), ("servceil", some 0.85)])]

/-- "The cruise and service ceiling constraints", lines 96-112: its performance. -/
def nbPerf2 : Dict := [("CDTO", .num 0.04), ("CLTO", .num 0.9), ("CLmaxTO", .num 1.6), ("mu_R", .num 0.02), ("CDminclean", .num 0.02)]

/-- "The cruise and service ceiling constraints", lines 96-112: the brief gives the climb speed under the key `climbspeed_ktas`, which the code does not
read: it is accepted without complaint, and the climb requirement raises ValueError at any wing loading. -/
theorem C133_climb_key_violated (X : Ext) : ∃ r, construct nbBrief nbDesign2 nbPerf2 (some (.isa 0)) (.str "piston") = .ok r ∧
    ("climbspeed_ktas", .num 250) ∈ nbBrief ∧ ∀ w b, twrequired_clm X r.concept w b = .error .valueError := by
  obtain ⟨r, h, h1⟩ : ∃ r, construct nbBrief nbDesign2 nbPerf2 (some (.isa 0)) (.str "piston") = .ok r ∧ r.concept.climbspeed_kias = none := by
    apply Exists.intro; constructor
    · rfl
    · rfl
  refine ⟨r, h, by simp [nbBrief], fun w b => ?_⟩
  unfold twrequired_clm
  rw [h1]
  rfl

/-! ### Keane et al. -/

/-- "Example from Small Unmanned Fixed-wing Aircraft Design (Keane et al.)", lines 50-55: the brief. -/
def keaneBrief : Dict := [("rwyelevation_m", .num 0), ("groundrun_m", .num 60), ("stloadfactor", .num 1.41), ("turnalt_m", .num 0),
  ("turnspeed_ktas", .num 40), ("climbalt_m", .num 0), ("climbspeed_kias", .num 46.4), ("climbrate_fpm", .num 591), ("cruisealt_m", .num 122),
  ("cruisespeed_ktas", .num 58.3), ("cruisethrustfact", .num 1), ("servceil_m", .num 152), ("secclimbspd_kias", .num 40), ("vstallclean_kcas", .num 26.4)]

/-- "Example from Small Unmanned Fixed-wing Aircraft Design (Keane et al.)", lines 66, 87: the design. -/
def keaneDesign : Dict := [("aspectratio", .num 9), ("sweep_le_deg", .num 2), ("sweep_mt_deg", .num 0),
  ("weightfractions", .sub [("turn", some 1), ("climb", some 1), ("cruise", some 1), ("servceil", some 1)])]

/-- "Example from Small Unmanned Fixed-wing Aircraft Design (Keane et al.)", lines 103-106: the performance. -/
def keanePerf : Dict := [("CDTO", .num 0.0898), ("CLTO", .num 0.97), ("CLmaxTO", .num 1.7), ("CLmaxclean", .num 1), ("mu_R", .num 0.17),
  ("CDminclean", .num 0.0418), ("etaprop", .sub [("take-off", some 0.6), ("climb", some 0.6), ("cruise", some 0.6), ("turn", some 0.6), ("servceil", some 0.6)])]

/-- "Example from Small Unmanned Fixed-wing Aircraft Design (Keane et al.)", lines 275-295: the wing loading limit of the approach, scaled from
the clean stall. -/
theorem C133_stall : ∃ r ws, construct keaneBrief keaneDesign keanePerf (some (.isa 0)) (.str "piston") = .ok r ∧
    wsmaxcleanstall_pa r.concept = .ok ws ∧ Prints (ws / pyNum r.concept.clmaxclean * 1.3) 146.87035360551016 1e-12 := by
  obtain ⟨r, h, h1, h2, h3⟩ : ∃ r, construct keaneBrief keaneDesign keanePerf (some (.isa 0)) (.str "piston") = .ok r ∧
      r.concept.designatm = .isa 0 ∧ r.concept.clmaxclean = some 1 ∧ r.concept.vstallclean_kcas = some 26.4 := by
    apply Exists.intro; constructor
    · rfl
    · exact ⟨rfl, rfl, rfl⟩
  obtain ⟨a1, a2⟩ := nb_dens0
  have hw : wsmaxcleanstall_pa r.concept = .ok (0.5 * isadens 0 0 * (kts2mps 26.4) ^ 2 * 1) := by
    unfold wsmaxcleanstall_pa Atmos.dynamicpressure_pa
    rw [h2, h3, h1, isa_dens1 0 0 (by norm_num)]
    rfl
  refine ⟨r, _, h, hw, ?_⟩
  rw [h2, Prints, abs_le, kts2mps]
  simp only [pyNum, Option.getD_some]
  generalize isadens 0 0 = d at *
  norm_num at *
  constructor <;> linarith

/-! ### Engine decks -/

/-- "The Capabilities, Function and Use of Engine Decks in ADRpy", cell 20: the sea level thrust of the JT8D-9 at Mach 0.4. -/
theorem C133_thrust (d : JetDeck) (ha : d.avail.sl = true) (hp : d.slPoly = some docJt8dSl) :
    ∃ t, d.sl_thrust (.num 0.4) = .ok (some [t]) ∧ Prints t 39008.251058433016 1e-10 := by
  refine ⟨evalPoly docJt8dSl.1 0.4, ?_, ?_⟩
  · rw [JetDeck.sl_thrust, hp, ha]
    have e1 : pyIndex docJt8dSl.2 (-1) = .ok 0.98527989 := rfl
    have e2 : pyIndex docJt8dSl.2 0 = .ok 0 := rfl
    have e3 : getIdx docJt8dSl.2 1 = .ok 0.98527989 := rfl
    have e4 : getIdx docJt8dSl.2 0 = .ok 0 := rfl
    simp only [slQuery, polyQuery, e1, e2, e3, e4, bind_ok, if_neg (by norm_num : ¬ (0.98527989:ℝ) < 0.4),
      if_neg (by norm_num : ¬ (0.4:ℝ) < 0), if_false, Bool.true_eq_false]
    rfl
  · rw [Prints, abs_le]
    simp only [evalPoly, docJt8dSl, List.foldr]
    norm_num

example : ∃ t, (⟨⟨[], [], true, false⟩, none, none, some docJt8dSl, none⟩ : JetDeck).sl_thrust (.num 0.4) = .ok (some [t]) ∧
    Prints t 39008.251058433016 1e-10 :=
  C133_thrust _ rfl rfl

end

end Verif.Props
