import Verif.Lemmas.EnvelopeOk

/-
Gust loads (C57, C86) and design speeds (C58) of ADRpy/airworthiness.py.
-/

namespace Verif.Props
open Verif Verif.Aircraft Verif.Units Verif.Airworthiness

noncomputable section

/-! ### C57 -/

/-- CS 23.341(c): mass ratio for wing loading `w` (Pa), mean chord `c`, lift slope `a` at density `rho`. -/
def csMu (w rho c a : ℝ) : ℝ := 2 * w / (rho * c * a * 9.80665)

/-- CS 23.341(c): gust alleviation factor. -/
def csKg (mu : ℝ) : ℝ := 0.88 * mu / (5.3 + mu)

/-- CS 23.341(c): load factor increment of a gust `U` (m/s) at the equivalent airspeed `V` (m/s). -/
def csIncr (k rho0 U V a w : ℝ) : ℝ := k * rho0 * U * V * a / (2 * w)

/-- The gust velocities of CS 23.333(c), in m/s. -/
def csGustMps (g : Gust) (alt : ℝ) : ℝ := 0.3048 * (match g with
  | .Ub => csGust 66 38 (alt / 0.3048)
  | .Uc => csGust 50 25 (alt / 0.3048)
  | .Ud => csGust 25 12.5 (alt / 0.3048))

theorem csGustMps_pos (g : Gust) (alt : ℝ) : 0 < csGustMps g alt := by
  unfold csGustMps
  cases g
  · have := ((C56_shape 66 38 (by norm_num) (by norm_num)).1 (alt / 0.3048)).2.2
    positivity
  · have := ((C56_shape 50 25 (by norm_num) (by norm_num)).1 (alt / 0.3048)).2.2
    positivity
  · have := ((C56_shape 25 12.5 (by norm_num) (by norm_num)).1 (alt / 0.3048)).2.2
    positivity

theorem gustc_eq (alt : ℝ) : gustc_mps alt = csGustMps .Uc alt := by unfold gustc_mps csGustMps; rw [interp_gust]
theorem gustb_eq (alt : ℝ) : gustb_mps alt = csGustMps .Ub alt := by unfold gustb_mps csGustMps; rw [interp_gust]
theorem gustd_eq (alt : ℝ) : gustd_mps alt = csGustMps .Ud alt := by unfold gustd_mps csGustMps; rw [interp_gust]

theorem mem_gustList {alt : ℝ} {cat : Cat} {gu : Gust × ℝ} :
    gu ∈ gustList alt cat ↔ gu.2 = csGustMps gu.1 alt ∧ (gu.1 = .Ub → cat = .comm) := by
  obtain ⟨g, u⟩ := gu
  cases cat <;> cases g <;> simp [gustList, gustb_eq, gustc_eq, gustd_eq]

/-- Every load is that of CS 23.341 for its gust, but with the increment divided by the weight fraction once
more; each gust of the category with a speed has a load, and no other has. -/
theorem C57_formula (X : Ext) (o : Cert) (speeds : Gust → Option ℝ) (l : Cat → List GustLoad) (k a : ℝ)
    (h : paragraph341 X o speeds = .ok (l, k, a)) :
    ∃ rho W S rho0 smc, Atmos.dens1 o.acobj.designatm o.altitude_m = .ok rho ∧ Atmos.dens1 o.acobj.designatm 0 = .ok rho0 ∧
      o.acobj.weight_n = some W ∧ o.acobj.wingarea_m2 = some S ∧ (∃ mac, meanchord_m o = .ok (smc, mac)) ∧
      k = csKg (csMu (o.weightfraction * W / S) rho smc a) ∧
      (∀ cat g V, (g = .Ub → cat = .comm) → speeds g = some V → ∃ e ∈ l cat, e.gust = g) ∧
      ∀ cat, ∀ e ∈ l cat, ∃ V, speeds e.gust = some V ∧ (e.gust = .Ub → cat = .comm) ∧
        e.npos = 1 + csIncr k rho0 (csGustMps e.gust o.altitude_m) (0.5144444 * V) a (o.weightfraction * W / S) / o.weightfraction ∧
        e.npos + e.nneg = 2 := by
  obtain ⟨rho, vc, m, W, S, rho0, smc, hi, hl⟩ := paragraph341_ok h
  refine ⟨rho, W, S, rho0, smc, hi.dens, hi.dens0, hi.weight, hi.area, hi.chord, ?_, ?_, ?_⟩
  · rw [hi.allev]
    unfold k_gust mu_g csKg csMu gAcc
    rw [show W / S * o.weightfraction = o.weightfraction * W / S by ring]
  · intro cat g V hg hs
    refine ⟨loadOf k rho0 a (W / S * o.weightfraction) o.weightfraction (g, csGustMps g o.altitude_m) V, ?_, rfl⟩
    rw [hl, List.mem_filterMap]
    exact ⟨(g, csGustMps g o.altitude_m), mem_gustList.mpr ⟨rfl, hg⟩, by simp [hs]⟩
  · intro cat e he
    rw [hl, List.mem_filterMap] at he
    obtain ⟨gu, hg, he⟩ := he
    rw [mem_gustList] at hg
    cases hs : speeds gu.1 with
    | none => rw [hs] at he; cases he
    | some V =>
      rw [hs] at he
      injection he with he
      subst he
      refine ⟨V, hs, hg.2, ?_, by unfold loadOf; ring⟩
      show 1 + _ = 1 + _
      unfold gustIncrement csIncr kts2mps
      rw [hg.1]
      rw [show (loadOf k rho0 a (W / S * o.weightfraction) o.weightfraction gu V).gust = gu.1 from rfl, show W / S * o.weightfraction = o.weightfraction * W / S by ring, mul_comm V]

example (X : Ext) : ∃ l k a, paragraph341 X (exFly 10000 0.9 "util") (envSpeeds 100 120 170) = .ok (l, k, a) ∧
    ∃ e ∈ l .util, e.gust = .Uc := by
  obtain ⟨l, k, a, h⟩ := (exFly_ok X 10000 0.9 "util" (by norm_num) (by norm_num) ⟨.util, rfl⟩).gust (envSpeeds 100 120 170)
  obtain ⟨_, _, _, _, _, -, -, -, -, -, -, hm, -⟩ := C57_formula X _ _ l k a h
  exact ⟨l, k, a, h, hm .util .Uc 120 (by simp) rfl⟩

/-- The alleviation factor lies strictly between 0 and 0.88 and grows with the wing loading. -/
theorem C57_alleviation (w rho c a : ℝ) (hw : 0 < w) (hr : 0 < rho) (hc : 0 < c) (ha : 0 < a) :
    0 < csKg (csMu w rho c a) ∧ csKg (csMu w rho c a) < 0.88 ∧
    ∀ w', w < w' → csKg (csMu w rho c a) < csKg (csMu w' rho c a) := by
  have hk : ∀ w, 0 < w → 0 < csMu w rho c a := fun w hw => by unfold csMu; positivity
  have hm := hk w hw
  refine ⟨by unfold csKg; positivity, ?_, ?_⟩
  · unfold csKg
    rw [div_lt_iff₀ (by positivity)]
    norm_num
  · intro w' hww
    have hm' : csMu w rho c a < csMu w' rho c a := by
      unfold csMu
      apply div_lt_div_of_pos_right _ (by positivity)
      linarith
    unfold csKg
    rw [div_lt_div_iff₀ (by positivity) (by have := hk w' (by linarith); positivity)]
    norm_num
    nlinarith

example : csKg (csMu 800 1 1.2 5) < csKg (csMu 1000 1 1.2 5) :=
  (C57_alleviation 800 1 1.2 5 (by norm_num) (by norm_num) (by norm_num) (by norm_num)).2.2 1000 (by norm_num)

/-- The increment is proportional to the gust velocity and to the airspeed, and falls when the wing loading
grows, in spite of the growing alleviation factor. -/
theorem C57_increment (w w' rho rho0 c a U V : ℝ) (hw : 0 < w) (hww : w < w') (hr : 0 < rho) (hr0 : 0 < rho0) (hc : 0 < c)
    (ha : 0 < a) (hU : 0 < U) (hV : 0 < V) :
    csIncr (csKg (csMu w' rho c a)) rho0 U V a w' < csIncr (csKg (csMu w rho c a)) rho0 U V a w ∧
    0 < csIncr (csKg (csMu w' rho c a)) rho0 U V a w' ∧
    ∀ s t, csIncr (csKg (csMu w rho c a)) rho0 (s * U) (t * V) a w = s * t * csIncr (csKg (csMu w rho c a)) rho0 U V a w := by
  have hw' : 0 < w' := by linarith
  have e : ∀ w, 0 < w → csIncr (csKg (csMu w rho c a)) rho0 U V a w =
      0.88 * rho0 * U * V * a / (5.3 * (rho * c * a * 9.80665) + 2 * w) := by
    intro w hw
    have h1 : 0 < rho * c * a * 9.80665 := by positivity
    unfold csIncr csKg csMu
    obtain ⟨d, hd⟩ : ∃ d, d = rho * c * a * 9.80665 := ⟨_, rfl⟩
    rw [← hd] at h1 ⊢
    field_simp
  refine ⟨?_, ?_, ?_⟩
  · rw [e w hw, e w' hw']
    apply div_lt_div_of_pos_left <;> first | positivity | linarith
  · rw [e w' hw']; positivity
  · intro s t
    unfold csIncr; ring

example : csIncr (csKg (csMu 1000 1 1.2 5)) 1.2 15 60 5 1000 < csIncr (csKg (csMu 800 1 1.2 5)) 1.2 15 60 5 800 :=
  (C57_increment 800 1000 1 1.2 1.2 5 15 60 (by norm_num) (by norm_num) (by norm_num) (by norm_num) (by norm_num)
    (by norm_num) (by norm_num) (by norm_num)).1

/-- The same for the loads computed: raising only the weight lowers every positive load and raises every
negative one. -/
theorem C57_heavier (X : Ext) (o : Cert) (speeds : Gust → Option ℝ) (W W' : ℝ) (hW : o.acobj.weight_n = some W)
    (l l' : Cat → List GustLoad) (k k' a a' : ℝ) (h : paragraph341 X o speeds = .ok (l, k, a))
    (h' : paragraph341 X { o with acobj := { o.acobj with weight_n := some W' } } speeds = .ok (l', k', a'))
    (pW : 0 < W) (hWW : W < W') (S rho rho0 : ℝ) (hS : o.acobj.wingarea_m2 = some S) (pS : 0 < S)
    (hr : Atmos.dens1 o.acobj.designatm o.altitude_m = .ok rho) (pr : 0 < rho)
    (hr0 : Atmos.dens1 o.acobj.designatm 0 = .ok rho0) (pr0 : 0 < rho0) (pw : 0 < o.weightfraction)
    (pAR : 0 < pyNum o.acobj.aspectratio) (pa : 0 < a) (cat : Cat) (e e' : GustLoad) (he : e ∈ l cat) (he' : e' ∈ l' cat)
    (hg : e'.gust = e.gust) (V : ℝ) (hV : speeds e.gust = some V) (pV : 0 < V) :
    1 < e'.npos ∧ e'.npos < e.npos ∧ e.nneg < e'.nneg ∧ e'.nneg < 1 ∧ a' = a := by
  obtain ⟨rho1, W1, S1, rho01, smc, g1, g2, g3, g4, ⟨mac, g5⟩, hk, -, hf⟩ := C57_formula X o speeds l k a h
  obtain ⟨rho2, W2, S2, rho02, smc2, g1', g2', g3', g4', ⟨mac2, g5'⟩, hk', -, hf'⟩ := C57_formula X _ speeds l' k' a' h'
  rw [hr] at g1; cases g1
  rw [hr0] at g2; cases g2
  rw [hW] at g3; cases g3
  rw [hS] at g4; cases g4
  have g1'' : Atmos.dens1 o.acobj.designatm o.altitude_m = .ok rho2 := g1'
  rw [hr] at g1''; cases g1''
  have g2'' : Atmos.dens1 o.acobj.designatm 0 = .ok rho02 := g2'
  rw [hr0] at g2''; cases g2''
  have g3'' : some W' = some W2 := g3'
  cases g3''
  have g4'' : o.acobj.wingarea_m2 = some S2 := g4'
  rw [hS] at g4''; cases g4''
  have g5'' : meanchord_m o = .ok (smc2, mac2) := g5'
  rw [g5] at g5''; cases g5''
  have ea : a' = a := by
    obtain ⟨r1, v1, m1, w1, s1, d1, c1, hi, -⟩ := paragraph341_ok h
    obtain ⟨r2, v2, m2, w2, s2, d2, c2, hi', -⟩ := paragraph341_ok h'
    have f1 : Atmos.dens1 o.acobj.designatm o.altitude_m = .ok r2 := hi'.dens
    have f2 : o.cruisespeed_keas = some v2 := hi'.cruise
    have f3 : Atmos.mach1 o.acobj.designatm (kts2mps (Units.eas2tas v2 r2)) o.altitude_m = .ok m2 := hi'.mach
    have f4 : liftslope_prad X o.acobj (some m2) = .ok a' := hi'.slope
    rw [hi.dens] at f1; cases f1
    rw [hi.cruise] at f2; cases f2
    rw [hi.mach] at f3; cases f3
    rw [hi.slope] at f4; cases f4
    rfl
  subst ea
  have hsmc : 0 < smc := by
    unfold meanchord_m at g5
    simp only [bind_ok_iff, mathSqrt_ok] at g5
    obtain ⟨_, ⟨-, rfl⟩, _, -, g5⟩ := g5
    cases g5
    rw [hS]
    show 0 < √(S / _)
    positivity
  obtain ⟨V1, hV1, -, en, es⟩ := hf cat e he
  obtain ⟨V2, hV2, -, en', es'⟩ := hf' cat e' he'
  rw [hV] at hV1; cases hV1
  rw [hg, hV] at hV2; cases hV2
  have hU := csGustMps_pos e.gust o.altitude_m
  obtain ⟨i1, i2, -⟩ := C57_increment (o.weightfraction * W / S) (o.weightfraction * W' / S) rho rho0 smc a'
    (csGustMps e.gust o.altitude_m) (0.5144444 * V) (by positivity)
    (by apply div_lt_div_of_pos_right _ pS; exact mul_lt_mul_of_pos_left hWW pw) pr pr0 hsmc pa hU (by positivity)
  rw [← hk] at i1
  have ek : k' = csKg (csMu (o.weightfraction * W' / S) rho smc a') := hk'
  rw [← ek] at i1 i2
  have en'' : e'.npos = 1 + csIncr k' rho0 (csGustMps e.gust o.altitude_m) (0.5144444 * V) a' (o.weightfraction * W' / S) / o.weightfraction := by
    rw [en', hg]
  have i3 := div_lt_div_of_pos_right i1 pw
  have i4 := div_pos i2 pw
  refine ⟨by linarith, by linarith, by linarith, by linarith, rfl⟩

/-- The light aircraft at two weights meets the hypotheses. -/
example (X : Ext) : ∃ l l' k k' a a', paragraph341 X (exFly 10000 0.9 "util") (envSpeeds 100 120 170) = .ok (l, k, a) ∧
    paragraph341 X { exFly 10000 0.9 "util" with acobj := { (exFly 10000 0.9 "util").acobj with weight_n := some 12000 } }
      (envSpeeds 100 120 170) = .ok (l', k', a') ∧ 0 < a ∧ k < 0.88 ∧
    ∃ e ∈ l .util, ∃ e' ∈ l' .util, e.gust = .Uc ∧ e'.gust = .Uc ∧ e'.npos < e.npos := by
  have f := exFly_ok X 10000 0.9 "util" (by norm_num) (by norm_num) ⟨.util, rfl⟩
  have f' := exFly_ok X 12000 0.9 "util" (by norm_num) (by norm_num) ⟨.util, rfl⟩
  obtain ⟨l, k, a, h⟩ := f.gust (envSpeeds 100 120 170)
  obtain ⟨l', k', a', h'⟩ := f'.gust (envSpeeds 100 120 170)
  obtain ⟨rho, vc, m, W, S, rho0, smc, hi, -⟩ := paragraph341_ok h
  obtain ⟨pr, -, rfl, rfl, pa, pr0, ps, pk⟩ := f.alleviation hi
  obtain ⟨_, _, _, _, _, -, -, -, -, -, -, hm, -⟩ := C57_formula X _ _ l k a h
  obtain ⟨_, _, _, _, _, -, -, -, -, -, -, hm', -⟩ := C57_formula X _ _ l' k' a' h'
  obtain ⟨e, he, hg⟩ := hm .util .Uc 120 (by simp) rfl
  obtain ⟨e', he', hg'⟩ := hm' .util .Uc 120 (by simp) rfl
  have hw := C57_heavier X (exFly 10000 0.9 "util") (envSpeeds 100 120 170) 10000 12000 rfl l l' k k' a a' h h' (by norm_num) (by norm_num)
    12 rho rho0 rfl (by norm_num) hi.dens pr hi.dens0 pr0 f.wf f.ar pa .util e e' he he' (by rw [hg, hg']) 120 (by rw [hg]; rfl) (by norm_num)
  refine ⟨l, l', k, k', a, a', h, h', pa, ?_, e, he, e', he', hg, hg', hw.2.1⟩
  rw [hi.allev]
  exact (C57_alleviation (10000 / 12 * 0.9) rho smc a (by norm_num) pr ps pa).2.1

/-! ### C86 -/

/-- The gust load is that of CS 23.341 for the actual weight only when the weight fraction is 1; for a
fraction below 1 every positive load is overstated and every negative one understated. -/
theorem C86_formula_violated (X : Ext) (o : Cert) (speeds : Gust → Option ℝ) (l : Cat → List GustLoad) (k a W S rho rho0 : ℝ)
    (h : paragraph341 X o speeds = .ok (l, k, a)) (hW : o.acobj.weight_n = some W) (pW : 0 < W)
    (hS : o.acobj.wingarea_m2 = some S) (pS : 0 < S)
    (hr : Atmos.dens1 o.acobj.designatm o.altitude_m = .ok rho) (pr : 0 < rho)
    (hr0 : Atmos.dens1 o.acobj.designatm 0 = .ok rho0) (pr0 : 0 < rho0) (pw : 0 < o.weightfraction)
    (pAR : 0 < pyNum o.acobj.aspectratio) (pa : 0 < a) (cat : Cat) (e : GustLoad) (he : e ∈ l cat)
    (V : ℝ) (hV : speeds e.gust = some V) (pV : 0 < V) :
    (e.npos = 1 + csIncr k rho0 (csGustMps e.gust o.altitude_m) (0.5144444 * V) a (o.weightfraction * W / S) ↔ o.weightfraction = 1) ∧
    (o.weightfraction < 1 →
      1 + csIncr k rho0 (csGustMps e.gust o.altitude_m) (0.5144444 * V) a (o.weightfraction * W / S) < e.npos ∧
      e.nneg < 1 - csIncr k rho0 (csGustMps e.gust o.altitude_m) (0.5144444 * V) a (o.weightfraction * W / S)) := by
  obtain ⟨rho1, W1, S1, rho01, smc, g1, g2, g3, g4, ⟨mac, g5⟩, hk, -, hf⟩ := C57_formula X o speeds l k a h
  rw [hr] at g1; cases g1
  rw [hr0] at g2; cases g2
  rw [hW] at g3; cases g3
  rw [hS] at g4; cases g4
  have hsmc : 0 < smc := by
    unfold meanchord_m at g5
    simp only [bind_ok_iff, mathSqrt_ok] at g5
    obtain ⟨_, ⟨-, rfl⟩, _, -, g5⟩ := g5
    cases g5
    rw [hS]
    show 0 < √(S / _)
    positivity
  obtain ⟨V1, hV1, -, en, es⟩ := hf cat e he
  rw [hV] at hV1; cases hV1
  have hU := csGustMps_pos e.gust o.altitude_m
  have hk0 := (C57_alleviation (o.weightfraction * W / S) rho smc a (by positivity) pr hsmc pa).1
  rw [← hk] at hk0
  obtain ⟨q, hq⟩ : ∃ q, q = csIncr k rho0 (csGustMps e.gust o.altitude_m) (0.5144444 * V) a (o.weightfraction * W / S) := ⟨_, rfl⟩
  have pq : 0 < q := by rw [hq]; unfold csIncr; positivity
  rw [← hq] at en ⊢
  constructor
  · rw [en]
    constructor
    · intro h1
      have h2 : q / o.weightfraction = q := by linarith
      rw [div_eq_iff pw.ne'] at h2
      nlinarith
    · intro h1; rw [h1, div_one]
  · intro h1
    have h2 : q < q / o.weightfraction := by rw [lt_div_iff₀ pw]; nlinarith
    constructor <;> linarith

/-- The light aircraft at nine tenths of its weight is such a case. -/
example (X : Ext) : ∃ l k a, paragraph341 X (exFly 10000 0.9 "norm") (envSpeeds 100 120 170) = .ok (l, k, a) ∧
    ∃ e ∈ l .norm, e.gust = .Ud ∧
      e.npos ≠ 1 + csIncr k 1 (csGustMps .Ud 2000) (0.5144444 * 170) a (0.9 * 10000 / 12) := by
  have f := exFly_ok X 10000 0.9 "norm" (by norm_num) (by norm_num) ⟨.norm, rfl⟩
  obtain ⟨l, k, a, h⟩ := f.gust (envSpeeds 100 120 170)
  obtain ⟨rho, vc, m, W, S, rho0, smc, hi, -⟩ := paragraph341_ok h
  obtain ⟨pr, -, rfl, rfl, pa, pr0, ps, pk⟩ := f.alleviation hi
  obtain ⟨_, _, _, _, _, -, -, -, -, -, -, hm, -⟩ := C57_formula X _ _ l k a h
  obtain ⟨e, he, hg⟩ := hm .norm .Ud 170 (by simp) rfl
  have hd0 : Atmos.dens1 (exFly 10000 0.9 "norm").acobj.designatm 0 = .ok 1 := exAtm_dens 0 (by norm_num) (by norm_num)
  have := (C86_formula_violated X _ _ l k a 10000 12 rho 1 h rfl (by norm_num) rfl (by norm_num) hi.dens pr hd0 one_pos f.wf f.ar pa
    .norm e he 170 (by rw [hg]; rfl) (by norm_num)).1
  refine ⟨l, k, a, h, e, he, hg, fun h1 => ?_⟩
  rw [hg] at this
  have h2 : (0.9 : ℝ) = 1 := this.mp h1
  norm_num at h2

/-! ### C58 -/

/-- The factor of CS 23.335(a)(1): `hi` up to a wing loading of 20 lbf/ft², falling linearly to `lo` at 100. -/
def csFactor (hi lo wl : ℝ) : ℝ := if wl ≤ 20 then hi else if wl ≤ 100 then hi - (hi - lo) * (wl - 20) / 80 else lo

theorem interp_factor (wl hi lo : ℝ) : npInterp2 wl 20 100 hi lo = csFactor hi lo wl := by
  unfold npInterp2 csFactor
  split
  · rfl
  · split
    · split
      · have : wl = 100 := by linarith
        rw [this]; ring
      · rfl
    · rw [if_pos (by linarith)]; ring

theorem csFactor_ge (hi lo wl : ℝ) (h : lo ≤ hi) : lo ≤ csFactor hi lo wl := by
  unfold csFactor
  split
  · exact h
  · split
    · have h3 : (wl - 20) / 80 ≤ 1 := by rw [div_le_one (by norm_num)]; linarith
      rw [mul_div_assoc]
      nlinarith
    · exact le_rfl

/-- CS 23.335(a)(1): least cruise speed for a wing loading in lbf/ft². -/
def csVcMin (cat : Cat) (wl : ℝ) : ℝ := csFactor (if cat = .aero then 36 else 33) 28.6 wl * √wl

/-- CS 23.335(b)(2): least ratio of dive to least cruise speed. -/
def csVdFactor (cat : Cat) : ℝ := match cat with
  | .util => 1.5
  | .aero => 1.55
  | _ => 1.4

theorem vcmin_eq (wl : ℝ) (cat : Cat) : vcmin_keas wl cat = csVcMin cat wl := by
  cases cat <;> simp [vcmin_keas, csVcMin, interp_factor]

theorem csVcMin_nonneg (cat : Cat) (wl : ℝ) : 0 ≤ csVcMin cat wl := by
  unfold csVcMin
  apply mul_nonneg _ (Real.sqrt_nonneg _)
  split <;> exact le_trans (by norm_num) (csFactor_ge _ _ _ (by norm_num))

theorem vdmin_eq (vc wl : ℝ) (cat : Cat) :
    vdmin_keas vc wl cat = max (1.25 * vc) (csFactor (csVdFactor cat) 1.35 wl * csVcMin cat wl) := by
  cases cat <;> simp [vdmin_keas, csVdFactor, interp_factor, vcmin_eq]

/-- The cruise speed used is at least the regulatory minimum and the user's; the dive speed used is at least
1.25 times the cruise speed used, at least the regulatory minimum and at least the user's. -/
theorem C58_speeds (X : Ext) (o : Cert) (E : Envelope) (h : flightenvelope X o = .ok E) :
    ∃ cat vc0 W S, parseCat o.category = .ok cat ∧ o.cruisespeed_keas = some vc0 ∧ o.acobj.weight_n = some W ∧
      o.acobj.wingarea_m2 = some S ∧
      csVcMin cat (W / S * 0.020885434273039) ≤ E.vc ∧ vc0 ≤ E.vc ∧
      (E.vc = csVcMin cat (W / S * 0.020885434273039) ∨ E.vc = vc0) ∧
      1.25 * E.vc ≤ E.vd ∧
      csFactor (csVdFactor cat) 1.35 (W / S * 0.020885434273039) * csVcMin cat (W / S * 0.020885434273039) ≤ E.vd ∧
      (∀ v, o.divespeed_keas = some v → v ≤ E.vd) := by
  obtain ⟨cat, rho, vc0, m, W, S, a, rho0, smc, k, clmax, clmin, npos, nnegC, nnegD, e⟩ := flightenvelope_ok h
  refine ⟨cat, vc0, W, S, e.hcat, e.gin.cruise, e.gin.weight, e.gin.area, ?_⟩
  have hvc := e.vc
  have hvd := e.vd
  rw [vdmin_eq] at hvd
  rw [vcmin_eq] at hvc
  unfold pa2lbfft2 at hvc hvd
  obtain ⟨wl, hwl⟩ : ∃ wl, wl = W / S * 0.020885434273039 := ⟨_, rfl⟩
  rw [← hwl] at hvc hvd ⊢
  have h0 := csVcMin_nonneg cat wl
  have hf : (1.35 : ℝ) ≤ csFactor (csVdFactor cat) 1.35 wl :=
    csFactor_ge _ _ _ (by cases cat <;> norm_num [csVdFactor])
  obtain ⟨d, hd⟩ : ∃ d, d = max (1.25 * vc0) (csFactor (csVdFactor cat) 1.35 wl * csVcMin cat wl) := ⟨_, rfl⟩
  rw [← hd] at hvd
  have h1 : 1.25 * vc0 ≤ d := by rw [hd]; exact le_max_left _ _
  have h2 : csFactor (csVdFactor cat) 1.35 wl * csVcMin cat wl ≤ d := by rw [hd]; exact le_max_right _ _
  have h3 : d ≤ E.vd := by
    rw [hvd]
    split
    · exact le_rfl
    · exact le_max_right _ _
  refine ⟨by rw [hvc]; exact le_max_right _ _, by rw [hvc]; exact le_max_left _ _, ?_, ?_, by linarith, ?_⟩
  · rw [hvc]
    exact (max_choice vc0 _).symm
  · rw [hvc, mul_max_of_nonneg _ _ (by norm_num)]
    apply max_le (by linarith)
    have : 1.25 * csVcMin cat wl ≤ csFactor (csVdFactor cat) 1.35 wl * csVcMin cat wl := by
      apply mul_le_mul_of_nonneg_right _ h0
      norm_num at hf ⊢; linarith
    linarith
  · intro v hv
    rw [hvd, hv]
    exact le_max_left _ _

/-- Both speeds of the light aircraft are raised: to the regulatory minimum and to 1.5 times that. -/
example (X : Ext) : ∃ E, flightenvelope X (exFly 10000 0.9 "util") = .ok E ∧ 120 < E.vc ∧ 170 < E.vd := by
  have f := exFly_ok X 10000 0.9 "util" (by norm_num) (by norm_num) ⟨.util, rfl⟩
  obtain ⟨E, hE⟩ := f.envelope
  refine ⟨E, hE, ?_⟩
  obtain ⟨cat, vc0, W, S, h1, -, h2, h3, h4, -, -, -, h5, -⟩ := C58_speeds X _ E hE
  cases h1
  have h2' : some (10000:ℝ) = some W := h2
  have h3' : some (12:ℝ) = some S := h3
  cases h2'; cases h3'
  have e : (4:ℝ) ≤ √(10000 / 12 * 0.020885434273039) := by apply Real.le_sqrt_of_sq_le; norm_num
  have e1 : csVcMin .util (10000 / 12 * 0.020885434273039) = 33 * √(10000 / 12 * 0.020885434273039) := by
    unfold csVcMin csFactor
    rw [if_pos (by norm_num)]; simp
  have e2 : csFactor (csVdFactor .util) 1.35 (10000 / 12 * 0.020885434273039) = 1.5 := by
    unfold csFactor
    rw [if_pos (by norm_num)]; rfl
  rw [e1] at h4 h5
  rw [e2] at h5
  norm_num at h4 h5 e ⊢
  constructor <;> linarith

end

end Verif.Props
