import Verif.Model.EnvelopePlot
import Verif.Props.Airworthiness3
import Verif.Props.Propeller

/-
C112: the drawing of the V-n diagram (ADRpy/airworthiness.py:755-886).
-/

namespace Verif.Props
open Verif Verif.Aircraft Verif.Units Verif.Airworthiness

noncomputable section

/-! ### What is drawn -/

/-- The gust loads of the diagram. -/
def envLoads (o : Cert) (E : Envelope) (cat : Cat) (k rho0 a tl : ℝ) : List GustLoad :=
  (gustList o.altitude_m cat).map (fun gu => loadOf k rho0 a tl o.weightfraction gu (E.gustKeas gu.1))

/-- The annotation of a gust line, when the gust speed is known. -/
def noteOf (E : Envelope) (gu : Gust × ℝ) (n : ℝ) : Option (ℝ × (ℝ × ℝ)) :=
  if n ≥ 1 then some (Propulsion.roundDp 2 gu.2, (0.15 * E.gustKeas gu.1, 0.15 * (n - 1) + 1)) else none

theorem mapM_notes {E : Envelope} {gusts : List (Gust × ℝ)} {f : Gust × ℝ → GustLoad} (hf : ∀ gu, (f gu).gust = gu.1) :
    ∀ (l : List (Gust × ℝ)), (∀ gu ∈ l, gustSpeed gusts gu.1 = .ok gu.2) →
      ((l.map f).flatMap (gustEnds E)).mapM (gustNote gusts) =
        .ok (l.flatMap (fun gu => [noteOf E gu (f gu).npos, noteOf E gu (f gu).nneg])) := by
  intro l
  induction l with
  | nil => intro _; rfl
  | cons gu l ih =>
    intro h
    have h1 := h gu (by simp)
    have h2 := ih (fun g hg => h g (by simp [hg]))
    have n1 : ∀ n, gustNote gusts ((f gu).gust, ((0, 1), (E.gustKeas (f gu).gust, n))) = .ok (noteOf E gu n) := by
      intro n
      unfold gustNote noteOf
      rw [hf, h1]
      simp only [bind_ok]
      rfl
    rw [List.map_cons, List.flatMap_cons, List.flatMap_cons]
    show List.mapM _ (_ :: _ :: _) = _
    rw [List.mapM_cons, List.mapM_cons, n1, n1, bind_ok, bind_ok]
    erw [h2]
    rfl

theorem gustSpeed_self (alt : ℝ) (cat : Cat) : ∀ gu ∈ gustList alt cat, gustSpeed (gustList alt cat) gu.1 = .ok gu.2 := by
  intro gu h
  cases cat
  case comm =>
    simp only [gustList, List.mem_cons, List.not_mem_nil, or_false] at h
    rcases h with rfl | rfl | rfl <;> simp [gustSpeed, gustList]
  all_goals
    simp only [gustList, List.mem_cons, List.not_mem_nil, or_false] at h
    rcases h with rfl | rfl <;> simp [gustSpeed, gustList]

/-- The loads of the point with a given letter. -/
theorem poi_loads {X : Ext} {o : Cert} {E : Envelope} {cat : Cat} {rho vc0 m W S a rho0 smc k clmax clmin npos nnegC nnegD : ℝ}
    (e : EnvOf X o E cat rho vc0 m W S a rho0 smc k clmax clmin npos nnegC nnegD) :
    poiY E.poi "C" = .ok (lastY E.sc) ∧ poiY E.poi "D" = .ok (lastY E.cd) ∧ poiY E.poi "E" = .ok E.e.2 ∧
      poiY E.poi "F" = .ok (lastY E.ef) ∧ poiY E.poi "G" = .ok (firstY E.go) := by
  rw [e.poi]
  by_cases hb : E.vb > E.vc
  · rw [if_pos hb]
    refine ⟨?_, ?_, ?_, ?_, ?_⟩ <;> simp [poiY]
  · rw [if_neg hb]
    refine ⟨?_, ?_, ?_, ?_, ?_⟩ <;> simp [poiY]

theorem vnPlot_eq {X : Ext} {o : Cert} {E : Envelope} {cat : Cat} {rho vc0 m W S a rho0 smc k clmax clmin npos nnegC nnegD : ℝ}
    (h : flightenvelope X o = .ok E)
    (e : EnvOf X o E cat rho vc0 m W S a rho0 smc k clmax clmin npos nnegC nnegD) :
    vnPlot X o = .ok
      { gustLines := ((envLoads o E cat k rho0 a (W / S * o.weightfraction)).flatMap (gustEnds E)).map (fun l => extendLine l.2),
        notes := ((gustList o.altitude_m cat).flatMap (fun gu =>
          [noteOf E gu (loadOf k rho0 a (W / S * o.weightfraction) o.weightfraction gu (E.gustKeas gu.1)).npos,
           noteOf E gu (loadOf k rho0 a (W / S * o.weightfraction) o.weightfraction gu (E.gustKeas gu.1)).nneg])).filterMap id,
        outline := envOutline E o.weightfraction,
        manoeuvre := manOutline E ⟨npos, nnegC, nnegD⟩ (W / S) (W / S * o.weightfraction),
        marks := E.poi.map (fun p => (p.1, poiColour p.1, p.2)),
        legend := E.poi.map (fun p => (p.1, (Propulsion.roundDp 1 p.2.1, Propulsion.roundDp 2 p.2.2))),
        xlim := (0, 1.1 * E.vd),
        ylim := (1.3 * min (min E.e.2 (lastY E.ef)) (firstY E.go),
          1.3 * max (max (1 + gustIncrement k rho0 (vbGust o.altitude_m cat) (kts2mps (if cat = .comm then E.vb else E.vc)) a
            (W / S * o.weightfraction) o.weightfraction) (lastY E.sc)) (lastY E.cd)) } := by
  obtain ⟨l, hl, hn, hn2⟩ := e.limits
  obtain ⟨M, hM, hMc⟩ : ∃ M, paragraph333 o = .ok (M, gustList o.altitude_m) ∧ M cat = ⟨npos, nnegC, nnegD⟩ := by
    unfold paragraph333; rw [hl]
    refine ⟨_, rfl, ?_⟩
    rw [e.nneg, hn, hn2]
    cases cat <;> rfl
  obtain ⟨L, h341, hL⟩ : ∃ L, paragraph341 X o (fun g => some (E.gustKeas g)) = .ok (L, k, a) ∧
      L cat = envLoads o E cat k rho0 a (W / S * o.weightfraction) := by
    obtain ⟨mac, hm⟩ := e.gin.chord
    unfold paragraph341
    simp only [e.gin.dens, e.gin.cruise, need, bind_ok, e.gin.mach, e.gin.weight, e.gin.area, e.gin.slope, e.gin.dens0, hM, hm]
    refine ⟨_, by rw [e.gin.allev]; rfl, ?_⟩
    unfold envLoads
    rw [e.gin.allev]
    cases cat <;> rfl
  obtain ⟨p1, p2, p3, p4, p5⟩ := poi_loads e
  have hf : firstLoad (L cat) = .ok (1 + gustIncrement k rho0 (vbGust o.altitude_m cat) (kts2mps (if cat = .comm then E.vb else E.vc)) a
            (W / S * o.weightfraction) o.weightfraction) := by
    rw [hL]
    cases cat <;> rfl
  have hnote : (((L cat).flatMap (gustEnds E)).mapM (gustNote (gustList o.altitude_m cat))) = .ok
      ((gustList o.altitude_m cat).flatMap (fun gu =>
          [noteOf E gu (loadOf k rho0 a (W / S * o.weightfraction) o.weightfraction gu (E.gustKeas gu.1)).npos,
           noteOf E gu (loadOf k rho0 a (W / S * o.weightfraction) o.weightfraction gu (E.gustKeas gu.1)).nneg])) := by
    rw [hL]
    exact mapM_notes (fun _ => rfl) _ (gustSpeed_self _ _)
  rw [hL] at hf hnote
  unfold vnPlot
  simp only [h, e.hcat, e.gin.weight, e.gin.area, need, bind_ok, hM, h341, hf, p1, p2, p3, p4, p5, hnote, hMc, hL]
  rfl

theorem vnPlot_ok {X : Ext} {o : Cert} {P : VnPlot} (h : vnPlot X o = .ok P) : ∃ E, flightenvelope X o = .ok E := by
  unfold vnPlot at h
  simp only [bind_ok_iff] at h
  obtain ⟨E, hE, -⟩ := h
  exact ⟨E, hE⟩

/-! ### Gust lines -/

/-- The point lies on the straight line between two points. -/
def OnSeg (s : (ℝ × ℝ) × (ℝ × ℝ)) (p : ℝ × ℝ) : Prop :=
  ∃ t : ℝ, 0 ≤ t ∧ t ≤ 1 ∧ p = (s.1.1 + t * (s.2.1 - s.1.1), s.1.2 + t * (s.2.2 - s.1.2))

/-- CS 23.333(c): the gusts of a category. -/
def csGusts (cat : Cat) : List Gust := if cat = .comm then [.Ub, .Uc, .Ud] else [.Uc, .Ud]

/-- CS 23.333(c): the design speed of a gust: V_B, V_C, V_D. -/
def designSpeed (E : Envelope) (g : Gust) : ℝ := match g with
  | .Ub => E.vb
  | .Uc => E.vc
  | .Ud => E.vd

theorem gustList_eq (alt : ℝ) (cat : Cat) : gustList alt cat = (csGusts cat).map (fun g => (g, csGustMps g alt)) := by
  cases cat <;> simp [gustList, csGusts, gustb_eq, gustc_eq, gustd_eq]

theorem pairs_get {α β : Type} (f g : α → β) : ∀ (l : List α), (l.flatMap (fun x => [f x, g x])).length = 2 * l.length ∧
    ∀ (i : ℕ) (x : α), l[i]? = some x → (l.flatMap (fun x => [f x, g x]))[2 * i]? = some (f x) ∧
      (l.flatMap (fun x => [f x, g x]))[2 * i + 1]? = some (g x) := by
  intro l
  induction l with
  | nil => exact ⟨rfl, fun i x h => by simp at h⟩
  | cons y l ih =>
    refine ⟨by simp [ih.1]; ring, fun i x h => ?_⟩
    rw [List.flatMap_cons]
    cases i with
    | zero => simp at h; subst h; simp
    | succ i =>
      have := ih.2 i x (by simpa using h)
      rw [show 2 * (i + 1) = (2 * i + 1) + 1 by ring]
      exact this

theorem on_seg (V q v : ℝ) (h0 : 0 ≤ v) (h1 : v ≤ V * 5) : OnSeg ((0, 1), (V * 5, (1 + q * V - 1) * 5 + 1)) (v, 1 + q * v) := by
  rcases eq_or_lt_of_le (le_trans h0 h1) with h | h
  · have : v = 0 := le_antisymm (by linarith) h0
    subst this
    exact ⟨0, le_rfl, zero_le_one, by simp⟩
  · refine ⟨v / (V * 5), by positivity, by rw [div_le_one h]; exact h1, ?_⟩
    have hV : V ≠ 0 := by rintro rfl; simp at h
    ext
    · dsimp only; field_simp; ring
    · dsimp only; field_simp; ring

/-- The lines as pairs, one pair per gust. -/
theorem gustLines_pairs (o : Cert) (E : Envelope) (cat : Cat) (k rho0 a tl : ℝ) :
    ((envLoads o E cat k rho0 a tl).flatMap (gustEnds E)).map (fun l => extendLine l.2) =
      (csGusts cat).flatMap (fun g =>
        [((0, 1), (designSpeed E g * 5, (1 + gustIncrement k rho0 (csGustMps g o.altitude_m) (kts2mps (designSpeed E g)) a tl o.weightfraction - 1) * 5 + 1)),
         ((0, 1), (designSpeed E g * 5, (1 - gustIncrement k rho0 (csGustMps g o.altitude_m) (kts2mps (designSpeed E g)) a tl o.weightfraction - 1) * 5 + 1))]) := by
  unfold envLoads
  rw [gustList_eq]
  cases cat <;> rfl

theorem incr_linear (k rho0 U V a w wf : ℝ) :
    gustIncrement k rho0 U (kts2mps V) a w wf = k * rho0 * U * 0.5144444 * a / (2 * w) / wf * V := by
  unfold gustIncrement kts2mps; ring

/-- The drawing exists whenever the envelope does. It has two lines per gust of the category: at every speed from zero to
five times the design speed of the gust they show the loads of the rising and of the sinking gust (with the division by
the weight fraction of C86). -/
theorem C112_gusts (X : Ext) (o : Cert) (E : Envelope) (W S rho0 : ℝ) (h : flightenvelope X o = .ok E)
    (hW : o.acobj.weight_n = some W) (hS : o.acobj.wingarea_m2 = some S) (hr : Atmos.dens1 o.acobj.designatm 0 = .ok rho0) :
    ∃ cat P k a l, parseCat o.category = .ok cat ∧ vnPlot X o = .ok P ∧ paragraph341 X o (fun _ => none) = .ok (l, k, a) ∧
      P.gustLines.length = 2 * (csGusts cat).length ∧
      ∀ (i : ℕ) (g : Gust), (csGusts cat)[i]? = some g → ∃ up dn, P.gustLines[2 * i]? = some up ∧ P.gustLines[2 * i + 1]? = some dn ∧
        ∀ v, 0 ≤ v → v ≤ 5 * designSpeed E g →
          OnSeg up (v, 1 + csIncr k rho0 (csGustMps g o.altitude_m) (0.5144444 * v) a (o.weightfraction * W / S) / o.weightfraction) ∧
          OnSeg dn (v, 1 - csIncr k rho0 (csGustMps g o.altitude_m) (0.5144444 * v) a (o.weightfraction * W / S) / o.weightfraction) := by
  obtain ⟨cat, rho, vc0, m, W', S', a, rho0', smc, k, clmax', clmin, npos, nnegC, nnegD, e⟩ := flightenvelope_ok h
  have e1 := e.gin.weight; rw [hW] at e1; cases e1
  have e1 := e.gin.area; rw [hS] at e1; cases e1
  have e1 := e.gin.dens0; rw [hr] at e1; cases e1
  have h341 : ∃ l, paragraph341 X o (fun _ => none) = .ok (l, k, a) := by
    obtain ⟨mac, hm⟩ := e.gin.chord
    obtain ⟨lim, hl, -, -⟩ := e.limits
    unfold paragraph341
    simp only [e.gin.dens, e.gin.cruise, need, bind_ok, e.gin.mach, hW, hS, e.gin.slope, hr, paragraph333, hl, hm]
    rw [e.gin.allev]
    exact ⟨_, rfl⟩
  obtain ⟨l, h341⟩ := h341
  refine ⟨cat, _, k, a, l, e.hcat, vnPlot_eq h e, h341, ?_⟩
  dsimp only
  rw [gustLines_pairs]
  obtain ⟨q1, q2⟩ := pairs_get
    (fun g => (((0:ℝ), (1:ℝ)), (designSpeed E g * 5, (1 + gustIncrement k rho0 (csGustMps g o.altitude_m) (kts2mps (designSpeed E g)) a (W / S * o.weightfraction) o.weightfraction - 1) * 5 + 1)))
    (fun g => (((0:ℝ), (1:ℝ)), (designSpeed E g * 5, (1 - gustIncrement k rho0 (csGustMps g o.altitude_m) (kts2mps (designSpeed E g)) a (W / S * o.weightfraction) o.weightfraction - 1) * 5 + 1)))
    (csGusts cat)
  refine ⟨q1, fun i g hg => ⟨_, _, (q2 i g hg).1, (q2 i g hg).2, fun v h0 h1 => ?_⟩⟩
  rw [incr_linear]
  have hc : ∀ v : ℝ, csIncr k rho0 (csGustMps g o.altitude_m) (0.5144444 * v) a (o.weightfraction * W / S) / o.weightfraction =
      k * rho0 * csGustMps g o.altitude_m * 0.5144444 * a / (2 * (W / S * o.weightfraction)) / o.weightfraction * v := by
    intro v
    unfold csIncr
    rw [show o.weightfraction * W / S = W / S * o.weightfraction by ring]
    ring
  rw [hc]
  obtain ⟨q, hq⟩ : ∃ q, q = k * rho0 * csGustMps g o.altitude_m * 0.5144444 * a / (2 * (W / S * o.weightfraction)) / o.weightfraction := ⟨_, rfl⟩
  rw [← hq]
  refine ⟨on_seg _ _ _ h0 (by linarith), ?_⟩
  have := on_seg (designSpeed E g) (-q) v h0 (by linarith)
  rw [neg_mul, neg_mul, ← sub_eq_add_neg, ← sub_eq_add_neg] at this
  exact this

/-! ### Numbers of the diagram -/

/-- The curves of the diagram in terms of the speed in knots: stall parabolas, gust lines, limits. -/
structure Curves (o : Cert) (E : Envelope) (cat : Cat) (tl a rho0 k clmax clmin npos nnegC nnegD A C Bb Bc Bd : ℝ) : Prop where
  pw : 0 < o.weightfraction
  pA : 0 < A
  pC : 0 < C
  pBb : 0 < Bb
  pBc : 0 < Bc
  pBd : 0 < Bd
  up : ∀ x, stallLoad rho0 x clmax tl o.weightfraction = A * x ^ 2
  dn : ∀ x, stallLoad rho0 x clmin tl o.weightfraction = -(C * x ^ 2)
  go : ∀ x, 0.5 * rho0 * kts2mps x ^ 2 * clmin / tl / o.weightfraction = -(C * x ^ 2)
  gb : ∀ x, gustIncrement k rho0 (vbGust o.altitude_m cat) (kts2mps x) a tl o.weightfraction = Bb * x
  gc : ∀ x, gustIncrement k rho0 (gustc_mps o.altitude_m) (kts2mps x) a tl o.weightfraction = Bc * x
  gd : ∀ x, gustIncrement k rho0 (gustd_mps o.altitude_m) (kts2mps x) a tl o.weightfraction = Bd * x
  va : A * E.va ^ 2 < npos / o.weightfraction
  va0 : (1 - 2e-7) * (npos / o.weightfraction) < A * E.va ^ 2
  vs1 : A * E.vs ^ 2 < 1 / o.weightfraction
  hnpos : 2.1 < npos
  hnegC : nnegC < 0
  hnegD : nnegD ≤ 0
  via : nnegC / o.weightfraction < -(C * E.via ^ 2)
  via2 : 1.3 * -(C * E.via ^ 2) < nnegC / o.weightfraction
  pvs : 0 < E.vs
  pvis : 0 < E.vis
  pvc : 0 < E.vc
  vcd : E.vc < E.vd
  pvb : 0 < E.vb
  pva : E.vs ≤ E.va
  pvia : 0 < E.via
  vb : A * E.vb ^ 2 ≤ 1 + Bb * E.vb
  bb : cat ≠ .comm → Bb = Bc

theorem curve_speed {rho0 clmax W S wf : ℝ} (pr : 0 < rho0) (pc : 0 < clmax) (pW : 0 < W) (pS : 0 < S) (pw : 0 < wf) :
    rho0 * 0.5144444 ^ 2 * clmax / (W / S * wf) / 2 / wf * (1.9438445 * √(2 * wf * W / (rho0 * S * clmax))) ^ 2 = kdrift ^ 2 / wf := by
  rw [mul_pow, Real.sq_sqrt (by positivity)]
  unfold kdrift
  field_simp

theorem curve_vb {k rho0 U a tl wf clmax vb : ℝ} (pB : 0 < k * rho0 * U * a / (2 * tl) / wf) (pA : 0 < rho0 * clmax / tl / 2 / wf) (p0 : 0 < vb)
    (hub : rho0 * (vb / 1.9438445) ^ 2 * clmax / tl / 2 / wf = 1 + k * rho0 * U * (vb / 1.9438445) * a / (2 * tl) / wf) :
    rho0 * 0.5144444 ^ 2 * clmax / tl / 2 / wf * vb ^ 2 ≤ 1 + k * rho0 * U * 0.5144444 * a / (2 * tl) / wf * vb := by
  obtain ⟨k1, k2, k3, k4⟩ := kdrift_lt
  obtain ⟨A1, hA1⟩ : ∃ A1, A1 = rho0 * clmax / tl / 2 / wf := ⟨_, rfl⟩
  obtain ⟨B1, hB1⟩ : ∃ B1, B1 = k * rho0 * U * a / (2 * tl) / wf := ⟨_, rfl⟩
  obtain ⟨u, hud⟩ : ∃ u, u = vb / 1.9438445 := ⟨_, rfl⟩
  rw [← hud] at hub
  have hvb : vb = 1.9438445 * u := by rw [hud]; field_simp
  have pu : 0 < u := by rw [hud]; positivity
  have t1 : A1 * u ^ 2 = 1 + B1 * u := by
    have z1 : rho0 * u ^ 2 * clmax / tl / 2 / wf = A1 * u ^ 2 := by rw [hA1]; ring
    have z2 : k * rho0 * U * u * a / (2 * tl) / wf = B1 * u := by rw [hB1]; ring
    rw [z1, z2] at hub; exact hub
  have t2 : rho0 * 0.5144444 ^ 2 * clmax / tl / 2 / wf * vb ^ 2 = kdrift ^ 2 * (A1 * u ^ 2) := by rw [hA1, hvb]; unfold kdrift; ring
  have t3 : k * rho0 * U * 0.5144444 * a / (2 * tl) / wf * vb = kdrift * (B1 * u) := by
    rw [hB1, hvb]; unfold kdrift; ring
  rw [t2, t3, t1]
  rw [← hB1] at pB
  have : 0 < B1 * u := by positivity
  have kk : kdrift ^ 2 ≤ kdrift := by rw [sq]; exact mul_le_of_le_one_left (by norm_num at k1; linarith) k2.le
  have : kdrift ^ 2 * (B1 * u) ≤ kdrift * (B1 * u) := mul_le_mul_of_nonneg_right kk this.le
  linarith

theorem curves_of {X : Ext} {o : Cert} {E : Envelope} {cat : Cat} {rho vc0 m W S a rho0 smc k clmax clmin npos nnegC nnegD W' S' clmax' clmin' : ℝ}
    (e : EnvOf X o E cat rho vc0 m W S a rho0 smc k clmax clmin npos nnegC nnegD) (h : flightenvelope X o = .ok E)
    (f : Flyable X o W' S' clmax' clmin') :
    ∃ A C Bb Bc Bd, Curves o E cat (W / S * o.weightfraction) a rho0 k clmax clmin npos nnegC nnegD A C Bb Bc Bd := by
  have pW := f.pW
  have pS := f.pS
  have pc := f.pmax
  have pn := f.nmin
  have pw := f.wf
  obtain ⟨-, hv0, rfl, rfl, pa, pr, -, pk⟩ := f.alleviation e.gin
  have e1 := e.hclmax; rw [f.hmax] at e1; cases e1
  have e1 := e.hclmin; rw [f.hmin] at e1; cases e1
  obtain ⟨l, hl, hn, hn2⟩ := e.limits
  obtain ⟨hnp, hnn⟩ := limits_ok hl W f.weight pW cat
  rw [← hn] at hnp
  rw [← hn2] at hnn
  obtain ⟨r, pr', hr, hs1, hs2⟩ := f.stalls
  have e1 := e.gin.dens0; rw [hr] at e1; cases e1
  have hvs := e.vs; rw [hs1] at hvs; replace hvs := (Except.ok.inj hvs).symm
  have hvis := e.vis; rw [hs2] at hvis; replace hvis := (Except.ok.inj hvis).symm
  have hvis' : E.vis = 1.9438445 * √(2 * o.weightfraction * W / (rho0 * S * -clmin)) := by
    rw [hvis]
    congr 2
    rw [show 2 * -o.weightfraction * W = -(2 * o.weightfraction * W) by ring, show rho0 * S * -clmin = -(rho0 * S * clmin) by ring, div_neg, neg_div]
  obtain ⟨k1, k2, k3, k4⟩ := kdrift_lt
  obtain ⟨A, hA⟩ : ∃ A, A = rho0 * 0.5144444 ^ 2 * clmax / (W / S * o.weightfraction) / 2 / o.weightfraction := ⟨_, rfl⟩
  obtain ⟨C, hC⟩ : ∃ C, C = rho0 * 0.5144444 ^ 2 * -clmin / (W / S * o.weightfraction) / 2 / o.weightfraction := ⟨_, rfl⟩
  have s1 : A * E.vs ^ 2 = kdrift ^ 2 / o.weightfraction := by rw [hA, hvs]; exact curve_speed pr pc pW pS pw
  have s2 : C * E.vis ^ 2 = kdrift ^ 2 / o.weightfraction := by rw [hC, hvis']; exact curve_speed pr (by linarith) pW pS pw
  have pn' : 0 < -clmin := by linarith
  have pA : 0 < A := by rw [hA]; positivity
  have pC : 0 < C := by rw [hC]; positivity
  have pvs : 0 < E.vs := by rw [hvs]; positivity
  have pvis : 0 < E.vis := by rw [hvis']; positivity
  have np0 : 0 < npos := by norm_num at hnp; linarith
  have q1 : A * E.va ^ 2 = kdrift ^ 2 * (npos / o.weightfraction) := by
    rw [e.va, mul_pow, Real.sq_sqrt np0.le, ← mul_assoc, s1]; ring
  have q2 : C * E.via ^ 2 = kdrift ^ 2 * (-nnegC / o.weightfraction) := by
    rw [e.via, mul_pow, Real.sq_sqrt (abs_nonneg _), abs_of_neg hnn, ← mul_assoc, s2]; ring
  have pnp : 0 < npos / o.weightfraction := by positivity
  have pnn : 0 < -nnegC / o.weightfraction := div_pos (by linarith) pw
  have enn : nnegC / o.weightfraction = -(-nnegC / o.weightfraction) := by ring
  obtain ⟨p0, hu⟩ := vb_root a clmax k (vbGust o.altitude_m cat) (W / S * o.weightfraction) rho0 o.weightfraction pc pr (by positivity) pw
  rw [← e.vb] at p0 hu
  have hub := (hu (E.vb / 1.9438445) (by positivity)).mpr rfl
  have gpc : 0 < gustc_mps o.altitude_m := by rw [gustc_eq]; exact csGustMps_pos _ _
  have gpd : 0 < gustd_mps o.altitude_m := by rw [gustd_eq]; exact csGustMps_pos _ _
  have gpb : 0 < vbGust o.altitude_m cat := by
    unfold vbGust
    split
    · rw [gustb_eq]; exact csGustMps_pos _ _
    · exact gpc
  obtain ⟨cat', vc0', W', S', h1, -, hW', hS', hcc, -, -, hd, -⟩ := C58_speeds X o E h
  rw [f.weight] at hW'; rw [f.area] at hS'; cases hW'; cases hS'
  have pvc : 0 < E.vc := by
    refine lt_of_lt_of_le ?_ hcc
    unfold csVcMin
    have h2 : (28.6:ℝ) ≤ csFactor (if cat' = .aero then 36 else 33) 28.6 (W / S * 0.020885434273039) := csFactor_ge _ _ _ (by split_ifs <;> norm_num)
    have h3 : 0 < csFactor (if cat' = .aero then 36 else 33) 28.6 (W / S * 0.020885434273039) := lt_of_lt_of_le (by norm_num) h2
    positivity
  refine ⟨A, C, k * rho0 * vbGust o.altitude_m cat * 0.5144444 * a / (2 * (W / S * o.weightfraction)) / o.weightfraction,
    k * rho0 * gustc_mps o.altitude_m * 0.5144444 * a / (2 * (W / S * o.weightfraction)) / o.weightfraction,
    k * rho0 * gustd_mps o.altitude_m * 0.5144444 * a / (2 * (W / S * o.weightfraction)) / o.weightfraction, ?_⟩
  constructor
  · exact pw
  · exact pA
  · exact pC
  · positivity
  · positivity
  · positivity
  · intro x; rw [hA]; unfold stallLoad kts2mps; ring
  · intro x; rw [hC]; unfold stallLoad kts2mps; ring
  · intro x; rw [hC]; unfold kts2mps; ring
  · intro x; exact incr_linear _ _ _ _ _ _ _
  · intro x; exact incr_linear _ _ _ _ _ _ _
  · intro x; exact incr_linear _ _ _ _ _ _ _
  · rw [q1]; exact mul_lt_of_lt_one_left pnp k4
  · rw [q1]; exact mul_lt_mul_of_pos_right k3 pnp
  · rw [s1]; gcongr
  · exact hnp
  · exact hnn
  · rw [e.nneg]; split_ifs <;> norm_num
  · rw [q2, enn]; exact neg_lt_neg (mul_lt_of_lt_one_left pnn k4)
  · rw [q2, enn]
    have : (1:ℝ) < 1.3 * kdrift ^ 2 := by norm_num at k3 ⊢; linarith
    rw [mul_neg, ← mul_assoc]
    exact neg_lt_neg (lt_mul_of_one_lt_left pnn this)
  · exact pvs
  · exact pvis
  · exact pvc
  · norm_num at hd; linarith
  · exact p0
  · rw [e.va]
    have : 1 ≤ √npos := by apply Real.le_sqrt_of_sq_le; norm_num at hnp ⊢; linarith
    exact le_mul_of_one_le_right pvs.le this
  · rw [e.via]
    have : 0 < |nnegC| := by rw [abs_of_neg hnn]; linarith
    positivity
  · rw [hA]; exact curve_vb (by positivity) (by positivity) p0 hub
  · intro hne
    unfold vbGust
    rw [if_neg hne]

/-! ### Axes -/

/-- The point lies within the axes of the drawing. -/
def InAxes (P : VnPlot) (p : ℝ × ℝ) : Prop :=
  P.xlim.1 ≤ p.1 ∧ p.1 ≤ P.xlim.2 ∧ P.ylim.1 ≤ p.2 ∧ p.2 ≤ P.ylim.2

theorem interp_between {a b : ℝ} (x ya yb : ℝ) (h : a < b) : min ya yb ≤ npInterp2 x a b ya yb ∧ npInterp2 x a b ya yb ≤ max ya yb := by
  unfold npInterp2
  split
  · exact ⟨min_le_left _ _, le_max_left _ _⟩
  · split
    · exact ⟨min_le_right _ _, le_max_right _ _⟩
    · rename_i h1 h2
      push Not at h1 h2
      have hd : 0 < b - a := by linarith
      have e : ya + (yb - ya) / (b - a) * (x - a) = (ya * (b - x) + yb * (x - a)) / (b - a) := by field_simp; ring
      rw [e, le_div_iff₀ hd, div_le_iff₀ hd]
      have m1 := min_le_left ya yb; have m2 := min_le_right ya yb
      have m3 := le_max_left ya yb; have m4 := le_max_right ya yb
      have x1 : 0 ≤ b - x := by linarith
      have x2 : 0 ≤ x - a := by linarith
      constructor
      · have := mul_le_mul_of_nonneg_right m1 x1
        have := mul_le_mul_of_nonneg_right m2 x2
        linarith
      · have := mul_le_mul_of_nonneg_right m3 x1
        have := mul_le_mul_of_nonneg_right m4 x2
        linarith

theorem interp_right {a b : ℝ} (ya yb : ℝ) (h : a < b) : npInterp2 b a b ya yb = yb := by
  unfold npInterp2
  rw [if_neg (not_le.mpr h), if_pos le_rfl]

theorem interp_left {a b : ℝ} (ya yb : ℝ) : npInterp2 a a b ya yb = ya := by
  unfold npInterp2
  rw [if_pos le_rfl]

theorem sq_mul_le {A x y : ℝ} (pA : 0 < A) (h0 : 0 ≤ x) (h : x ≤ y) : A * x ^ 2 ≤ A * y ^ 2 := by gcongr

/-- Upper bound of the positive boundary up to the cruise speed. -/
theorem sc_bound {A Bb Bc d va vb vc vs x m : ℝ} (comm : Prop) [Decidable comm] (pA : 0 < A) (pBc : 0 < Bc) (pvs : 0 < vs) (pvb : 0 < vb) (hx : vs ≤ x) (hxc : x ≤ vc)
    (hva : A * va ^ 2 ≤ d) (hvb : A * vb ^ 2 ≤ 1 + Bb * vb) (hb : ¬ comm → Bb = Bc)
    (hm1 : 1 + Bb * (if comm then vb else vc) ≤ m) (hd : d ≤ m)
    (hc : (if vc ≤ va ∨ vc ≤ vb then A * vc ^ 2 else max (npInterp2 vc vb vc (A * vb ^ 2) (1 + Bc * vc)) d) ≤ m) :
    0 < (if x ≤ va ∨ x ≤ vb then A * x ^ 2 else max (npInterp2 x vb vc (A * vb ^ 2) (1 + Bc * vc)) d) ∧
    (if x ≤ va ∨ x ≤ vb then A * x ^ 2 else max (npInterp2 x vb vc (A * vb ^ 2) (1 + Bc * vc)) d) ≤ m := by
  have px : 0 < x := by linarith
  have pvc : 0 < vc := by linarith
  have hb2 : vb ≤ vc → A * vb ^ 2 ≤ m := by
    intro h
    refine le_trans hvb (le_trans ?_ hm1)
    by_cases hcm : comm
    · rw [if_pos hcm]
    · rw [if_neg hcm, hb hcm]
      have := mul_le_mul_of_nonneg_left h pBc.le
      linarith
  by_cases h : x ≤ va ∨ x ≤ vb
  · rw [if_pos h]
    refine ⟨by positivity, ?_⟩
    rcases h with h | h
    · exact le_trans (sq_mul_le pA px.le h) (le_trans hva hd)
    · rcases le_total vb vc with h1 | h1
      · exact le_trans (sq_mul_le pA px.le h) (hb2 h1)
      · rw [if_pos (Or.inr h1)] at hc
        exact le_trans (sq_mul_le pA px.le hxc) hc
  · rw [if_neg h]
    push Not at h
    have h1 : ¬ (vc ≤ va ∨ vc ≤ vb) := by push Not; exact ⟨by linarith, by linarith⟩
    rw [if_neg h1, interp_right _ _ (by linarith)] at hc
    have hi := interp_between x (A * vb ^ 2) (1 + Bc * vc) (by linarith : vb < vc)
    refine ⟨lt_of_lt_of_le (lt_min (by positivity) (by positivity)) (le_trans hi.1 (le_max_left _ _)), ?_⟩
    apply max_le _ hd
    exact le_trans hi.2 (max_le (hb2 (by linarith)) (le_trans (le_max_left _ _) hc))

/-- Lower bound of the negative boundary below the cruise speed. -/
theorem fs_bound {C fg fm em m via vc x : ℝ} (pC : 0 < C) (hx : 0 ≤ x) (hxc : x ≤ vc) (hg : m ≤ -(C * via ^ 2)) (hm : 1.3 * m ≤ fm) (h0 : m ≤ 0)
    (hf : m ≤ min (max fg (-(C * vc ^ 2))) em) (hfm : fm < 0) (pvc : 0 < vc) :
    1.3 * m ≤ (if x < via then -(C * x ^ 2) else max (min (npInterp2 x 0 vc 1 fg) fm) (-(C * x ^ 2))) ∧
    (if x < via then -(C * x ^ 2) else max (min (npInterp2 x 0 vc 1 fg) fm) (-(C * x ^ 2))) ≤ 0 := by
  have hx0 : -(C * x ^ 2) ≤ 0 := by have : 0 ≤ C * x ^ 2 := by positivity
                                    linarith
  have hh : 1.3 * m ≤ m := by norm_num; linarith
  split
  · rename_i h
    have := sq_mul_le pC hx h.le
    exact ⟨by linarith, hx0⟩
  · refine ⟨?_, max_le (le_trans (min_le_right _ _) hfm.le) hx0⟩
    have h2 := le_trans hf (min_le_left _ _)
    rcases le_max_iff.mp h2 with h3 | h3
    · refine le_trans ?_ (le_max_left _ _)
      apply le_min _ hm
      have hi := (interp_between x 1 fg pvc).1
      refine le_trans ?_ hi
      exact le_min (by linarith) (by linarith)
    · refine le_trans ?_ (le_max_right _ _)
      have := sq_mul_le pC hx hxc
      linarith

/-- When neither stall speed lies beyond the cruise speed, the outline of the flight envelope and the marked points B to F lie within the
axes. The marks A and G have loads within the axes too, but their speeds may lie beyond the right end. -/
theorem C112_axes (X : Ext) (o : Cert) (E : Envelope) (W S clmax clmin : ℝ) (h : flightenvelope X o = .ok E)
    (f : Flyable X o W S clmax clmin) (hs : E.vs ≤ E.vc) (hi : E.vis ≤ E.vc) :
    ∃ P, vnPlot X o = .ok P ∧ (∀ p ∈ P.outline, InAxes P p) ∧
      (∀ name colour p, (name, colour, p) ∈ P.marks → P.ylim.1 ≤ p.2 ∧ p.2 ≤ P.ylim.2 ∧
        (name ≠ "A" → name ≠ "G" → InAxes P p) ∧
        (name = "A" → (InAxes P p ↔ E.va ≤ 1.1 * E.vd)) ∧ (name = "G" → (InAxes P p ↔ E.via ≤ 1.1 * E.vd))) := by
  obtain ⟨cat, rho, vc0, m, W', S', a, rho0, smc, k, clmax', clmin', npos, nnegC, nnegD, e⟩ := flightenvelope_ok h
  obtain ⟨A, C, Bb, Bc, Bd, c⟩ := curves_of e h f
  refine ⟨_, vnPlot_eq h e, ?_⟩
  unfold InAxes
  dsimp only
  rw [c.gb]
  have hsc : ∀ x, scAt rho0 clmax' (W' / S' * o.weightfraction) o.weightfraction E.va E.vb E.vc
      (stallLoad rho0 E.vb clmax' (W' / S' * o.weightfraction) o.weightfraction)
      (1 + gustIncrement k rho0 (gustc_mps o.altitude_m) (kts2mps E.vc) a (W' / S' * o.weightfraction) o.weightfraction) (npos / o.weightfraction) x =
      (if x ≤ E.va ∨ x ≤ E.vb then A * x ^ 2 else max (npInterp2 x E.vb E.vc (A * E.vb ^ 2) (1 + Bc * E.vc)) (npos / o.weightfraction)) := by
    intro x; unfold scAt; rw [c.up, c.up, c.gc]
  have hfs : ∀ x, fsAt rho0 clmin' (W' / S' * o.weightfraction) o.weightfraction E.via E.vc
      (1 - gustIncrement k rho0 (gustc_mps o.altitude_m) (kts2mps E.vc) a (W' / S' * o.weightfraction) o.weightfraction) (nnegC / o.weightfraction) x =
      (if x < E.via then -(C * x ^ 2) else max (min (npInterp2 x 0 E.vc 1 (1 - Bc * E.vc)) (nnegC / o.weightfraction)) (-(C * x ^ 2))) := by
    intro x; unfold fsAt; dsimp only; rw [c.dn, c.gc]
  have vcd := c.vcd
  have pvc := c.pvc
  have pvs := c.pvs
  have pvis := c.pvis
  have pvd : 0 < E.vd := by linarith
  have lsc := lastY_of E.vs E.vc (fun x => scAt rho0 clmax' (W' / S' * o.weightfraction) o.weightfraction E.va E.vb E.vc
      (stallLoad rho0 E.vb clmax' (W' / S' * o.weightfraction) o.weightfraction)
      (1 + gustIncrement k rho0 (gustc_mps o.altitude_m) (kts2mps E.vc) a (W' / S' * o.weightfraction) o.weightfraction) (npos / o.weightfraction) x)
  rw [← e.sc] at lsc
  rw [hsc] at lsc
  have lcd := lastY_of E.vc E.vd (fun x => cdAt E.vc E.vd (lastY E.sc)
    (1 + gustIncrement k rho0 (gustd_mps o.altitude_m) (kts2mps E.vd) a (W' / S' * o.weightfraction) o.weightfraction) (npos / o.weightfraction) x)
  rw [← e.cd] at lcd
  unfold cdAt at lcd
  rw [interp_right _ _ vcd, c.gd] at lcd
  have lef := lastY_of E.vd E.vc (fun x => efAt E.vc E.vd
    (1 - gustIncrement k rho0 (gustc_mps o.altitude_m) (kts2mps E.vc) a (W' / S' * o.weightfraction) o.weightfraction)
    (stallLoad rho0 E.vc clmin' (W' / S' * o.weightfraction) o.weightfraction)
    (1 - gustIncrement k rho0 (gustd_mps o.altitude_m) (kts2mps E.vd) a (W' / S' * o.weightfraction) o.weightfraction) (nnegD / o.weightfraction) x)
  rw [← e.ef] at lef
  unfold efAt at lef
  rw [interp_left, c.gc, c.dn] at lef
  have lgo := firstY_of E.via 0 (fun x => 0.5 * rho0 * kts2mps x ^ 2 * clmin' / (W' / S' * o.weightfraction) / o.weightfraction)
  rw [← e.go] at lgo
  rw [c.go] at lgo
  have le := e.e
  rw [c.gd] at le
  have le2 : E.e.2 = min (1 - Bd * E.vd) (nnegD / o.weightfraction) := by rw [le]
  have le1 : E.e.1 = E.vd := by rw [le]
  -- the limits
  obtain ⟨M, hM⟩ : ∃ M, M = max (max (1 + Bb * (if cat = .comm then E.vb else E.vc)) (lastY E.sc)) (lastY E.cd) := ⟨_, rfl⟩
  obtain ⟨N, hN⟩ : ∃ N, N = min (min E.e.2 (lastY E.ef)) (firstY E.go) := ⟨_, rfl⟩
  rw [← hM, ← hN]
  have m1 : 1 + Bb * (if cat = .comm then E.vb else E.vc) ≤ M := by rw [hM]; exact le_trans (le_max_left _ _) (le_max_left _ _)
  have m2 : lastY E.sc ≤ M := by rw [hM]; exact le_trans (le_max_right _ _) (le_max_left _ _)
  have m3 : lastY E.cd ≤ M := by rw [hM]; exact le_max_right _ _
  have n1 : N ≤ E.e.2 := by rw [hN]; exact le_trans (min_le_left _ _) (min_le_left _ _)
  have n2 : N ≤ lastY E.ef := by rw [hN]; exact le_trans (min_le_left _ _) (min_le_right _ _)
  have n3 : N ≤ firstY E.go := by rw [hN]; exact min_le_right _ _
  have md : npos / o.weightfraction ≤ M := by rw [lcd] at m3; exact le_trans (le_max_right _ _) m3
  have pw := c.pw
  have hnp : 0 < npos := by have := c.hnpos; norm_num at this; linarith
  have pd : 0 < npos / o.weightfraction := by positivity
  have pM : 0 < M := by linarith
  have hMM : M ≤ 1.3 * M := by norm_num; linarith
  have hvia : 0 ≤ C * E.via ^ 2 := by have := c.pC; positivity
  have hN0 : N ≤ 0 := by rw [lgo] at n3; linarith
  have hNN : 1.3 * N ≤ N := by norm_num; linarith
  have hvd : E.vd ≤ 1.1 * E.vd := by norm_num; linarith
  have edn : nnegD / o.weightfraction ≤ 0 := div_nonpos_of_nonpos_of_nonneg c.hnegD pw.le
  have fmn : nnegC / o.weightfraction < 0 := div_neg_of_neg_of_pos c.hnegC pw
  have fm : 1.3 * N ≤ nnegC / o.weightfraction := by
    have h1 := c.via2
    rw [lgo] at n3
    norm_num at h1 ⊢
    linarith
  have scb := fun (x : ℝ) (hx : E.vs ≤ x) (hxc : x ≤ E.vc) =>
    sc_bound (A := A) (Bb := Bb) (Bc := Bc) (d := npos / o.weightfraction) (va := E.va) (vb := E.vb) (vc := E.vc) (vs := E.vs) (x := x) (m := M)
      (cat = .comm) c.pA c.pBc pvs c.pvb hx hxc c.va.le c.vb c.bb m1 md (by rw [← lsc]; exact m2)
  have hE2 : E.e.2 ≤ 0 := by rw [le2]; exact le_trans (min_le_right _ _) edn
  have hF2 : lastY E.ef ≤ 0 := by rw [lef]; exact le_trans (min_le_right _ _) edn
  have hC2 : 0 < lastY E.sc := by rw [lsc]; exact (scb E.vc hs le_rfl).1
  have hD2 : 0 < lastY E.cd := by rw [lcd]; exact lt_of_lt_of_le pd (le_max_right _ _)
  constructor
  · intro p hp
    unfold envOutline at hp
    simp only [List.mem_append, List.mem_cons, List.not_mem_nil, or_false] at hp
    rcases hp with (((((hp | hp) | hp) | hp) | hp) | hp) | hp
    · -- stall line
      rcases hp with rfl | rfl
      · exact ⟨pvs.le, by dsimp only; linarith, by dsimp only; linarith, by dsimp only; linarith⟩
      · refine ⟨pvs.le, by dsimp only; linarith, ?_, ?_⟩
        · have : 0 < 1 / o.weightfraction := by positivity
          dsimp only; linarith
        · have h1 : 1 / o.weightfraction ≤ npos / o.weightfraction := by
            apply div_le_div_of_nonneg_right _ pw.le
            have := c.hnpos; norm_num at this ⊢; linarith
          dsimp only; linarith
    · rw [e.sc, List.mem_map] at hp
      obtain ⟨x, hx, rfl⟩ := hp
      have hb := linspace_mem hx
      rw [min_eq_left hs, max_eq_right hs] at hb
      have := scb x hb.1 hb.2
      dsimp only
      rw [hsc]
      exact ⟨by linarith, by linarith, by linarith, by linarith⟩
    · rw [e.cd, List.mem_map] at hp
      obtain ⟨x, hx, rfl⟩ := hp
      have hb := linspace_mem hx
      rw [min_eq_left vcd.le, max_eq_right vcd.le] at hb
      dsimp only
      unfold cdAt
      rw [c.gd]
      have hi := (interp_between x (lastY E.sc) (1 + Bd * E.vd) vcd).2
      have h1 : 1 + Bd * E.vd ≤ M := by rw [lcd] at m3; exact le_trans (le_max_left _ _) m3
      refine ⟨by linarith, by linarith, ?_, ?_⟩
      · have : npos / o.weightfraction ≤ max (npInterp2 x E.vc E.vd (lastY E.sc) (1 + Bd * E.vd)) (npos / o.weightfraction) := le_max_right _ _
        linarith
      · have : max (npInterp2 x E.vc E.vd (lastY E.sc) (1 + Bd * E.vd)) (npos / o.weightfraction) ≤ M :=
          max_le (le_trans hi (max_le m2 h1)) md
        linarith
    · subst hp
      exact ⟨by linarith, by linarith, by linarith, by linarith⟩
    · rw [e.ef, List.mem_map] at hp
      obtain ⟨x, hx, rfl⟩ := hp
      have hb := linspace_mem hx
      rw [min_eq_right vcd.le, max_eq_left vcd.le] at hb
      dsimp only
      unfold efAt
      rw [c.gd, c.gc, c.dn]
      have hi := (interp_between x (max (1 - Bc * E.vc) (-(C * E.vc ^ 2))) (1 - Bd * E.vd) vcd).1
      rw [lef] at n2
      rw [le2] at n1
      have h1 : N ≤ min (npInterp2 x E.vc E.vd (max (1 - Bc * E.vc) (-(C * E.vc ^ 2))) (1 - Bd * E.vd)) (nnegD / o.weightfraction) := by
        apply le_min _ (le_trans n1 (min_le_right _ _))
        exact le_trans (le_min (le_trans n2 (min_le_left _ _)) (le_trans n1 (min_le_left _ _))) hi
      have h2 : min (npInterp2 x E.vc E.vd (max (1 - Bc * E.vc) (-(C * E.vc ^ 2))) (1 - Bd * E.vd)) (nnegD / o.weightfraction) ≤ 0 :=
        le_trans (min_le_right _ _) edn
      exact ⟨by linarith, by linarith, by linarith, by linarith⟩
    · rw [e.fs, List.mem_map] at hp
      obtain ⟨x, hx, rfl⟩ := hp
      have hb := linspace_mem hx
      rw [min_eq_right hi, max_eq_left hi] at hb
      dsimp only
      rw [hfs]
      rw [lef] at n2
      rw [lgo] at n3
      have := fs_bound (em := nnegD / o.weightfraction) c.pC (by linarith : 0 ≤ x) hb.2 n3 fm hN0 n2 fmn pvc
      exact ⟨by linarith, by linarith, this.1, by linarith⟩
    · rcases hp with rfl | rfl | rfl
      · have h1 : firstY E.go ≤ max (-1) (firstY E.go) := le_max_right _ _
        have h2 : max (-1) (firstY E.go) ≤ 0 := max_le (by norm_num) (by rw [lgo]; linarith)
        exact ⟨pvis.le, by dsimp only; linarith, by dsimp only; linarith, by dsimp only; linarith⟩
      · exact ⟨pvis.le, by dsimp only; linarith, by dsimp only; linarith, by dsimp only; linarith⟩
      · exact ⟨pvs.le, by dsimp only; linarith, by dsimp only; linarith, by dsimp only; linarith⟩
  · intro name colour p hp
    rw [List.mem_map] at hp
    obtain ⟨⟨n', p'⟩, hp, hpe⟩ := hp
    injection hpe with x1 x2
    injection x2 with x2 x3
    dsimp only at x1 x3
    subst x1 x3
    have hp2 : (n', p') ∈ [("A", (E.va, npos / o.weightfraction)), ("B", (E.vb, stallLoad rho0 E.vb clmax' (W' / S' * o.weightfraction) o.weightfraction)),
        ("C", (E.vc, lastY E.sc)), ("D", (E.vd, lastY E.cd)), ("E", E.e), ("F", (E.vc, lastY E.ef)), ("G", (E.via, firstY E.go))] ∧
        (n' = "B" → E.vb ≤ E.vc) := by
      rw [e.poi] at hp
      by_cases hb : E.vb > E.vc
      · rw [if_pos hb] at hp
        obtain ⟨y1, y2⟩ := List.mem_filter.mp hp
        exact ⟨y1, fun hB => by rw [hB] at y2; simp at y2⟩
      · rw [if_neg hb] at hp
        exact ⟨hp, fun _ => not_lt.mp hb⟩
    obtain ⟨hp2, hB⟩ := hp2
    simp only [List.mem_cons, Prod.mk.injEq, List.not_mem_nil, or_false] at hp2
    have pva : 0 < E.va := lt_of_lt_of_le pvs c.pva
    have pvia := c.pvia
    rcases hp2 with ⟨rfl, rfl⟩ | ⟨rfl, rfl⟩ | ⟨rfl, rfl⟩ | ⟨rfl, rfl⟩ | ⟨rfl, rfl⟩ | ⟨rfl, rfl⟩ | ⟨rfl, rfl⟩
    · refine ⟨by dsimp only; linarith, by dsimp only; linarith, fun h => absurd rfl h, fun _ => ?_, fun h => by simp at h⟩
      exact ⟨fun h => h.2.1, fun h => ⟨pva.le, h, by dsimp only; linarith, by dsimp only; linarith⟩⟩
    · have hb := hB rfl
      have h1 : 0 < stallLoad rho0 E.vb clmax' (W' / S' * o.weightfraction) o.weightfraction := by
        rw [c.up]; have := c.pA; have := c.pvb; positivity
      have h2 : stallLoad rho0 E.vb clmax' (W' / S' * o.weightfraction) o.weightfraction ≤ M := by
        rw [c.up]
        refine le_trans c.vb (le_trans ?_ m1)
        by_cases hcm : cat = .comm
        · rw [if_pos hcm]
        · rw [if_neg hcm]
          have := mul_le_mul_of_nonneg_left hb c.pBb.le
          linarith
      refine ⟨by dsimp only; linarith, by dsimp only; linarith, fun _ _ => ⟨c.pvb.le, by dsimp only; linarith, by dsimp only; linarith, by dsimp only; linarith⟩,
        fun h => by simp at h, fun h => by simp at h⟩
    · refine ⟨by dsimp only; linarith, by dsimp only; linarith, fun _ _ => ⟨pvc.le, by dsimp only; linarith, by dsimp only; linarith, by dsimp only; linarith⟩,
        fun h => by simp at h, fun h => by simp at h⟩
    · refine ⟨by dsimp only; linarith, by dsimp only; linarith, fun _ _ => ⟨pvd.le, by dsimp only; linarith, by dsimp only; linarith, by dsimp only; linarith⟩,
        fun h => by simp at h, fun h => by simp at h⟩
    · refine ⟨by linarith, by linarith, fun _ _ => ⟨by linarith, by linarith, by linarith, by linarith⟩,
        fun h => by simp at h, fun h => by simp at h⟩
    · refine ⟨by dsimp only; linarith, by dsimp only; linarith, fun _ _ => ⟨pvc.le, by dsimp only; linarith, by dsimp only; linarith, by dsimp only; linarith⟩,
        fun h => by simp at h, fun h => by simp at h⟩
    · have : firstY E.go ≤ 0 := by rw [lgo]; linarith
      refine ⟨by dsimp only; linarith, by dsimp only; linarith, fun _ h => absurd rfl h, fun h => by simp at h, fun _ => ?_⟩
      exact ⟨fun h => h.2.1, fun h => ⟨pvia.le, h, by dsimp only; linarith, by dsimp only; linarith⟩⟩

end

end Verif.Props
