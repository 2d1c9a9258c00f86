import Verif.Props.Airworthiness2

/-
The flight envelope of ADRpy/airworthiness.py: corner points (C59), ordering (C60), the negative corner at the
cruise speed (C87) and the stall limit (C88).
-/

namespace Verif.Props
open Verif Verif.Aircraft Verif.Units Verif.Airworthiness

noncomputable section

/-- Load factor of a wing of area `S` at the lift coefficient `cl`, the weight `w` and the equivalent airspeed
`v` in m/s. -/
def liftLoad (rho0 S cl w v : ℝ) : ℝ := (1 / 2 * rho0 * v ^ 2 * S * cl) / w

/-- The product of the two knots conversions. -/
def kdrift : ℝ := 0.5144444 * 1.9438445

theorem kdrift_lt : 1 - 1e-7 < kdrift ∧ kdrift < 1 ∧ 1 - 2e-7 < kdrift ^ 2 ∧ kdrift ^ 2 < 1 := by
  unfold kdrift; norm_num

theorem stallLoad_eq (rho0 v cl W S wf : ℝ) (hS : S ≠ 0) :
    stallLoad rho0 v cl (W / S * wf) wf = liftLoad rho0 S cl (wf * W) (0.5144444 * v) / wf := by
  unfold stallLoad liftLoad kts2mps
  rcases eq_or_ne W 0 with rfl | hW
  · simp
  rcases eq_or_ne wf 0 with rfl | hw
  · simp
  field_simp

theorem goLoad_eq (rho0 v cl W S wf : ℝ) (hS : S ≠ 0) :
    0.5 * rho0 * kts2mps v ^ 2 * cl / (W / S * wf) / wf = liftLoad rho0 S cl (wf * W) (0.5144444 * v) / wf := by
  rw [← stallLoad_eq _ _ _ _ _ _ hS]
  unfold stallLoad
  ring

theorem liftLoad_scale (rho0 S cl w c v : ℝ) : liftLoad rho0 S cl w (c * v) = c ^ 2 * liftLoad rho0 S cl w v := by
  unfold liftLoad; ring

theorem liftLoad_kts (rho0 S cl w v : ℝ) :
    liftLoad rho0 S cl w (0.5144444 * v) = kdrift ^ 2 * liftLoad rho0 S cl w (v / 1.9438445) := by
  rw [← liftLoad_scale]
  congr 1
  unfold kdrift; ring

/-! Samples -/

theorem linspace_head (a b : ℝ) : (linspace100 a b).head? = some a := by
  unfold linspace100
  rw [List.head?_map]
  have : (List.range 100).head? = some 0 := by decide
  rw [this]
  simp

theorem linspace_last (a b : ℝ) : (linspace100 a b).getLast? = some b := by
  unfold linspace100
  rw [List.getLast?_map]
  have : (List.range 100).getLast? = some 99 := by decide
  rw [this]
  simp only [Option.map_some, Option.some.injEq]
  norm_num
  ring

theorem linspace_mem {a b x : ℝ} (h : x ∈ linspace100 a b) : min a b ≤ x ∧ x ≤ max a b := by
  unfold linspace100 at h
  rw [List.mem_map] at h
  obtain ⟨i, hi, rfl⟩ := h
  rw [List.mem_range] at hi
  have h1 : (0:ℝ) ≤ (i:ℝ) / 99 := by positivity
  have h2 : (i:ℝ) / 99 ≤ 1 := by
    rw [div_le_one (by norm_num)]
    have : i ≤ 99 := by omega
    exact_mod_cast this
  have e : a + i * ((b - a) / 99) = a + (i:ℝ) / 99 * (b - a) := by ring
  rw [e]
  rcases le_total a b with h | h
  · rw [min_eq_left h, max_eq_right h]
    constructor <;> nlinarith
  · rw [min_eq_right h, max_eq_left h]
    constructor <;> nlinarith

theorem linspace_mono {a b : ℝ} (h : a ≤ b) : (linspace100 a b).Pairwise (· ≤ ·) := by
  unfold linspace100
  rw [List.pairwise_map]
  refine (List.pairwise_lt_range (n := 100)).imp (fun {i j} hij => ?_)
  have : (i:ℝ) ≤ j := by exact_mod_cast hij.le
  have h0 : 0 ≤ (b - a) / 99 := by apply div_nonneg <;> linarith
  nlinarith

theorem linspace_anti {a b : ℝ} (h : b ≤ a) : (linspace100 a b).Pairwise (· ≥ ·) := by
  unfold linspace100
  rw [List.pairwise_map]
  refine (List.pairwise_lt_range (n := 100)).imp (fun {i j} hij => ?_)
  have : (i:ℝ) ≤ j := by exact_mod_cast hij.le
  have h0 : (b - a) / 99 ≤ 0 := by apply div_nonpos_of_nonpos_of_nonneg <;> linarith
  nlinarith

/-- A curve sampled from the speed `a` to the speed `b`: 100 points, both ends included, in order. -/
structure Sampled (l : List (ℝ × ℝ)) (a b : ℝ) : Prop where
  count : l.length = 100
  first : l.head?.map Prod.fst = some a
  last : l.getLast?.map Prod.fst = some b
  up : a ≤ b → (l.map Prod.fst).Pairwise (· ≤ ·)
  down : b ≤ a → (l.map Prod.fst).Pairwise (· ≥ ·)

theorem sampled_of (a b : ℝ) (f : ℝ → ℝ) : Sampled ((linspace100 a b).map (fun x => (x, f x))) a b where
  count := by simp [linspace100]
  first := by rw [List.head?_map, linspace_head]; rfl
  last := by rw [List.getLast?_map, linspace_last]; rfl
  up := fun h => by
    rw [List.map_map]
    have : (Prod.fst ∘ fun x => (x, f x)) = id := rfl
    rw [this, List.map_id]
    exact linspace_mono h
  down := fun h => by
    rw [List.map_map]
    have : (Prod.fst ∘ fun x => (x, f x)) = id := rfl
    rw [this, List.map_id]
    exact linspace_anti h

theorem firstY_of (a b : ℝ) (f : ℝ → ℝ) : firstY ((linspace100 a b).map (fun x => (x, f x))) = f a := by
  unfold firstY; rw [List.head?_map, linspace_head]; rfl

theorem lastY_of (a b : ℝ) (f : ℝ → ℝ) : lastY ((linspace100 a b).map (fun x => (x, f x))) = f b := by
  unfold lastY; rw [List.getLast?_map, linspace_last]; rfl

/-! ### C60 -/

/-- Every curve is sampled from end to end; the positive boundary between cruise and dive speed is at least
the manoeuvre limit, the negative one at most that of point E. -/
theorem C60_order (X : Ext) (o : Cert) (E : Envelope) (h : flightenvelope X o = .ok E) :
    ∃ cat l m g, parseCat o.category = .ok cat ∧ paragraph337 o = .ok l ∧ paragraph333 o = .ok (m, g) ∧
      Sampled E.oa 0 E.va ∧ Sampled E.go E.via 0 ∧ Sampled E.sc E.vs E.vc ∧ Sampled E.cd E.vc E.vd ∧ Sampled E.ef E.vd E.vc ∧
      Sampled E.fs E.vc E.vis ∧
      E.vc ≤ E.vd ∧
      (∀ p ∈ E.cd, (l cat).1 / o.weightfraction ≤ p.2) ∧
      (∀ p ∈ E.ef, p.2 ≤ (m cat).nneg_D / o.weightfraction) ∧
      E.e.1 = E.vd ∧ E.e.2 ≤ (m cat).nneg_D / o.weightfraction ∧
      ((m cat).nneg_D = if cat = .norm ∨ cat = .comm then 0 else -1) := by
  obtain ⟨cat, rho, vc0, m, W, S, a, rho0, smc, k, clmax, clmin, npos, nnegC, nnegD, e⟩ := flightenvelope_ok h
  obtain ⟨l, hl, hn, hn2⟩ := e.limits
  obtain ⟨M, hM⟩ : ∃ M, paragraph333 o = .ok (M, gustList o.altitude_m) ∧ (M cat).nneg_D = nnegD := by
    unfold paragraph333; rw [hl]
    refine ⟨_, rfl, ?_⟩
    rw [e.nneg]
    cases cat <;> rfl
  obtain ⟨cat', vc0', W', S', h1, -, -, -, hc, -, -, hd, -⟩ := C58_speeds X o E h
  have hvc : 0 ≤ E.vc := le_trans (csVcMin_nonneg _ _) hc
  refine ⟨cat, l, M, _, e.hcat, hl, hM.1, by rw [e.oa]; exact sampled_of _ _ _, by rw [e.go]; exact sampled_of _ _ _,
    by rw [e.sc]; exact sampled_of _ _ _, by rw [e.cd]; exact sampled_of _ _ _, by rw [e.ef]; exact sampled_of _ _ _,
    by rw [e.fs]; exact sampled_of _ _ _, by norm_num at hd; linarith, ?_, ?_, by rw [e.e], ?_, by rw [hM.2, e.nneg]⟩
  · intro p hp
    rw [e.cd, List.mem_map] at hp
    obtain ⟨x, -, rfl⟩ := hp
    rw [← hn]
    exact le_max_right _ _
  · intro p hp
    rw [e.ef, List.mem_map] at hp
    obtain ⟨x, -, rfl⟩ := hp
    rw [hM.2]
    exact min_le_right _ _
  · rw [e.e, hM.2]
    exact min_le_right _ _

example (X : Ext) : ∃ E, flightenvelope X (exFly 10000 0.9 "util") = .ok E :=
  (exFly_ok X 10000 0.9 "util" (by norm_num) (by norm_num) ⟨.util, rfl⟩).envelope

/-! ### C59 -/

theorem vs_value {o : Cert} {n v W S rho0 cl : ℝ} (h : vs_keas o n = .ok v) (hW : o.acobj.weight_n = some W) (pW : 0 < W)
    (hS : o.acobj.wingarea_m2 = some S) (pS : 0 < S) (hr : Atmos.dens1 o.acobj.designatm 0 = .ok rho0) (pr : 0 < rho0)
    (hcl : (if 0 ≤ n then o.acobj.clmaxclean else o.acobj.clminclean) = some cl) (pc : cl ≠ 0) :
    0 ≤ v ∧ ∀ wf, 0 < wf → liftLoad rho0 S cl (wf * W) (v / 1.9438445) = n / wf := by
  obtain ⟨cl', h1, h2, h3⟩ := C75_supports o n v W S rho0 h hW hS hr pS pr
  rw [hcl] at h1; cases h1
  refine ⟨h3, fun wf hw => ?_⟩
  unfold liftLoad
  rw [h2 pc]
  field_simp

/-- Point A: at the manoeuvring speed the lift carries exactly the positive limit; the point marked and the end
of the stall curve differ by the knots drift only. -/
theorem C59_A (X : Ext) (o : Cert) (E : Envelope) (W S rho0 clmax : ℝ) (h : flightenvelope X o = .ok E)
    (hW : o.acobj.weight_n = some W) (pW : 0 < W) (hS : o.acobj.wingarea_m2 = some S) (pS : 0 < S)
    (hr : Atmos.dens1 o.acobj.designatm 0 = .ok rho0) (pr : 0 < rho0) (hcl : o.acobj.clmaxclean = some clmax) (pc : 0 < clmax)
    (pw : 0 < o.weightfraction) :
    ∃ cat l, parseCat o.category = .ok cat ∧ paragraph337 o = .ok l ∧
      liftLoad rho0 S clmax (o.weightfraction * W) (E.va / 1.9438445) = (l cat).1 ∧
      ("A", (E.va, (l cat).1 / o.weightfraction)) ∈ E.poi ∧
      (∀ p ∈ E.oa, p.2 = liftLoad rho0 S clmax (o.weightfraction * W) (0.5144444 * p.1) / o.weightfraction) ∧
      E.oa.getLast? = some (E.va, kdrift ^ 2 * ((l cat).1 / o.weightfraction)) := by
  obtain ⟨cat, rho, vc0, m, W', S', a, rho0', smc, k, clmax', clmin, npos, nnegC, nnegD, e⟩ := flightenvelope_ok h
  have e1 := e.gin.weight; rw [hW] at e1; cases e1
  have e1 := e.gin.area; rw [hS] at e1; cases e1
  have e1 := e.gin.dens0; rw [hr] at e1; cases e1
  have e1 := e.hclmax; rw [hcl] at e1; cases e1
  obtain ⟨l, hl, hn, hn2⟩ := e.limits
  obtain ⟨h0, hv⟩ := vs_value e.vs hW pW hS pS hr pr (by rw [if_pos pw.le]; exact hcl) pc.ne'
  have hva : liftLoad rho0 S clmax (o.weightfraction * W) (E.va / 1.9438445) = npos := by
    rw [e.va, show E.vs * √npos / 1.9438445 = √npos * (E.vs / 1.9438445) by ring, liftLoad_scale, hv _ pw,
      Real.sq_sqrt e.npos0, div_self pw.ne', mul_one]
  refine ⟨cat, l, e.hcat, hl, by rw [hva, hn], ?_, ?_, ?_⟩
  · rw [e.poi, ← hn]
    split <;> simp
  · intro p hp
    rw [e.oa, List.mem_map] at hp
    obtain ⟨x, -, rfl⟩ := hp
    exact stallLoad_eq _ _ _ _ _ _ pS.ne'
  · rw [e.oa, List.getLast?_map, linspace_last]
    simp only [Option.map_some, Option.some.injEq, Prod.mk.injEq, true_and]
    rw [stallLoad_eq _ _ _ _ _ _ pS.ne', liftLoad_kts, hva, hn]
    ring

example (X : Ext) : ∃ E, flightenvelope X (exFly 10000 0.9 "util") = .ok E ∧
    liftLoad 1 12 1.5 (0.9 * 10000) (E.va / 1.9438445) = 4.4 := by
  obtain ⟨E, hE⟩ := (exFly_ok X 10000 0.9 "util" (by norm_num) (by norm_num) ⟨.util, rfl⟩).envelope
  obtain ⟨cat, l, hc, hl, h, -⟩ := C59_A X _ E 10000 12 1 1.5 hE rfl (by norm_num) rfl (by norm_num)
    (exAtm_dens 0 (by norm_num) (by norm_num)) one_pos rfl (by norm_num) (by show (0:ℝ) < 0.9; norm_num)
  cases hc
  exact ⟨E, hE, h.trans (C55_negative_violated _ l hl 10000 rfl (by norm_num)).1⟩

/-- Point G: at the inverted manoeuvring speed the lift carries exactly the negative limit; the point marked
lies on the negative stall curve. -/
theorem C59_G (X : Ext) (o : Cert) (E : Envelope) (W S rho0 clmin : ℝ) (h : flightenvelope X o = .ok E)
    (hW : o.acobj.weight_n = some W) (pW : 0 < W) (hS : o.acobj.wingarea_m2 = some S) (pS : 0 < S)
    (hr : Atmos.dens1 o.acobj.designatm 0 = .ok rho0) (pr : 0 < rho0) (hcl : o.acobj.clminclean = some clmin) (pc : clmin < 0)
    (pw : 0 < o.weightfraction) :
    ∃ cat l, parseCat o.category = .ok cat ∧ paragraph337 o = .ok l ∧
      liftLoad rho0 S clmin (o.weightfraction * W) (E.via / 1.9438445) = (l cat).2 ∧
      ("G", (E.via, kdrift ^ 2 * ((l cat).2 / o.weightfraction))) ∈ E.poi ∧
      (∀ p ∈ E.go, p.2 = liftLoad rho0 S clmin (o.weightfraction * W) (0.5144444 * p.1) / o.weightfraction) := by
  obtain ⟨cat, rho, vc0, m, W', S', a, rho0', smc, k, clmax', clmin', npos, nnegC, nnegD, e⟩ := flightenvelope_ok h
  have e1 := e.gin.weight; rw [hW] at e1; cases e1
  have e1 := e.gin.area; rw [hS] at e1; cases e1
  have e1 := e.gin.dens0; rw [hr] at e1; cases e1
  have e1 := e.hclmin; rw [hcl] at e1; cases e1
  obtain ⟨l, hl, hn, hn2⟩ := e.limits
  obtain ⟨h0, hv⟩ := vs_value e.vis hW pW hS pS hr pr (by rw [if_neg (by linarith : ¬ 0 ≤ -o.weightfraction)]; exact hcl) pc.ne
  have hneg : nnegC < 0 := by rw [hn2]; exact (limits_ok hl W hW pW cat).2
  have hva : liftLoad rho0 S clmin (o.weightfraction * W) (E.via / 1.9438445) = nnegC := by
    rw [e.via, show E.vis * √|nnegC| / 1.9438445 = √|nnegC| * (E.vis / 1.9438445) by ring, liftLoad_scale, hv _ pw,
      Real.sq_sqrt (abs_nonneg _), neg_div, div_self pw.ne', abs_of_neg hneg]
    ring
  refine ⟨cat, l, e.hcat, hl, by rw [hva, hn2], ?_, ?_⟩
  · have : firstY E.go = kdrift ^ 2 * ((l cat).2 / o.weightfraction) := by
      rw [e.go, firstY_of, goLoad_eq _ _ _ _ _ _ pS.ne', liftLoad_kts, hva, hn2]
      ring
    rw [← this, e.poi]
    split <;> simp
  · intro p hp
    rw [e.go, List.mem_map] at hp
    obtain ⟨x, -, rfl⟩ := hp
    exact goLoad_eq _ _ _ _ _ _ pS.ne'

example (X : Ext) : ∃ E y, flightenvelope X (exFly 10000 0.9 "util") = .ok E ∧ ("G", (E.via, y)) ∈ E.poi := by
  obtain ⟨E, hE⟩ := (exFly_ok X 10000 0.9 "util" (by norm_num) (by norm_num) ⟨.util, rfl⟩).envelope
  obtain ⟨cat, l, -, -, -, h, -⟩ := C59_G X _ E 10000 12 1 (-1) hE rfl (by norm_num) rfl (by norm_num)
    (exAtm_dens 0 (by norm_num) (by norm_num)) one_pos rfl (by norm_num) (by show (0:ℝ) < 0.9; norm_num)
  exact ⟨E, _, hE, h⟩

/-- At the stall speed the lift carries the actual weight; the first point of the envelope has the load factor
one over the weight fraction, but for the drift. -/
theorem C59_stall (X : Ext) (o : Cert) (E : Envelope) (W S rho0 clmax : ℝ) (h : flightenvelope X o = .ok E)
    (hW : o.acobj.weight_n = some W) (pW : 0 < W) (hS : o.acobj.wingarea_m2 = some S) (pS : 0 < S)
    (hr : Atmos.dens1 o.acobj.designatm 0 = .ok rho0) (pr : 0 < rho0) (hcl : o.acobj.clmaxclean = some clmax) (pc : 0 < clmax)
    (pw : 0 < o.weightfraction) :
    liftLoad rho0 S clmax (o.weightfraction * W) (E.vs / 1.9438445) = 1 ∧
    ∃ y, E.sc.head? = some (E.vs, y) ∧ y = kdrift ^ 2 / o.weightfraction ∧ |y - 1 / o.weightfraction| ≤ 2e-7 / o.weightfraction := by
  obtain ⟨cat, rho, vc0, m, W', S', a, rho0', smc, k, clmax', clmin, npos, nnegC, nnegD, e⟩ := flightenvelope_ok h
  have e1 := e.gin.weight; rw [hW] at e1; cases e1
  have e1 := e.gin.area; rw [hS] at e1; cases e1
  have e1 := e.gin.dens0; rw [hr] at e1; cases e1
  have e1 := e.hclmax; rw [hcl] at e1; cases e1
  obtain ⟨l, hl, hn, hn2⟩ := e.limits
  obtain ⟨h0, hv⟩ := vs_value e.vs hW pW hS pS hr pr (by rw [if_pos pw.le]; exact hcl) pc.ne'
  have h1 : liftLoad rho0 S clmax (o.weightfraction * W) (E.vs / 1.9438445) = 1 := by rw [hv _ pw, div_self pw.ne']
  have hnp := (limits_ok hl W hW pW cat).1
  have hle : E.vs ≤ E.va := by
    rw [e.va]
    have : 1 ≤ √npos := by apply Real.le_sqrt_of_sq_le; rw [hn]; norm_num at hnp ⊢; linarith
    nlinarith
  refine ⟨h1, _, ?_, rfl, ?_⟩
  · rw [e.sc, List.head?_map, linspace_head]
    simp only [Option.map_some, Option.some.injEq, Prod.mk.injEq, true_and]
    unfold scAt
    rw [if_pos (Or.inl hle), stallLoad_eq _ _ _ _ _ _ pS.ne', liftLoad_kts, h1, mul_one]
  · obtain ⟨-, -, k1, k2⟩ := kdrift_lt
    rw [← sub_div, abs_div, abs_of_pos pw]
    apply div_le_div_of_nonneg_right _ pw.le
    rw [abs_le]
    constructor <;> linarith

example (X : Ext) : ∃ E, flightenvelope X (exFly 10000 0.9 "util") = .ok E ∧
    liftLoad 1 12 1.5 (0.9 * 10000) (E.vs / 1.9438445) = 1 := by
  obtain ⟨E, hE⟩ := (exFly_ok X 10000 0.9 "util" (by norm_num) (by norm_num) ⟨.util, rfl⟩).envelope
  exact ⟨E, hE, (C59_stall X _ E 10000 12 1 1.5 hE rfl (by norm_num) rfl (by norm_num)
    (exAtm_dens 0 (by norm_num) (by norm_num)) one_pos rfl (by norm_num) (by show (0:ℝ) < 0.9; norm_num)).1⟩

/-- The quadratic solved for point B. -/
theorem vb_root (a cl k U tl rho0 wf : ℝ) (hcl : 0 < cl) (hr : 0 < rho0) (ht : 0 < tl) (hw : 0 < wf) :
    0 < vbmin1_keas a cl k U tl rho0 wf ∧
    ∀ u, 0 < u → (rho0 * u ^ 2 * cl / tl / 2 / wf = 1 + k * rho0 * U * u * a / (2 * tl) / wf ↔
      u = vbmin1_keas a cl k U tl rho0 wf / 1.9438445) := by
  obtain ⟨b, hb⟩ : ∃ b, b = (a / cl) * k * U := ⟨_, rfl⟩
  obtain ⟨c, hc⟩ : ∃ c, c = 2 * tl / (rho0 * cl) * wf := ⟨_, rfl⟩
  have pc : 0 < c := by rw [hc]; positivity
  have hD : 0 ≤ b ^ 2 + 4 * c := by positivity
  have hs : |b| < √(b ^ 2 + 4 * c) := by
    rw [← Real.sqrt_sq_eq_abs]; exact Real.sqrt_lt_sqrt (sq_nonneg _) (by linarith)
  have e : vbmin1_keas a cl k U tl rho0 wf = (b + √(b ^ 2 + 4 * c)) / 2 * 1.9438445 := by
    unfold vbmin1_keas mps2kts
    dsimp only
    have e1 : -(a / cl) * k * U = -b := by rw [hb]; ring
    have e2 : -2 * tl / (rho0 * cl) * wf = -c := by rw [hc]; ring
    rw [e1, e2]
    ring_nf
  have hb' := abs_lt.mp hs
  refine ⟨by rw [e]; have : 0 < b + √(b ^ 2 + 4 * c) := by linarith [hb'.1]
             positivity, ?_⟩
  intro u hu
  rw [e, mul_div_cancel_right₀ _ (by norm_num : (1.9438445:ℝ) ≠ 0)]
  have key : rho0 * u ^ 2 * cl / tl / 2 / wf = 1 + k * rho0 * U * u * a / (2 * tl) / wf ↔ u ^ 2 = c + b * u := by
    rw [hb, hc]
    constructor
    · intro h
      field_simp at h ⊢
      linarith
    · intro h
      field_simp at h ⊢
      linarith
  rw [key]
  have hsq := Real.sq_sqrt hD
  constructor
  · intro h
    have h1 : (2 * u - b) ^ 2 = √(b ^ 2 + 4 * c) ^ 2 := by rw [hsq]; nlinarith
    rcases sq_eq_sq_iff_eq_or_eq_neg.mp h1 with h2 | h2
    · linarith
    · exfalso
      have : 2 * u = b - √(b ^ 2 + 4 * c) := by linarith
      linarith [hb'.2]
  · intro h
    have h2 : 2 * u - b = √(b ^ 2 + 4 * c) := by linarith
    have h3 : (2 * u - b) ^ 2 = b ^ 2 + 4 * c := by rw [h2, hsq]
    nlinarith

/-- Point B: the only positive speed at which the stall curve meets the line of the gust `U_B` (commuters) or
`U_C` (others). The point is marked exactly when it does not lie beyond the cruise speed. -/
theorem C59_B (X : Ext) (o : Cert) (E : Envelope) (W S rho0 clmax : ℝ) (h : flightenvelope X o = .ok E)
    (hW : o.acobj.weight_n = some W) (pW : 0 < W) (hS : o.acobj.wingarea_m2 = some S) (pS : 0 < S)
    (hr : Atmos.dens1 o.acobj.designatm 0 = .ok rho0) (pr : 0 < rho0) (hcl : o.acobj.clmaxclean = some clmax) (pc : 0 < clmax)
    (pw : 0 < o.weightfraction) :
    ∃ cat k a l, parseCat o.category = .ok cat ∧ paragraph341 X o (fun _ => none) = .ok (l, k, a) ∧ 0 < E.vb ∧
      (∀ u, 0 < u → (liftLoad rho0 S clmax (o.weightfraction * W) u / o.weightfraction =
          1 + csIncr k rho0 (csGustMps (if cat = .comm then .Ub else .Uc) o.altitude_m) u a (o.weightfraction * W / S) / o.weightfraction ↔
        u = E.vb / 1.9438445)) ∧
      ((∃ p, ("B", p) ∈ E.poi) ↔ E.vb ≤ E.vc) ∧
      (∀ p, ("B", p) ∈ E.poi → p = (E.vb, kdrift ^ 2 * (liftLoad rho0 S clmax (o.weightfraction * W) (E.vb / 1.9438445) / o.weightfraction))) := by
  obtain ⟨cat, rho, vc0, m, W', S', a, rho0', smc, k, clmax', clmin, npos, nnegC, nnegD, e⟩ := flightenvelope_ok h
  have e1 := e.gin.weight; rw [hW] at e1; cases e1
  have e1 := e.gin.area; rw [hS] at e1; cases e1
  have e1 := e.gin.dens0; rw [hr] at e1; cases e1
  have e1 := e.hclmax; rw [hcl] at e1; cases e1
  obtain ⟨p0, hu⟩ := vb_root a clmax k (vbGust o.altitude_m cat) (W / S * o.weightfraction) rho0 o.weightfraction pc pr (by positivity) pw
  rw [← e.vb] at p0 hu
  have hU : vbGust o.altitude_m cat = csGustMps (if cat = .comm then .Ub else .Uc) o.altitude_m := by
    unfold vbGust
    split
    · exact gustb_eq _
    · exact gustc_eq _
  have h341 : ∃ l, paragraph341 X o (fun _ => none) = .ok (l, k, a) := by
    obtain ⟨mac, hm⟩ := e.gin.chord
    obtain ⟨lim, hl, -, -⟩ := e.limits
    unfold paragraph341
    simp only [e.gin.dens, e.gin.cruise, need, bind_ok, e.gin.mach, hW, hS, e.gin.slope, hr, paragraph333, hl, hm]
    rw [e.gin.allev]
    exact ⟨_, rfl⟩
  obtain ⟨l, h341⟩ := h341
  refine ⟨cat, k, a, l, e.hcat, h341, p0, ?_, ?_, ?_⟩
  · intro u pu
    rw [← hu u pu, ← hU]
    unfold liftLoad csIncr
    have : 1 / 2 * rho0 * u ^ 2 * S * clmax / (o.weightfraction * W) / o.weightfraction =
        rho0 * u ^ 2 * clmax / (W / S * o.weightfraction) / 2 / o.weightfraction := by field_simp
    rw [this, show W / S * o.weightfraction = o.weightfraction * W / S by ring]
  · rw [e.poi]
    by_cases hb : E.vb > E.vc
    · rw [if_pos hb]
      constructor
      · rintro ⟨p, hp⟩
        simp at hp
      · intro h1; exact absurd hb (not_lt.mpr h1)
    · rw [if_neg hb]
      exact ⟨fun _ => not_lt.mp hb, fun _ => ⟨_, by simp; rfl⟩⟩
  · intro p hp
    rw [e.poi] at hp
    by_cases hb : E.vb > E.vc
    · rw [if_pos hb] at hp
      simp at hp
    · rw [if_neg hb] at hp
      simp at hp
      rw [hp, stallLoad_eq _ _ _ _ _ _ pS.ne', liftLoad_kts, mul_div_assoc]

/-- The light aircraft meets the hypotheses of all four. -/
example (X : Ext) : ∃ E, flightenvelope X (exFly 10000 0.9 "comm") = .ok E ∧ 0 < E.vb ∧
    liftLoad 1 12 1.5 (0.9 * 10000) (E.va / 1.9438445) = 3.8 := by
  obtain ⟨E, hE⟩ := (exFly_ok X 10000 0.9 "comm" (by norm_num) (by norm_num) ⟨.comm, rfl⟩).envelope
  have hd : Atmos.dens1 (exFly 10000 0.9 "comm").acobj.designatm 0 = .ok 1 := exAtm_dens 0 (by norm_num) (by norm_num)
  have hw : 0 < (exFly 10000 0.9 "comm").weightfraction := by show (0:ℝ) < 0.9; norm_num
  refine ⟨E, hE, ?_, ?_⟩
  · obtain ⟨_, _, _, _, -, -, h, -⟩ := C59_B X _ E 10000 12 1 1.5 hE rfl (by norm_num) rfl (by norm_num) hd one_pos rfl (by norm_num) hw
    exact h
  · obtain ⟨cat, l, hc, hl, h, -⟩ := C59_A X _ E 10000 12 1 1.5 hE rfl (by norm_num) rfl (by norm_num) hd one_pos rfl (by norm_num) hw
    cases hc
    have h1 : liftLoad 1 12 1.5 (0.9 * 10000) (E.va / 1.9438445) = (l .comm).1 := h
    obtain ⟨W, S, hW, -, h2, -, h3, -⟩ := paragraph337_ok hl
    have hW' : some (10000:ℝ) = some W := hW
    cases hW'
    rw [h1, h3, h2, min_cs337 _ (by norm_num [n2lbf]), C55_plateau _ (by norm_num [n2lbf])]
    norm_num [n2lbf]

/-! ### C88 -/

theorem liftLoad_mono {rho0 S cl w v v' : ℝ} (hr : 0 < rho0) (hS : 0 < S) (hc : 0 < cl) (hw : 0 < w) (h0 : 0 ≤ v) (h : v ≤ v') :
    liftLoad rho0 S cl w v ≤ liftLoad rho0 S cl w v' := by
  unfold liftLoad
  gcongr

theorem line_below {A B u b : ℝ} (pA : 0 < A) (pb : 0 < b) (hub : A * b ^ 2 = 1 + B * b) (hbu : b ≤ u) : 1 + B * u ≤ A * u ^ 2 := by
  have h1 : 0 < (A * b - B) * b := by nlinarith
  have h2 : 0 < A * b - B := by
    by_contra hcon
    push Not at hcon
    nlinarith
  have h3 : 0 ≤ (u - b) * (A * u + (A * b - B)) := by
    apply mul_nonneg (by linarith)
    have : 0 < A * u := mul_pos pA (by linarith)
    linarith
  nlinarith

/-- The positive boundary up to the cruise speed never lies above the stall curve. -/
theorem C88_positive (X : Ext) (o : Cert) (E : Envelope) (W S rho0 clmax clmin : ℝ) (h : flightenvelope X o = .ok E)
    (f : Flyable X o W S clmax clmin) (hr : Atmos.dens1 o.acobj.designatm 0 = .ok rho0) :
    ∀ p ∈ E.sc, p.2 ≤ liftLoad rho0 S clmax (o.weightfraction * W) (p.1 / 1.9438445) / o.weightfraction := by
  have pW := f.pW
  have pS := f.pS
  have pc := f.pmax
  have pw := f.wf
  obtain ⟨cat, rho, vc0, m, W', S', a, rho0', smc, k, clmax', clmin', npos, nnegC, nnegD, e⟩ := flightenvelope_ok h
  obtain ⟨-, -, rfl, rfl, pa, pr, -, pk⟩ := f.alleviation e.gin
  have e1 := e.gin.dens0; rw [hr] at e1; cases e1
  have e1 := e.hclmax; rw [f.hmax] at e1; cases e1
  obtain ⟨l, hl, hn, hn2⟩ := e.limits
  obtain ⟨h0, hv⟩ := vs_value e.vs f.weight pW f.area pS hr pr (by rw [if_pos pw.le]; exact f.hmax) pc.ne'
  have hva : liftLoad rho0 S' clmax (o.weightfraction * W') (E.va / 1.9438445) = npos := by
    rw [e.va, show E.vs * √npos / 1.9438445 = √npos * (E.vs / 1.9438445) by ring, liftLoad_scale, hv _ pw,
      Real.sq_sqrt e.npos0, div_self pw.ne', mul_one]
  have hnp := (limits_ok hl W' f.weight pW cat).1
  have hle : E.vs ≤ E.va := by
    rw [e.va]
    have : 1 ≤ √npos := by apply Real.le_sqrt_of_sq_le; rw [hn]; norm_num at hnp ⊢; linarith
    nlinarith
  obtain ⟨p0, hu⟩ := vb_root a clmax k (vbGust o.altitude_m cat) (W' / S' * o.weightfraction) rho0 o.weightfraction pc pr (by positivity) pw
  rw [← e.vb] at p0 hu
  have hub := (hu (E.vb / 1.9438445) (by positivity)).mpr rfl
  -- the parabola and the line
  have hA : ∀ v, liftLoad rho0 S' clmax (o.weightfraction * W') v / o.weightfraction =
      rho0 * v ^ 2 * clmax / (W' / S' * o.weightfraction) / 2 / o.weightfraction := by
    intro v; unfold liftLoad; field_simp
  obtain ⟨A, hAd⟩ : ∃ A, A = rho0 * clmax / (W' / S' * o.weightfraction) / 2 / o.weightfraction := ⟨_, rfl⟩
  obtain ⟨B, hBd⟩ : ∃ B, B = k * rho0 * vbGust o.altitude_m cat * a / (2 * (W' / S' * o.weightfraction)) / o.weightfraction := ⟨_, rfl⟩
  have pA : 0 < A := by rw [hAd]; positivity
  have hgb : gustc_mps o.altitude_m ≤ vbGust o.altitude_m cat := by
    unfold vbGust
    split
    · rw [gustb_eq, gustc_eq]
      unfold csGustMps
      have := (C56_order (o.altitude_m / 0.3048)).1
      dsimp only
      linarith
    · exact le_rfl
  have hgc : 0 < gustc_mps o.altitude_m := by rw [gustc_eq]; exact csGustMps_pos _ _
  have pB : 0 ≤ B := by
    rw [hBd]
    have : 0 < vbGust o.altitude_m cat := by linarith
    positivity
  have hlift : ∀ v, liftLoad rho0 S' clmax (o.weightfraction * W') v / o.weightfraction = A * v ^ 2 := by
    intro v; rw [hA, hAd]; ring
  have hline : ∀ v, k * rho0 * vbGust o.altitude_m cat * v * a / (2 * (W' / S' * o.weightfraction)) / o.weightfraction = B * v := by
    intro v; rw [hBd]; ring
  rw [hline, ← hA, hlift] at hub
  obtain ⟨k1, k2, k3, k4⟩ := kdrift_lt
  intro p hp
  rw [e.sc, List.mem_map] at hp
  obtain ⟨x, hx, rfl⟩ := hp
  have hxb := linspace_mem hx
  dsimp only
  rw [hlift]
  unfold scAt
  split
  · rw [stallLoad_eq _ _ _ _ _ _ pS.ne', liftLoad_kts, mul_div_assoc, hlift]
    have : 0 ≤ A * (x / 1.9438445) ^ 2 := by positivity
    nlinarith
  · rename_i hcond
    push Not at hcond
    obtain ⟨hxa, hxb2⟩ := hcond
    have hxc : x ≤ E.vc := by
      rcases le_max_iff.mp hxb.2 with h1 | h1
      · linarith
      · exact h1
    apply max_le
    · -- the gust line
      have hbu : E.vb / 1.9438445 ≤ x / 1.9438445 := by
        apply div_le_div_of_nonneg_right hxb2.le (by norm_num)
      have hGx : 1 + B * (x / 1.9438445) ≤ A * (x / 1.9438445) ^ 2 := by
        exact line_below pA (by positivity) hub hbu
      refine le_trans ?_ hGx
      have hyb : stallLoad rho0 E.vb clmax (W' / S' * o.weightfraction) o.weightfraction ≤ 1 + B * (E.vb / 1.9438445) := by
        rw [stallLoad_eq _ _ _ _ _ _ pS.ne', liftLoad_kts, mul_div_assoc, hlift, ← hub]
        have : 0 ≤ A * (E.vb / 1.9438445) ^ 2 := by positivity
        nlinarith
      have hvc : 0 < E.vc := by linarith
      have hyc : 1 + gustIncrement k rho0 (gustc_mps o.altitude_m) (kts2mps E.vc) a (W' / S' * o.weightfraction) o.weightfraction ≤
          1 + B * (E.vc / 1.9438445) := by
        have h1 : kts2mps E.vc ≤ E.vc / 1.9438445 := by
          unfold kts2mps; rw [le_div_iff₀ (by norm_num)]; norm_num; linarith
        have h2 : 0 ≤ kts2mps E.vc := by unfold kts2mps; positivity
        rw [← hline]
        have h3 : 0 ≤ vbGust o.altitude_m cat := by linarith
        unfold gustIncrement
        gcongr
      unfold npInterp2
      rw [if_neg (not_le.mpr hxb2)]
      split
      · rename_i h1
        have : x = E.vc := le_antisymm hxc h1
        rw [this]; exact hyc
      · rename_i h1
        push Not at h1
        have hd : 0 < E.vc - E.vb := by linarith
        rw [← sub_nonneg]
        obtain ⟨yb, hybd⟩ : ∃ yb, yb = stallLoad rho0 E.vb clmax (W' / S' * o.weightfraction) o.weightfraction := ⟨_, rfl⟩
        obtain ⟨yc, hycd⟩ : ∃ yc, yc = 1 + gustIncrement k rho0 (gustc_mps o.altitude_m) (kts2mps E.vc) a (W' / S' * o.weightfraction) o.weightfraction := ⟨_, rfl⟩
        rw [← hybd] at hyb ⊢
        rw [← hycd] at hyc ⊢
        have : 1 + B * (x / 1.9438445) - (yb + (yc - yb) / (E.vc - E.vb) * (x - E.vb)) =
            ((1 + B * (E.vb / 1.9438445) - yb) * (E.vc - x) + (1 + B * (E.vc / 1.9438445) - yc) * (x - E.vb)) / (E.vc - E.vb) := by
          field_simp
          ring
        rw [this]
        apply div_nonneg _ hd.le
        apply add_nonneg <;> apply mul_nonneg <;> linarith
    · -- the manoeuvre limit
      rw [← hlift]
      apply div_le_div_of_nonneg_right _ pw.le
      rw [← hva]
      apply liftLoad_mono pr pS pc (by positivity)
      · have : 0 ≤ E.va := le_trans h0 hle
        positivity
      · apply div_le_div_of_nonneg_right hxa.le (by norm_num)

example (X : Ext) : ∃ E, flightenvelope X (exFly 10000 0.9 "aero") = .ok E ∧
    ∀ p ∈ E.sc, p.2 ≤ liftLoad 1 12 1.5 (0.9 * 10000) (p.1 / 1.9438445) / 0.9 := by
  have f := exFly_ok X 10000 0.9 "aero" (by norm_num) (by norm_num) ⟨.aero, rfl⟩
  obtain ⟨E, hE⟩ := f.envelope
  exact ⟨E, hE, C88_positive X _ E 10000 12 1 1.5 (-1) hE f (exAtm_dens 0 (by norm_num) (by norm_num))⟩

/-- The negative boundary between cruise and stall speed never lies below the negative stall curve. -/
theorem C88_negative (X : Ext) (o : Cert) (E : Envelope) (W S rho0 clmin : ℝ) (h : flightenvelope X o = .ok E)
    (hW : o.acobj.weight_n = some W) (hS : o.acobj.wingarea_m2 = some S) (pS : 0 < S)
    (hr : Atmos.dens1 o.acobj.designatm 0 = .ok rho0) (hcl : o.acobj.clminclean = some clmin) :
    ∀ p ∈ E.fs, liftLoad rho0 S clmin (o.weightfraction * W) (0.5144444 * p.1) / o.weightfraction ≤ p.2 := by
  obtain ⟨cat, rho, vc0, m, W', S', a, rho0', smc, k, clmax', clmin', npos, nnegC, nnegD, e⟩ := flightenvelope_ok h
  have e1 := e.gin.weight; rw [hW] at e1; cases e1
  have e1 := e.gin.area; rw [hS] at e1; cases e1
  have e1 := e.gin.dens0; rw [hr] at e1; cases e1
  have e1 := e.hclmin; rw [hcl] at e1; cases e1
  intro p hp
  rw [e.fs, List.mem_map] at hp
  obtain ⟨x, -, rfl⟩ := hp
  dsimp only
  rw [← stallLoad_eq _ _ _ _ _ _ pS.ne']
  unfold fsAt
  dsimp only
  split
  · exact le_rfl
  · exact le_max_right _ _

example (X : Ext) : ∃ E, flightenvelope X (exFly 10000 0.9 "aero") = .ok E ∧
    Flyable X (exFly 10000 0.9 "aero") 10000 12 1.5 (-1) ∧ E.sc.length = 100 := by
  have f := exFly_ok X 10000 0.9 "aero" (by norm_num) (by norm_num) ⟨.aero, rfl⟩
  obtain ⟨E, hE⟩ := f.envelope
  obtain ⟨_, _, _, _, -, -, -, -, -, hs, -⟩ := C60_order X _ E hE
  exact ⟨E, hE, f, hs.count⟩

/-! ### C87 -/

/-- When the wing can reach the negative manoeuvre limit at the cruise speed and the gust does not, point F is
marked at a smaller load than the limit, and the outline has two different loads at that speed. -/
theorem C87_corner_violated (X : Ext) (o : Cert) (E : Envelope) (W S rho0 clmin : ℝ) (h : flightenvelope X o = .ok E)
    (hW : o.acobj.weight_n = some W) (pW : 0 < W) (hS : o.acobj.wingarea_m2 = some S) (pS : 0 < S)
    (hr : Atmos.dens1 o.acobj.designatm 0 = .ok rho0) (pr : 0 < rho0) (hcl : o.acobj.clminclean = some clmin) (pc : clmin < 0)
    (pw : 0 < o.weightfraction) (cat : Cat) (l : Cat → ℝ × ℝ) (gl : Cat → List GustLoad) (k a : ℝ)
    (hcat : parseCat o.category = .ok cat) (hl : paragraph337 o = .ok l) (hg : paragraph341 X o (fun _ => none) = .ok (gl, k, a))
    (hstall : liftLoad rho0 S clmin (o.weightfraction * W) (0.5144444 * E.vc) < (l cat).2)
    (hgust : (l cat).2 / o.weightfraction <
      1 - csIncr k rho0 (csGustMps .Uc o.altitude_m) (0.5144444 * E.vc) a (o.weightfraction * W / S) / o.weightfraction)
    (hlim : (l cat).2 < if cat = .norm ∨ cat = .comm then 0 else -1) :
    E.fs.head? = some (E.vc, (l cat).2 / o.weightfraction) ∧
    ∃ y, ("F", (E.vc, y)) ∈ E.poi ∧ E.ef.getLast? = some (E.vc, y) ∧ (l cat).2 / o.weightfraction < y := by
  obtain ⟨cat', rho, vc0, m, W', S', a', rho0', smc, k', clmax', clmin', npos, nnegC, nnegD, e⟩ := flightenvelope_ok h
  have e1 := e.gin.weight; rw [hW] at e1; cases e1
  have e1 := e.gin.area; rw [hS] at e1; cases e1
  have e1 := e.gin.dens0; rw [hr] at e1; cases e1
  have e1 := e.hclmin; rw [hcl] at e1; cases e1
  have e1 := e.hcat; rw [hcat] at e1; cases e1
  obtain ⟨l', hl', hn, hn2⟩ := e.limits
  rw [hl] at hl'; cases hl'
  obtain ⟨_, _, _, _, _, _, _, hi, -⟩ := paragraph341_ok hg
  obtain ⟨rfl, rfl, rfl, rfl, rfl, rfl, rfl, rfl, rfl⟩ := hi.unique e.gin
  rw [← hn2] at hstall hgust hlim ⊢
  rw [← e.nneg] at hlim
  obtain ⟨c1, l1, hc1, hl1, hG, -⟩ := C59_G X o E _ _ _ clmin h hW pW hS pS hr pr hcl pc pw
  rw [hcat] at hc1; cases hc1
  rw [hl] at hl1; cases hl1
  rw [← hn2] at hG
  have hvc0 : 0 ≤ E.vc := by
    obtain ⟨_, _, _, _, -, -, -, -, hc, -⟩ := C58_speeds X o E h
    exact le_trans (csVcMin_nonneg _ _) hc
  have hvia : E.via ≤ E.vc := by
    by_contra hcon
    push Not at hcon
    have h1 : 0.5144444 * E.vc ≤ E.via / 1.9438445 := by
      rw [le_div_iff₀ (by norm_num)]; norm_num; linarith
    have h2 : liftLoad rho0 S clmin (o.weightfraction * W) (E.via / 1.9438445) ≤
        liftLoad rho0 S clmin (o.weightfraction * W) (0.5144444 * E.vc) := by
      unfold liftLoad
      apply div_le_div_of_nonneg_right _ (by positivity)
      have h3 : (0.5144444 * E.vc) ^ 2 ≤ (E.via / 1.9438445) ^ 2 := by
        apply pow_le_pow_left₀ (by positivity) h1
      have h4 : 1 / 2 * rho0 * (0.5144444 * E.vc) ^ 2 * S ≤ 1 / 2 * rho0 * (E.via / 1.9438445) ^ 2 * S := by gcongr
      exact mul_le_mul_of_nonpos_right h4 pc.le
    linarith
  have hst : stallLoad rho0 E.vc clmin (W / S * o.weightfraction) o.weightfraction < nnegC / o.weightfraction := by
    rw [stallLoad_eq _ _ _ _ _ _ pS.ne']
    exact div_lt_div_of_pos_right hstall pw
  have hgu : nnegC / o.weightfraction <
      1 - gustIncrement k' rho0 (gustc_mps o.altitude_m) (kts2mps E.vc) a' (W / S * o.weightfraction) o.weightfraction := by
    have : csIncr k' rho0 (csGustMps .Uc o.altitude_m) (0.5144444 * E.vc) a' (o.weightfraction * W / S) / o.weightfraction =
        gustIncrement k' rho0 (gustc_mps o.altitude_m) (kts2mps E.vc) a' (W / S * o.weightfraction) o.weightfraction := by
      unfold csIncr gustIncrement kts2mps
      rw [gustc_eq]; ring
    rw [← this]; exact hgust
  have hvcpos : 0 < E.vc := by
    rcases hvc0.lt_or_eq with h1 | h1
    · exact h1
    · exfalso
      rw [← h1] at hstall
      have hneg : nnegC < 0 := by rw [hn2]; exact (limits_ok hl W hW pW cat).2
      simp [liftLoad] at hstall
      linarith
  refine ⟨?_, ?_⟩
  · rw [e.fs, List.head?_map, linspace_head]
    simp only [Option.map_some, Option.some.injEq, Prod.mk.injEq, true_and]
    unfold fsAt
    dsimp only
    rw [if_neg (not_lt.mpr hvia)]
    unfold npInterp2
    rw [if_neg (not_le.mpr hvcpos), if_pos le_rfl, min_eq_right hgu.le, max_eq_left hst.le]
  · obtain ⟨y, hy⟩ : ∃ y, y = efAt E.vc E.vd
        (1 - gustIncrement k' rho0 (gustc_mps o.altitude_m) (kts2mps E.vc) a' (W / S * o.weightfraction) o.weightfraction)
        (stallLoad rho0 E.vc clmin (W / S * o.weightfraction) o.weightfraction)
        (1 - gustIncrement k' rho0 (gustd_mps o.altitude_m) (kts2mps E.vd) a' (W / S * o.weightfraction) o.weightfraction)
        (nnegD / o.weightfraction) E.vc := ⟨_, rfl⟩
    have hlast : E.ef.getLast? = some (E.vc, y) := by
      rw [e.ef, List.getLast?_map, linspace_last, hy]; rfl
    refine ⟨y, ?_, hlast, ?_⟩
    · rw [e.poi]
      have : lastY E.ef = y := by unfold lastY; rw [hlast]; rfl
      rw [this]
      split <;> simp
    · rw [hy]
      unfold efAt npInterp2
      rw [if_pos le_rfl]
      apply lt_min
      · exact lt_of_lt_of_le hgu (le_max_left _ _)
      · exact div_lt_div_of_pos_right hlim pw

/-- A heavier aircraft of the normal category is such a case: point F lies above the limit. -/
example (X : Ext) : ∃ E l, flightenvelope X (exFly 40000 1 "norm") = .ok E ∧ paragraph337 (exFly 40000 1 "norm") = .ok l ∧
    E.fs.head? = some (E.vc, (l .norm).2) ∧ ∃ y, ("F", (E.vc, y)) ∈ E.poi ∧ (l .norm).2 < y := by
  have f := exFly_ok X 40000 1 "norm" (by norm_num) (by norm_num) ⟨.norm, rfl⟩
  obtain ⟨E, hE⟩ := f.envelope
  obtain ⟨gl, k, a, hg⟩ := f.gust (fun _ => none)
  obtain ⟨rho, vc0, m, W, S, rho0, smc, hi, -⟩ := paragraph341_ok hg
  obtain ⟨pr, -, rfl, rfl, pa, pr0, psm, pk⟩ := f.alleviation hi
  have hd0 : Atmos.dens1 (exFly 40000 1 "norm").acobj.designatm 0 = .ok 1 := exAtm_dens 0 (by norm_num) (by norm_num)
  have hd2 : Atmos.dens1 (exFly 40000 1 "norm").acobj.designatm (exFly 40000 1 "norm").altitude_m = .ok 1 :=
    exAtm_dens 2000 (by norm_num) (by norm_num)
  have e1 := hi.dens; rw [hd2] at e1; cases e1
  have e1 := hi.dens0; rw [hd0] at e1; cases e1
  have e1 : some (120:ℝ) = some vc0 := hi.cruise
  cases e1
  -- the lift slope
  have hm := exFly_mach 120 m (by norm_num) le_rfl hi.mach
  have ha : a ≤ 6.4 := by
    obtain ⟨sub, tr, h1, h2, h3⟩ := C71_estimates X { exC with weight_n := some 40000 } (some m)
    have h4 : liftslope_prad X { exC with weight_n := some 40000 } (some m) = .ok a := hi.slope
    rw [h3, (C71_ranges _ _ _ _).1 (by norm_num at hm ⊢; linarith)] at h4
    cases h4
    obtain ⟨b, hb, pb, hle⟩ := C72_subsonic (exC_wing 40000) hm.1 (by norm_num at hm ⊢; linarith : m < 1)
    have h1' : a_subsonic { exC with weight_n := some 40000 } m = .ok a := h1
    rw [hb] at h1'; cases h1'
    have h5 : pyNum { exC with weight_n := some 40000 }.a_0i = 6 := rfl
    rw [h5] at hle
    refine le_trans hle ?_
    have h6 : (0.95:ℝ) ≤ √(1 - m ^ 2) := by
      apply Real.le_sqrt_of_sq_le
      have : m ^ 2 ≤ 0.3 ^ 2 := by apply pow_le_pow_left₀ hm.1 hm.2
      norm_num at this ⊢; linarith
    rw [div_le_iff₀ (lt_of_lt_of_le (by norm_num) h6)]
    norm_num at h6 ⊢; linarith
  have hk : k < 0.88 := by
    rw [hi.allev]
    have h1 : (exFly 40000 1 "norm").weightfraction = 1 := rfl
    rw [h1]
    exact (C57_alleviation (40000 / 12 * 1) 1 smc a (by norm_num) one_pos psm pa).2.1
  -- the cruise speed
  have hvc : 250 ≤ E.vc ∧ E.vc ≤ 255 := by
    obtain ⟨cat, vc0, W, S, h1, h2, h3, h4, h5, -, h6, -⟩ := C58_speeds X _ E hE
    cases h1
    have h2' : some (120:ℝ) = some vc0 := h2
    have h3' : some (40000:ℝ) = some W := h3
    have h4' : some (12:ℝ) = some S := h4
    cases h2'; cases h3'; cases h4'
    have l1 : (8.3:ℝ) ≤ √(40000 / 12 * 0.020885434273039) := by apply Real.le_sqrt_of_sq_le; norm_num
    have l2 : √(40000 / 12 * 0.020885434273039) ≤ (8.4:ℝ) := by rw [Real.sqrt_le_left (by norm_num)]; norm_num
    have l3 : csVcMin .norm (40000 / 12 * 0.020885434273039) =
        (33 - (33 - 28.6) * (40000 / 12 * 0.020885434273039 - 20) / 80) * √(40000 / 12 * 0.020885434273039) := by
      unfold csVcMin csFactor
      rw [if_neg (by norm_num), if_pos (by norm_num)]; simp
    rw [l3] at h5 h6
    norm_num at l1 l2 h5 h6
    refine ⟨by linarith, ?_⟩
    rcases h6 with h6 | h6 <;> linarith
  -- the limit
  have h337 : ∃ l, paragraph337 (exFly 40000 1 "norm") = .ok l := ⟨_, rfl⟩
  obtain ⟨l, hl⟩ := h337
  have hlim : -1.4 < (l .norm).2 ∧ (l .norm).2 < -1 := by
    obtain ⟨W, S, hW, -, h2, -⟩ := paragraph337_ok hl
    have hW' : some (40000:ℝ) = some W := hW
    cases hW'
    rw [h2, min_cs337 _ (by norm_num [n2lbf])]
    unfold cs337 n2lbf
    rw [if_neg (by norm_num)]
    constructor <;> norm_num
  have hU : csGustMps .Uc 2000 = 0.3048 * 50 := by
    unfold csGustMps csGust
    dsimp only
    rw [if_pos (by norm_num)]
  have hU' : csGustMps .Uc (exFly 40000 1 "norm").altitude_m = 0.3048 * 50 := hU
  have key := C87_corner_violated X _ E 40000 12 1 (-1) hE rfl (by norm_num) rfl (by norm_num) hd0 one_pos rfl (by norm_num)
    f.wf .norm l gl k a rfl hl hg ?_ ?_ ?_
  · obtain ⟨k1, y, k2, -, k3⟩ := key
    have h1 : (exFly 40000 1 "norm").weightfraction = 1 := rfl
    rw [h1, div_one] at k1 k3
    exact ⟨E, l, hE, hl, k1, y, k2, k3⟩
  · have h1 : (exFly 40000 1 "norm").weightfraction = 1 := rfl
    rw [h1]
    unfold liftLoad
    rw [div_lt_iff₀ (by norm_num)]
    have : (0.5144444 * 250 : ℝ) ^ 2 ≤ (0.5144444 * E.vc) ^ 2 := by
      apply pow_le_pow_left₀ (by norm_num)
      linarith [hvc.1]
    norm_num at this hlim ⊢
    linarith
  · have h1 : (exFly 40000 1 "norm").weightfraction = 1 := rfl
    rw [h1, hU', div_one, div_one]
    have h2 : csIncr k 1 (0.3048 * 50) (0.5144444 * E.vc) a (1 * 40000 / 12) ≤
        csIncr 0.88 1 (0.3048 * 50) (0.5144444 * 255) 6.4 (1 * 40000 / 12) := by
      have := hvc.2
      have := hvc.1
      unfold csIncr
      gcongr
    have h3 : csIncr 0.88 1 (0.3048 * 50) (0.5144444 * 255) 6.4 (1 * 40000 / 12) < 2 := by unfold csIncr; norm_num
    norm_num at hlim h2 h3 ⊢
    linarith
  · rw [if_pos (Or.inl rfl)]
    linarith

end

end Verif.Props
