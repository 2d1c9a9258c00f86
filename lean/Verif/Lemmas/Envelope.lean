import Verif.Props.Airworthiness

/-
Inversion lemmas for the gust loads, design speeds and the flight envelope of ADRpy/airworthiness.py.
-/

namespace Verif.Props
open Verif Verif.Aircraft Verif.Units Verif.Airworthiness

noncomputable section

/-- What goes into the gust loads. -/
structure GustIn (X : Ext) (o : Cert) (rho vc m W S a rho0 smc k : ℝ) : Prop where
  dens : Atmos.dens1 o.acobj.designatm o.altitude_m = .ok rho
  cruise : o.cruisespeed_keas = some vc
  mach : Atmos.mach1 o.acobj.designatm (kts2mps (Units.eas2tas vc rho)) o.altitude_m = .ok m
  weight : o.acobj.weight_n = some W
  area : o.acobj.wingarea_m2 = some S
  slope : liftslope_prad X o.acobj (some m) = .ok a
  dens0 : Atmos.dens1 o.acobj.designatm 0 = .ok rho0
  chord : ∃ mac, meanchord_m o = .ok (smc, mac)
  allev : k = k_gust (mu_g (W / S * o.weightfraction) rho smc a)

/-- The load of one gust. -/
def loadOf (k rho0 a tl wf : ℝ) (gu : Gust × ℝ) (keas : ℝ) : GustLoad :=
  GustLoad.mk gu.1 (1 + gustIncrement k rho0 gu.2 (kts2mps keas) a tl wf) (1 - gustIncrement k rho0 gu.2 (kts2mps keas) a tl wf)

theorem paragraph341_ok {X : Ext} {o : Cert} {speeds : Gust → Option ℝ} {l : Cat → List GustLoad} {k a : ℝ}
    (h : paragraph341 X o speeds = .ok (l, k, a)) :
    ∃ rho vc m W S rho0 smc, GustIn X o rho vc m W S a rho0 smc k ∧
      ∀ cat, l cat = (gustList o.altitude_m cat).filterMap (fun gu => (speeds gu.1).map
        (loadOf k rho0 a (W / S * o.weightfraction) o.weightfraction gu)) := by
  unfold paragraph341 at h
  simp only [bind_ok_iff, need_ok] at h
  obtain ⟨rho, h1, vc, h2, m, h3, W, h4, S, h5, a', h6, rho0, h7, ⟨M, G⟩, h8, ⟨smc, mac⟩, h9, h⟩ := h
  have hG : G = gustList o.altitude_m := by
    unfold paragraph333 at h8
    simp only [bind_ok_iff] at h8
    obtain ⟨_, -, h8⟩ := h8
    cases h8; rfl
  subst hG
  injection h with h
  injection h with hl h
  injection h with hk ha
  subst hl hk ha
  exact ⟨rho, vc, m, W, S, rho0, smc, ⟨h1, h2, h3, h4, h5, h6, h7, ⟨mac, h9⟩, rfl⟩, fun _ => rfl⟩

theorem GustIn.unique {X : Ext} {o : Cert} {rho vc m W S a rho0 smc k rho' vc' m' W' S' a' rho0' smc' k' : ℝ}
    (h : GustIn X o rho vc m W S a rho0 smc k) (h' : GustIn X o rho' vc' m' W' S' a' rho0' smc' k') :
    rho' = rho ∧ vc' = vc ∧ m' = m ∧ W' = W ∧ S' = S ∧ a' = a ∧ rho0' = rho0 ∧ smc' = smc ∧ k' = k := by
  have e1 : rho' = rho := by have := h'.dens; rw [h.dens] at this; cases this; rfl
  have e2 : vc' = vc := by have := h'.cruise; rw [h.cruise] at this; cases this; rfl
  subst e1 e2
  have e3 : m' = m := by have := h'.mach; rw [h.mach] at this; cases this; rfl
  have e4 : W' = W := by have := h'.weight; rw [h.weight] at this; cases this; rfl
  have e5 : S' = S := by have := h'.area; rw [h.area] at this; cases this; rfl
  subst e3 e4 e5
  have e6 : a' = a := by have := h'.slope; rw [h.slope] at this; cases this; rfl
  have e7 : rho0' = rho0 := by have := h'.dens0; rw [h.dens0] at this; cases this; rfl
  have e8 : smc' = smc := by
    obtain ⟨x, hx⟩ := h.chord
    obtain ⟨y, hy⟩ := h'.chord
    rw [hx] at hy; cases hy; rfl
  subst e6 e7 e8
  exact ⟨rfl, rfl, rfl, rfl, rfl, rfl, rfl, rfl, by rw [h.allev, h'.allev]⟩

theorem overCats_ok {α : Type} {f : Cat → PyM α} {r : Cat → α} (h : overCats f = .ok r) (cat : Cat) : f cat = .ok (r cat) := by
  unfold overCats at h
  simp only [bind_ok_iff] at h
  obtain ⟨n, h1, u, h2, c, h3, a, h4, h⟩ := h
  cases h
  cases cat <;> assumption

theorem overCats_of {α : Type} {f : Cat → PyM α} (h : ∀ cat, ∃ x, f cat = .ok x) : ∃ r, overCats f = .ok r := by
  obtain ⟨n, h1⟩ := h .norm
  obtain ⟨u, h2⟩ := h .util
  obtain ⟨c, h3⟩ := h .comm
  obtain ⟨a, h4⟩ := h .aero
  exact ⟨_, by unfold overCats; simp only [h1, h2, h3, h4, bind_ok]; rfl⟩

/-- The gust at the speed V_B of a category. -/
def vbGust (alt : ℝ) (cat : Cat) : ℝ := if cat = .comm then gustb_mps alt else gustc_mps alt

theorem paragraph335_ok {X : Ext} {o : Cert} {L : Cat → Speeds} (h : paragraph335 X o = .ok L) (cat : Cat) :
    ∃ rho vc m W S a rho0 smc k cl vs npos, GustIn X o rho vc m W S a rho0 smc k ∧ o.acobj.clmaxclean = some cl ∧
      vs_keas o o.weightfraction = .ok vs ∧ (∃ l, paragraph337 o = .ok l ∧ npos = (l cat).1) ∧
      (L cat).vcmin = vcmin_keas (pa2lbfft2 (W / S)) cat ∧ (L cat).vdmin = vdmin_keas vc (pa2lbfft2 (W / S)) cat ∧
      (L cat).vamin = vs * √npos ∧ 0 ≤ npos ∧
      (L cat).vbmin1 = vbmin1_keas a cl k (vbGust o.altitude_m cat) (W / S * o.weightfraction) rho0 o.weightfraction ∧
      (L cat).vbmin2 = vs * √(1 + gustIncrement k rho0 (gustc_mps o.altitude_m) (kts2mps vc) a (W / S * o.weightfraction) o.weightfraction) ∧
      (L cat).vbmin = min (L cat).vbmin1 (L cat).vbmin2 ∧ (L cat).vbmax = max (L cat).vbmin vc := by
  unfold paragraph335 at h
  simp only [bind_ok_iff, need_ok] at h
  obtain ⟨vc, h1, cl, h2, W, h3, S, h4, vs, h5, l, h6, rt, h7, ⟨M, G⟩, h8, ⟨loads, k, a⟩, h9, vs', h10, rho0, h11, h⟩ := h
  rw [h5] at h10; cases h10
  obtain ⟨rho, vc', m, W', S', rho0', smc, hi, hl⟩ := paragraph341_ok h9
  have e := hi.cruise; rw [h1] at e; cases e
  have e := hi.weight; rw [h3] at e; cases e
  have e := hi.area; rw [h4] at e; cases e
  have e := hi.dens0; rw [h11] at e; cases e
  have hG : G = gustList o.altitude_m := by
    unfold paragraph333 at h8
    simp only [bind_ok_iff] at h8
    obtain ⟨_, -, h8⟩ := h8
    cases h8; rfl
  subst hG
  have hs := overCats_ok h cat
  have hr := overCats_ok h7 cat
  rw [mathSqrt_ok] at hr
  unfold speedsAt at hs
  simp only [bind_ok_iff, mathSqrt_ok] at hs
  obtain ⟨U, hU, gl, hgl, r, ⟨-, rfl⟩, hs⟩ := hs
  have hU' : U = vbGust o.altitude_m cat := by
    cases cat <;> (simp [gustSpeed, gustList] at hU; rw [← hU]; rfl)
  have hgl' : gl = loadOf k rho0 a (W / S * o.weightfraction) o.weightfraction (.Uc, gustc_mps o.altitude_m) vc := by
    simp only [hl] at hgl
    cases cat <;> (simp [gustLoad, gustList, loadOf] at hgl; rw [← hgl]; rfl)
  injection hs with hs
  rw [← hs]
  subst hU' hgl'
  refine ⟨rho, vc, m, W, S, a, rho0, smc, k, cl, vs, (l cat).1, hi, h2, h5, ⟨l, h6, rfl⟩, rfl, rfl, ?_, hr.1, rfl, rfl, rfl, rfl⟩
  show vs * rt cat = _
  rw [hr.2]

/-- The gust speeds dictionary of the envelope. -/
def envSpeeds (vb vc vd : ℝ) : Gust → Option ℝ
  | .Ub => some vb
  | .Uc => some vc
  | .Ud => some vd

/-- What goes into the envelope and how its parts come about. -/
structure EnvOf (X : Ext) (o : Cert) (E : Envelope) (cat : Cat) (rho vc0 m W S a rho0 smc k clmax clmin npos nnegC nnegD : ℝ) : Prop where
  hcat : parseCat o.category = .ok cat
  gin : GustIn X o rho vc0 m W S a rho0 smc k
  hclmax : o.acobj.clmaxclean = some clmax
  hclmin : o.acobj.clminclean = some clmin
  limits : ∃ l, paragraph337 o = .ok l ∧ npos = (l cat).1 ∧ nnegC = (l cat).2
  nneg : nnegD = if cat = .norm ∨ cat = .comm then 0 else -1
  npos0 : 0 ≤ npos
  vs : vs_keas o o.weightfraction = .ok E.vs
  vis : vs_keas o (-o.weightfraction) = .ok E.vis
  vc : E.vc = max vc0 (vcmin_keas (pa2lbfft2 (W / S)) cat)
  vd : E.vd = (match o.divespeed_keas with
    | none => vdmin_keas vc0 (pa2lbfft2 (W / S)) cat
    | some v => max v (vdmin_keas vc0 (pa2lbfft2 (W / S)) cat))
  va : E.va = E.vs * √npos
  vb : E.vb = vbmin1_keas a clmax k (vbGust o.altitude_m cat) (W / S * o.weightfraction) rho0 o.weightfraction
  via : E.via = E.vis * √|nnegC|
  oa : E.oa = (linspace100 0 E.va).map (fun x => (x, stallLoad rho0 x clmax (W / S * o.weightfraction) o.weightfraction))
  go : E.go = (linspace100 E.via 0).map (fun x => (x, 0.5 * rho0 * kts2mps x ^ 2 * clmin / (W / S * o.weightfraction) / o.weightfraction))
  sc : E.sc = (linspace100 E.vs E.vc).map (fun x => (x, scAt rho0 clmax (W / S * o.weightfraction) o.weightfraction E.va E.vb E.vc
    (stallLoad rho0 E.vb clmax (W / S * o.weightfraction) o.weightfraction)
    (1 + gustIncrement k rho0 (gustc_mps o.altitude_m) (kts2mps E.vc) a (W / S * o.weightfraction) o.weightfraction) (npos / o.weightfraction) x))
  cd : E.cd = (linspace100 E.vc E.vd).map (fun x => (x, cdAt E.vc E.vd (lastY E.sc)
    (1 + gustIncrement k rho0 (gustd_mps o.altitude_m) (kts2mps E.vd) a (W / S * o.weightfraction) o.weightfraction) (npos / o.weightfraction) x))
  e : E.e = (E.vd, min (1 - gustIncrement k rho0 (gustd_mps o.altitude_m) (kts2mps E.vd) a (W / S * o.weightfraction) o.weightfraction)
    (nnegD / o.weightfraction))
  ef : E.ef = (linspace100 E.vd E.vc).map (fun x => (x, efAt E.vc E.vd
    (1 - gustIncrement k rho0 (gustc_mps o.altitude_m) (kts2mps E.vc) a (W / S * o.weightfraction) o.weightfraction)
    (stallLoad rho0 E.vc clmin (W / S * o.weightfraction) o.weightfraction)
    (1 - gustIncrement k rho0 (gustd_mps o.altitude_m) (kts2mps E.vd) a (W / S * o.weightfraction) o.weightfraction) (nnegD / o.weightfraction) x))
  fs : E.fs = (linspace100 E.vc E.vis).map (fun x => (x, fsAt rho0 clmin (W / S * o.weightfraction) o.weightfraction E.via E.vc
    (1 - gustIncrement k rho0 (gustc_mps o.altitude_m) (kts2mps E.vc) a (W / S * o.weightfraction) o.weightfraction) (nnegC / o.weightfraction) x))
  poi : E.poi = (if E.vb > E.vc then List.filter (fun p => p.1 ≠ "B") else id)
    [("A", (E.va, npos / o.weightfraction)), ("B", (E.vb, stallLoad rho0 E.vb clmax (W / S * o.weightfraction) o.weightfraction)),
     ("C", (E.vc, lastY E.sc)), ("D", (E.vd, lastY E.cd)), ("E", E.e), ("F", (E.vc, lastY E.ef)), ("G", (E.via, firstY E.go))]

theorem flightenvelope_ok {X : Ext} {o : Cert} {E : Envelope} (h : flightenvelope X o = .ok E) :
    ∃ cat rho vc0 m W S a rho0 smc k clmax clmin npos nnegC nnegD,
      EnvOf X o E cat rho vc0 m W S a rho0 smc k clmax clmin npos nnegC nnegD := by
  unfold flightenvelope at h
  simp only [bind_ok_iff, need_ok, one_mul, neg_one_mul] at h
  obtain ⟨cat, h1, rho0, h2, vc0, h3, clmax, h4, clmin, h5, W, h6, S, h7, L, h8, ⟨M, G⟩, h9, vs, h10, vis, h11,
    ⟨loads, k', a'⟩, h12, gc, h13, gd, h14, h⟩ := h
  obtain ⟨rho, vc', m, W', S', a, rho0', smc, k, cl', vs', npos, hi, hcl, hvs, ⟨l, hl, hn⟩, e1, e2, e3, hnp, e4, -⟩ :=
    paragraph335_ok h8 cat
  have e := hi.cruise; rw [h3] at e; cases e
  have e := hi.weight; rw [h6] at e; cases e
  have e := hi.area; rw [h7] at e; cases e
  have e := hi.dens0; rw [h2] at e; cases e
  rw [h4] at hcl; cases hcl
  rw [h10] at hvs; cases hvs
  obtain ⟨rho', vc'', m', W', S', rho0', smc', hi', hload⟩ := paragraph341_ok h12
  obtain ⟨rfl, rfl, rfl, rfl, rfl, rfl, rfl, rfl, rfl⟩ := hi'.unique hi
  have hM : M cat = Manoeuvre.mk npos (l cat).2 (if cat = .norm ∨ cat = .comm then 0 else -1) := by
    unfold paragraph333 at h9
    rw [hl] at h9
    cases h9
    rw [hn]
    cases cat <;> rfl
  have hgc : gc = loadOf k rho0 a (W / S * o.weightfraction) o.weightfraction (.Uc, gustc_mps o.altitude_m) (max vc0 (L cat).vcmin) := by
    simp only [hload] at h13
    cases cat <;> (simp [gustLoad, gustList, loadOf] at h13; rw [← h13]; rfl)
  have hgd : gd = loadOf k rho0 a (W / S * o.weightfraction) o.weightfraction (.Ud, gustd_mps o.altitude_m) (match o.divespeed_keas with
      | none => (L cat).vdmin
      | some v => max v (L cat).vdmin) := by
    simp only [hload] at h14
    cases cat <;> (simp [gustLoad, gustList, loadOf] at h14; rw [← h14]; rfl)
  subst hgc hgd
  injection h with hE
  refine ⟨cat, rho, vc0, m, W, S, a, rho0, smc, k, clmax, clmin, npos, (l cat).2, (if cat = .norm ∨ cat = .comm then 0 else -1), ?_⟩
  simp only [hM, e1, e2, e3, e4] at hE
  subst hE
  exact { hcat := h1, gin := hi, hclmax := h4, hclmin := h5, limits := ⟨l, hl, hn, rfl⟩, nneg := rfl, npos0 := hnp, vs := h10, vis := h11,
          vc := rfl, vd := rfl, va := rfl, vb := rfl, via := rfl, oa := rfl, go := rfl, sc := rfl, cd := rfl, e := rfl,
          ef := rfl, fs := rfl, poi := by dsimp only; split <;> rfl }

end

end Verif.Props
