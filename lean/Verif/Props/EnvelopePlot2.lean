import Verif.Props.EnvelopePlot

/-
C112, continued: annotations, marks, outlines; the example aircraft.
-/

namespace Verif.Props
open Verif Verif.Aircraft Verif.Units Verif.Airworthiness

noncomputable section

/-! ### Annotations and legend -/

/-- `y` is `x` rounded to `dp` decimals: the nearest multiple. -/
def RoundedTo (dp : ℕ) (x y : ℝ) : Prop := (∃ n : ℤ, y = n / (10:ℝ) ^ dp) ∧ |y - x| ≤ 1 / 2 / (10:ℝ) ^ dp

theorem roundDp_rounded (dp : ℕ) (x : ℝ) : RoundedTo dp x (Propulsion.roundDp dp x) := by
  unfold RoundedTo Propulsion.roundDp
  rw [zpow_natCast]
  refine ⟨⟨_, rfl⟩, ?_⟩
  have h := Propulsion.roundEven_near (x * (10:ℝ) ^ dp)
  have hp : (0:ℝ) < 10 ^ dp := by positivity
  rw [show (Propulsion.roundEven (x * (10:ℝ) ^ dp) : ℝ) / 10 ^ dp - x = ((Propulsion.roundEven (x * (10:ℝ) ^ dp) : ℝ) - x * 10 ^ dp) / 10 ^ dp by field_simp,
    abs_div, abs_of_pos hp]
  exact div_le_div_of_nonneg_right h hp.le

theorem notes_pairs {α β : Type} (f g : α → Option β) (v : α → β) : ∀ (l : List α), (∀ x ∈ l, f x = some (v x) ∧ g x = none) →
    (l.flatMap (fun x => [f x, g x])).filterMap id = l.map v := by
  intro l
  induction l with
  | nil => intro _; rfl
  | cons x l ih =>
    intro h
    obtain ⟨h1, h2⟩ := h x (by simp)
    rw [List.flatMap_cons, List.filterMap_append, ih (fun y hy => h y (by simp [hy])), h1, h2]
    rfl

/-- Each gust has one annotation, with its speed rounded to centimetres per second; the arrow points to a point of the line of the rising
gust. The legend lists every point of interest with the speed rounded to one and the load rounded to two decimals. -/
theorem C112_notes (X : Ext) (o : Cert) (E : Envelope) (W S clmax clmin : ℝ) (h : flightenvelope X o = .ok E)
    (f : Flyable X o W S clmax clmin) :
    ∃ cat P, parseCat o.category = .ok cat ∧ vnPlot X o = .ok P ∧ P.notes.length = (csGusts cat).length ∧
      (∀ (i : ℕ) (g : Gust), (csGusts cat)[i]? = some g → ∃ label p up, P.notes[i]? = some (label, p) ∧ P.gustLines[2 * i]? = some up ∧
        RoundedTo 2 (csGustMps g o.altitude_m) label ∧ OnSeg up p ∧ p.1 = 0.15 * designSpeed E g ∧ 1 < p.2) ∧
      P.legend.length = E.poi.length ∧
      ∀ (i : ℕ) (name : String) (v n : ℝ), E.poi[i]? = some (name, (v, n)) → ∃ v' n', P.legend[i]? = some (name, (v', n')) ∧
        RoundedTo 1 v v' ∧ RoundedTo 2 n n' := by
  obtain ⟨cat, rho, vc0, m, W', S', a, rho0, smc, k, clmax', clmin', npos, nnegC, nnegD, e⟩ := flightenvelope_ok h
  obtain ⟨A, C, Bb, Bc, Bd, c⟩ := curves_of e h f
  have pW := f.pW
  have pS := f.pS
  have pw := f.wf
  obtain ⟨-, hv0, rfl, rfl, pa, pr, -, pk⟩ := f.alleviation e.gin
  refine ⟨cat, _, e.hcat, vnPlot_eq h e, ?_⟩
  dsimp only
  have pV : ∀ g, 0 < designSpeed E g := by
    intro g
    cases g
    · exact c.pvb
    · exact c.pvc
    · exact lt_trans c.pvc c.vcd
  have pq : ∀ g, 0 < gustIncrement k rho0 (csGustMps g o.altitude_m) (kts2mps (designSpeed E g)) a (W' / S' * o.weightfraction) o.weightfraction := by
    intro g
    have := pV g
    have := csGustMps_pos g o.altitude_m
    unfold gustIncrement kts2mps
    positivity
  have hn : ((gustList o.altitude_m cat).flatMap (fun gu =>
          [noteOf E gu (loadOf k rho0 a (W' / S' * o.weightfraction) o.weightfraction gu (E.gustKeas gu.1)).npos,
           noteOf E gu (loadOf k rho0 a (W' / S' * o.weightfraction) o.weightfraction gu (E.gustKeas gu.1)).nneg])).filterMap id =
      (csGusts cat).map (fun g => (Propulsion.roundDp 2 (csGustMps g o.altitude_m), (0.15 * designSpeed E g,
        0.15 * (1 + gustIncrement k rho0 (csGustMps g o.altitude_m) (kts2mps (designSpeed E g)) a (W' / S' * o.weightfraction) o.weightfraction - 1) + 1))) := by
    rw [gustList_eq, List.flatMap_map]
    apply notes_pairs
    intro g _
    have ek : E.gustKeas g = designSpeed E g := by cases g <;> rfl
    have := pq g
    unfold noteOf loadOf
    dsimp only
    rw [ek]
    constructor
    · rw [if_pos (by linarith)]
    · rw [if_neg (by push Not; linarith)]
  rw [hn]
  refine ⟨by simp, ?_, by simp, ?_⟩
  · intro i g hg
    rw [gustLines_pairs]
    have q2 := (pairs_get
      (fun g => (((0:ℝ), (1:ℝ)), (designSpeed E g * 5, (1 + gustIncrement k rho0 (csGustMps g o.altitude_m) (kts2mps (designSpeed E g)) a (W' / S' * o.weightfraction) o.weightfraction - 1) * 5 + 1)))
      (fun g => (((0:ℝ), (1:ℝ)), (designSpeed E g * 5, (1 - gustIncrement k rho0 (csGustMps g o.altitude_m) (kts2mps (designSpeed E g)) a (W' / S' * o.weightfraction) o.weightfraction - 1) * 5 + 1)))
      (csGusts cat)).2 i g hg
    refine ⟨_, _, _, by rw [List.getElem?_map, hg]; rfl, q2.1, roundDp_rounded 2 _, ?_, rfl, ?_⟩
    · exact ⟨0.03, by norm_num, by norm_num, by ext <;> (dsimp only; ring)⟩
    · have := pq g
      dsimp only
      norm_num
      exact this
  · intro i name v n hp
    exact ⟨_, _, by rw [List.getElem?_map, hp]; rfl, roundDp_rounded 1 _, roundDp_rounded 2 _⟩

/-! ### Marks -/

/-- The marked points are the points of interest; points with a positive load are green, the others red. -/
theorem C112_colours (X : Ext) (o : Cert) (E : Envelope) (W S clmax clmin : ℝ) (h : flightenvelope X o = .ok E)
    (f : Flyable X o W S clmax clmin) :
    ∃ P, vnPlot X o = .ok P ∧ P.marks.map (fun m => (m.1, m.2.2)) = E.poi ∧
      ∀ name colour p, (name, colour, p) ∈ P.marks → colour = if 0 < p.2 then "green" else "red" := by
  obtain ⟨cat, rho, vc0, m, W', S', a, rho0, smc, k, clmax', clmin', npos, nnegC, nnegD, e⟩ := flightenvelope_ok h
  obtain ⟨A, C, Bb, Bc, Bd, c⟩ := curves_of e h f
  refine ⟨_, vnPlot_eq h e, ?_, ?_⟩
  · dsimp only
    rw [List.map_map]
    exact List.map_id _
  dsimp only
  intro name colour p hp
  rw [List.mem_map] at hp
  obtain ⟨⟨n', p'⟩, hp, hpe⟩ := hp
  injection hpe with x1 x2
  injection x2 with x2 x3
  dsimp only at x1 x2 x3
  subst x1 x2 x3
  have hp2 : (n', p') ∈ [("A", (E.va, npos / o.weightfraction)), ("B", (E.vb, stallLoad rho0 E.vb clmax' (W' / S' * o.weightfraction) o.weightfraction)),
      ("C", (E.vc, lastY E.sc)), ("D", (E.vd, lastY E.cd)), ("E", E.e), ("F", (E.vc, lastY E.ef)), ("G", (E.via, firstY E.go))] := by
    rw [e.poi] at hp
    by_cases hb : E.vb > E.vc
    · rw [if_pos hb] at hp
      exact (List.mem_filter.mp hp).1
    · rw [if_neg hb] at hp
      exact hp
  have pw := c.pw
  have hnp : 0 < npos := by have := c.hnpos; norm_num at this; linarith
  have pd : 0 < npos / o.weightfraction := by positivity
  have edn : nnegD / o.weightfraction ≤ 0 := div_nonpos_of_nonpos_of_nonneg c.hnegD pw.le
  have hC2 : 0 < lastY E.sc := by
    rw [e.sc, lastY_of]
    unfold scAt
    split
    · rw [c.up]; have := c.pA; have := c.pvc; positivity
    · exact lt_of_lt_of_le pd (le_max_right _ _)
  have hD2 : 0 < lastY E.cd := by
    rw [e.cd, lastY_of]
    exact lt_of_lt_of_le pd (le_max_right _ _)
  have hE2 : E.e.2 ≤ 0 := by rw [e.e]; exact le_trans (min_le_right _ _) edn
  have hF2 : lastY E.ef ≤ 0 := by rw [e.ef, lastY_of]; exact le_trans (min_le_right _ _) edn
  have hG2 : firstY E.go ≤ 0 := by
    rw [e.go, firstY_of, c.go]
    have := c.pC
    have : 0 ≤ C * E.via ^ 2 := by positivity
    linarith
  simp only [List.mem_cons, Prod.mk.injEq, List.not_mem_nil, or_false] at hp2
  rcases hp2 with ⟨rfl, rfl⟩ | ⟨rfl, rfl⟩ | ⟨rfl, rfl⟩ | ⟨rfl, rfl⟩ | ⟨rfl, rfl⟩ | ⟨rfl, rfl⟩ | ⟨rfl, rfl⟩
  · rw [if_pos pd]; rfl
  · rw [if_pos (by dsimp only; rw [c.up]; have := c.pA; have := c.pvb; positivity)]; rfl
  · rw [if_pos hC2]; rfl
  · rw [if_pos hD2]; rfl
  · rw [if_neg (not_lt.mpr hE2)]; rfl
  · rw [if_neg (not_lt.mpr hF2)]; rfl
  · rw [if_neg (not_lt.mpr hG2)]; rfl

/-! ### Outlines -/

theorem pairwise_fst {l : List (ℝ × ℝ)} {r : ℝ → ℝ → Prop} (h : (l.map Prod.fst).Pairwise r) : l.Pairwise (fun p q => r p.1 q.1) :=
  List.pairwise_map.mp h

theorem mem_sampled {a b : ℝ} {g : ℝ → ℝ} {p : ℝ × ℝ} (h : p ∈ (linspace100 a b).map (fun x => (x, g x))) :
    min a b ≤ p.1 ∧ p.1 ≤ max a b ∧ p.2 = g p.1 := by
  rw [List.mem_map] at h
  obtain ⟨x, hx, rfl⟩ := h
  exact ⟨(linspace_mem hx).1, (linspace_mem hx).2, rfl⟩

/-- With the stall speeds in order the outline of the flight envelope runs round once: from the speed axis at the stall speed, over positive
loads at rising speeds to the dive speed, back over loads that are not positive at falling speeds, and ends where it began. The points C to F
are on it. The manoeuvre envelope begins and ends in the origin and has its corners at the load limits. -/
theorem C112_outline (X : Ext) (o : Cert) (E : Envelope) (W S clmax clmin : ℝ) (h : flightenvelope X o = .ok E)
    (f : Flyable X o W S clmax clmin) (hs : E.vs ≤ E.vis) (hi : E.vis ≤ E.vc) :
    ∃ P cat l mans gusts, vnPlot X o = .ok P ∧ parseCat o.category = .ok cat ∧ paragraph337 o = .ok l ∧ paragraph333 o = .ok (mans, gusts) ∧
      (∃ out back, P.outline = (E.vs, 0) :: (out ++ back) ∧ out.Pairwise (fun p q => p.1 ≤ q.1) ∧ back.Pairwise (fun p q => q.1 ≤ p.1) ∧
        (∀ p ∈ out, E.vs ≤ p.1 ∧ p.1 ≤ E.vd ∧ 0 < p.2) ∧ (∀ p ∈ back, E.vs ≤ p.1 ∧ p.1 ≤ E.vd ∧ p.2 ≤ 0) ∧
        out.getLast?.map Prod.fst = some E.vd ∧ back.head?.map Prod.fst = some E.vd ∧ back.getLast? = some (E.vs, 0)) ∧
      (∀ name ∈ ["C", "D", "E", "F"], ∃ p, (name, p) ∈ E.poi ∧ p ∈ P.outline) ∧
      P.manoeuvre.head? = some (0, 0) ∧ P.manoeuvre.getLast? = some (0, 0) ∧
      ((E.vd, (l cat).1 / o.weightfraction) ∈ P.manoeuvre ∧ (E.vd, (mans cat).nneg_D / o.weightfraction) ∈ P.manoeuvre ∧
        (E.vc, (l cat).2 / o.weightfraction) ∈ P.manoeuvre) := by
  obtain ⟨cat, rho, vc0, m, W', S', a, rho0, smc, k, clmax', clmin', npos, nnegC, nnegD, e⟩ := flightenvelope_ok h
  obtain ⟨A, C, Bb, Bc, Bd, c⟩ := curves_of e h f
  have pW := f.pW
  have pS := f.pS
  obtain ⟨-, hv0, rfl, rfl, pa, pr, -, pk⟩ := f.alleviation e.gin
  obtain ⟨l, hl, hn, hn2⟩ := e.limits
  obtain ⟨M, hM, hMc⟩ : ∃ M, paragraph333 o = .ok (M, gustList o.altitude_m) ∧ (M cat).nneg_D = nnegD := by
    unfold paragraph333; rw [hl]
    refine ⟨_, rfl, ?_⟩
    rw [e.nneg]
    cases cat <;> rfl
  have hvsc : E.vs ≤ E.vc := le_trans hs hi
  have vcd := c.vcd
  have pvs := c.pvs
  have pA := c.pA
  have pC := c.pC
  have pw := c.pw
  have hnp : 0 < npos := by have := c.hnpos; norm_num at this; linarith
  have pd : 0 < npos / o.weightfraction := by positivity
  have edn : nnegD / o.weightfraction ≤ 0 := div_nonpos_of_nonpos_of_nonneg c.hnegD pw.le
  have fmn : nnegC / o.weightfraction < 0 := div_neg_of_neg_of_pos c.hnegC pw
  have ngo : firstY E.go ≤ 0 := by
    rw [e.go, firstY_of, c.go]
    have : 0 ≤ C * E.via ^ 2 := by positivity
    linarith
  have msc : ∀ p ∈ E.sc, E.vs ≤ p.1 ∧ p.1 ≤ E.vc ∧ 0 < p.2 := by
    intro p hp
    rw [e.sc] at hp
    obtain ⟨h1, h2, h3⟩ := mem_sampled hp
    rw [min_eq_left hvsc] at h1
    rw [max_eq_right hvsc] at h2
    refine ⟨h1, h2, ?_⟩
    rw [h3]
    unfold scAt
    split
    · rw [c.up]; have : 0 < p.1 := by linarith
      positivity
    · exact lt_of_lt_of_le pd (le_max_right _ _)
  have mcd : ∀ p ∈ E.cd, E.vc ≤ p.1 ∧ p.1 ≤ E.vd ∧ 0 < p.2 := by
    intro p hp
    rw [e.cd] at hp
    obtain ⟨h1, h2, h3⟩ := mem_sampled hp
    rw [min_eq_left vcd.le] at h1
    rw [max_eq_right vcd.le] at h2
    refine ⟨h1, h2, ?_⟩
    rw [h3]
    exact lt_of_lt_of_le pd (le_max_right _ _)
  have mef : ∀ p ∈ E.ef, E.vc ≤ p.1 ∧ p.1 ≤ E.vd ∧ p.2 ≤ 0 := by
    intro p hp
    rw [e.ef] at hp
    obtain ⟨h1, h2, h3⟩ := mem_sampled hp
    rw [min_eq_right vcd.le] at h1
    rw [max_eq_left vcd.le] at h2
    refine ⟨h1, h2, ?_⟩
    rw [h3]
    exact le_trans (min_le_right _ _) edn
  have mfs : ∀ p ∈ E.fs, E.vis ≤ p.1 ∧ p.1 ≤ E.vc ∧ p.2 ≤ 0 := by
    intro p hp
    rw [e.fs] at hp
    obtain ⟨h1, h2, h3⟩ := mem_sampled hp
    rw [min_eq_right hi] at h1
    rw [max_eq_left hi] at h2
    refine ⟨h1, h2, ?_⟩
    rw [h3]
    unfold fsAt
    dsimp only
    have : stallLoad rho0 p.1 clmin' (W' / S' * o.weightfraction) o.weightfraction ≤ 0 := by
      rw [c.dn]
      have : 0 ≤ C * p.1 ^ 2 := by positivity
      linarith
    split
    · exact this
    · exact max_le (le_trans (min_le_right _ _) fmn.le) this
  have pe : E.e.1 = E.vd ∧ E.e.2 ≤ 0 := by rw [e.e]; exact ⟨rfl, le_trans (min_le_right _ _) edn⟩
  have ssc : Sampled E.sc E.vs E.vc := by rw [e.sc]; exact sampled_of _ _ _
  have scd : Sampled E.cd E.vc E.vd := by rw [e.cd]; exact sampled_of _ _ _
  have sef : Sampled E.ef E.vd E.vc := by rw [e.ef]; exact sampled_of _ _ _
  have sfs : Sampled E.fs E.vc E.vis := by rw [e.fs]; exact sampled_of _ _ _
  have wne : W' / S' ≠ 0 := by positivity
  have hcorner : ∀ x, x * (W' / S' / (W' / S' * o.weightfraction)) = x / o.weightfraction := by
    intro x; field_simp
  refine ⟨_, cat, l, M, _, vnPlot_eq h e, e.hcat, hl, hM, ?_, ?_, ?_, ?_, ?_⟩
  · refine ⟨(E.vs, 1 / o.weightfraction) :: (E.sc ++ E.cd),
      E.e :: (E.ef ++ (E.fs ++ [(E.vis, max (-1) (firstY E.go)), (E.vis, 0), (E.vs, 0)])), ?_, ?_, ?_, ?_, ?_, ?_, ?_, ?_⟩
    · dsimp only
      unfold envOutline
      simp
    · rw [List.pairwise_cons, List.pairwise_append]
      refine ⟨fun p hp => ?_, pairwise_fst (ssc.up hvsc), pairwise_fst (scd.up vcd.le), fun p hp q hq => ?_⟩
      · rcases List.mem_append.mp hp with hp | hp
        · exact (msc p hp).1
        · exact le_trans hvsc (mcd p hp).1
      · exact le_trans (msc p hp).2.1 (mcd q hq).1
    · rw [List.pairwise_cons, List.pairwise_append, List.pairwise_append]
      have tail : ∀ q ∈ [(E.vis, max (-1) (firstY E.go)), (E.vis, (0:ℝ)), (E.vs, (0:ℝ))], q.1 ≤ E.vis := by
        intro q hq
        simp only [List.mem_cons, List.not_mem_nil, or_false] at hq
        rcases hq with rfl | rfl | rfl
        · exact le_rfl
        · exact le_rfl
        · exact hs
      refine ⟨fun p hp => ?_, pairwise_fst (sef.down vcd.le), ⟨pairwise_fst (sfs.down hi), ?_, fun p hp q hq => ?_⟩, fun p hp q hq => ?_⟩
      · rw [pe.1]
        rcases List.mem_append.mp hp with hp | hp
        · exact (mef p hp).2.1
        rcases List.mem_append.mp hp with hp | hp
        · exact le_trans (mfs p hp).2.1 vcd.le
        · exact le_trans (tail p hp) (le_trans hi vcd.le)
      · simp [hs]
      · exact le_trans (tail q hq) (mfs p hp).1
      · rcases List.mem_append.mp hq with hq | hq
        · exact le_trans (mfs q hq).2.1 (mef p hp).1
        · exact le_trans (tail q hq) (le_trans hi (mef p hp).1)
    · intro p hp
      rcases List.mem_cons.mp hp with rfl | hp
      · exact ⟨le_rfl, by dsimp only; linarith, by dsimp only; positivity⟩
      rcases List.mem_append.mp hp with hp | hp
      · obtain ⟨h1, h2, h3⟩ := msc p hp
        exact ⟨h1, by linarith, h3⟩
      · obtain ⟨h1, h2, h3⟩ := mcd p hp
        exact ⟨by linarith, h2, h3⟩
    · intro p hp
      rcases List.mem_cons.mp hp with rfl | hp
      · rw [pe.1]; exact ⟨by linarith, le_rfl, pe.2⟩
      rcases List.mem_append.mp hp with hp | hp
      · obtain ⟨h1, h2, h3⟩ := mef p hp
        exact ⟨by linarith, h2, h3⟩
      rcases List.mem_append.mp hp with hp | hp
      · obtain ⟨h1, h2, h3⟩ := mfs p hp
        exact ⟨by linarith, by linarith, h3⟩
      · simp only [List.mem_cons, List.not_mem_nil, or_false] at hp
        rcases hp with rfl | rfl | rfl
        · exact ⟨hs, by dsimp only; linarith, max_le (by norm_num) ngo⟩
        · exact ⟨hs, by dsimp only; linarith, le_rfl⟩
        · exact ⟨le_rfl, by dsimp only; linarith, le_rfl⟩
    · rw [← List.cons_append, List.getLast?_append]
      have := scd.last
      cases hq : E.cd.getLast? with
      | none => rw [hq] at this; simp at this
      | some q => rw [hq] at this; simpa using this
    · simp [pe.1]
    · rw [← List.append_assoc, ← List.cons_append, List.getLast?_append]
      simp
  · have hC : ∃ x, E.sc.getLast? = some x ∧ x = (E.vc, lastY E.sc) := by
      have h1 := ssc.last
      unfold lastY
      cases hq : E.sc.getLast? with
      | none => rw [hq] at h1; simp at h1
      | some q => rw [hq] at h1; simp at h1; exact ⟨q, rfl, by simp [← h1]⟩
    have hD : ∃ x, E.cd.getLast? = some x ∧ x = (E.vd, lastY E.cd) := by
      have h1 := scd.last
      unfold lastY
      cases hq : E.cd.getLast? with
      | none => rw [hq] at h1; simp at h1
      | some q => rw [hq] at h1; simp at h1; exact ⟨q, rfl, by simp [← h1]⟩
    have hF : ∃ x, E.ef.getLast? = some x ∧ x = (E.vc, lastY E.ef) := by
      have h1 := sef.last
      unfold lastY
      cases hq : E.ef.getLast? with
      | none => rw [hq] at h1; simp at h1
      | some q => rw [hq] at h1; simp at h1; exact ⟨q, rfl, by simp [← h1]⟩
    obtain ⟨_, hC, rfl⟩ := hC
    obtain ⟨_, hD, rfl⟩ := hD
    obtain ⟨_, hF, rfl⟩ := hF
    have inpoi : ∀ p, p ∈ [("C", (E.vc, lastY E.sc)), ("D", (E.vd, lastY E.cd)), ("E", E.e), ("F", (E.vc, lastY E.ef))] → p ∈ E.poi := by
      intro p hp
      rw [e.poi]
      simp only [List.mem_cons, List.not_mem_nil, or_false] at hp
      by_cases hb : E.vb > E.vc
      · rw [if_pos hb, List.mem_filter]
        rcases hp with rfl | rfl | rfl | rfl <;> simp
      · rw [if_neg hb]
        rcases hp with rfl | rfl | rfl | rfl <;> simp
    intro name hname
    simp only [List.mem_cons, List.not_mem_nil, or_false] at hname
    dsimp only
    unfold envOutline
    rcases hname with rfl | rfl | rfl | rfl
    · exact ⟨(E.vc, lastY E.sc), inpoi _ (by simp), by simp [List.mem_of_getLast? hC]⟩
    · exact ⟨(E.vd, lastY E.cd), inpoi _ (by simp), by simp [List.mem_of_getLast? hD]⟩
    · exact ⟨E.e, inpoi _ (by simp), by simp⟩
    · exact ⟨(E.vc, lastY E.ef), inpoi _ (by simp), by simp [List.mem_of_getLast? hF]⟩
  · dsimp only
    unfold manOutline
    rw [e.oa, List.append_assoc, List.head?_append, List.head?_map, linspace_head]
    simp [stallLoad, kts2mps]
  · dsimp only
    unfold manOutline
    rw [e.go, List.getLast?_append, List.getLast?_map, linspace_last]
    simp [kts2mps]
  · dsimp only
    unfold manOutline
    rw [← hn, ← hn2, hMc]
    simp only [hcorner]
    simp

/-! ### The jump at the cruise speed -/

/-- When the manoeuvring speed lies beyond the cruise speed, the outline jumps at the cruise speed from the stall curve (point C) to a load that
the wing cannot reach at that speed. -/
theorem C112_jump_violated (X : Ext) (o : Cert) (E : Envelope) (W S clmax clmin rho0 : ℝ) (h : flightenvelope X o = .ok E)
    (f : Flyable X o W S clmax clmin) (hr : Atmos.dens1 o.acobj.designatm 0 = .ok rho0) (hv : E.vc < E.va) :
    ∃ y y', E.sc.getLast? = some (E.vc, y) ∧ E.cd.head? = some (E.vc, y') ∧ y < y' ∧
      liftLoad rho0 S clmax (o.weightfraction * W) (E.vc / 1.9438445) / o.weightfraction < y' := by
  have pr : 0 < rho0 := by
    obtain ⟨r, pr, hr'⟩ := f.env0.dens
    rw [hr'] at hr; cases hr; exact pr
  obtain ⟨cat, l, hc, hl, hA, -⟩ := C59_A X o E W S rho0 clmax h f.weight f.pW f.area f.pS hr pr f.hmax f.pmax f.wf
  obtain ⟨cat', rho, vc0, m, W', S', a, rho0', smc, k, clmax', clmin', npos, nnegC, nnegD, e⟩ := flightenvelope_ok h
  obtain ⟨A, C, Bb, Bc, Bd, c⟩ := curves_of e h f
  have e1 := e.hcat; rw [hc] at e1; cases e1
  obtain ⟨l', hl', hn, -⟩ := e.limits
  rw [hl] at hl'; cases hl'
  have pW := f.pW
  have pS := f.pS
  have pc := f.pmax
  have pw := f.wf
  have pvc := c.pvc
  have y1 : E.sc.getLast? = some (E.vc, A * E.vc ^ 2) := by
    rw [e.sc, List.getLast?_map, linspace_last]
    simp only [Option.map_some]
    unfold scAt
    rw [if_pos (Or.inl hv.le), c.up]
  have l1 : lastY E.sc = A * E.vc ^ 2 := by unfold lastY; rw [y1]; rfl
  have y2 : E.cd.head? = some (E.vc, max (A * E.vc ^ 2) (npos / o.weightfraction)) := by
    rw [e.cd, List.head?_map, linspace_head]
    simp only [Option.map_some]
    unfold cdAt
    rw [interp_left, l1]
  refine ⟨_, _, y1, y2, ?_, ?_⟩
  · refine lt_of_lt_of_le ?_ (le_max_right _ _)
    exact lt_of_le_of_lt (sq_mul_le c.pA pvc.le hv.le) c.va
  · refine lt_of_lt_of_le ?_ (le_max_right _ _)
    apply div_lt_div_of_pos_right _ pw
    rw [hn, ← hA]
    unfold liftLoad
    have : E.vc / 1.9438445 < E.va / 1.9438445 := div_lt_div_of_pos_right hv (by norm_num)
    have h0 : 0 < E.vc / 1.9438445 := by positivity
    have : (E.vc / 1.9438445) ^ 2 < (E.va / 1.9438445) ^ 2 := by gcongr
    gcongr

/-! ### Stall speeds below the cruise speed -/

theorem stall_below {rho0 S W wf cl : ℝ} (cat : Cat) (pr : 0 < rho0) (pS : 0 < S) (pW : 0 < W) (pw : 0 < wf) (hw : wf ≤ 1) (hcl : 0.45 ≤ rho0 * cl) :
    1.9438445 * √(2 * wf * W / (rho0 * S * cl)) ≤ csVcMin cat (W / S * 0.020885434273039) := by
  have pcl : 0 < rho0 * cl := lt_of_lt_of_le (by norm_num) hcl
  have h2 : (28.6:ℝ) ≤ csFactor (if cat = .aero then 36 else 33) 28.6 (W / S * 0.020885434273039) := csFactor_ge _ _ _ (by split_ifs <;> norm_num)
  unfold csVcMin
  refine le_trans ?_ (mul_le_mul_of_nonneg_right h2 (Real.sqrt_nonneg _))
  have e1 : (1.9438445:ℝ) = √(1.9438445 ^ 2) := by rw [Real.sqrt_sq (by norm_num)]
  have e2 : (28.6:ℝ) = √(28.6 ^ 2) := by rw [Real.sqrt_sq (by norm_num)]
  rw [e1, e2, ← Real.sqrt_mul (by positivity), ← Real.sqrt_mul (by positivity)]
  apply Real.sqrt_le_sqrt
  have hq : 2 * wf * W / (rho0 * S * cl) ≤ 2 * (W / S) / 0.45 := by
    have : 2 * wf * W / (rho0 * S * cl) = 2 * wf * (W / S) / (rho0 * cl) := by field_simp
    rw [this]
    have p : 0 < W / S := by positivity
    apply div_le_div₀ (by positivity) _ (by norm_num) hcl
    nlinarith
  have p : 0 < W / S := by positivity
  norm_num at hq ⊢
  linarith

/-- Both stall speeds lie below the cruise speed of the diagram when the weight fraction is at most one and the sea level density times the
lift coefficients is at least 0.45. -/
theorem C112_stall_speeds (X : Ext) (o : Cert) (E : Envelope) (W S clmax clmin rho0 : ℝ) (h : flightenvelope X o = .ok E)
    (f : Flyable X o W S clmax clmin) (hr : Atmos.dens1 o.acobj.designatm 0 = .ok rho0) (hw : o.weightfraction ≤ 1) :
    (0.45 ≤ rho0 * clmax → E.vs ≤ E.vc) ∧ (0.45 ≤ rho0 * -clmin → E.vis ≤ E.vc) := by
  obtain ⟨r, pr, hr', hs1, hs2⟩ := f.stalls
  rw [hr] at hr'; cases hr'
  obtain ⟨cat, rho, vc0, m, W', S', a, rho0', smc, k, clmax', clmin', npos, nnegC, nnegD, e⟩ := flightenvelope_ok h
  have hvs := e.vs; rw [hs1] at hvs; replace hvs := (Except.ok.inj hvs).symm
  have hvis := e.vis; rw [hs2] at hvis; replace hvis := (Except.ok.inj hvis).symm
  obtain ⟨cat', vc0', W', S', h1, -, hW', hS', hcc, -⟩ := C58_speeds X o E h
  rw [f.weight] at hW'; rw [f.area] at hS'; cases hW'; cases hS'
  constructor
  · intro hc
    rw [hvs]
    exact le_trans (stall_below cat' pr f.pS f.pW f.wf hw hc) hcc
  · intro hc
    rw [hvis, show 2 * -o.weightfraction * W / (rho0 * S * clmin) = 2 * o.weightfraction * W / (rho0 * S * -clmin) by
      rw [show 2 * -o.weightfraction * W = -(2 * o.weightfraction * W) by ring, show rho0 * S * -clmin = -(rho0 * S * clmin) by ring, div_neg, neg_div]]
    exact le_trans (stall_below cat' pr f.pS f.pW f.wf hw hc) hcc

/-! ### Examples -/

/-- The light aircraft with another maximum lift coefficient, at full weight. -/
def exSlow (cl : ℝ) (cat : String) : Cert :=
  { exCert with acobj := { exC with clmaxclean := some cl }, category := .str cat, weightfraction := 1 }

theorem exSlow_wing (cl : ℝ) : Wing { exC with clmaxclean := some cl } := by
  have hp := Real.pi_pos
  constructor <;>
    norm_num [exC, pyNum, Concept.sweep_le_rad, Concept.sweep_25_rad, Atmos.deg2rad] <;> exact hp

theorem exSlow_ok (X : Ext) (cl : ℝ) (cat : String) (hcl : 0 < cl) (hc : ∃ c, parseCat (.str cat) = .ok c) :
    Flyable X (exSlow cl cat) 10000 12 cl (-1) where
  cat := hc
  env := exAtm_env 2000 (by norm_num) (by norm_num)
  env0 := exAtm_env 0 (by norm_num) (by norm_num)
  cruise := ⟨120, by norm_num, rfl⟩
  weight := rfl
  area := rfl
  hmax := rfl
  hmin := rfl
  pW := by norm_num
  pS := by norm_num
  pmax := hcl
  nmin := by norm_num
  ar := by norm_num [exSlow, exC, pyNum]
  wf := by show (0:ℝ) < 1; norm_num
  slope := by
    intro rho vc m a hr hv hm ha
    have hr' : Atmos.dens1 exAtm 2000 = .ok rho := hr
    rw [exAtm_dens 2000 (by norm_num) (by norm_num)] at hr'
    cases hr'
    have hv' : (some 120 : Option ℝ) = some vc := hv
    cases hv'
    have := exFly_mach 120 m (by norm_num) le_rfl hm
    obtain ⟨a', ha', pa⟩ := (C72_method X (exSlow_wing cl) (some m)).1 this.1 (by norm_num at this ⊢; linarith)
    have ha2 : liftslope_prad X { exC with clmaxclean := some cl } (some m) = .ok a := ha
    rw [ha'] at ha2; cases ha2
    exact pa

/-- The drawing of the light aircraft: nothing of the envelope is cut off. -/
example (X : Ext) : ∃ E P, flightenvelope X (exFly 10000 0.9 "comm") = .ok E ∧ vnPlot X (exFly 10000 0.9 "comm") = .ok P ∧
    (∀ p ∈ P.outline, InAxes P p) ∧ P.gustLines.length = 6 ∧ P.notes.length = 3 := by
  have f := exFly_ok X 10000 0.9 "comm" (by norm_num) (by norm_num) ⟨.comm, rfl⟩
  obtain ⟨E, hE⟩ := f.envelope
  have hd : Atmos.dens1 (exFly 10000 0.9 "comm").acobj.designatm 0 = .ok 1 := exAtm_dens 0 (by norm_num) (by norm_num)
  obtain ⟨s1, s2⟩ := C112_stall_speeds X _ E 10000 12 1.5 (-1) 1 hE f hd (by show (0.9:ℝ) ≤ 1; norm_num)
  obtain ⟨P, hP, h1, -⟩ := C112_axes X _ E 10000 12 1.5 (-1) hE f (s1 (by norm_num)) (s2 (by norm_num))
  obtain ⟨cat, P', _, _, _, hc, hP', -, h2, -⟩ := C112_gusts X _ E 10000 12 1 hE rfl rfl hd
  obtain ⟨cat', P'', hc', hP'', h3, -⟩ := C112_notes X _ E 10000 12 1.5 (-1) hE f
  rw [hP] at hP' hP''
  cases hP'; cases hP''; cases hc; cases hc'
  exact ⟨E, P, hE, hP, h1, by rw [h2]; rfl, by rw [h3]; rfl⟩

/-- With clean lift coefficients 1.5 and -1 the inverted stall speed is the higher one: the outline runs round once. -/
example (X : Ext) : ∃ E P, flightenvelope X (exSlow 1.5 "norm") = .ok E ∧ vnPlot X (exSlow 1.5 "norm") = .ok P ∧
    P.outline.head? = P.outline.getLast? ∧ P.manoeuvre.getLast? = some (0, 0) := by
  have f := exSlow_ok X 1.5 "norm" (by norm_num) ⟨.norm, rfl⟩
  obtain ⟨E, hE⟩ := f.envelope
  have hd : Atmos.dens1 (exSlow 1.5 "norm").acobj.designatm 0 = .ok 1 := exAtm_dens 0 (by norm_num) (by norm_num)
  obtain ⟨-, s2⟩ := C112_stall_speeds X _ E 10000 12 1.5 (-1) 1 hE f hd (by show (1:ℝ) ≤ 1; norm_num)
  have hs : E.vs ≤ E.vis := by
    obtain ⟨r, pr, hr', hs1, hs2⟩ := f.stalls
    rw [hd] at hr'; cases hr'
    obtain ⟨_, _, _, _, _, _, _, _, _, _, _, _, _, _, _, e⟩ := flightenvelope_ok hE
    have hvs := e.vs; rw [hs1] at hvs
    have hvis := e.vis; rw [hs2] at hvis
    rw [← Except.ok.inj hvs, ← Except.ok.inj hvis]
    apply mul_le_mul_of_nonneg_left _ (by norm_num)
    apply Real.sqrt_le_sqrt
    show 2 * 1 * 10000 / (1 * 12 * 1.5) ≤ 2 * -1 * 10000 / (1 * 12 * -1 : ℝ)
    norm_num
  obtain ⟨P, _, _, _, _, hP, -, -, -, ⟨out, back, h1, -, -, -, -, -, -, h2⟩, -, -, h3, -⟩ := C112_outline X _ E 10000 12 1.5 (-1) hE f hs (s2 (by norm_num))
  refine ⟨E, P, hE, hP, ?_, h3⟩
  rw [h1, ← List.cons_append, List.getLast?_append, h2]
  rfl

/-- With a maximum lift coefficient of only 0.45 the manoeuvring speed of the same aircraft lies beyond the cruise speed and beyond the right end
of the axes: the outline jumps and the mark A is cut off. -/
example (X : Ext) : ∃ E P y y', flightenvelope X (exSlow 0.45 "norm") = .ok E ∧ vnPlot X (exSlow 0.45 "norm") = .ok P ∧
    E.sc.getLast? = some (E.vc, y) ∧ E.cd.head? = some (E.vc, y') ∧ y < y' ∧
    ∃ p, ("A", "green", p) ∈ P.marks ∧ ¬ InAxes P p := by
  have f := exSlow_ok X 0.45 "norm" (by norm_num) ⟨.norm, rfl⟩
  obtain ⟨E, hE⟩ := f.envelope
  have hd : Atmos.dens1 (exSlow 0.45 "norm").acobj.designatm 0 = .ok 1 := exAtm_dens 0 (by norm_num) (by norm_num)
  obtain ⟨s1, s2⟩ := C112_stall_speeds X _ E 10000 12 0.45 (-1) 1 hE f hd (by show (1:ℝ) ≤ 1; norm_num)
  obtain ⟨cat, rho, vc0, m, W, S, a, rho0, smc, k, clmax, clmin, npos, nnegC, nnegD, e⟩ := flightenvelope_ok hE
  have hcat := e.hcat
  cases hcat
  have hW : some (10000:ℝ) = some W := e.gin.weight
  have hS : some (12:ℝ) = some S := e.gin.area
  have hv : some (120:ℝ) = some vc0 := e.gin.cruise
  cases hW; cases hS; cases hv
  have r1 : √(10000 / 12 * 0.020885434273039) ≤ (4.18:ℝ) := by apply Real.sqrt_le_iff.mpr; norm_num
  have e1 : csVcMin .norm (10000 / 12 * 0.020885434273039) = 33 * √(10000 / 12 * 0.020885434273039) := by
    unfold csVcMin csFactor
    rw [if_pos (by norm_num)]; simp
  have e2 : csFactor (csVdFactor .norm) 1.35 (10000 / 12 * 0.020885434273039) = 1.4 := by
    unfold csFactor
    rw [if_pos (by norm_num)]; rfl
  have hvc : E.vc ≤ 138 := by
    rw [e.vc, vcmin_eq]
    unfold pa2lbfft2
    rw [e1]
    apply max_le (by norm_num)
    norm_num at r1 ⊢; linarith
  have hvd : E.vd ≤ 194 := by
    have := e.vd
    have hdv : (exSlow 0.45 "norm").divespeed_keas = some 170 := rfl
    rw [hdv] at this
    dsimp only at this
    rw [this, vdmin_eq]
    unfold pa2lbfft2
    rw [e1, e2]
    apply max_le (by norm_num) (max_le (by norm_num) _)
    norm_num at r1 ⊢; linarith
  have hva : 229 ≤ E.va := by
    obtain ⟨l, hl, hn, -⟩ := e.limits
    have hnp : npos = 3.8 := by
      obtain ⟨W, S, hW, -, h2, -⟩ := paragraph337_ok hl
      have hW' : some (10000:ℝ) = some W := hW
      cases hW'
      rw [hn, h2, min_cs337 _ (by norm_num [n2lbf]), C55_plateau _ (by norm_num [n2lbf])]
      norm_num [n2lbf]
    obtain ⟨r, pr, hr', hs1, -⟩ := f.stalls
    rw [hd] at hr'; cases hr'
    have hvs := e.vs; rw [hs1] at hvs
    have hvs' : 1.9438445 * √(2 * 1 * 10000 / (1 * 12 * 0.45)) = E.vs := Except.ok.inj hvs
    rw [e.va, ← hvs', hnp]
    have q1 : (60.8:ℝ) ≤ √(2 * 1 * 10000 / (1 * 12 * 0.45)) := by apply Real.le_sqrt_of_sq_le; norm_num
    have q2 : (1.94:ℝ) ≤ √3.8 := by apply Real.le_sqrt_of_sq_le; norm_num
    have : (1.9438445:ℝ) * 60.8 * 1.94 ≤ 1.9438445 * √(2 * 1 * 10000 / (1 * 12 * 0.45)) * √3.8 := by gcongr
    refine le_trans ?_ this
    norm_num
  obtain ⟨y, y', h1, h2, h3, -⟩ := C112_jump_violated X _ E 10000 12 0.45 (-1) 1 hE f hd (by linarith)
  obtain ⟨P, hP, -, h4⟩ := C112_axes X _ E 10000 12 0.45 (-1) hE f (s1 (by norm_num)) (s2 (by norm_num))
  obtain ⟨P', hP', h5, h6⟩ := C112_colours X _ E 10000 12 0.45 (-1) hE f
  rw [hP] at hP'; cases hP'
  refine ⟨E, P, y, y', hE, hP, h1, h2, h3, ?_⟩
  have hA : ("A", (E.va, npos / (exSlow 0.45 "norm").weightfraction)) ∈ E.poi := by
    rw [e.poi]
    by_cases hb : E.vb > E.vc
    · rw [if_pos hb]; simp
    · rw [if_neg hb]; simp
  rw [← h5, List.mem_map] at hA
  obtain ⟨⟨nm, cl, p⟩, hm, heq⟩ := hA
  injection heq with z1 z2
  dsimp only at z1 z2
  subst z1 z2
  have hcol := h6 _ _ _ hm
  have hp0 : 0 < npos / (exSlow 0.45 "norm").weightfraction := by
    obtain ⟨l, hl, hn, -⟩ := e.limits
    have := (limits_ok hl 10000 f.weight (by norm_num) .norm).1
    rw [← hn] at this
    exact div_pos (by norm_num at this; linarith) f.wf
  rw [if_pos hp0] at hcol
  subst hcol
  refine ⟨_, hm, fun hin => ?_⟩
  have := ((h4 _ _ _ hm).2.2.2.1 rfl).mp hin
  norm_num at this
  linarith

end

end Verif.Props
