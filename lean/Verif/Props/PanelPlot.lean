import Verif.Model.PanelPlot
import Verif.Props.Propulsion3

/-
Property C111: what the panel plots show.
-/

namespace Verif.Props
open Verif Verif.Tools Verif.Propulsion

noncomputable section

/-- The samples of a channel in the time frame: pairs of time and value, in their order. -/
def inFrame (ti tf : ℝ) (p : Option ℝ × Option ℝ) : Bool :=
  match p.1 with
  | some t => decide (ti ≤ t) && decide (t ≤ tf)
  | none => false

theorem pyIndex_nat {α : Type} {l : List α} {i : ℕ} {a : α} (h : l[i]? = some a) : pyIndex l (i : ℤ) = .ok a := by
  unfold pyIndex
  rw [if_pos (by omega), show ((i : ℤ)).toNat = i by omega, h]

theorem pyIndex_nat_none {α : Type} {l : List α} {i : ℕ} (h : l[i]? = none) : pyIndex l (i : ℤ) = .error .indexError := by
  unfold pyIndex
  rw [if_pos (by omega), show ((i : ℤ)).toNat = i by omega, h]

theorem lineMarks_ok (cols : List String) : ∀ (vs : List ℝ) (j : ℕ), vs.length + j ≤ cols.length → lineMarks cols j vs = .ok (vs.zip (cols.drop j))
  | [], j, _ => by simp [lineMarks]
  | v :: vs, j, h => by
    rw [List.length_cons] at h
    have hj : j < cols.length := by omega
    rw [lineMarks, pyIndex_nat (List.getElem?_eq_getElem hj), bind_ok, lineMarks_ok cols vs (j + 1) (by omega), bind_ok,
      List.drop_eq_getElem_cons hj]
    rfl

theorem lineMarks_error (cols : List String) : ∀ (vs : List ℝ) (j : ℕ), cols.length < vs.length + j → j ≤ cols.length →
    lineMarks cols j vs = .error .indexError
  | [], j, h, h' => by simp at h; omega
  | v :: vs, j, h, h' => by
    rw [List.length_cons] at h
    by_cases hj : j < cols.length
    · rw [lineMarks, pyIndex_nat (List.getElem?_eq_getElem hj), bind_ok, lineMarks_error cols vs (j + 1) (by omega) (by omega), bind_error]
    · rw [lineMarks, pyIndex_nat_none (by rw [List.getElem?_eq_none_iff]; omega), bind_error]

theorem panelCurves_ok {time : Series} {lab : List String} : ∀ (ds : List Series) (j : ℕ), (∀ d ∈ ds, d.length = time.length) →
    ds.length + j + 1 ≤ lab.length →
    panelCurves time (.list lab) j ds = .ok (List.zipWith (fun d n => ⟨time, d, some n⟩) ds (lab.drop (j + 1)))
  | [], j, _, _ => by simp [panelCurves]
  | d :: ds, j, h, hl => by
    rw [List.length_cons] at hl
    have hj : j + 1 < lab.length := by omega
    rw [panelCurves, show VLabel.at (.list lab) (j + 1) = .ok lab[j + 1] from pyIndex_nat (List.getElem?_eq_getElem hj), bind_ok]
    unfold plotCurve
    rw [if_pos (h d (by simp)).symm, bind_ok, panelCurves_ok ds (j + 1) (fun x hx => h x (by simp [hx])) (by omega), bind_ok,
      List.drop_eq_getElem_cons hj]
    rfl

/-- A panel of the flight data plot: its title, then its channels. -/
def viewOf (time : Series) (panel : List String) (ds : List Series) (ms : List (ℝ × String)) : PanelView :=
  ⟨.text (panel.headD ""), List.zipWith (fun d n => ⟨time, d, some n⟩) ds panel.tail, ms, none⟩

theorem panelX_ok {time : Series} {panels : List (List String)} {vlines : List ℝ} {cols : List String} {i : ℕ} {p : List String}
    (hp : panels[i]? = some p) {ds : List Series} (hd : ∀ d ∈ ds, d.length = time.length) (hl : ds.length + 1 = p.length)
    (hc : vlines.length ≤ cols.length) :
    panelX time (.many ds) (panels.map .list) vlines cols i = .ok (viewOf time p ds (vlines.zip cols)) := by
  have hi : pyIndex (panels.map VLabel.list) (i : ℤ) = .ok (.list p) := pyIndex_nat (by rw [List.getElem?_map, hp]; rfl)
  have hm := lineMarks_ok cols vlines 0 (by omega)
  rw [List.drop_zero] at hm
  have h0 : VLabel.at (.list p) 0 = .ok (p.headD "") := by
    cases p with
    | nil => simp at hl
    | cons a l => rfl
  unfold panelX viewOf
  cases ds with
  | nil =>
    simp only [hi, h0, hm, bind_ok]
    rfl
  | cons d ds =>
    have := panelCurves_ok (time := time) (lab := p) (d :: ds) 0 hd (by omega)
    simp only [hi, h0, hm, bind_ok, this, List.drop_one, Nat.zero_add]
    rfl

theorem panelsX_ok {time : Series} {vlines : List ℝ} {cols : List String} (hc : vlines.length ≤ cols.length) (panels : List (List String)) :
    ∀ (dss : List (List Series)) (i : ℕ), (∀ ds ∈ dss, ∀ d ∈ ds, d.length = time.length) →
      dss.map (fun ds => ds.length + 1) = (panels.drop i).map List.length →
      panelsX time (panels.map .list) vlines cols i (dss.map .many) =
        .ok (List.zipWith (fun p ds => viewOf time p ds (vlines.zip cols)) (panels.drop i) dss)
  | [], i, _, h => by
    simp [panelsX]
  | ds :: dss, i, hd, h => by
    have hi : i < panels.length := by
      have := congrArg List.length h
      simp at this; omega
    rw [List.drop_eq_getElem_cons hi] at h
    simp only [List.map_cons, List.cons.injEq] at h
    rw [List.map_cons, panelsX, panelX_ok (List.getElem?_eq_getElem hi) (hd ds (by simp)) h.1 hc, bind_ok,
      panelsX_ok hc panels dss (i + 1) (fun x hx => hd x (by simp [hx])) h.2, bind_ok]
    rw [List.drop_eq_getElem_cons hi]
    rfl

theorem labelLast_length (s : String) : ∀ l, (labelLast s l).length = l.length
  | [] => rfl
  | [_] => rfl
  | _ :: q :: l => by simp [labelLast, labelLast_length s (q :: l)]

theorem labelLast_get (s : String) : ∀ (l : List PanelView) (i : ℕ) (v : PanelView), l[i]? = some v →
    (labelLast s l)[i]? = some (if i + 1 = l.length then { v with xlabel := some s } else v)
  | [], _, _, h => by simp at h
  | [p], i, v, h => by
    cases i with
    | zero => simp at h; subst h; simp [labelLast]
    | succ i => simp at h
  | p :: q :: l, i, v, h => by
    cases i with
    | zero =>
      simp only [List.getElem?_cons_zero, Option.some.injEq] at h
      subst h
      simp [labelLast]
    | succ i =>
      rw [List.getElem?_cons_succ] at h
      have := labelLast_get s (q :: l) i v h
      simp only [labelLast, List.getElem?_cons_succ, this, List.length_cons]
      simp

theorem mapM_ok {α β : Type} {f : α → PyM β} {g : α → β} : ∀ {l : List α}, (∀ a ∈ l, f a = .ok (g a)) → l.mapM f = .ok (l.map g)
  | [], _ => rfl
  | a :: l, h => by
    rw [List.mapM_cons, h a (by simp), bind_ok, mapM_ok (fun x hx => h x (by simp [hx])), bind_ok]
    rfl

theorem trim_col {f : Frame} {name : String} {y : List (Option ℝ)} (g : List (Option ℝ) → List (Option ℝ)) (h : col f name = .ok y) :
    col (f.map (fun c => (c.1, g c.2))) name = .ok (g y) := by
  unfold col at h ⊢
  rw [List.find?_map]
  have e : (fun c : String × List (Option ℝ) => decide (c.1 = name)) ∘ (fun c : String × List (Option ℝ) => (c.1, g c.2)) = fun c => decide (c.1 = name) := rfl
  rw [e]
  cases hf : f.find? (fun c => decide (c.1 = name)) with
  | none => rw [hf] at h; cases h
  | some c => rw [hf] at h; cases h; rfl

/-- The values kept by a mask. -/
def masked (keep : List Bool) (y : List (Option ℝ)) : List (Option ℝ) := ((keep.zip y).filter (fun p => p.1)).map (fun p => p.2)

theorem masked_length : ∀ (keep : List Bool) (y y' : List (Option ℝ)), y.length = keep.length → y'.length = keep.length →
    (masked keep y).length = (masked keep y').length
  | [], y, y', _, _ => by simp [masked]
  | k :: ks, y :: ys, y' :: ys', h, h' => by
    have := masked_length ks ys ys' (by simpa using h) (by simpa using h')
    unfold masked at this ⊢
    cases k <;> simpa using this
  | k :: ks, [], _, h, _ => by simp at h
  | k :: ks, _ :: _, [], _, h' => by simp at h'

theorem masked_zip (ti tf : ℝ) : ∀ (t y : List (Option ℝ)), t.length = y.length →
    let keep := t.map (fun s => match s with
      | some s => decide (s ≥ ti) && decide (s ≤ tf)
      | none => false)
    (masked keep t).zip (masked keep y) = (t.zip y).filter (inFrame ti tf)
  | [], [], _ => by simp [masked]
  | [], _ :: _, h => by simp at h
  | _ :: _, [], h => by simp at h
  | s :: ts, v :: ys, h => by
    have ih := masked_zip ti tf ts ys (by simpa using h)
    intro keep
    simp only [] at ih
    have hk : keep = inFrame ti tf (s, v) :: ts.map (fun s => match s with
      | some s => decide (s ≥ ti) && decide (s ≤ tf)
      | none => false) := by
      cases s <;> rfl
    rw [hk]
    unfold masked at ih ⊢
    cases hb : inFrame ti tf (s, v)
    · simpa [hb] using ih
    · simpa [hb] using ih

/-- A flight data plot shows each requested channel once, in its panel, under its own name, as the samples in the time frame; each panel
has its title and every marker line in its colour; the time label stands under the last panel. -/
theorem C111_fdr (f : Frame) (tcol tlabel : String) (ti tf : ℝ) (panels : List (List String)) (vlines : List ℝ) (cols : List String)
    {n : ℕ} {t : List (Option ℝ)} (ht : Column f tcol t) (hn : ∀ c ∈ f, c.2.length = n) (h2 : 2 ≤ panels.length)
    (hp : ∀ p ∈ panels, p ≠ [] ∧ ∀ name ∈ p.tail, ∃ y, Column f name y) (hc : vlines.length ≤ cols.length) :
    ∃ views fd, fdrplot f tcol tlabel ti tf panels vlines cols = .ok (views, fd) ∧ views.length = panels.length ∧
      ∀ (i : ℕ) (p : List String), panels[i]? = some p → ∃ v, views[i]? = some v ∧
        (∃ title, p.head? = some title ∧ v.ylabel = .text title) ∧ v.curves.length + 1 = p.length ∧
        (∀ (j : ℕ) (name : String) (y : List (Option ℝ)), p[j + 1]? = some name → Column f name y →
          ∃ c, v.curves[j]? = some c ∧ c.label = some name ∧ c.xs.length = c.ys.length ∧ c.xs.zip c.ys = (t.zip y).filter (inFrame ti tf)) ∧
        v.markers = vlines.zip cols ∧ (v.xlabel = if i + 1 = panels.length then some tlabel else none) := by
  obtain ⟨keep, hk⟩ : ∃ keep, keep = t.map (fun s => match s with
    | some s => decide (s ≥ ti) && decide (s ≤ tf)
    | none => false) := ⟨_, rfl⟩
  have len : ∀ name y, Column f name y → y.length = n := by
    rintro name y ⟨pre, post, rfl, -⟩
    exact hn (name, y) (by simp)
  have htl := len _ _ ht
  have hkl : keep.length = n := by rw [hk]; simpa using htl
  rw [← col_iff] at ht
  have trim : fdrTrim f tcol ti tf = .ok (f.map (fun c => (c.1, masked keep c.2))) := by
    unfold fdrTrim
    rw [ht, bind_ok, hk]
    rfl
  obtain ⟨fd, hfd⟩ : ∃ fd, fd = f.map (fun c => (c.1, masked keep c.2)) := ⟨_, rfl⟩
  have hcol : ∀ name y, col f name = .ok y → col fd name = .ok (masked keep y) := by
    intro name y h; rw [hfd]; exact trim_col (masked keep) h
  classical
  obtain ⟨g, hg⟩ : ∃ g : String → Series, ∀ p ∈ panels, ∀ name ∈ p.tail, ∃ y, col f name = .ok y ∧ g name = masked keep y := by
    refine ⟨fun name => if h : ∃ y, col f name = .ok y then masked keep h.choose else [], fun p hpm name hm => ?_⟩
    obtain ⟨y, hy⟩ := (hp p hpm).2 name hm
    have hex : ∃ y, col f name = .ok y := ⟨y, (col_iff _ _ _).mpr hy⟩
    exact ⟨hex.choose, hex.choose_spec, by simp only [hex, dif_pos]⟩
  have hdata : panels.mapM (panelData fd) = .ok (panels.map (fun p => p.tail.map g)) := by
    apply mapM_ok
    intro p hpm
    unfold panelData
    cases p with
    | nil => exact absurd rfl (hp _ hpm).1
    | cons a l =>
      rw [show pyIndex (a :: l) 0 = .ok a from rfl, bind_ok]
      apply mapM_ok
      intro name hm
      obtain ⟨y, h1, h3⟩ := hg _ hpm name hm
      rw [hcol _ _ h1, h3]
  obtain ⟨time, htime⟩ : ∃ time, time = masked keep t := ⟨_, rfl⟩
  have hpan := panelsX_ok (time := time) hc panels (panels.map (fun p => p.tail.map g)) 0 (by
    intro ds hds d hd
    simp only [List.mem_map] at hds
    obtain ⟨p, hpm, rfl⟩ := hds
    rw [List.mem_map] at hd
    obtain ⟨name, hm, rfl⟩ := hd
    obtain ⟨y, h1, h3⟩ := hg p hpm name hm
    rw [h3, htime]
    exact masked_length keep y t (by rw [hkl]; exact len _ _ ((col_iff _ _ _).mp h1)) (by rw [hkl, htl])) (by
    rw [List.drop_zero, List.map_map]
    apply List.map_congr_left
    intro p hpm
    cases p with
    | nil => exact absurd rfl (hp _ hpm).1
    | cons a l => simp)
  rw [List.drop_zero] at hpan
  obtain ⟨vs, hvs⟩ : ∃ vs, vs = List.zipWith (fun p ds => viewOf time p ds (vlines.zip cols)) panels (panels.map (fun p => p.tail.map g)) := ⟨_, rfl⟩
  have hvl : vs.length = panels.length := by rw [hvs]; simp
  refine ⟨labelLast tlabel vs, fd, ?_, by rw [labelLast_length, hvl], fun i p hip => ?_⟩
  · unfold fdrplot
    rw [trim, bind_ok, ← hfd, hcol _ _ ht, bind_ok, hdata, bind_ok, ← htime]
    unfold panelplot_with_shared_x
    rw [if_neg (by rw [List.length_map, List.length_map]; omega), if_neg (by rw [List.length_map, List.length_map]; omega), hpan, bind_ok, ← hvs]
    rfl
  · have hpm : p ∈ panels := List.mem_of_getElem? hip
    have hv : vs[i]? = some (viewOf time p (p.tail.map g) (vlines.zip cols)) := by
      rw [hvs, List.getElem?_zipWith, List.getElem?_map, hip]; rfl
    have hl := labelLast_get tlabel vs i _ hv
    refine ⟨_, hl, ?_⟩
    rw [hvl]
    have key : ∀ w : PanelView, w.ylabel = (viewOf time p (p.tail.map g) (vlines.zip cols)).ylabel →
        w.curves = (viewOf time p (p.tail.map g) (vlines.zip cols)).curves → 
        (∃ title, p.head? = some title ∧ w.ylabel = .text title) ∧ w.curves.length + 1 = p.length ∧
        (∀ (j : ℕ) (name : String) (y : List (Option ℝ)), p[j + 1]? = some name → Column f name y →
          ∃ c, w.curves[j]? = some c ∧ c.label = some name ∧ c.xs.length = c.ys.length ∧ c.xs.zip c.ys = (t.zip y).filter (inFrame ti tf)) := by
      intro w w1 w2
      rw [w1, w2]
      cases p with
      | nil => exact absurd rfl (hp _ hpm).1
      | cons a l =>
        refine ⟨⟨a, rfl, rfl⟩, by simp [viewOf], fun j name y hj hy => ?_⟩
        rw [List.getElem?_cons_succ] at hj
        obtain ⟨y', h1, h3⟩ := hg _ hpm name (List.mem_of_getElem? hj)
        have : y' = y := Except.ok.inj (h1.symm.trans ((col_iff _ _ _).mpr hy))
        subst this
        refine ⟨⟨time, g name, some name⟩, ?_, rfl, ?_, ?_⟩
        · simp only [viewOf, List.tail_cons, List.getElem?_zipWith, List.getElem?_map, hj, Option.map_some]
        · rw [h3, htime]
          exact masked_length keep t y' (by rw [hkl, htl]) (by rw [hkl]; exact len _ _ hy)
        · show time.zip (g name) = _
          rw [h3, htime, hk]
          exact masked_zip ti tf t y' (by rw [htl, len _ _ hy])
    split_ifs with hlast
    · obtain ⟨k1, k2, k3⟩ := key { viewOf time p (p.tail.map g) (vlines.zip cols) with xlabel := some tlabel } rfl rfl
      exact ⟨k1, k2, k3, rfl, rfl⟩
    · obtain ⟨k1, k2, k3⟩ := key (viewOf time p (p.tail.map g) (vlines.zip cols)) rfl rfl
      exact ⟨k1, k2, k3, rfl, rfl⟩

theorem col_missing {f : Frame} {name : String} (h : ¬ ∃ y, Column f name y) : col f name = .error .keyError := by
  cases hc : col f name with
  | ok y => exact absurd ⟨y, (col_iff _ _ _).mp hc⟩ h
  | error e =>
    unfold col at hc
    split at hc
    · cases hc
    · exact hc.symm

theorem mapM_error {α β : Type} {f : α → PyM β} {e : PyErr} : ∀ {l : List α}, (∀ a ∈ l, (∃ b, f a = .ok b) ∨ f a = .error e) →
    (∃ a ∈ l, f a = .error e) → l.mapM f = .error e
  | [], _, ⟨a, ha, _⟩ => by simp at ha
  | a :: l, h, hx => by
    rw [List.mapM_cons]
    rcases h a (by simp) with ⟨b, hb⟩ | hb
    · rw [hb, bind_ok, mapM_error (fun x hx => h x (by simp [hx])) ?_, bind_error]
      obtain ⟨x, hm, hxe⟩ := hx
      rw [List.mem_cons] at hm
      rcases hm with rfl | hm
      · rw [hb] at hxe; cases hxe
      · exact ⟨x, hm, hxe⟩
    · rw [hb, bind_error]

/-- What goes wrong: no such time column or channel is a KeyError, more marker lines than colours an IndexError; at least two panels are
needed (documented), one is a TypeError, none a ValueError. -/
theorem C111_errors (f : Frame) (tcol tlabel : String) (ti tf : ℝ) (panels : List (List String)) (vlines : List ℝ) (cols : List String) :
    ((¬ ∃ t, Column f tcol t) → fdrplot f tcol tlabel ti tf panels vlines cols = .error .keyError) ∧
    ((∃ t, Column f tcol t) → (∀ p ∈ panels, p ≠ []) →
      ((∃ p ∈ panels, ∃ name ∈ p.tail, ¬ ∃ y, Column f name y) → fdrplot f tcol tlabel ti tf panels vlines cols = .error .keyError) ∧
      ((∀ p ∈ panels, ∀ name ∈ p.tail, ∃ y, Column f name y) →
        (panels.length = 0 → fdrplot f tcol tlabel ti tf panels vlines cols = .error .valueError) ∧
        (panels.length = 1 → fdrplot f tcol tlabel ti tf panels vlines cols = .error .typeError) ∧
        (2 ≤ panels.length → cols.length < vlines.length → (∀ c ∈ f, ∀ c' ∈ f, c.2.length = c'.2.length) →
          fdrplot f tcol tlabel ti tf panels vlines cols = .error .indexError))) := by
  refine ⟨fun h => ?_, fun ⟨t, ht⟩ hne => ?_⟩
  · unfold fdrplot fdrTrim
    rw [col_missing h]; rfl
  obtain ⟨keep, hk⟩ : ∃ keep, keep = t.map (fun s => match s with
    | some s => decide (s ≥ ti) && decide (s ≤ tf)
    | none => false) := ⟨_, rfl⟩
  have htc := (col_iff _ _ _).mpr ht
  have trim : fdrTrim f tcol ti tf = .ok (f.map (fun c => (c.1, masked keep c.2))) := by
    unfold fdrTrim
    rw [htc, bind_ok, hk]
    rfl
  obtain ⟨fd, hfd⟩ : ∃ fd, fd = f.map (fun c => (c.1, masked keep c.2)) := ⟨_, rfl⟩
  have hcol : ∀ name y, col f name = .ok y → col fd name = .ok (masked keep y) := by
    intro name y h; rw [hfd]; exact trim_col (masked keep) h
  have hmis : ∀ name, (¬ ∃ y, Column f name y) → col fd name = .error .keyError := by
    intro name h
    have h0 := col_missing h
    unfold col at h0 ⊢
    rw [hfd, List.find?_map]
    have e : (fun c : String × List (Option ℝ) => decide (c.1 = name)) ∘ (fun c : String × List (Option ℝ) => (c.1, masked keep c.2)) =
      fun c => decide (c.1 = name) := rfl
    rw [e]
    cases hf : f.find? (fun c => decide (c.1 = name)) with
    | none => rfl
    | some c => rw [hf] at h0; cases h0
  have start : fdrplot f tcol tlabel ti tf panels vlines cols = (do
      let data ← panels.mapM (panelData fd)
      let ps ← panelplot_with_shared_x (masked keep t) (data.map .many) tlabel (panels.map .list) vlines cols
      pure (ps, fd)) := by
    unfold fdrplot
    rw [trim, bind_ok, ← hfd, hcol _ _ htc, bind_ok]
  have each : ∀ p ∈ panels, panelData fd p = p.tail.mapM (col fd) := by
    intro p hpm
    cases p with
    | nil => exact absurd rfl (hne _ hpm)
    | cons a l => rfl
  refine ⟨fun ⟨p, hpm, name, hm, hx⟩ => ?_, fun hall => ?_⟩
  · rw [start, mapM_error (e := .keyError), bind_error]
    · intro q hq
      rw [each q hq]
      by_cases hq2 : ∃ x ∈ q.tail, ¬ ∃ y, Column f x y
      · right
        obtain ⟨x, hx1, hx2⟩ := hq2
        refine mapM_error (fun a _ => ?_) ⟨x, hx1, hmis x hx2⟩
        by_cases ha : ∃ y, Column f a y
        · obtain ⟨y, hy⟩ := ha
          exact .inl ⟨_, hcol _ _ ((col_iff _ _ _).mpr hy)⟩
        · exact .inr (hmis a ha)
      · left
        push Not at hq2
        classical
        have hg : ∀ a ∈ q.tail, ∃ b, col fd a = .ok b := by
          intro a ha
          obtain ⟨y, hy⟩ := hq2 a ha
          exact ⟨_, hcol _ _ ((col_iff _ _ _).mpr hy)⟩
        refine ⟨_, mapM_ok (g := fun a => if h : ∃ b, col fd a = .ok b then h.choose else []) (fun a ha => ?_)⟩
        have := hg a ha
        simp only [this, dif_pos]
        exact this.choose_spec
    · refine ⟨p, hpm, ?_⟩
      rw [each p hpm]
      refine mapM_error (fun a _ => ?_) ⟨name, hm, hmis name hx⟩
      by_cases ha : ∃ y, Column f a y
      · obtain ⟨y, hy⟩ := ha
        exact .inl ⟨_, hcol _ _ ((col_iff _ _ _).mpr hy)⟩
      · exact .inr (hmis a ha)
  · classical
    obtain ⟨g, hg⟩ : ∃ g : String → Series, ∀ p ∈ panels, ∀ name ∈ p.tail, ∃ y, col f name = .ok y ∧ g name = masked keep y := by
      refine ⟨fun name => if h : ∃ y, col f name = .ok y then masked keep h.choose else [], fun p hpm name hm => ?_⟩
      obtain ⟨y, hy⟩ := hall p hpm name hm
      have hex : ∃ y, col f name = .ok y := ⟨y, (col_iff _ _ _).mpr hy⟩
      exact ⟨hex.choose, hex.choose_spec, by simp only [hex, dif_pos]⟩
    have hdata : panels.mapM (panelData fd) = .ok (panels.map (fun p => p.tail.map g)) := by
      apply mapM_ok
      intro p hpm
      rw [each p hpm]
      apply mapM_ok
      intro name hm
      obtain ⟨y, h1, h3⟩ := hg _ hpm name hm
      rw [hcol _ _ h1, h3]
    rw [start, hdata, bind_ok]
    unfold panelplot_with_shared_x
    refine ⟨fun h => ?_, fun h => ?_, fun h hc hl => ?_⟩
    · rw [if_pos (by rw [List.length_map, List.length_map]; exact h)]; rfl
    · rw [if_neg (by rw [List.length_map, List.length_map]; omega), if_pos (by rw [List.length_map, List.length_map]; exact h)]; rfl
    · rw [if_neg (by rw [List.length_map, List.length_map]; omega), if_neg (by rw [List.length_map, List.length_map]; omega)]
      cases panels with
      | nil => simp at h
      | cons p ps =>
        have hm := lineMarks_error cols vlines 0 (by omega) (by omega)
        have hp0 : pyIndex ((p :: ps).map VLabel.list) ((0 : ℕ) : ℤ) = .ok (.list p) := rfl
        have hpne := hne p (by simp)
        have h0 : VLabel.at (.list p) 0 = .ok (p.headD "") := by
          cases p with
          | nil => exact absurd rfl hpne
          | cons a l => rfl
        have tl : ∀ name y, Column f name y → y.length = t.length := by
          intro name y hy
          obtain ⟨pre, post, e1, -⟩ := hy
          obtain ⟨pre', post', e2, -⟩ := ht
          exact hl (name, y) (by rw [e1]; simp) (tcol, t) (by rw [e2]; simp)
        have hlen : ∀ d ∈ p.tail.map g, d.length = (masked keep t).length := by
          intro d hd
          rw [List.mem_map] at hd
          obtain ⟨name, hmn, rfl⟩ := hd
          obtain ⟨y, h1, h3⟩ := hg p (by simp) name hmn
          rw [h3]
          exact masked_length keep y t (by rw [tl _ _ ((col_iff _ _ _).mp h1), hk]; simp) (by rw [hk]; simp)
        have hX : panelX (masked keep t) (.many (p.tail.map g)) ((p :: ps).map .list) vlines cols 0 = .error .indexError := by
          unfold panelX
          generalize hds : p.tail.map g = ds at hlen ⊢
          cases ds with
          | nil =>
            simp only [hp0, h0, hm, bind_ok, bind_error]
            rfl
          | cons d ds =>
            have hpl : (d :: ds).length + 1 ≤ p.length := by
              rw [← hds]
              cases p with
              | nil => exact absurd rfl hpne
              | cons a l => simp
            have := panelCurves_ok (time := masked keep t) (lab := p) (d :: ds) 0 hlen (by omega)
            simp only [hp0, h0, hm, bind_ok, this, bind_error]
        rw [show ((p :: ps).map (fun p => p.tail.map g)).map VAxis.many = VAxis.many (p.tail.map g) :: (ps.map (fun p => p.tail.map g)).map VAxis.many from rfl,
          panelsX, hX]
        rfl

/-- Profiles side by side: each panel shows its own variable against the shared one, with its limits, label and all lines across it; the
shared label stands at the first panel. -/
theorem C111_side (vaxis : Series) (haxes : List Series) (hlimits : List (ℝ × ℝ)) (vlabel : String) (hlabels : List String) (hlines : List ℝ)
    (cols : List String) (h2 : 2 ≤ haxes.length) (hl : ∀ h ∈ haxes, h.length = vaxis.length) (h3 : haxes.length ≤ hlimits.length)
    (h4 : haxes.length ≤ hlabels.length) (hc : hlines.length ≤ cols.length) :
    ∃ views, panelplot_with_shared_y vaxis haxes hlimits vlabel hlabels hlines cols = .ok views ∧ views.length = haxes.length ∧
      ∀ (i : ℕ) (h : Series), haxes[i]? = some h → ∃ v, views[i]? = some v ∧ v.xs = h ∧ v.ys = vaxis ∧ hlimits[i]? = some v.xlim ∧
        hlabels[i]? = some v.xlabel ∧ (v.ylabel = if i = 0 then some vlabel else none) ∧
        v.lines.map (fun l => l.2) = hlines.zip cols ∧ ∀ l ∈ v.lines, l.1 = v.xlim := by
  have loop : ∀ (hs : List Series) (i : ℕ), (∀ h ∈ hs, h.length = vaxis.length) → hs.length + i ≤ hlimits.length → hs.length + i ≤ hlabels.length →
      ∃ vs, panelsY vaxis hlimits hlabels hlines cols i hs = .ok vs ∧ vs.length = hs.length ∧
        ∀ (k : ℕ) (h : Series), hs[k]? = some h → ∃ v, vs[k]? = some v ∧ v.xs = h ∧ v.ys = vaxis ∧ hlimits[i + k]? = some v.xlim ∧
          hlabels[i + k]? = some v.xlabel ∧ v.ylabel = none ∧ v.lines.map (fun l => l.2) = hlines.zip cols ∧ ∀ l ∈ v.lines, l.1 = v.xlim := by
    intro hs
    induction hs with
    | nil => intro i _ _ _; exact ⟨[], rfl, rfl, fun k h hk => by simp at hk⟩
    | cons h hs ih =>
      intro i a1 a2 a3
      rw [List.length_cons] at a2 a3
      obtain ⟨vs, r1, r2, r3⟩ := ih (i + 1) (fun x hx => a1 x (by simp [hx])) (by omega) (by omega)
      have i1 : i < hlimits.length := by omega
      have i2 : i < hlabels.length := by omega
      have hm := lineMarks_ok cols hlines 0 (by omega)
      rw [List.drop_zero] at hm
      refine ⟨⟨h, vaxis, hlimits[i], hlabels[i], (hlines.zip cols).map (fun m => (hlimits[i], m.1, m.2)), none⟩ :: vs, ?_, by simp [r2],
        fun k x hk => ?_⟩
      · rw [panelsY]
        unfold plotCurve
        rw [if_pos (a1 h (by simp)), bind_ok, pyIndex_nat (List.getElem?_eq_getElem i1), bind_ok, pyIndex_nat (List.getElem?_eq_getElem i2),
          bind_ok, hm, bind_ok, r1, bind_ok]
        rfl
      · cases k with
        | zero =>
          simp only [List.getElem?_cons_zero, Option.some.injEq] at hk
          subst hk
          refine ⟨_, rfl, rfl, rfl, List.getElem?_eq_getElem i1, List.getElem?_eq_getElem i2, rfl, ?_, ?_⟩
          · rw [List.map_map]
            exact List.map_id' _
          · intro l hlm
            rw [List.mem_map] at hlm
            obtain ⟨m, -, rfl⟩ := hlm
            rfl
        | succ k =>
          rw [List.getElem?_cons_succ] at hk
          obtain ⟨v, q⟩ := r3 k x hk
          refine ⟨v, ?_⟩
          rw [List.getElem?_cons_succ, show i + (k + 1) = i + 1 + k by omega]
          exact q
  obtain ⟨vs, r1, r2, r3⟩ := loop haxes 0 hl (by omega) (by omega)
  refine ⟨labelFirst vlabel vs, ?_, ?_, fun i h hi => ?_⟩
  · unfold panelplot_with_shared_y
    rw [if_neg (by omega), if_neg (by omega), r1, bind_ok]
    rfl
  · rw [← r2]; cases vs <;> rfl
  · obtain ⟨v, q1, q2, q3, q4, q5, q6, q7, q8⟩ := r3 i h hi
    rw [Nat.zero_add] at q4 q5
    cases vs with
    | nil => simp at q1
    | cons w ws =>
      cases i with
      | zero =>
        simp only [List.getElem?_cons_zero, Option.some.injEq] at q1
        subst q1
        exact ⟨_, rfl, q2, q3, q4, q5, rfl, q7, q8⟩
      | succ i => exact ⟨v, q1, q2, q3, q4, q5, q6, q7, q8⟩

/-- A recording of three samples, the last outside the time frame. -/
def exRec : Frame := [("Time", [some 0, some 1, some 2]), ("IAS", [some 60, some 65, some 70]), ("Pitch", [some 3, none, some 5])]

theorem exRec_col : Column exRec "Time" [some 0, some 1, some 2] ∧ Column exRec "IAS" [some 60, some 65, some 70] ∧
    Column exRec "Pitch" [some 3, none, some 5] :=
  ⟨⟨[], _, rfl, by simp⟩, ⟨[_], _, rfl, by simp⟩, ⟨[_, _], _, rfl, by simp⟩⟩

example : ∃ views fd, fdrplot exRec "Time" "Time (s)" 0 1.5 [["Speed", "IAS"], ["Angle", "Pitch"]] [1] ["grey"] = .ok (views, fd) ∧
    ∃ v, views[1]? = some v ∧ v.xlabel = some "Time (s)" ∧ ∃ c, v.curves[0]? = some c ∧ c.label = some "Pitch" ∧
      c.xs.zip c.ys = [(some 0, some 3), (some 1, none)] := by
  obtain ⟨k1, k2, k3⟩ := exRec_col
  obtain ⟨views, fd, r1, -, r2⟩ := C111_fdr exRec "Time" "Time (s)" 0 1.5 [["Speed", "IAS"], ["Angle", "Pitch"]] [1] ["grey"] (n := 3) k1
    (by simp [exRec]) (by simp) (by
      intro p hp
      simp only [List.mem_cons, List.not_mem_nil, or_false] at hp
      rcases hp with rfl | rfl
      · exact ⟨by simp, by rintro x hx; simp at hx; subst hx; exact ⟨_, k2⟩⟩
      · exact ⟨by simp, by rintro x hx; simp at hx; subst hx; exact ⟨_, k3⟩⟩) (by simp)
  obtain ⟨v, q1, -, -, q2, -, q3⟩ := r2 1 ["Angle", "Pitch"] rfl
  obtain ⟨c, d1, d2, -, d3⟩ := q2 0 "Pitch" _ rfl k3
  refine ⟨views, fd, r1, v, q1, by simpa using q3, c, d1, d2, d3.trans ?_⟩
  norm_num [inFrame, List.zip]

example : fdrplot exRec "Time" "Time (s)" 0 1.5 [["Speed", "IAS"], ["Angle", "Roll"]] [] [] = .error .keyError :=
  ((C111_errors exRec "Time" "Time (s)" 0 1.5 [["Speed", "IAS"], ["Angle", "Roll"]] [] []).2 ⟨_, exRec_col.1⟩ (by simp)).1
    ⟨["Angle", "Roll"], by simp, "Roll", by simp, by
      rintro ⟨y, hy⟩
      rw [← col_iff] at hy
      exact absurd hy (by simp [col, exRec])⟩

example : ∃ views, panelplot_with_shared_y [some 0, some 1000] [[some 288, some 281], [some 1.2, some 1.1]] [(200, 300), (0, 2)] "Altitude"
    ["Temperature", "Density"] [500] ["blue"] = .ok views ∧ views.length = 2 := by
  obtain ⟨views, h1, h2, -⟩ := C111_side [some 0, some 1000] [[some 288, some 281], [some 1.2, some 1.1]] [(200, 300), (0, 2)] "Altitude"
    ["Temperature", "Density"] [500] ["blue"] (by simp) (by simp) (by simp) (by simp) (by simp)
  exact ⟨views, h1, h2⟩

end

end Verif.Props
