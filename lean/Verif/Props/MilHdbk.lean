import Verif.Props.Profile
import Verif.Model.MilHdbk

/-
Property C27: the shipped MIL-HDBK-310 tables.
-/

namespace Verif.Props
open Verif.Atmos Verif.Units Verif.Spec

noncomputable section

/-- A complete profile: altitudes 0, 2, ..., 80 km, columns of equal length, positive densities,
nonnegative temperatures, pressures by the gas law. -/
structure Physical (o : Obs) : Prop where
  alts : o.alt_m = (List.range 41).map (fun k : ℕ => 2000 * (k : ℝ))
  temp_len : o.temp_k.length = 41
  rho_len : o.rho_kgpm3.length = 41
  p_len : o.p_pa.length = 41
  rho_pos : ∀ r ∈ o.rho_kgpm3, 0 < r
  temp_nonneg : ∀ t ∈ o.temp_k, 0 ≤ t
  gas : ∀ i (h : i < 41), o.p_pa[i]'(by omega) =
    (287.05287 : ℝ) * (o.rho_kgpm3[i]'(by omega)) * (o.temp_k[i]'(by omega))

/-- The columns (altitude km, temperature, density) of a profile in the data files: the file's rows,
columns in the order announced by the file name, `ten` for the 10 percent profile. -/
def tableRows (hl td alt : String) (ten : Bool) : List (ℚ × ℚ × ℚ) :=
  match milFiles.lookup (milName hl td alt) with
  | none => []
  | some rows => rows.map (fun r => if ten then (milCols td r).2 else (milCols td r).1)

theorem table_facts : ∀ hl ∈ ["high", "low"], ∀ td ∈ ["temp", "dens"], ∀ alt ∈ ["5", "10", "20"],
    (milFiles.lookup (milName hl td alt)).isSome = true ∧
    ∀ ten ∈ [false, true],
      (tableRows hl td alt ten).map (·.1) = (List.range 41).map (fun k : ℕ => 2 * (k : ℚ)) ∧
      (∀ r ∈ tableRows hl td alt ten, 0 < r.2.2 ∧ 0 ≤ r.2.1) ∧
      ((hl, td, alt, ten) ≠ ("high", "dens", "10", true) → ∀ r ∈ tableRows hl td alt ten, 150 < r.2.1) ∧
      ((hl, td, alt, ten) ∉ [("high", "dens", "5", false), ("low", "dens", "5", false),
          ("high", "temp", "20", true)] →
        ((tableRows hl td alt ten).map (·.2.2)).Pairwise (· > ·)) := by
  decide +kernel

theorem milProfile_physical (rows : List (ℚ × ℚ × ℚ))
    (h1 : rows.map (·.1) = (List.range 41).map (fun k : ℕ => 2 * (k : ℚ)))
    (h2 : ∀ r ∈ rows, 0 < r.2.2 ∧ 0 ≤ r.2.1) :
    ∃ o, milProfile rows = .ok o ∧ Physical o ∧ o.temp_k = rows.map (fun r => (r.2.1 : ℝ)) ∧
      o.rho_kgpm3 = rows.map (fun r => (r.2.2 : ℝ)) := by
  have hl : rows.length = 41 := by simpa using congrArg List.length h1
  obtain ⟨o, e, ea, et, er, lp, -, gp, -⟩ := C25_density_profile (rows.map (fun r => km2m (r.1 : ℝ)))
    (rows.map (fun r => (r.2.1 : ℝ))) (rows.map (fun r => (r.2.2 : ℝ))) none (by simp) (by simp)
    (by
      intro t ht
      obtain ⟨r, hr, rfl⟩ := List.mem_map.mp ht
      exact_mod_cast (h2 r hr).2)
  refine ⟨o, e, ⟨?_, ?_, ?_, ?_, ?_, ?_, ?_⟩, et, er⟩
  · rw [ea]
    have := congrArg (List.map (fun q : ℚ => km2m (q : ℝ))) h1
    rw [List.map_map, List.map_map] at this
    rw [show (fun r : ℚ × ℚ × ℚ => km2m (r.1 : ℝ)) = (fun q : ℚ => km2m (q : ℝ)) ∘ (·.1) from rfl, this]
    apply List.map_congr_left
    intro k _
    simp [km2m]; ring
  · rw [et]; simpa using hl
  · rw [er]; simpa using hl
  · rw [lp]; simpa using hl
  · rw [er]; intro x hx
    obtain ⟨r, hr, rfl⟩ := List.mem_map.mp hx
    exact_mod_cast (h2 r hr).1
  · rw [et]; intro x hx
    obtain ⟨r, hr, rfl⟩ := List.mem_map.mp hx
    exact_mod_cast (h2 r hr).2
  · intro i hi
    rw [gp i (by simp [hl, hi]) (by rw [lp]; simp [hl, hi])]
    simp only [et, er]

theorem mil_eq (hl td alt : String) (a b : Obs) (hsome : (milFiles.lookup (milName hl td alt)).isSome = true)
    (ha : milProfile (tableRows hl td alt false) = .ok a) (hb : milProfile (tableRows hl td alt true) = .ok b) :
    mil_hdbk_310 hl td alt = .ok (some (a, b)) := by
  unfold mil_hdbk_310
  unfold tableRows at ha hb
  cases h : milFiles.lookup (milName hl td alt) with
  | none => rw [h] at hsome; simp at hsome
  | some rows =>
    rw [h] at ha hb
    simp only [Bool.false_eq_true, if_true, if_false] at ha hb
    show (milProfile _ >>= _) = _
    rw [ha]
    show (milProfile _ >>= _) = _
    rw [hb]; rfl

/-- All twelve combinations give two complete profiles with positive densities; temperatures exceed
150 K in all but the 10 percent profile of "high density at 10 km"; densities strictly decrease in all
but three profiles. -/
theorem C27_tables (hl td alt : String) (h1 : hl ∈ ["high", "low"]) (h2 : td ∈ ["temp", "dens"])
    (h3 : alt ∈ ["5", "10", "20"]) :
    ∃ a b, mil_hdbk_310 hl td alt = .ok (some (a, b)) ∧ Physical a ∧ Physical b ∧
      (∀ t ∈ a.temp_k, 150 < t) ∧
      ((hl, td, alt) ≠ ("high", "dens", "10") → ∀ t ∈ b.temp_k, 150 < t) ∧
      ((hl, td, alt) ≠ ("high", "dens", "5") → (hl, td, alt) ≠ ("low", "dens", "5") →
        a.rho_kgpm3.Pairwise (· > ·)) ∧
      ((hl, td, alt) ≠ ("high", "temp", "20") → b.rho_kgpm3.Pairwise (· > ·)) := by
  obtain ⟨hs, ht⟩ := table_facts hl h1 td h2 alt h3
  obtain ⟨a1, a2, a3, a4⟩ := ht false (by simp)
  obtain ⟨b1, b2, b3, b4⟩ := ht true (by simp)
  obtain ⟨a, ea, pa, ta, ra⟩ := milProfile_physical _ a1 a2
  obtain ⟨b, eb, pb, tb, rb⟩ := milProfile_physical _ b1 b2
  have castdec : ∀ rows : List (ℚ × ℚ × ℚ), (rows.map (·.2.2)).Pairwise (· > ·) →
      (rows.map (fun r => (r.2.2 : ℝ))).Pairwise (· > ·) := by
    intro rows h
    rw [List.pairwise_map] at h ⊢
    exact h.imp (fun h => by exact_mod_cast h)
  refine ⟨a, b, mil_eq hl td alt a b hs ea eb, pa, pb, ?_, ?_, ?_, ?_⟩
  · rw [ta]; intro t ht
    obtain ⟨r, hr, rfl⟩ := List.mem_map.mp ht
    exact_mod_cast a3 (by simp) r hr
  · intro hne; rw [tb]; intro t ht
    obtain ⟨r, hr, rfl⟩ := List.mem_map.mp ht
    have := b3 ?_ r hr
    · exact_mod_cast this
    intro hc; apply hne
    simp only [Prod.mk.injEq] at hc ⊢
    exact ⟨hc.1, hc.2.1, hc.2.2.1⟩
  · intro n1 n2
    rw [ra]; apply castdec; apply a4
    intro hm
    simp only [List.mem_cons, List.not_mem_nil, or_false] at hm
    rcases hm with hm | hm | hm <;> simp only [Prod.mk.injEq] at hm
    · exact n1 (by rw [hm.1, hm.2.1, hm.2.2.1])
    · exact n2 (by rw [hm.1, hm.2.1, hm.2.2.1])
    · simp at hm
  · intro n1
    rw [rb]; apply castdec; apply b4
    intro hm
    simp only [List.mem_cons, List.not_mem_nil, or_false] at hm
    rcases hm with hm | hm | hm <;> simp only [Prod.mk.injEq] at hm
    · simp at hm
    · simp at hm
    · exact n1 (by rw [hm.1, hm.2.1, hm.2.2.1])

example : ∃ a b, mil_hdbk_310 "high" "dens" "5" = .ok (some (a, b)) ∧ Physical a ∧ Physical b := by
  obtain ⟨a, b, h1, h2, h3, _⟩ := C27_tables "high" "dens" "5" (by simp) (by simp) (by simp)
  exact ⟨a, b, h1, h2, h3⟩

theorem linSeg_between (x0 y0 x1 y1 x m : ℝ) (h0 : x0 ≤ x) (h1 : x ≤ x1) (h : x0 < x1) (hy0 : m < y0)
    (hy1 : m < y1) : m < linSeg x0 y0 x1 y1 x := by
  rw [linSeg_weights _ _ _ _ _ h]
  have w0 : 0 ≤ (x - x0) / (x1 - x0) := div_nonneg (by linarith) (by linarith)
  have w1 : (x - x0) / (x1 - x0) ≤ 1 := by rw [div_le_one (by linarith)]; linarith
  generalize (x - x0) / (x1 - x0) = w at *
  rcases eq_or_lt_of_le w0 with h | h
  · subst h; linarith
  · nlinarith [mul_pos h (sub_pos.mpr hy1), mul_nonneg (sub_nonneg.mpr w1) (sub_pos.mpr hy0).le]

/-- Every altitude from 0 to 80 km is answered by every such profile, with positive density, and with
positive temperature and pressure when the tabulated temperatures are positive. -/
theorem C27_query (o : Obs) (ho : Physical o) (x : ℝ) (h0 : 0 ≤ x) (h1 : x ≤ 80000) :
    ∃ t d p, airtemp_k (.profile o) (.scalar x) = .ok (.scalar t) ∧
      airdens_kgpm3 (.profile o) (.scalar x) = .ok (.scalar d) ∧
      airpress_pa (.profile o) (.scalar x) = .ok (.scalar p) ∧ 0 < d ∧
      ((∀ t ∈ o.temp_k, 0 < t) → 0 < t ∧ 0 < p) := by
  have hl : o.alt_m.length = 41 := by rw [ho.alts]; simp
  have hs : o.alt_m.Pairwise (· < ·) := by
    rw [ho.alts, List.pairwise_map]
    refine List.pairwise_lt_range.imp ?_
    intro a b hab
    have : (a:ℝ) < b := by exact_mod_cast hab
    linarith
  have m0 : (0:ℝ) ∈ o.alt_m := by
    rw [ho.alts]; exact List.mem_map.mpr ⟨0, by simp, by simp⟩
  have m1 : (80000:ℝ) ∈ o.alt_m := by
    rw [ho.alts]; exact List.mem_map.mpr ⟨40, by simp, by norm_num⟩
  obtain ⟨i, hi, g0, g1, q1, q2, q3⟩ := profile_scalar o x hs (by omega) ⟨0, m0, h0⟩ ⟨80000, m1, h1⟩
    (by rw [hl, ho.temp_len]) (by rw [hl, ho.p_len]) (by rw [hl, ho.rho_len])
  have h01 := (List.pairwise_iff_getElem.mp hs) i (i + 1) (by omega) hi (by omega)
  refine ⟨_, _, _, q1, q3, q2, ?_, ?_⟩
  · exact linSeg_between _ _ _ _ _ _ g0 g1 h01 (ho.rho_pos _ (List.getElem_mem _)) (ho.rho_pos _ (List.getElem_mem _))
  · intro hp
    refine ⟨linSeg_between _ _ _ _ _ _ g0 g1 h01 (hp _ (List.getElem_mem _)) (hp _ (List.getElem_mem _)), ?_⟩
    apply linSeg_between _ _ _ _ _ _ g0 g1 h01
    · rw [ho.gas i (by omega)]
      exact mul_pos (mul_pos (by norm_num) (ho.rho_pos _ (List.getElem_mem _))) (hp _ (List.getElem_mem _))
    · rw [ho.gas (i + 1) (by omega)]
      exact mul_pos (mul_pos (by norm_num) (ho.rho_pos _ (List.getElem_mem _))) (hp _ (List.getElem_mem _))

example : ∃ a b d, mil_hdbk_310 "low" "temp" "10" = .ok (some (a, b)) ∧
    airdens_kgpm3 (.profile a) (.scalar 12345) = .ok (.scalar d) ∧ 0 < d := by
  obtain ⟨a, b, h1, h2, _⟩ := C27_tables "low" "temp" "10" (by simp) (by simp) (by simp)
  obtain ⟨_, d, _, _, h4, _, h5, _⟩ := C27_query a h2 12345 (by norm_num) (by norm_num)
  exact ⟨a, b, d, h1, h4, h5⟩

theorem bad_rows :
    ((tableRows "high" "dens" "10" true).map (·.2.1))[25]? = some (0 : ℚ) ∧
    ((tableRows "high" "dens" "5" false).map (·.2.2))[19]? = some (0.003038 : ℚ) ∧
    ((tableRows "high" "dens" "5" false).map (·.2.2))[20]? = some (0.003753 : ℚ) ∧
    ((tableRows "low" "dens" "5" false).map (·.2.2))[15]? = some (0.01312 : ℚ) ∧
    ((tableRows "low" "dens" "5" false).map (·.2.2))[16]? = some (0.01331 : ℚ) ∧
    ((tableRows "high" "temp" "20" true).map (·.2.2))[10]? = some (0.08748 : ℚ) ∧
    ((tableRows "high" "temp" "20" true).map (·.2.2))[11]? = some (0.6542 : ℚ) := by
  decide +kernel

/-- The shipped data defects: the 10 percent high-density-at-10-km atmosphere has temperature 0 K at
50 km (its query returns 0), and three profiles have densities that rise with altitude. -/
theorem C27_tables_violated :
    (∃ a b, mil_hdbk_310 "high" "dens" "10" = .ok (some (a, b)) ∧
      airtemp_k (.profile b) (.scalar 50000) = .ok (.scalar 0)) ∧
    (∃ a b, mil_hdbk_310 "high" "dens" "5" = .ok (some (a, b)) ∧
      ∃ d d', airdens_kgpm3 (.profile a) (.scalar 38000) = .ok (.scalar d) ∧
        airdens_kgpm3 (.profile a) (.scalar 40000) = .ok (.scalar d') ∧ d < d') ∧
    (∃ a b, mil_hdbk_310 "low" "dens" "5" = .ok (some (a, b)) ∧
      ∃ d d', airdens_kgpm3 (.profile a) (.scalar 30000) = .ok (.scalar d) ∧
        airdens_kgpm3 (.profile a) (.scalar 32000) = .ok (.scalar d') ∧ d < d') ∧
    (∃ a b, mil_hdbk_310 "high" "temp" "20" = .ok (some (a, b)) ∧
      ∃ d d', airdens_kgpm3 (.profile b) (.scalar 20000) = .ok (.scalar d) ∧
        airdens_kgpm3 (.profile b) (.scalar 22000) = .ok (.scalar d') ∧ 7 * d < d') := by
  -- a query at a tabulated altitude returns the tabulated value
  have tab : ∀ (o : Obs) (ho : Physical o) (k : ℕ) (hk : k < 41),
      airtemp_k (.profile o) (.scalar (2000 * (k:ℝ))) = .ok (.scalar (o.temp_k[k]'(by rw [ho.temp_len]; exact hk))) ∧
      airdens_kgpm3 (.profile o) (.scalar (2000 * (k:ℝ))) = .ok (.scalar (o.rho_kgpm3[k]'(by rw [ho.rho_len]; exact hk))) := by
    intro o ho k hk
    have hl : o.alt_m.length = 41 := by rw [ho.alts]; simp
    have hs : o.alt_m.Pairwise (· < ·) := by
      rw [ho.alts, List.pairwise_map]
      refine List.pairwise_lt_range.imp ?_
      intro a b hab
      have : (a:ℝ) < b := by exact_mod_cast hab
      linarith
    have hm : o.alt_m[k]'(by omega) = 2000 * (k:ℝ) := by simp [ho.alts]
    have hmem : 2000 * (k:ℝ) ∈ o.alt_m := by rw [← hm]; exact List.getElem_mem _
    have hne : o.alt_m ≠ [] := by intro h; rw [h] at hl; simp at hl
    have ha := (C17_profile o (2000 * (k:ℝ)) hne).2 ⟨⟨_, hmem, le_rfl⟩, ⟨_, hmem, le_rfl⟩⟩
    have q : ∀ ys (hy : o.alt_m.length = ys.length), List.mapM (interp1d o.alt_m ys) [2000 * (k:ℝ)] =
        .ok [ys[k]'(by omega)] := by
      intro ys hy
      have := (C25_interpolation o.alt_m ys hy hs (by omega)).1 k (by omega)
      rw [hm] at this
      rw [List.mapM_cons, this]; rfl
    constructor
    · unfold airtemp_k; rw [ha]
      show (List.mapM (interp1d o.alt_m o.temp_k) [_] >>= _) = _
      rw [q _ (by rw [hl, ho.temp_len])]; rfl
    · unfold airdens_kgpm3; rw [ha]
      show (List.mapM (interp1d o.alt_m o.rho_kgpm3) [_] >>= _) = _
      rw [q _ (by rw [hl, ho.rho_len])]; rfl
  have get : ∀ hl ∈ ["high", "low"], ∀ td ∈ ["temp", "dens"], ∀ alt ∈ ["5", "10", "20"],
      ∃ a b, mil_hdbk_310 hl td alt = .ok (some (a, b)) ∧ Physical a ∧ Physical b ∧
        a.temp_k = (tableRows hl td alt false).map (fun r => (r.2.1 : ℝ)) ∧
        a.rho_kgpm3 = (tableRows hl td alt false).map (fun r => (r.2.2 : ℝ)) ∧
        b.temp_k = (tableRows hl td alt true).map (fun r => (r.2.1 : ℝ)) ∧
        b.rho_kgpm3 = (tableRows hl td alt true).map (fun r => (r.2.2 : ℝ)) := by
    intro hl h1 td h2 alt h3
    obtain ⟨hs, ht⟩ := table_facts hl h1 td h2 alt h3
    obtain ⟨a1, a2, -⟩ := ht false (by simp)
    obtain ⟨b1, b2, -⟩ := ht true (by simp)
    obtain ⟨a, ea, pa, ta, ra⟩ := milProfile_physical _ a1 a2
    obtain ⟨b, eb, pb, tb, rb⟩ := milProfile_physical _ b1 b2
    exact ⟨a, b, mil_eq hl td alt a b hs ea eb, pa, pb, ta, ra, tb, rb⟩
  have val : ∀ (rows : List (ℚ × ℚ × ℚ)) (f : ℚ × ℚ × ℚ → ℚ) (l : List ℝ), l = rows.map (fun r => (f r : ℝ)) →
      ∀ (k : ℕ) (q : ℚ) (hk : k < l.length), (rows.map f)[k]? = some q → l[k] = (q : ℝ) := by
    intro rows f l hl k q hk hq
    subst hl
    simp only [List.getElem_map]
    rw [List.getElem?_map, List.getElem?_eq_getElem (by simpa using hk)] at hq
    simp only [Option.map_some, Option.some.injEq] at hq
    rw [hq]
  obtain ⟨r1, r2, r3, r4, r5, r6, r7⟩ := bad_rows
  refine ⟨?_, ?_, ?_, ?_⟩
  · obtain ⟨a, b, e, pa, pb, ta, ra, tb, rb⟩ := get "high" (by simp) "dens" (by simp) "10" (by simp)
    refine ⟨a, b, e, ?_⟩
    have := (tab b pb 25 (by norm_num)).1
    rw [val _ _ _ tb 25 0 (by rw [pb.temp_len]; norm_num) r1] at this
    norm_num at this
    exact this
  · obtain ⟨a, b, e, pa, pb, ta, ra, tb, rb⟩ := get "high" (by simp) "dens" (by simp) "5" (by simp)
    refine ⟨a, b, e, ?_⟩
    have t1 := (tab a pa 19 (by norm_num)).2
    have t2 := (tab a pa 20 (by norm_num)).2
    rw [val _ _ _ ra 19 _ (by rw [pa.rho_len]; norm_num) r2] at t1
    rw [val _ _ _ ra 20 _ (by rw [pa.rho_len]; norm_num) r3] at t2
    refine ⟨_, _, by convert t1 using 3; norm_num, by convert t2 using 3; norm_num, by norm_num⟩
  · obtain ⟨a, b, e, pa, pb, ta, ra, tb, rb⟩ := get "low" (by simp) "dens" (by simp) "5" (by simp)
    refine ⟨a, b, e, ?_⟩
    have t1 := (tab a pa 15 (by norm_num)).2
    have t2 := (tab a pa 16 (by norm_num)).2
    rw [val _ _ _ ra 15 _ (by rw [pa.rho_len]; norm_num) r4] at t1
    rw [val _ _ _ ra 16 _ (by rw [pa.rho_len]; norm_num) r5] at t2
    refine ⟨_, _, by convert t1 using 3; norm_num, by convert t2 using 3; norm_num, by norm_num⟩
  · obtain ⟨a, b, e, pa, pb, ta, ra, tb, rb⟩ := get "high" (by simp) "temp" (by simp) "20" (by simp)
    refine ⟨a, b, e, ?_⟩
    have t1 := (tab b pb 10 (by norm_num)).2
    have t2 := (tab b pb 11 (by norm_num)).2
    rw [val _ _ _ rb 10 _ (by rw [pb.rho_len]; norm_num) r6] at t1
    rw [val _ _ _ rb 11 _ (by rw [pb.rho_len]; norm_num) r7] at t2
    refine ⟨_, _, by convert t1 using 3; norm_num, by convert t2 using 3; norm_num, by norm_num⟩

/-- A file name that is not shipped gives (None, None). -/
theorem C27_missing (hl td alt : String) (h : ∀ f ∈ milFiles, f.1 ≠ milName hl td alt) :
    mil_hdbk_310 hl td alt = .ok none := by
  unfold mil_hdbk_310
  have : milFiles.lookup (milName hl td alt) = none := by
    rw [List.lookup_eq_none_iff]
    intro p hp
    simpa using (h p hp).symm
  rw [this]

example : "low" ∈ ["high", "low"] ∧ "temp" ∈ ["temp", "dens"] ∧ "20" ∈ ["5", "10", "20"] := by simp
example : ∀ f ∈ milFiles, f.1 ≠ milName "high" "temp" "30" := by decide +kernel

end

end Verif.Props
