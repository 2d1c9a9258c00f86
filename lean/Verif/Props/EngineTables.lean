import Verif.Props.EngineDecks

/-
The tables that come with the code: bounds read off the encoded data (used for C131).
-/

namespace Verif.Propulsion

open Verif

noncomputable section

/-- A table with rows, none of them with a blank, all between the given bounds. -/
structure Sound (rows : List Row) (x0 x1 y0 y1 z0 z1 : ℝ) : Prop where
  nonempty : rows ≠ []
  row : ∀ r ∈ rows, ∃ x y z, r = (some x, some y, some z) ∧ (x0 ≤ x ∧ x ≤ x1) ∧ (y0 ≤ y ∧ y ≤ y1) ∧ z0 ≤ z ∧ z ≤ z1

theorem Sound.weaken {rows : List Row} {x0 x1 y0 y1 z0 z1 x0' x1' y0' y1' z0' z1' : ℝ} (h : Sound rows x0 x1 y0 y1 z0 z1)
    (a : x0' ≤ x0) (b : x1 ≤ x1') (c : y0' ≤ y0) (d : y1 ≤ y1') (e : z0' ≤ z0) (f : z1 ≤ z1') : Sound rows x0' x1' y0' y1' z0' z1' where
  nonempty := h.nonempty
  row r hr := by
    obtain ⟨x, y, z, rfl, ⟨h1, h2⟩, ⟨h3, h4⟩, h5, h6⟩ := h.row r hr
    exact ⟨x, y, z, rfl, ⟨a.trans h1, h2.trans b⟩, ⟨c.trans h3, h4.trans d⟩, e.trans h5, h6.trans f⟩

theorem Sound.filter {rows : List Row} {x0 x1 y0 y1 z0 z1 : ℝ} (h : Sound rows x0 x1 y0 y1 z0 z1) :
    Sound (rows.filter full) x0 x1 y0 y1 z0 z1 := by
  have : rows.filter full = rows := by
    rw [List.filter_eq_self]
    intro r hr
    obtain ⟨x, y, z, rfl, _⟩ := h.row r hr
    rfl
  rw [this]
  exact h

theorem Sound.complete {rows : List Row} {x0 x1 y0 y1 z0 z1 : ℝ} (h : Sound rows x0 x1 y0 y1 z0 z1) : Complete rows := by
  intro r hr
  obtain ⟨x, y, z, rfl, _⟩ := h.row r hr
  exact ⟨z, rfl⟩

theorem Sound.largest {rows : List Row} {x0 x1 y0 y1 z0 z1 : ℝ} (h : Sound rows x0 x1 y0 y1 z0 z1) {x y : ℝ}
    (hm : (some x, some y, some z1) ∈ rows) : Largest z1 rows where
  attained := ⟨_, hm, rfl⟩
  bound r hr v hv := by
    obtain ⟨x, y, z, rfl, _, _, _, h6⟩ := h.row r hr
    have : z = v := Option.some.inj hv
    rw [← this]
    exact h6

/-- The test for `sound_raw`. -/
def between (A B C D E F x y z : ℤ) : Bool :=
  decide (A ≤ x) && decide (x ≤ B) && decide (C ≤ y) && decide (y ≤ D) && decide (E ≤ z) && decide (z ≤ F)

/-- The test for `sound_raw_full`. -/
def RawTable.passesFull (t : RawTable) (a b c : ℕ) (P : ℤ → ℤ → ℤ → Bool) : Bool :=
  (t.triples a b c).all (fun r => match r with
    | (some x, some y, some z) => P x y z
    | _ => true) && (t.triples a b c).any (fun r => r.1.isSome && r.2.1.isSome && r.2.2.isSome)

theorem between_real {A B C D E F x y z : ℤ} {k : ℕ} (h : between A B C D E F x y z = true) :
    ((A : ℝ) / 10 ^ k ≤ (x : ℝ) / 10 ^ k ∧ (x : ℝ) / 10 ^ k ≤ (B : ℝ) / 10 ^ k) ∧
    ((C : ℝ) / 10 ^ k ≤ (y : ℝ) / 10 ^ k ∧ (y : ℝ) / 10 ^ k ≤ (D : ℝ) / 10 ^ k) ∧
    (E : ℝ) / 10 ^ k ≤ (z : ℝ) / 10 ^ k ∧ (z : ℝ) / 10 ^ k ≤ (F : ℝ) / 10 ^ k := by
  unfold between at h
  simp only [Bool.and_eq_true, decide_eq_true_eq] at h
  obtain ⟨⟨⟨⟨⟨h1, h2⟩, h3⟩, h4⟩, h5⟩, h6⟩ := h
  have p : (0 : ℝ) ≤ 10 ^ k := by positivity
  have g : ∀ u v : ℤ, u ≤ v → (u : ℝ) / 10 ^ k ≤ (v : ℝ) / 10 ^ k := fun u v h =>
    div_le_div_of_nonneg_right (by exact_mod_cast h) p
  exact ⟨⟨g _ _ h1, g _ _ h2⟩, ⟨g _ _ h3, g _ _ h4⟩, g _ _ h5, g _ _ h6⟩

theorem sound_raw_full (t : RawTable) (a b c k : ℕ) (hk : t.scale = k) (A B C D E F : ℤ)
    (h : t.passesFull a b c (between A B C D E F) = true) :
    Sound ((t.select a b c).filter full) (A / 10 ^ k) (B / 10 ^ k) (C / 10 ^ k) (D / 10 ^ k) (E / 10 ^ k) (F / 10 ^ k) := by
  subst hk
  unfold RawTable.passesFull at h
  rw [Bool.and_eq_true, List.all_eq_true, List.any_eq_true] at h
  obtain ⟨h1, q, hq, hq'⟩ := h
  constructor
  · intro e
    rw [List.filter_eq_nil_iff] at e
    refine e _ (List.mem_map.mpr ⟨q, hq, rfl⟩) ?_
    obtain ⟨q1, q2, q3⟩ := q
    unfold full dec
    simpa using hq'
  · intro r hr
    rw [List.mem_filter] at hr
    obtain ⟨hr, hf⟩ := hr
    unfold RawTable.select at hr
    rw [List.mem_map] at hr
    obtain ⟨⟨x, y, z⟩, hm, rfl⟩ := hr
    have := h1 _ hm
    match x, y, z with
    | some x, some y, some z => exact ⟨_, _, _, rfl, between_real this⟩
    | none, _, _ => simp [full, dec] at hf
    | some _, none, _ => simp [full, dec] at hf
    | some _, some _, none => simp [full, dec] at hf

/-- The test for `sound_raw`. -/
def RawTable.passesAll (t : RawTable) (a b c : ℕ) (P : ℤ → ℤ → ℤ → Bool) : Bool := t.passes a b c P && !(t.triples a b c).isEmpty

theorem sound_raw (t : RawTable) (a b c k : ℕ) (hk : t.scale = k) (A B C D E F : ℤ) (h : t.passesAll a b c (between A B C D E F) = true) :
    Sound (t.select a b c) (A / 10 ^ k) (B / 10 ^ k) (C / 10 ^ k) (D / 10 ^ k) (E / 10 ^ k) (F / 10 ^ k) := by
  subst hk
  unfold RawTable.passesAll at h
  rw [Bool.and_eq_true] at h
  obtain ⟨h1, h2⟩ := h
  constructor
  · intro e
    unfold RawTable.select at e
    rw [List.map_eq_nil_iff] at e
    rw [e] at h2
    simp at h2
  · intro r hr
    obtain ⟨x, y, z, hp, rfl⟩ := select_passes t a b c _ h1 r hr
    exact ⟨_, _, _, rfl, between_real hp⟩

theorem select_at {t : RawTable} {a b c : ℕ} (k : ℕ) (hk : t.scale = k) (X Y Z : ℤ)
    (h : (t.triples a b c).contains (some X, some Y, some Z) = true) {x y z : ℝ} (hx : (X : ℝ) / 10 ^ k = x) (hy : (Y : ℝ) / 10 ^ k = y)
    (hz : (Z : ℝ) / 10 ^ k = z) : (some x, some y, some z) ∈ t.select a b c := by
  subst hk hx hy hz
  exact select_mem t a b c X Y Z h

/-! ### Bounds of the tables -/

theorem ATF3_6A_TSFC_data_sound : Sound (ATF3_6A_TSFC_data.select 1 3 2)
    0.034973318 0.95891888 4623.695638 19292.30504 14.45967907 26.1787312 :=
  (sound_raw ATF3_6A_TSFC_data 1 3 2 9 rfl 34973318 958918880 4623695638000 19292305040000 14459679070 26178731200
    (by decide +kernel)).weaken (by norm_num) (by norm_num) (by norm_num) (by norm_num) (by norm_num) (by norm_num)

theorem ATF3_6A_Thrust_data_sound : Sound (ATF3_6A_Thrust_data.select 1 0 2)
    0.00265161 0.96340153 0 12192 4623.330522 19931.47164 :=
  (sound_raw ATF3_6A_Thrust_data 1 0 2 9 rfl 2651610 963401530 0 12192000000000 4623330522000 19931471640000
    (by decide +kernel)).weaken (by norm_num) (by norm_num) (by norm_num) (by norm_num) (by norm_num) (by norm_num)

theorem F404_400_Thrust_data_sound : Sound (F404_400_Thrust_data.select 1 0 2)
    0.03341225 1.989300732 0 18288 5266.961898 75554.34133 :=
  (sound_raw F404_400_Thrust_data 1 0 2 9 rfl 33412250 1989300732 0 18288000000000 5266961898000 75554341330000
    (by decide +kernel)).weaken (by norm_num) (by norm_num) (by norm_num) (by norm_num) (by norm_num) (by norm_num)

theorem FJ_44_TSFC_data_sound : Sound (FJ_44_TSFC_data.select 1 2 0)
    0.040748814 0.755997606 1416.897888 8110.915052 14.1628 22.66048 :=
  (sound_raw FJ_44_TSFC_data 1 2 0 9 rfl 40748814 755997606 1416897888000 8110915052000 14162800000 22660480000
    (by decide +kernel)).weaken (by norm_num) (by norm_num) (by norm_num) (by norm_num) (by norm_num) (by norm_num)

theorem FJ_44_Thrust_data_sound : Sound (FJ_44_Thrust_data.select 1 0 2)
    0.005901338 0.807175074 0 13716 1409.611875 8460.993858 :=
  (sound_raw FJ_44_Thrust_data 1 0 2 9 rfl 5901338 807175074 0 13716000000000 1409611875000 8460993858000
    (by decide +kernel)).weaken (by norm_num) (by norm_num) (by norm_num) (by norm_num) (by norm_num) (by norm_num)

theorem J52_TSFC_data_sound : Sound ((J52_TSFC_data.select 3 2 0).filter full)
    0.173263931 1.28304377 3261.395067 31462.7737 24.07676 31.15816 :=
  (sound_raw_full J52_TSFC_data 3 2 0 9 rfl 173263931 1283043770 3261395067000 31462773700000 24076760000 31158160000
    (by decide +kernel)).weaken (by norm_num) (by norm_num) (by norm_num) (by norm_num) (by norm_num) (by norm_num)

theorem J52_Thrust_data_sound : Sound (J52_Thrust_data.select 3 0 2)
    (-0.0005426092334779769) 1.3932205980058776 0 19812 2745.050793 36674.15568 :=
  (sound_raw J52_Thrust_data 3 0 2 19 rfl (-5426092334779769) 13932205980058776000 0 198120000000000000000000 27450507930000000000000 366741556800000000000000
    (by decide +kernel)).weaken (by norm_num) (by norm_num) (by norm_num) (by norm_num) (by norm_num) (by norm_num)

theorem J60_TSFC_data_sound : Sound ((J60_TSFC_data.select 3 2 0).filter full)
    0.056712143 1.447684 2182.46536 10550.63996 26.90932 38.23956 :=
  (sound_raw_full J60_TSFC_data 3 2 0 9 rfl 56712143 1447684000 2182465360000 10550639960000 26909320000 38239560000
    (by decide +kernel)).weaken (by norm_num) (by norm_num) (by norm_num) (by norm_num) (by norm_num) (by norm_num)

theorem J60_Thrust_data_sound : Sound (J60_Thrust_data.select 3 2 1)
    0.006208217742119012 1.9958500853355572 0 13716 2166.9022579999996 11397.27695 :=
  (sound_raw J60_Thrust_data 3 2 1 19 rfl 62082177421190120 19958500853355572000 0 137160000000000000000000 21669022579999996000000 113972769500000000000000
    (by decide +kernel)).weaken (by norm_num) (by norm_num) (by norm_num) (by norm_num) (by norm_num) (by norm_num)

theorem JT8D_9_TSFC_data_sound : Sound (JT8D_9_TSFC_data.select 1 2 0)
    0.12311725 0.96775981 9639.954852 46292.92747 16.99536 24.07676 :=
  (sound_raw JT8D_9_TSFC_data 1 2 0 9 rfl 123117250 967759810 9639954852000 46292927470000 16995360000 24076760000
    (by decide +kernel)).weaken (by norm_num) (by norm_num) (by norm_num) (by norm_num) (by norm_num) (by norm_num)

theorem JT8D_9_Thrust_data_sound : Sound (JT8D_9_Thrust_data.select 1 0 2)
    (-0.000262337) 0.993394218 0 13716 9181.173207 51848.32163 :=
  (sound_raw JT8D_9_Thrust_data 1 0 2 9 rfl (-262337) 993394218 0 13716000000000 9181173207000 51848321630000
    (by decide +kernel)).weaken (by norm_num) (by norm_num) (by norm_num) (by norm_num) (by norm_num) (by norm_num)

theorem JT9D_3_TSFC_data_sound : Sound (JT9D_3_TSFC_data.select 1 2 0)
    0.386360984 0.975374121 26052.04723 97633.70132 14.1628 21.2442 :=
  (sound_raw JT9D_3_TSFC_data 1 2 0 9 rfl 386360984 975374121 26052047230000 97633701320000 14162800000 21244200000
    (by decide +kernel)).weaken (by norm_num) (by norm_num) (by norm_num) (by norm_num) (by norm_num) (by norm_num)

theorem JT9D_3_Thrust_data_sound : Sound (JT9D_3_Thrust_data.select 1 0 2)
    (-0.000779147) 0.999921199 0 13716 25701.2655 147005.2033 :=
  (sound_raw JT9D_3_Thrust_data 1 0 2 9 rfl (-779147) 999921199 0 13716000000000 25701265500000 147005203300000
    (by decide +kernel)).weaken (by norm_num) (by norm_num) (by norm_num) (by norm_num) (by norm_num) (by norm_num)

theorem TF30_TSFC_data_sound : Sound (TF30_TSFC_data.select 1 2 0)
    0.042556364 1.119538888 9632.848461 49703.6878 18.41164 28.3256 :=
  (sound_raw TF30_TSFC_data 1 2 0 9 rfl 42556364 1119538888 9632848461000 49703687800000 18411640000 28325600000
    (by decide +kernel)).weaken (by norm_num) (by norm_num) (by norm_num) (by norm_num) (by norm_num) (by norm_num)

theorem TF30_Thrust_data_sound : Sound (TF30_Thrust_data.select 1 0 2)
    0.010080432 1.203398977 0 13716 9214.627608 52688.79076 :=
  (sound_raw TF30_Thrust_data 1 0 2 9 rfl 10080432 1203398977 0 13716000000000 9214627608000 52688790760000
    (by decide +kernel)).weaken (by norm_num) (by norm_num) (by norm_num) (by norm_num) (by norm_num) (by norm_num)

theorem TFE731_2_Thrust_data_sound : Sound (TFE731_2_Thrust_data.select 1 0 2)
    (-0.000220051) 0.977328762 0 15240 2022.889696 12993.92928 :=
  (sound_raw TFE731_2_Thrust_data 1 0 2 9 rfl (-220051) 977328762 0 15240000000000 2022889696000 12993929280000
    (by decide +kernel)).weaken (by norm_num) (by norm_num) (by norm_num) (by norm_num) (by norm_num) (by norm_num)

theorem TFE731_5_TSFC_data_sound : Sound (TFE731_5_TSFC_data.select 1 2 3)
    0.242474328 0.961523226 4250.666155 9633.574336 17.31506501 26.41126665 :=
  (sound_raw TFE731_5_TSFC_data 1 2 3 9 rfl 242474328 961523226 4250666155000 9633574336000 17315065010 26411266650
    (by decide +kernel)).weaken (by norm_num) (by norm_num) (by norm_num) (by norm_num) (by norm_num) (by norm_num)

theorem TFE731_5_Thrust_data_sound : Sound (TFE731_5_Thrust_data.select 1 0 2)
    0.237197832 0.965199903 6096 12192 4250.697663 9673.770209 :=
  (sound_raw TFE731_5_Thrust_data 1 0 2 9 rfl 237197832 965199903 6096000000000 12192000000000 4250697663000 9673770209000
    (by decide +kernel)).weaken (by norm_num) (by norm_num) (by norm_num) (by norm_num) (by norm_num) (by norm_num)

theorem T56_A_BSFC_data_sound : Sound (T56_A_BSFC_data.select 3 0 2)
    0.037929254064176014 1.0092970534693033 3048 9144 269.5189344 326.6428841 :=
  (sound_raw T56_A_BSFC_data 3 0 2 18 rfl 37929254064176014 1009297053469303300 3048000000000000000000 9144000000000000000000 269518934400000000000 326642884100000000000
    (by decide +kernel)).weaken (by norm_num) (by norm_num) (by norm_num) (by norm_num) (by norm_num) (by norm_num)

theorem T56_A_Power_data_sound : Sound (T56_A_Power_data.select 3 0 2)
    0.0028206862324185733 1.039194900677094 0 15240 651557.2539 3657658.9439999997 :=
  (sound_raw T56_A_Power_data 3 0 2 19 rfl 28206862324185733 10391949006770940000 0 152400000000000000000000 6515572539000000000000000 36576589439999997000000000
    (by decide +kernel)).weaken (by norm_num) (by norm_num) (by norm_num) (by norm_num) (by norm_num) (by norm_num)

theorem T56_A_Thrust_data_sound : Sound (T56_A_Thrust_data.select 3 0 2)
    (-0.0002775007738096163) 1.1029940083927863 0 15240 484.7627675 3534.0763869999996 :=
  (sound_raw T56_A_Thrust_data 3 0 2 19 rfl (-2775007738096163) 11029940083927863000 0 152400000000000000000000 4847627675000000000000 35340763869999996000000
    (by decide +kernel)).weaken (by norm_num) (by norm_num) (by norm_num) (by norm_num) (by norm_num) (by norm_num)

theorem Tyne_RTy11_BSFC_data_sound : Sound (Tyne_RTy11_BSFC_data.select 3 0 2)
    0 0.6939393818982045 0 10668 258.8464303 318.4970739 :=
  (sound_raw Tyne_RTy11_BSFC_data 3 0 2 17 rfl 0 69393938189820450 0 1066800000000000000000 25884643030000000000 31849707390000000000
    (by decide +kernel)).weaken (by norm_num) (by norm_num) (by norm_num) (by norm_num) (by norm_num) (by norm_num)

theorem Tyne_RTy11_Power_data_sound : Sound (Tyne_RTy11_Power_data.select 3 0 2)
    0 0.693939382 0 10668 1093907.686 3434056.292 :=
  (sound_raw Tyne_RTy11_Power_data 3 0 2 9 rfl 0 693939382 0 10668000000000 1093907686000000 3434056292000000
    (by decide +kernel)).weaken (by norm_num) (by norm_num) (by norm_num) (by norm_num) (by norm_num) (by norm_num)

theorem Tyne_RTy11_Thrust_data_sound : Sound (Tyne_RTy11_Thrust_data.select 3 0 2)
    0 0.6939393818982045 0 10668 918.3835567 4297.468247999999 :=
  (sound_raw Tyne_RTy11_Thrust_data 3 0 2 17 rfl 0 69393938189820450 0 1066800000000000000000 91838355670000000000 429746824799999900000
    (by decide +kernel)).weaken (by norm_num) (by norm_num) (by norm_num) (by norm_num) (by norm_num) (by norm_num)

theorem IO_540_BSFC_best_power_data_sound : Sound (IO_540_BSFC_best_power_data.select 0 1 2)
    2000 2700 97579.37143 217348.0215 339.0357815 462.5324743 :=
  (sound_raw IO_540_BSFC_best_power_data 0 1 2 7 rfl 20000000000 27000000000 975793714300 2173480215000 3390357815 4625324743
    (by decide +kernel)).weaken (by norm_num) (by norm_num) (by norm_num) (by norm_num) (by norm_num) (by norm_num)

theorem IO_540_BSFC_data_sound : Sound (IO_540_BSFC_data.select 0 1 2)
    2000 2700 97605.40735 166945.6193 294.5260487 389.7327106 :=
  (sound_raw IO_540_BSFC_data 0 1 2 7 rfl 20000000000 27000000000 976054073500 1669456193000 2945260487 3897327106
    (by decide +kernel)).weaken (by norm_num) (by norm_num) (by norm_num) (by norm_num) (by norm_num) (by norm_num)

theorem IO_540_Power_data_sound : Sound (IO_540_Power_data.select 2 0 1)
    2000 2575 (-10.90794985) 6867.517699 74589.72241 185875.1124 :=
  (sound_raw IO_540_Power_data 2 0 1 9 rfl 2000000000000 2575000000000 (-10907949850) 6867517699000 74589722410000 185875112400000
    (by decide +kernel)).weaken (by norm_num) (by norm_num) (by norm_num) (by norm_num) (by norm_num) (by norm_num)

theorem Wasp_Major_B13_BSFC_data_sound : Sound (Wasp_Major_B13_BSFC_data.select 2 1 0)
    1238.962363 2550.064243 595745.5421 1975962.354 273.72465 437.95944 :=
  (sound_raw Wasp_Major_B13_BSFC_data 2 1 0 6 rfl 1238962363 2550064243 595745542100 1975962354000 273724650 437959440
    (by decide +kernel)).weaken (by norm_num) (by norm_num) (by norm_num) (by norm_num) (by norm_num) (by norm_num)

theorem Wasp_Major_B13_Power_data_sound : Sound (Wasp_Major_B13_Power_data.select 0 1 2)
    1200 2700 1.021268885 10303.80347 594892.8759 2474623.543 :=
  (sound_raw Wasp_Major_B13_Power_data 0 1 2 9 rfl 1200000000000 2700000000000 1021268885 10303803470000 594892875900000 2474623543000000
    (by decide +kernel)).weaken (by norm_num) (by norm_num) (by norm_num) (by norm_num) (by norm_num) (by norm_num)

theorem JMX57_Efficiency_data_sound : Sound (JMX57_Efficiency_data.select 1 2 0)
    249.5335939 3000.686787 27.13991725 625.2439119 0.8 0.962 :=
  (sound_raw JMX57_Efficiency_data 1 2 0 8 rfl 24953359390 300068678700 2713991725 62524391190 80000000 96200000
    (by decide +kernel)).weaken (by norm_num) (by norm_num) (by norm_num) (by norm_num) (by norm_num) (by norm_num)

theorem YASA_750R_Efficiency_data_sound : Sound (YASA_750R_Efficiency_data.select 1 2 0)
    123.2093982 3259.940174 7.823820919 800.7119594 0.5 0.93 :=
  (sound_raw YASA_750R_Efficiency_data 1 2 0 9 rfl 123209398200 3259940174000 7823820919 800711959400 500000000 930000000
    (by decide +kernel)).weaken (by norm_num) (by norm_num) (by norm_num) (by norm_num) (by norm_num) (by norm_num)

end

end Verif.Propulsion
