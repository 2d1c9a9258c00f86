import Verif.Lemmas.PolyCheck
import Verif.Props.EngineData
import Mathlib.Algebra.Polynomial.Roots

/-
The sea level thrust polynomials that come with the code (C132).
-/

namespace Verif.Propulsion

open Verif

noncomputable section

/-! ### Lemmas -/

theorem sl_inside {d : JetDeck} {p : RawPoly} {lo hi : ℝ} (ha : d.avail.sl = true) (hd : d.slPoly = some p.file) (hl : p.file.2 = [lo, hi]) (x : ℝ) :
    (lo ≤ x → x ≤ hi → d.sl_thrust (.num x) = .ok (some [evR p.q x])) ∧ (x < lo ∨ hi < x → d.sl_thrust (.num x) = .ok none) := by
  have e : d.slPoly = some (p.file.1, lo :: hi :: []) := by rw [hd, ← hl]
  have := (C65_range d p.file.1 [] lo hi x).1 ha e
  rw [← evalPoly_sum, file_coeffs] at this
  exact this

theorem slto_inside {d : JetDeck} {p : RawPoly} {lo hi : ℝ} (ha : d.avail.slto = true) (hd : d.sltoPoly = some p.file) (hl : p.file.2 = [lo, hi]) (x : ℝ) :
    (lo ≤ x → x ≤ hi → d.sl_take_off_thrust (.num x) = .ok (some [evR p.q x])) ∧ (x < lo ∨ hi < x → d.sl_take_off_thrust (.num x) = .ok none) := by
  have e : d.sltoPoly = some (p.file.1, lo :: hi :: []) := by rw [hd, ← hl]
  have := (C65_range d p.file.1 [] lo hi x).2 ha e
  rw [← evalPoly_sum, file_coeffs] at this
  exact this

theorem limits_file {p : RawPoly} {a b : ℤ} {k : ℕ} (hp : p.limits = [a, b]) (hk : p.limitScale = k) {lo hi : ℝ} (h1 : (a : ℝ) / 10 ^ k = lo)
    (h2 : (b : ℝ) / 10 ^ k = hi) : p.file.2 = [lo, hi] := by
  unfold RawPoly.file
  rw [hp, hk]
  simp only [List.map_cons, List.map_nil, h1, h2]

theorem evR_at {cs : List ℚ} {x : ℝ} (q : ℚ) (hq : (q : ℝ) = x) : evR cs x = ((evalQ cs q : ℚ) : ℝ) := by
  rw [← hq, evR_cast]

theorem ATF3_6A_Sea_level_thrust_polynomial_limits : ATF3_6A_Sea_level_thrust_polynomial.file.2 = [0, 0.598730034] :=
  limits_file (p := ATF3_6A_Sea_level_thrust_polynomial) (k := 9) rfl rfl (by norm_num) (by norm_num)

theorem ATF3_6A_Sea_level_thrust_polynomial_pos {x : ℝ} (h0 : 0 ≤ x) (h1 : x ≤ 0.598730034) : 0 < evR ATF3_6A_Sea_level_thrust_polynomial.q x :=
  posOn_sound (n := 8) (a := 0) (b := 0.598730034) (by decide +kernel) (by push_cast; linarith) (by push_cast; linarith)

theorem ATF3_6A_Sea_level_thrust_polynomial_falls {x y : ℝ} (h0 : 0 ≤ x) (h : x < y) (h1 : y ≤ 0.598730034) : evR ATF3_6A_Sea_level_thrust_polynomial.q y < evR ATF3_6A_Sea_level_thrust_polynomial.q x := by
  have f := falls (n := 10) (cs := ATF3_6A_Sea_level_thrust_polynomial.q) (a := 0) (b := 0.598730034) (by decide +kernel)
  exact f (by rw [Set.mem_Icc]; push_cast; constructor <;> linarith) (by rw [Set.mem_Icc]; push_cast; constructor <;> linarith) h

theorem F404_400_Sea_level_thrust_polynomial_limits : F404_400_Sea_level_thrust_polynomial.file.2 = [0, 1.220319573] :=
  limits_file (p := F404_400_Sea_level_thrust_polynomial) (k := 9) rfl rfl (by norm_num) (by norm_num)

theorem F404_400_Sea_level_thrust_polynomial_pos {x : ℝ} (h0 : 0 ≤ x) (h1 : x ≤ 1.220319573) : 0 < evR F404_400_Sea_level_thrust_polynomial.q x :=
  posOn_sound (n := 8) (a := 0) (b := 1.220319573) (by decide +kernel) (by push_cast; linarith) (by push_cast; linarith)

theorem FJ_44_Sea_level_thrust_polynomial_limits : FJ_44_Sea_level_thrust_polynomial.file.2 = [0, 0.510536663] :=
  limits_file (p := FJ_44_Sea_level_thrust_polynomial) (k := 9) rfl rfl (by norm_num) (by norm_num)

theorem FJ_44_Sea_level_thrust_polynomial_pos {x : ℝ} (h0 : 0 ≤ x) (h1 : x ≤ 0.510536663) : 0 < evR FJ_44_Sea_level_thrust_polynomial.q x :=
  posOn_sound (n := 8) (a := 0) (b := 0.510536663) (by decide +kernel) (by push_cast; linarith) (by push_cast; linarith)

theorem FJ_44_Sea_level_thrust_polynomial_falls {x y : ℝ} (h0 : 0 ≤ x) (h : x < y) (h1 : y ≤ 0.510536663) : evR FJ_44_Sea_level_thrust_polynomial.q y < evR FJ_44_Sea_level_thrust_polynomial.q x := by
  have f := falls (n := 10) (cs := FJ_44_Sea_level_thrust_polynomial.q) (a := 0) (b := 0.510536663) (by decide +kernel)
  exact f (by rw [Set.mem_Icc]; push_cast; constructor <;> linarith) (by rw [Set.mem_Icc]; push_cast; constructor <;> linarith) h

theorem JT8D_9_Sea_level_thrust_polynomial_limits : JT8D_9_Sea_level_thrust_polynomial.file.2 = [0, 0.98527989] :=
  limits_file (p := JT8D_9_Sea_level_thrust_polynomial) (k := 8) rfl rfl (by norm_num) (by norm_num)

theorem JT8D_9_Sea_level_thrust_polynomial_pos {x : ℝ} (h0 : 0 ≤ x) (h1 : x ≤ 0.98527989) : 0 < evR JT8D_9_Sea_level_thrust_polynomial.q x :=
  posOn_sound (n := 8) (a := 0) (b := 0.98527989) (by decide +kernel) (by push_cast; linarith) (by push_cast; linarith)

theorem JT8D_9_Sea_level_thrust_polynomial_falls {x y : ℝ} (h0 : 0 ≤ x) (h : x < y) (h1 : y ≤ 0.98527989) : evR JT8D_9_Sea_level_thrust_polynomial.q y < evR JT8D_9_Sea_level_thrust_polynomial.q x := by
  have f := falls (n := 10) (cs := JT8D_9_Sea_level_thrust_polynomial.q) (a := 0) (b := 0.98527989) (by decide +kernel)
  exact f (by rw [Set.mem_Icc]; push_cast; constructor <;> linarith) (by rw [Set.mem_Icc]; push_cast; constructor <;> linarith) h

theorem JT9D_3_Sea_level_thrust_polynomial_limits : JT9D_3_Sea_level_thrust_polynomial.file.2 = [0, 0.797362129] :=
  limits_file (p := JT9D_3_Sea_level_thrust_polynomial) (k := 9) rfl rfl (by norm_num) (by norm_num)

theorem JT9D_3_Sea_level_thrust_polynomial_pos {x : ℝ} (h0 : 0 ≤ x) (h1 : x ≤ 0.797362129) : 0 < evR JT9D_3_Sea_level_thrust_polynomial.q x :=
  posOn_sound (n := 8) (a := 0) (b := 0.797362129) (by decide +kernel) (by push_cast; linarith) (by push_cast; linarith)

theorem JT9D_3_Sea_level_thrust_polynomial_falls {x y : ℝ} (h0 : 0 ≤ x) (h : x < y) (h1 : y ≤ 0.797362129) : evR JT9D_3_Sea_level_thrust_polynomial.q y < evR JT9D_3_Sea_level_thrust_polynomial.q x := by
  have f := falls (n := 10) (cs := JT9D_3_Sea_level_thrust_polynomial.q) (a := 0) (b := 0.797362129) (by decide +kernel)
  exact f (by rw [Set.mem_Icc]; push_cast; constructor <;> linarith) (by rw [Set.mem_Icc]; push_cast; constructor <;> linarith) h

theorem TF30_Sea_level_thrust_polynomial_limits : TF30_Sea_level_thrust_polynomial.file.2 = [0, 1.188096176] :=
  limits_file (p := TF30_Sea_level_thrust_polynomial) (k := 9) rfl rfl (by norm_num) (by norm_num)

theorem TF30_Sea_level_thrust_polynomial_pos {x : ℝ} (h0 : 0 ≤ x) (h1 : x ≤ 1.188096176) : 0 < evR TF30_Sea_level_thrust_polynomial.q x :=
  posOn_sound (n := 8) (a := 0) (b := 1.188096176) (by decide +kernel) (by push_cast; linarith) (by push_cast; linarith)

theorem TF30_Sea_level_thrust_polynomial_falls {x y : ℝ} (h0 : 0 ≤ x) (h : x < y) (h1 : y ≤ 1.188096176) : evR TF30_Sea_level_thrust_polynomial.q y < evR TF30_Sea_level_thrust_polynomial.q x := by
  have f := falls (n := 10) (cs := TF30_Sea_level_thrust_polynomial.q) (a := 0) (b := 1.188096176) (by decide +kernel)
  exact f (by rw [Set.mem_Icc]; push_cast; constructor <;> linarith) (by rw [Set.mem_Icc]; push_cast; constructor <;> linarith) h

theorem TFE731_2_Sea_level_thrust_polynomial_limits : TFE731_2_Sea_level_thrust_polynomial.file.2 = [0, 0.598858428] :=
  limits_file (p := TFE731_2_Sea_level_thrust_polynomial) (k := 9) rfl rfl (by norm_num) (by norm_num)

theorem TFE731_2_Sea_level_thrust_polynomial_pos {x : ℝ} (h0 : 0 ≤ x) (h1 : x ≤ 0.598858428) : 0 < evR TFE731_2_Sea_level_thrust_polynomial.q x :=
  posOn_sound (n := 8) (a := 0) (b := 0.598858428) (by decide +kernel) (by push_cast; linarith) (by push_cast; linarith)

theorem TFE731_2_Sea_level_thrust_polynomial_falls {x y : ℝ} (h0 : 0 ≤ x) (h : x < y) (h1 : y ≤ 0.598858428) : evR TFE731_2_Sea_level_thrust_polynomial.q y < evR TFE731_2_Sea_level_thrust_polynomial.q x := by
  have f := falls (n := 10) (cs := TFE731_2_Sea_level_thrust_polynomial.q) (a := 0) (b := 0.598858428) (by decide +kernel)
  exact f (by rw [Set.mem_Icc]; push_cast; constructor <;> linarith) (by rw [Set.mem_Icc]; push_cast; constructor <;> linarith) h

theorem J52_Sea_level_thrust_polynomial_limits : J52_Sea_level_thrust_polynomial.file.2 = [0, 0.955730393553312] :=
  limits_file (p := J52_Sea_level_thrust_polynomial) (k := 15) rfl rfl (by norm_num) (by norm_num)

theorem J52_Sea_level_thrust_polynomial_pos {x : ℝ} (h0 : 0 ≤ x) (h1 : x ≤ 0.955730393553312) : 0 < evR J52_Sea_level_thrust_polynomial.q x :=
  posOn_sound (n := 8) (a := 0) (b := 0.955730393553312) (by decide +kernel) (by push_cast; linarith) (by push_cast; linarith)

theorem J60_Sea_level_thrust_polynomial_limits : J60_Sea_level_thrust_polynomial.file.2 = [0, 0.8464497682454413] :=
  limits_file (p := J60_Sea_level_thrust_polynomial) (k := 16) rfl rfl (by norm_num) (by norm_num)

theorem J60_Sea_level_thrust_polynomial_pos {x : ℝ} (h0 : 0 ≤ x) (h1 : x ≤ 0.8464497682454413) : 0 < evR J60_Sea_level_thrust_polynomial.q x :=
  posOn_sound (n := 8) (a := 0) (b := 0.8464497682454413) (by decide +kernel) (by push_cast; linarith) (by push_cast; linarith)

theorem JT8D_9_Sea_level_take_off_thrust_polynomial_limits : JT8D_9_Sea_level_take_off_thrust_polynomial.file.2 = [0.000272148, 0.467408107] :=
  limits_file (p := JT8D_9_Sea_level_take_off_thrust_polynomial) (k := 9) rfl rfl (by norm_num) (by norm_num)

theorem JT8D_9_Sea_level_take_off_thrust_polynomial_pos {x : ℝ} (h0 : 0.000272148 ≤ x) (h1 : x ≤ 0.467408107) : 0 < evR JT8D_9_Sea_level_take_off_thrust_polynomial.q x :=
  posOn_sound (n := 8) (a := 0.000272148) (b := 0.467408107) (by decide +kernel) (by push_cast; linarith) (by push_cast; linarith)

theorem JT8D_9_Sea_level_take_off_thrust_polynomial_falls {x y : ℝ} (h0 : 0.000272148 ≤ x) (h : x < y) (h1 : y ≤ 0.467408107) : evR JT8D_9_Sea_level_take_off_thrust_polynomial.q y < evR JT8D_9_Sea_level_take_off_thrust_polynomial.q x := by
  have f := falls (n := 10) (cs := JT8D_9_Sea_level_take_off_thrust_polynomial.q) (a := 0.000272148) (b := 0.467408107) (by decide +kernel)
  exact f (by rw [Set.mem_Icc]; push_cast; constructor <;> linarith) (by rw [Set.mem_Icc]; push_cast; constructor <;> linarith) h

theorem JT9D_3_Sea_level_take_off_thrust_polynomial_limits : JT9D_3_Sea_level_take_off_thrust_polynomial.file.2 = [-0.000961375, 0.84988463] :=
  limits_file (p := JT9D_3_Sea_level_take_off_thrust_polynomial) (k := 9) rfl rfl (by norm_num) (by norm_num)

theorem JT9D_3_Sea_level_take_off_thrust_polynomial_pos {x : ℝ} (h0 : -0.000961375 ≤ x) (h1 : x ≤ 0.84988463) : 0 < evR JT9D_3_Sea_level_take_off_thrust_polynomial.q x :=
  posOn_sound (n := 8) (a := -0.000961375) (b := 0.84988463) (by decide +kernel) (by push_cast; linarith) (by push_cast; linarith)

theorem JT9D_3_Sea_level_take_off_thrust_polynomial_falls {x y : ℝ} (h0 : -0.000961375 ≤ x) (h : x < y) (h1 : y ≤ 0.84988463) : evR JT9D_3_Sea_level_take_off_thrust_polynomial.q y < evR JT9D_3_Sea_level_take_off_thrust_polynomial.q x := by
  have f := falls (n := 10) (cs := JT9D_3_Sea_level_take_off_thrust_polynomial.q) (a := -0.000961375) (b := 0.84988463) (by decide +kernel)
  exact f (by rw [Set.mem_Icc]; push_cast; constructor <;> linarith) (by rw [Set.mem_Icc]; push_cast; constructor <;> linarith) h

theorem TFE731_5_Sea_level_take_off_thrust_polynomial_limits : TFE731_5_Sea_level_take_off_thrust_polynomial.file.2 = [-0.001442636, 0.599376265] :=
  limits_file (p := TFE731_5_Sea_level_take_off_thrust_polynomial) (k := 9) rfl rfl (by norm_num) (by norm_num)

theorem TFE731_5_Sea_level_take_off_thrust_polynomial_pos {x : ℝ} (h0 : -0.001442636 ≤ x) (h1 : x ≤ 0.599376265) : 0 < evR TFE731_5_Sea_level_take_off_thrust_polynomial.q x :=
  posOn_sound (n := 8) (a := -0.001442636) (b := 0.599376265) (by decide +kernel) (by push_cast; linarith) (by push_cast; linarith)

theorem TFE731_5_Sea_level_take_off_thrust_polynomial_falls {x y : ℝ} (h0 : -0.001442636 ≤ x) (h : x < y) (h1 : y ≤ 0.599376265) : evR TFE731_5_Sea_level_take_off_thrust_polynomial.q y < evR TFE731_5_Sea_level_take_off_thrust_polynomial.q x := by
  have f := falls (n := 10) (cs := TFE731_5_Sea_level_take_off_thrust_polynomial.q) (a := -0.001442636) (b := 0.599376265) (by decide +kernel)
  exact f (by rw [Set.mem_Icc]; push_cast; constructor <;> linarith) (by rw [Set.mem_Icc]; push_cast; constructor <;> linarith) h

/-! ### Thrust at sea level -/

/-- **C132** Nine jets have a sea level polynomial, good from Mach zero to the given Mach number: it is positive at every Mach number of that
range, and outside there is no value. -/
theorem C132_positive {dir : Dir} (h : Ships jetFiles jetTables jetPolys dir) (name : String) (hi : ℝ)
    (hn : (name, hi) ∈ [("ATF3-6A", 0.598730034), ("F404-400", 1.220319573), ("FJ-44", 0.510536663), ("JT8D-9", 0.98527989), ("JT9D-3", 0.797362129), ("TF30", 1.188096176), ("TFE731-2", 0.598858428), ("J52", 0.955730393553312), ("J60", 0.8464497682454413)]) :
    ∃ d, mkJet dir name = .ok d ∧ 0 < hi ∧ (∀ x, 0 ≤ x → x ≤ hi → ∃ T, d.sl_thrust (.num x) = .ok (some [T]) ∧ 0 < T) ∧
      ∀ x, x < 0 ∨ hi < x → d.sl_thrust (.num x) = .ok none := by
  simp only [List.mem_cons, List.not_mem_nil, or_false, Prod.mk.injEq] at hn
  rcases hn with ⟨rfl, rfl⟩ | ⟨rfl, rfl⟩ | ⟨rfl, rfl⟩ | ⟨rfl, rfl⟩ | ⟨rfl, rfl⟩ | ⟨rfl, rfl⟩ | ⟨rfl, rfl⟩ | ⟨rfl, rfl⟩ | ⟨rfl, rfl⟩
  · refine ⟨_, jet_ATF36A h, by norm_num, fun x h0 h1 => ⟨_, (sl_inside rfl rfl ATF3_6A_Sea_level_thrust_polynomial_limits x).1 h0 h1, ATF3_6A_Sea_level_thrust_polynomial_pos h0 h1⟩,
      fun x => (sl_inside rfl rfl ATF3_6A_Sea_level_thrust_polynomial_limits x).2⟩
  · refine ⟨_, jet_F404400 h, by norm_num, fun x h0 h1 => ⟨_, (sl_inside rfl rfl F404_400_Sea_level_thrust_polynomial_limits x).1 h0 h1, F404_400_Sea_level_thrust_polynomial_pos h0 h1⟩,
      fun x => (sl_inside rfl rfl F404_400_Sea_level_thrust_polynomial_limits x).2⟩
  · refine ⟨_, jet_FJ44 h, by norm_num, fun x h0 h1 => ⟨_, (sl_inside rfl rfl FJ_44_Sea_level_thrust_polynomial_limits x).1 h0 h1, FJ_44_Sea_level_thrust_polynomial_pos h0 h1⟩,
      fun x => (sl_inside rfl rfl FJ_44_Sea_level_thrust_polynomial_limits x).2⟩
  · refine ⟨_, jet_JT8D9 h, by norm_num, fun x h0 h1 => ⟨_, (sl_inside rfl rfl JT8D_9_Sea_level_thrust_polynomial_limits x).1 h0 h1, JT8D_9_Sea_level_thrust_polynomial_pos h0 h1⟩,
      fun x => (sl_inside rfl rfl JT8D_9_Sea_level_thrust_polynomial_limits x).2⟩
  · refine ⟨_, jet_JT9D3 h, by norm_num, fun x h0 h1 => ⟨_, (sl_inside rfl rfl JT9D_3_Sea_level_thrust_polynomial_limits x).1 h0 h1, JT9D_3_Sea_level_thrust_polynomial_pos h0 h1⟩,
      fun x => (sl_inside rfl rfl JT9D_3_Sea_level_thrust_polynomial_limits x).2⟩
  · refine ⟨_, jet_TF30 h, by norm_num, fun x h0 h1 => ⟨_, (sl_inside rfl rfl TF30_Sea_level_thrust_polynomial_limits x).1 h0 h1, TF30_Sea_level_thrust_polynomial_pos h0 h1⟩,
      fun x => (sl_inside rfl rfl TF30_Sea_level_thrust_polynomial_limits x).2⟩
  · refine ⟨_, jet_TFE7312 h, by norm_num, fun x h0 h1 => ⟨_, (sl_inside rfl rfl TFE731_2_Sea_level_thrust_polynomial_limits x).1 h0 h1, TFE731_2_Sea_level_thrust_polynomial_pos h0 h1⟩,
      fun x => (sl_inside rfl rfl TFE731_2_Sea_level_thrust_polynomial_limits x).2⟩
  · refine ⟨_, jet_J52 h, by norm_num, fun x h0 h1 => ⟨_, (sl_inside rfl rfl J52_Sea_level_thrust_polynomial_limits x).1 h0 h1, J52_Sea_level_thrust_polynomial_pos h0 h1⟩,
      fun x => (sl_inside rfl rfl J52_Sea_level_thrust_polynomial_limits x).2⟩
  · refine ⟨_, jet_J60 h, by norm_num, fun x h0 h1 => ⟨_, (sl_inside rfl rfl J60_Sea_level_thrust_polynomial_limits x).1 h0 h1, J60_Sea_level_thrust_polynomial_pos h0 h1⟩,
      fun x => (sl_inside rfl rfl J60_Sea_level_thrust_polynomial_limits x).2⟩

example : ∃ d T, mkJet (holding jetFiles jetTables jetPolys) "J60" = .ok d ∧ d.sl_thrust (.num 0.7) = .ok (some [T]) ∧ 0 < T := by
  obtain ⟨d, h1, _, h3, _⟩ := C132_positive jet_ships "J60" 0.8464497682454413 (by simp)
  obtain ⟨T, h4, h5⟩ := h3 0.7 (by norm_num) (by norm_num)
  exact ⟨d, T, h1, h4, h5⟩

/-- **C132** For six of them the sea level thrust falls with the Mach number over the whole range. -/
theorem C132_falls {dir : Dir} (h : Ships jetFiles jetTables jetPolys dir) (name : String) (hi : ℝ)
    (hn : (name, hi) ∈ [("ATF3-6A", 0.598730034), ("FJ-44", 0.510536663), ("JT8D-9", 0.98527989), ("JT9D-3", 0.797362129), ("TF30", 1.188096176), ("TFE731-2", 0.598858428)]) :
    ∃ d, mkJet dir name = .ok d ∧ ∀ x y, 0 ≤ x → x < y → y ≤ hi → ∃ S T, d.sl_thrust (.num x) = .ok (some [S]) ∧
      d.sl_thrust (.num y) = .ok (some [T]) ∧ T < S := by
  simp only [List.mem_cons, List.not_mem_nil, or_false, Prod.mk.injEq] at hn
  rcases hn with ⟨rfl, rfl⟩ | ⟨rfl, rfl⟩ | ⟨rfl, rfl⟩ | ⟨rfl, rfl⟩ | ⟨rfl, rfl⟩ | ⟨rfl, rfl⟩
  · refine ⟨_, jet_ATF36A h, fun x y h0 hxy h1 => ⟨_, _, (sl_inside rfl rfl ATF3_6A_Sea_level_thrust_polynomial_limits x).1 h0 (by linarith),
      (sl_inside rfl rfl ATF3_6A_Sea_level_thrust_polynomial_limits y).1 (by linarith) h1, ATF3_6A_Sea_level_thrust_polynomial_falls h0 hxy h1⟩⟩
  · refine ⟨_, jet_FJ44 h, fun x y h0 hxy h1 => ⟨_, _, (sl_inside rfl rfl FJ_44_Sea_level_thrust_polynomial_limits x).1 h0 (by linarith),
      (sl_inside rfl rfl FJ_44_Sea_level_thrust_polynomial_limits y).1 (by linarith) h1, FJ_44_Sea_level_thrust_polynomial_falls h0 hxy h1⟩⟩
  · refine ⟨_, jet_JT8D9 h, fun x y h0 hxy h1 => ⟨_, _, (sl_inside rfl rfl JT8D_9_Sea_level_thrust_polynomial_limits x).1 h0 (by linarith),
      (sl_inside rfl rfl JT8D_9_Sea_level_thrust_polynomial_limits y).1 (by linarith) h1, JT8D_9_Sea_level_thrust_polynomial_falls h0 hxy h1⟩⟩
  · refine ⟨_, jet_JT9D3 h, fun x y h0 hxy h1 => ⟨_, _, (sl_inside rfl rfl JT9D_3_Sea_level_thrust_polynomial_limits x).1 h0 (by linarith),
      (sl_inside rfl rfl JT9D_3_Sea_level_thrust_polynomial_limits y).1 (by linarith) h1, JT9D_3_Sea_level_thrust_polynomial_falls h0 hxy h1⟩⟩
  · refine ⟨_, jet_TF30 h, fun x y h0 hxy h1 => ⟨_, _, (sl_inside rfl rfl TF30_Sea_level_thrust_polynomial_limits x).1 h0 (by linarith),
      (sl_inside rfl rfl TF30_Sea_level_thrust_polynomial_limits y).1 (by linarith) h1, TF30_Sea_level_thrust_polynomial_falls h0 hxy h1⟩⟩
  · refine ⟨_, jet_TFE7312 h, fun x y h0 hxy h1 => ⟨_, _, (sl_inside rfl rfl TFE731_2_Sea_level_thrust_polynomial_limits x).1 h0 (by linarith),
      (sl_inside rfl rfl TFE731_2_Sea_level_thrust_polynomial_limits y).1 (by linarith) h1, TFE731_2_Sea_level_thrust_polynomial_falls h0 hxy h1⟩⟩

example : ∃ d S T, mkJet (holding jetFiles jetTables jetPolys) "TF30" = .ok d ∧ d.sl_thrust (.num 0.2) = .ok (some [S]) ∧
    d.sl_thrust (.num 1.1) = .ok (some [T]) ∧ T < S := by
  obtain ⟨d, h1, h2⟩ := C132_falls jet_ships "TF30" 1.188096176 (by simp)
  obtain ⟨S, T, h3⟩ := h2 0.2 1.1 (by norm_num) (by norm_num) (by norm_num)
  exact ⟨d, S, T, h1, h3⟩

/-- **C132 (violated)** The other three do not fall throughout: the F404-400 gives less at rest than at Mach 0.8, the J52 less at Mach 0.47 than at
0.71, the J60 less at 0.65 than at 0.84. -/
theorem C132_falls_violated {dir : Dir} (h : Ships jetFiles jetTables jetPolys dir) (name : String) (x y : ℝ)
    (hn : (name, x, y) ∈ [("F404-400", 0, 0.8), ("J52", 0.47, 0.71), ("J60", 0.65, 0.84)]) :
    ∃ d S T, mkJet dir name = .ok d ∧ d.sl_thrust (.num x) = .ok (some [S]) ∧ d.sl_thrust (.num y) = .ok (some [T]) ∧ S < T := by
  simp only [List.mem_cons, List.not_mem_nil, or_false, Prod.mk.injEq] at hn
  rcases hn with ⟨rfl, rfl, rfl⟩ | ⟨rfl, rfl, rfl⟩ | ⟨rfl, rfl, rfl⟩
  · refine ⟨_, _, _, jet_F404400 h, (sl_inside rfl rfl F404_400_Sea_level_thrust_polynomial_limits 0).1 (by norm_num) (by norm_num),
      (sl_inside rfl rfl F404_400_Sea_level_thrust_polynomial_limits 0.8).1 (by norm_num) (by norm_num), ?_⟩
    rw [evR_at 0 (by norm_num), evR_at 0.8 (by norm_num)]
    exact_mod_cast (by decide +kernel : evalQ F404_400_Sea_level_thrust_polynomial.q 0 < evalQ F404_400_Sea_level_thrust_polynomial.q 0.8)
  · refine ⟨_, _, _, jet_J52 h, (sl_inside rfl rfl J52_Sea_level_thrust_polynomial_limits 0.47).1 (by norm_num) (by norm_num),
      (sl_inside rfl rfl J52_Sea_level_thrust_polynomial_limits 0.71).1 (by norm_num) (by norm_num), ?_⟩
    rw [evR_at 0.47 (by norm_num), evR_at 0.71 (by norm_num)]
    exact_mod_cast (by decide +kernel : evalQ J52_Sea_level_thrust_polynomial.q 0.47 < evalQ J52_Sea_level_thrust_polynomial.q 0.71)
  · refine ⟨_, _, _, jet_J60 h, (sl_inside rfl rfl J60_Sea_level_thrust_polynomial_limits 0.65).1 (by norm_num) (by norm_num),
      (sl_inside rfl rfl J60_Sea_level_thrust_polynomial_limits 0.84).1 (by norm_num) (by norm_num), ?_⟩
    rw [evR_at 0.65 (by norm_num), evR_at 0.84 (by norm_num)]
    exact_mod_cast (by decide +kernel : evalQ J60_Sea_level_thrust_polynomial.q 0.65 < evalQ J60_Sea_level_thrust_polynomial.q 0.84)

example : ∃ d S T, mkJet (holding jetFiles jetTables jetPolys) "J52" = .ok d ∧ d.sl_thrust (.num 0.47) = .ok (some [S]) ∧
    d.sl_thrust (.num 0.71) = .ok (some [T]) ∧ S < T :=
  C132_falls_violated jet_ships "J52" 0.47 0.71 (by simp)

/-! ### Thrust for take-off -/

/-- **C132** Three jets have a take-off polynomial: positive and falling with the Mach number between the given limits, without a value outside. -/
theorem C132_takeoff {dir : Dir} (h : Ships jetFiles jetTables jetPolys dir) (name : String) (lo hi : ℝ)
    (hn : (name, lo, hi) ∈ [("JT8D-9", 0.000272148, 0.467408107), ("JT9D-3", -0.000961375, 0.84988463), ("TFE731-5", -0.001442636, 0.599376265)]) :
    ∃ d, mkJet dir name = .ok d ∧ (∀ x, lo ≤ x → x ≤ hi → ∃ T, d.sl_take_off_thrust (.num x) = .ok (some [T]) ∧ 0 < T) ∧
      (∀ x, x < lo ∨ hi < x → d.sl_take_off_thrust (.num x) = .ok none) ∧
      ∀ x y, lo ≤ x → x < y → y ≤ hi → ∃ S T, d.sl_take_off_thrust (.num x) = .ok (some [S]) ∧
        d.sl_take_off_thrust (.num y) = .ok (some [T]) ∧ T < S := by
  simp only [List.mem_cons, List.not_mem_nil, or_false, Prod.mk.injEq] at hn
  rcases hn with ⟨rfl, rfl, rfl⟩ | ⟨rfl, rfl, rfl⟩ | ⟨rfl, rfl, rfl⟩
  · exact ⟨_, jet_JT8D9 h, fun x h0 h1 => ⟨_, (slto_inside rfl rfl JT8D_9_Sea_level_take_off_thrust_polynomial_limits x).1 h0 h1, JT8D_9_Sea_level_take_off_thrust_polynomial_pos h0 h1⟩,
      fun x => (slto_inside rfl rfl JT8D_9_Sea_level_take_off_thrust_polynomial_limits x).2, fun x y h0 hxy h1 => ⟨_, _, (slto_inside rfl rfl JT8D_9_Sea_level_take_off_thrust_polynomial_limits x).1 h0 (by linarith),
      (slto_inside rfl rfl JT8D_9_Sea_level_take_off_thrust_polynomial_limits y).1 (by linarith) h1, JT8D_9_Sea_level_take_off_thrust_polynomial_falls h0 hxy h1⟩⟩
  · exact ⟨_, jet_JT9D3 h, fun x h0 h1 => ⟨_, (slto_inside rfl rfl JT9D_3_Sea_level_take_off_thrust_polynomial_limits x).1 h0 h1, JT9D_3_Sea_level_take_off_thrust_polynomial_pos h0 h1⟩,
      fun x => (slto_inside rfl rfl JT9D_3_Sea_level_take_off_thrust_polynomial_limits x).2, fun x y h0 hxy h1 => ⟨_, _, (slto_inside rfl rfl JT9D_3_Sea_level_take_off_thrust_polynomial_limits x).1 h0 (by linarith),
      (slto_inside rfl rfl JT9D_3_Sea_level_take_off_thrust_polynomial_limits y).1 (by linarith) h1, JT9D_3_Sea_level_take_off_thrust_polynomial_falls h0 hxy h1⟩⟩
  · exact ⟨_, jet_TFE7315 h, fun x h0 h1 => ⟨_, (slto_inside rfl rfl TFE731_5_Sea_level_take_off_thrust_polynomial_limits x).1 h0 h1, TFE731_5_Sea_level_take_off_thrust_polynomial_pos h0 h1⟩,
      fun x => (slto_inside rfl rfl TFE731_5_Sea_level_take_off_thrust_polynomial_limits x).2, fun x y h0 hxy h1 => ⟨_, _, (slto_inside rfl rfl TFE731_5_Sea_level_take_off_thrust_polynomial_limits x).1 h0 (by linarith),
      (slto_inside rfl rfl TFE731_5_Sea_level_take_off_thrust_polynomial_limits y).1 (by linarith) h1, TFE731_5_Sea_level_take_off_thrust_polynomial_falls h0 hxy h1⟩⟩

example : ∃ d T, mkJet (holding jetFiles jetTables jetPolys) "TFE731-5" = .ok d ∧ d.sl_take_off_thrust (.num 0) = .ok (some [T]) ∧ 0 < T := by
  obtain ⟨d, h1, h2, _⟩ := C132_takeoff jet_ships "TFE731-5" (-0.001442636) 0.599376265 (by simp)
  obtain ⟨T, h3⟩ := h2 0 (by norm_num) (by norm_num)
  exact ⟨d, T, h1, h3⟩

/-- **C132 (violated)** The JT8D-9 has no take-off thrust at rest: the take-off polynomial starts at Mach 0.000272148, so `sl_take_off_thrust(0)` gives
None (with a warning that the Mach number is too low). -/
theorem C132_rest_violated {dir : Dir} (h : Ships jetFiles jetTables jetPolys dir) :
    ∃ d, mkJet dir "JT8D-9" = .ok d ∧ d.avail.slto = true ∧ d.sl_take_off_thrust (.num 0) = .ok none :=
  ⟨_, jet_JT8D9 h, rfl, (slto_inside rfl rfl JT8D_9_Sea_level_take_off_thrust_polynomial_limits 0).2 (.inl (by norm_num))⟩

example : ∃ d, mkJet (holding jetFiles jetTables jetPolys) "JT8D-9" = .ok d ∧ d.avail.slto = true ∧ d.sl_take_off_thrust (.num 0) = .ok none :=
  C132_rest_violated jet_ships

theorem JT8D9_above {x : ℝ} (h0 : 0.000272148 ≤ x) (h1 : x ≤ 0.467408107) : evR JT8D_9_Sea_level_thrust_polynomial.q x < evR JT8D_9_Sea_level_take_off_thrust_polynomial.q x := by
  have := posOn_sound (n := 8) (cs := addL JT8D_9_Sea_level_take_off_thrust_polynomial.q (JT8D_9_Sea_level_thrust_polynomial.q.map (fun c => -1 * c))) (a := 0.000272148) (b := 0.467408107) (x := x)
    (by decide +kernel) (by push_cast; linarith) (by push_cast; linarith)
  rw [evR_addL, evR_neg] at this
  linarith

theorem JT9D3_above {x : ℝ} (h0 : 0 ≤ x) (h1 : x ≤ 0.797362129) : evR JT9D_3_Sea_level_thrust_polynomial.q x < evR JT9D_3_Sea_level_take_off_thrust_polynomial.q x := by
  have := posOn_sound (n := 8) (cs := addL JT9D_3_Sea_level_take_off_thrust_polynomial.q (JT9D_3_Sea_level_thrust_polynomial.q.map (fun c => -1 * c))) (a := 0) (b := 0.797362129) (x := x)
    (by decide +kernel) (by push_cast; linarith) (by push_cast; linarith)
  rw [evR_addL, evR_neg] at this
  linarith

/-- **C132** Wherever the JT8D-9 and the JT9D-3 have both, take-off thrust is above the other sea level thrust. -/
theorem C132_above {dir : Dir} (h : Ships jetFiles jetTables jetPolys dir) (name : String) (hn : name ∈ ["JT8D-9", "JT9D-3"]) :
    ∃ d, mkJet dir name = .ok d ∧ ∀ x S T, d.sl_thrust (.num x) = .ok (some [S]) → d.sl_take_off_thrust (.num x) = .ok (some [T]) → S < T := by
  simp only [List.mem_cons, List.not_mem_nil, or_false] at hn
  rcases hn with rfl | rfl
  · refine ⟨_, jet_JT8D9 h, fun x S T hS hT => ?_⟩
    have a1 : 0 ≤ x ∧ x ≤ 0.98527989 := by
      by_contra hx
      rw [(sl_inside rfl rfl JT8D_9_Sea_level_thrust_polynomial_limits x).2 (by rw [not_and_or, not_le, not_le] at hx; exact hx)] at hS
      simp at hS
    have a2 : 0.000272148 ≤ x ∧ x ≤ 0.467408107 := by
      by_contra hx
      rw [(slto_inside rfl rfl JT8D_9_Sea_level_take_off_thrust_polynomial_limits x).2 (by rw [not_and_or, not_le, not_le] at hx; exact hx)] at hT
      simp at hT
    rw [(sl_inside rfl rfl JT8D_9_Sea_level_thrust_polynomial_limits x).1 a1.1 a1.2] at hS
    rw [(slto_inside rfl rfl JT8D_9_Sea_level_take_off_thrust_polynomial_limits x).1 a2.1 a2.2] at hT
    simp only [Except.ok.injEq, Option.some.injEq, List.cons.injEq, and_true] at hS hT
    rw [← hS, ← hT]
    exact JT8D9_above (by linarith [a1.1, a2.1]) (by linarith [a1.2, a2.2])
  · refine ⟨_, jet_JT9D3 h, fun x S T hS hT => ?_⟩
    have a1 : 0 ≤ x ∧ x ≤ 0.797362129 := by
      by_contra hx
      rw [(sl_inside rfl rfl JT9D_3_Sea_level_thrust_polynomial_limits x).2 (by rw [not_and_or, not_le, not_le] at hx; exact hx)] at hS
      simp at hS
    have a2 : -0.000961375 ≤ x ∧ x ≤ 0.84988463 := by
      by_contra hx
      rw [(slto_inside rfl rfl JT9D_3_Sea_level_take_off_thrust_polynomial_limits x).2 (by rw [not_and_or, not_le, not_le] at hx; exact hx)] at hT
      simp at hT
    rw [(sl_inside rfl rfl JT9D_3_Sea_level_thrust_polynomial_limits x).1 a1.1 a1.2] at hS
    rw [(slto_inside rfl rfl JT9D_3_Sea_level_take_off_thrust_polynomial_limits x).1 a2.1 a2.2] at hT
    simp only [Except.ok.injEq, Option.some.injEq, List.cons.injEq, and_true] at hS hT
    rw [← hS, ← hT]
    exact JT9D3_above (by linarith [a1.1, a2.1]) (by linarith [a1.2, a2.2])

example : ∃ d S T, mkJet (holding jetFiles jetTables jetPolys) "JT9D-3" = .ok d ∧ d.sl_thrust (.num 0.5) = .ok (some [S]) ∧
    d.sl_take_off_thrust (.num 0.5) = .ok (some [T]) ∧ S < T := by
  obtain ⟨d, h1, h2⟩ := C132_above jet_ships "JT9D-3" (by simp)
  obtain ⟨d1, k1, _, k2, _⟩ := C132_positive jet_ships "JT9D-3" 0.797362129 (by simp)
  obtain ⟨d2, l1, l2, _⟩ := C132_takeoff jet_ships "JT9D-3" (-0.000961375) 0.84988463 (by simp)
  have e1 : d1 = d := by rw [h1] at k1; exact (Except.ok.inj k1).symm
  have e2 : d2 = d := by rw [h1] at l1; exact (Except.ok.inj l1).symm
  subst e1 e2
  obtain ⟨S, a, _⟩ := k2 0.5 (by norm_num) (by norm_num)
  obtain ⟨T, b, _⟩ := l2 0.5 (by norm_num) (by norm_num)
  exact ⟨_, S, T, h1, a, b, h2 _ _ _ a b⟩

/-! ### Polynomial and table -/

/-- The test for `near_row`. -/
def near (T : RawTable) (a b c k : ℕ) (p : RawPoly) (hi : ℚ) : Bool :=
  T.passes a b c (fun x y z => y != 0 || decide (x < 0) || decide (hi < (x : ℚ) / 10 ^ k) ||
    (decide (200 * evalQ p.q ((x : ℚ) / 10 ^ k) ≤ 201 * ((z : ℚ) / 10 ^ k)) && decide (199 * ((z : ℚ) / 10 ^ k) ≤ 200 * evalQ p.q ((x : ℚ) / 10 ^ k))))

theorem near_row {T : RawTable} {k : ℕ} (a b c : ℕ) (hk : T.scale = k) (p : RawPoly) (hi : ℚ) (h : near T a b c k p hi = true) {m t : ℝ}
    (hm : (some m, some 0, some t) ∈ T.select a b c) (h0 : 0 ≤ m) (h1 : m ≤ hi) : |evR p.q m - t| ≤ 0.005 * t := by
  obtain ⟨x, y, z, hp, e⟩ := select_passes T a b c _ h _ hm
  rw [hk] at e
  simp only [Prod.mk.injEq, Option.some.injEq] at e
  obtain ⟨e1, e2, e3⟩ := e
  have p10 : (0 : ℝ) < 10 ^ k := by positivity
  have hy : y = 0 := by
    have := (div_eq_iff p10.ne').mp e2.symm
    rw [zero_mul] at this
    exact_mod_cast this
  have hx : ¬ x < 0 := by
    intro hx
    have : (x : ℝ) < 0 := by exact_mod_cast hx
    have := div_neg_of_neg_of_pos this p10
    linarith
  have ex : m = (((x : ℚ) / 10 ^ k : ℚ) : ℝ) := by rw [e1]; push_cast; rfl
  have ez : t = (((z : ℚ) / 10 ^ k : ℚ) : ℝ) := by rw [e3]; push_cast; rfl
  have hh : ¬ hi < (x : ℚ) / 10 ^ k := by
    intro hh
    have : (hi : ℝ) < (((x : ℚ) / 10 ^ k : ℚ) : ℝ) := by exact_mod_cast hh
    rw [← ex] at this
    linarith
  subst hy
  simp only [bne_self_eq_false, Bool.false_or, hx, hh, decide_false, Bool.and_eq_true, decide_eq_true_eq] at hp
  have g1 : (200 : ℝ) * ((evalQ p.q ((x : ℚ) / 10 ^ k) : ℚ) : ℝ) ≤ 201 * (((z : ℚ) / 10 ^ k : ℚ) : ℝ) := by exact_mod_cast hp.1
  have g2 : (199 : ℝ) * (((z : ℚ) / 10 ^ k : ℚ) : ℝ) ≤ 200 * ((evalQ p.q ((x : ℚ) / 10 ^ k) : ℚ) : ℝ) := by exact_mod_cast hp.2
  rw [← evR_cast, ← ex, ← ez] at g1 g2
  rw [abs_le]
  constructor <;> linarith

/-- **C132** The polynomial agrees with the table: at every sea level row of the thrust table inside its limits it is within half a per cent of the
tabulated thrust. -/
theorem C132_table {dir : Dir} (h : Ships jetFiles jetTables jetPolys dir) (name : String) (hi : ℝ)
    (hn : (name, hi) ∈ [("ATF3-6A", 0.598730034), ("F404-400", 1.220319573), ("FJ-44", 0.510536663), ("JT8D-9", 0.98527989), ("JT9D-3", 0.797362129), ("TF30", 1.188096176), ("TFE731-2", 0.598858428), ("J52", 0.955730393553312), ("J60", 0.8464497682454413)]) :
    ∃ d rows, mkJet dir name = .ok d ∧ d.thr_data = some rows ∧ ∀ m t, (some m, some 0, some t) ∈ rows → 0 ≤ m → m ≤ hi →
      ∃ T, d.sl_thrust (.num m) = .ok (some [T]) ∧ |T - t| ≤ 0.005 * t := by
  simp only [List.mem_cons, List.not_mem_nil, or_false, Prod.mk.injEq] at hn
  rcases hn with ⟨rfl, rfl⟩ | ⟨rfl, rfl⟩ | ⟨rfl, rfl⟩ | ⟨rfl, rfl⟩ | ⟨rfl, rfl⟩ | ⟨rfl, rfl⟩ | ⟨rfl, rfl⟩ | ⟨rfl, rfl⟩ | ⟨rfl, rfl⟩
  · refine ⟨_, _, jet_ATF36A h, rfl, fun m t hm h0 h1 => ⟨_, (sl_inside rfl rfl ATF3_6A_Sea_level_thrust_polynomial_limits m).1 h0 h1, ?_⟩⟩
    exact near_row (T := ATF3_6A_Thrust_data) (k := 9) 1 0 2 rfl ATF3_6A_Sea_level_thrust_polynomial 0.598730034 (by decide +kernel) hm h0 (by push_cast; linarith)
  · refine ⟨_, _, jet_F404400 h, rfl, fun m t hm h0 h1 => ⟨_, (sl_inside rfl rfl F404_400_Sea_level_thrust_polynomial_limits m).1 h0 h1, ?_⟩⟩
    exact near_row (T := F404_400_Thrust_data) (k := 9) 1 0 2 rfl F404_400_Sea_level_thrust_polynomial 1.220319573 (by decide +kernel) hm h0 (by push_cast; linarith)
  · refine ⟨_, _, jet_FJ44 h, rfl, fun m t hm h0 h1 => ⟨_, (sl_inside rfl rfl FJ_44_Sea_level_thrust_polynomial_limits m).1 h0 h1, ?_⟩⟩
    exact near_row (T := FJ_44_Thrust_data) (k := 9) 1 0 2 rfl FJ_44_Sea_level_thrust_polynomial 0.510536663 (by decide +kernel) hm h0 (by push_cast; linarith)
  · refine ⟨_, _, jet_JT8D9 h, rfl, fun m t hm h0 h1 => ⟨_, (sl_inside rfl rfl JT8D_9_Sea_level_thrust_polynomial_limits m).1 h0 h1, ?_⟩⟩
    exact near_row (T := JT8D_9_Thrust_data) (k := 9) 1 0 2 rfl JT8D_9_Sea_level_thrust_polynomial 0.98527989 (by decide +kernel) hm h0 (by push_cast; linarith)
  · refine ⟨_, _, jet_JT9D3 h, rfl, fun m t hm h0 h1 => ⟨_, (sl_inside rfl rfl JT9D_3_Sea_level_thrust_polynomial_limits m).1 h0 h1, ?_⟩⟩
    exact near_row (T := JT9D_3_Thrust_data) (k := 9) 1 0 2 rfl JT9D_3_Sea_level_thrust_polynomial 0.797362129 (by decide +kernel) hm h0 (by push_cast; linarith)
  · refine ⟨_, _, jet_TF30 h, rfl, fun m t hm h0 h1 => ⟨_, (sl_inside rfl rfl TF30_Sea_level_thrust_polynomial_limits m).1 h0 h1, ?_⟩⟩
    exact near_row (T := TF30_Thrust_data) (k := 9) 1 0 2 rfl TF30_Sea_level_thrust_polynomial 1.188096176 (by decide +kernel) hm h0 (by push_cast; linarith)
  · refine ⟨_, _, jet_TFE7312 h, rfl, fun m t hm h0 h1 => ⟨_, (sl_inside rfl rfl TFE731_2_Sea_level_thrust_polynomial_limits m).1 h0 h1, ?_⟩⟩
    exact near_row (T := TFE731_2_Thrust_data) (k := 9) 1 0 2 rfl TFE731_2_Sea_level_thrust_polynomial 0.598858428 (by decide +kernel) hm h0 (by push_cast; linarith)
  · refine ⟨_, _, jet_J52 h, rfl, fun m t hm h0 h1 => ⟨_, (sl_inside rfl rfl J52_Sea_level_thrust_polynomial_limits m).1 h0 h1, ?_⟩⟩
    exact near_row (T := J52_Thrust_data) (k := 19) 3 0 2 rfl J52_Sea_level_thrust_polynomial 0.955730393553312 (by decide +kernel) hm h0 (by push_cast; linarith)
  · refine ⟨_, _, jet_J60 h, rfl, fun m t hm h0 h1 => ⟨_, (sl_inside rfl rfl J60_Sea_level_thrust_polynomial_limits m).1 h0 h1, ?_⟩⟩
    exact near_row (T := J60_Thrust_data) (k := 19) 3 2 1 rfl J60_Sea_level_thrust_polynomial 0.8464497682454413 (by decide +kernel) hm h0 (by push_cast; linarith)

example : ∃ d T, mkJet (holding jetFiles jetTables jetPolys) "F404-400" = .ok d ∧ d.sl_thrust (.num 0.034139646) = .ok (some [T]) ∧
    |T - 60914.17901| ≤ 0.005 * 60914.17901 := by
  obtain ⟨d, rows, h1, h2, h3⟩ := C132_table jet_ships "F404-400" 1.220319573 (by simp)
  rw [jet_F404400 jet_ships] at h1
  cases h1
  cases h2
  obtain ⟨T, h4⟩ := h3 0.034139646 60914.17901 (select_at 9 rfl 34139646 0 60914179010000 (by decide +kernel) (by norm_num) (by norm_num) (by norm_num)) (by norm_num) (by norm_num)
  exact ⟨_, T, jet_F404400 jet_ships, h4⟩

/-- **C132 (violated)** 3 of the tables have a sea level row with a slightly negative Mach number; the polynomial has no value there, the table has. -/
theorem C132_row_violated {dir : Dir} (h : Ships jetFiles jetTables jetPolys dir) (name : String) (hn : name ∈ ["JT8D-9", "JT9D-3", "J52"]) :
    ∃ d rows m t, mkJet dir name = .ok d ∧ d.thr_data = some rows ∧ (some m, some 0, some t) ∈ rows ∧ d.sl_thrust (.num m) = .ok none := by
  simp only [List.mem_cons, List.not_mem_nil, or_false] at hn
  rcases hn with rfl | rfl | rfl
  · exact ⟨_, _, (-0.000262337), 51848.32163, jet_JT8D9 h, rfl, select_at 9 rfl (-262337) 0 51848321630000 (by decide +kernel) (by norm_num) (by norm_num) (by norm_num),
      (sl_inside rfl rfl JT8D_9_Sea_level_thrust_polynomial_limits _).2 (.inl (by norm_num))⟩
  · exact ⟨_, _, (-0.000779147), 147005.2033, jet_JT9D3 h, rfl, select_at 9 rfl (-779147) 0 147005203300000 (by decide +kernel) (by norm_num) (by norm_num) (by norm_num),
      (sl_inside rfl rfl JT9D_3_Sea_level_thrust_polynomial_limits _).2 (.inl (by norm_num))⟩
  · exact ⟨_, _, (-0.0005426092334779769), 36674.15568, jet_J52 h, rfl, select_at 19 rfl (-5426092334779769) 0 366741556800000000000000 (by decide +kernel) (by norm_num) (by norm_num) (by norm_num),
      (sl_inside rfl rfl J52_Sea_level_thrust_polynomial_limits _).2 (.inl (by norm_num))⟩

example : ∃ d rows m t, mkJet (holding jetFiles jetTables jetPolys) "J52" = .ok d ∧ d.thr_data = some rows ∧ (some m, some 0, some t) ∈ rows ∧
    d.sl_thrust (.num m) = .ok none :=
  C132_row_violated jet_ships "J52" (by simp)

/-! ### Documentation -/

/-- The polynomial of a list of coefficients. -/
def toPoly (cs : List ℝ) : Polynomial ℝ := cs.foldr (fun c acc => Polynomial.C c + Polynomial.X * acc) 0

theorem toPoly_eval (cs : List ℝ) (x : ℝ) : (toPoly cs).eval x = evalPoly cs x := by
  induction cs with
  | nil => simp [toPoly, evalPoly]
  | cons c r ih =>
    show (Polynomial.C c + Polynomial.X * toPoly r).eval x = c + x * evalPoly r x
    rw [Polynomial.eval_add, Polynomial.eval_C, Polynomial.eval_mul, Polynomial.eval_X, ih]

theorem toPoly_coeff (cs : List ℝ) (n : ℕ) : (toPoly cs).coeff n = cs.getD n 0 := by
  induction cs generalizing n with
  | nil => simp [toPoly]
  | cons c r ih =>
    show (Polynomial.C c + Polynomial.X * toPoly r).coeff n = _
    cases n with
    | zero => simp
    | succ n => rw [Polynomial.coeff_add, Polynomial.coeff_X_mul, ih, Polynomial.coeff_C_succ]; simp

theorem seventh {p : RawPoly} {a : ℤ} (h7 : p.coeffs[7]? = some a) (ha : a ≠ 0) (cs : List ℝ) (hcs : cs.length ≤ 7) (hi : ℝ) (hpos : 0 < hi)
    (h : ∀ x, 0 ≤ x → x ≤ hi → evR p.q x = polySum cs x) : False := by
  have e : toPoly (p.q.map (fun c : ℚ => (c : ℝ))) = toPoly cs := by
    apply Polynomial.eq_of_infinite_eval_eq
    refine Set.Infinite.mono (s := Set.Icc 0 hi) ?_ (Set.Icc_infinite hpos)
    intro x hx
    show Polynomial.eval x _ = Polynomial.eval x _
    rw [toPoly_eval, toPoly_eval, evalPoly_sum cs, ← h x hx.1 hx.2]
    rfl
  have c := congrArg (fun q => Polynomial.coeff q 7) e
  simp only [toPoly_coeff] at c
  have : cs.getD 7 0 = 0 := by rw [List.getD_eq_getElem?_getD, List.getElem?_eq_none hcs]; rfl
  rw [this, List.getD_eq_getElem?_getD, List.getElem?_map] at c
  unfold RawPoly.q at c
  rw [List.getElem?_map, h7] at c
  simp only [Option.map_some, Option.getD_some] at c
  have c' : ((a : ℚ) / 10 ^ p.coeffScale) = 0 := by exact_mod_cast c
  rw [div_eq_zero_iff] at c'
  rcases c' with c' | c'
  · exact ha (by exact_mod_cast c')
  · exact absurd c' (by positivity)

/-- **C132 (violated)** "Uses a 6th order polynomial": none of the nine is one. No polynomial of degree at most six gives what `sl_thrust` gives over
the range; the files have eight coefficients, the last not zero. -/
theorem C132_order_violated {dir : Dir} (h : Ships jetFiles jetTables jetPolys dir) (name : String) (hi : ℝ)
    (hn : (name, hi) ∈ [("ATF3-6A", 0.598730034), ("F404-400", 1.220319573), ("FJ-44", 0.510536663), ("JT8D-9", 0.98527989), ("JT9D-3", 0.797362129), ("TF30", 1.188096176), ("TFE731-2", 0.598858428), ("J52", 0.955730393553312), ("J60", 0.8464497682454413)]) :
    ∃ d, mkJet dir name = .ok d ∧ ∀ cs : List ℝ, cs.length ≤ 7 →
      ∃ x T, 0 ≤ x ∧ x ≤ hi ∧ d.sl_thrust (.num x) = .ok (some [T]) ∧ T ≠ polySum cs x := by
  simp only [List.mem_cons, List.not_mem_nil, or_false, Prod.mk.injEq] at hn
  rcases hn with ⟨rfl, rfl⟩ | ⟨rfl, rfl⟩ | ⟨rfl, rfl⟩ | ⟨rfl, rfl⟩ | ⟨rfl, rfl⟩ | ⟨rfl, rfl⟩ | ⟨rfl, rfl⟩ | ⟨rfl, rfl⟩ | ⟨rfl, rfl⟩
  · refine ⟨_, jet_ATF36A h, fun cs hcs => ?_⟩
    by_contra hne
    push Not at hne
    refine seventh (p := ATF3_6A_Sea_level_thrust_polynomial) (a := -1426346735762883400) rfl (by norm_num) cs hcs 0.598730034 (by norm_num) fun x h0 h1 => ?_
    have := hne x _ h0 h1 ((sl_inside rfl rfl ATF3_6A_Sea_level_thrust_polynomial_limits x).1 h0 h1)
    exact this
  · refine ⟨_, jet_F404400 h, fun cs hcs => ?_⟩
    by_contra hne
    push Not at hne
    refine seventh (p := F404_400_Sea_level_thrust_polynomial) (a := 576367681631730400) rfl (by norm_num) cs hcs 1.220319573 (by norm_num) fun x h0 h1 => ?_
    have := hne x _ h0 h1 ((sl_inside rfl rfl F404_400_Sea_level_thrust_polynomial_limits x).1 h0 h1)
    exact this
  · refine ⟨_, jet_FJ44 h, fun cs hcs => ?_⟩
    by_contra hne
    push Not at hne
    refine seventh (p := FJ_44_Sea_level_thrust_polynomial) (a := -1327549127924539100) rfl (by norm_num) cs hcs 0.510536663 (by norm_num) fun x h0 h1 => ?_
    have := hne x _ h0 h1 ((sl_inside rfl rfl FJ_44_Sea_level_thrust_polynomial_limits x).1 h0 h1)
    exact this
  · refine ⟨_, jet_JT8D9 h, fun cs hcs => ?_⟩
    by_contra hne
    push Not at hne
    refine seventh (p := JT8D_9_Sea_level_thrust_polynomial) (a := 33807456798616884) rfl (by norm_num) cs hcs 0.98527989 (by norm_num) fun x h0 h1 => ?_
    have := hne x _ h0 h1 ((sl_inside rfl rfl JT8D_9_Sea_level_thrust_polynomial_limits x).1 h0 h1)
    exact this
  · refine ⟨_, jet_JT9D3 h, fun cs hcs => ?_⟩
    by_contra hne
    push Not at hne
    refine seventh (p := JT9D_3_Sea_level_thrust_polynomial) (a := 26336592674926505) rfl (by norm_num) cs hcs 0.797362129 (by norm_num) fun x h0 h1 => ?_
    have := hne x _ h0 h1 ((sl_inside rfl rfl JT9D_3_Sea_level_thrust_polynomial_limits x).1 h0 h1)
    exact this
  · refine ⟨_, jet_TF30 h, fun cs hcs => ?_⟩
    by_contra hne
    push Not at hne
    refine seventh (p := TF30_Sea_level_thrust_polynomial) (a := 26252025200470060) rfl (by norm_num) cs hcs 1.188096176 (by norm_num) fun x h0 h1 => ?_
    have := hne x _ h0 h1 ((sl_inside rfl rfl TF30_Sea_level_thrust_polynomial_limits x).1 h0 h1)
    exact this
  · refine ⟨_, jet_TFE7312 h, fun cs hcs => ?_⟩
    by_contra hne
    push Not at hne
    refine seventh (p := TFE731_2_Sea_level_thrust_polynomial) (a := -4708712944663972600) rfl (by norm_num) cs hcs 0.598858428 (by norm_num) fun x h0 h1 => ?_
    have := hne x _ h0 h1 ((sl_inside rfl rfl TFE731_2_Sea_level_thrust_polynomial_limits x).1 h0 h1)
    exact this
  · refine ⟨_, jet_J52 h, fun cs hcs => ?_⟩
    by_contra hne
    push Not at hne
    refine seventh (p := J52_Sea_level_thrust_polynomial) (a := 96453784272289380) rfl (by norm_num) cs hcs 0.955730393553312 (by norm_num) fun x h0 h1 => ?_
    have := hne x _ h0 h1 ((sl_inside rfl rfl J52_Sea_level_thrust_polynomial_limits x).1 h0 h1)
    exact this
  · refine ⟨_, jet_J60 h, fun cs hcs => ?_⟩
    by_contra hne
    push Not at hne
    refine seventh (p := J60_Sea_level_thrust_polynomial) (a := -66246407501059980) rfl (by norm_num) cs hcs 0.8464497682454413 (by norm_num) fun x h0 h1 => ?_
    have := hne x _ h0 h1 ((sl_inside rfl rfl J60_Sea_level_thrust_polynomial_limits x).1 h0 h1)
    exact this

example : ∃ d, mkJet (holding jetFiles jetTables jetPolys) "J52" = .ok d ∧ ∃ x T, 0 ≤ x ∧ x ≤ 0.955730393553312 ∧
    d.sl_thrust (.num x) = .ok (some [T]) ∧ T ≠ polySum [36641, -25294, 45326] x := by
  obtain ⟨d, h1, h2⟩ := C132_order_violated jet_ships "J52" 0.955730393553312 (by simp)
  exact ⟨d, h1, h2 _ (by simp)⟩

/-- **C132 (violated)** The documented example `JetDeck("JT8D-9").sl_thrust(0.5)` printing 37412.617753750004: with the coefficients of the data file
the value is 37412.617756989..., larger by more than 3e-6, which is far more than rounding can do. The other documented example, take-off thrust at
Mach 0.4, agrees with the data file to 1e-9. -/
theorem C132_docs_violated {dir : Dir} (h : Ships jetFiles jetTables jetPolys dir) :
    ∃ d S T, mkJet dir "JT8D-9" = .ok d ∧ d.sl_thrust (.num 0.5) = .ok (some [S]) ∧ d.sl_take_off_thrust (.num 0.4) = .ok (some [T]) ∧
      37412.617753750004 + 0.000003 < S ∧ |T - 53179.248666918036| < 0.000000001 := by
  refine ⟨_, _, _, jet_JT8D9 h, (sl_inside rfl rfl JT8D_9_Sea_level_thrust_polynomial_limits 0.5).1 (by norm_num) (by norm_num),
    (slto_inside rfl rfl JT8D_9_Sea_level_take_off_thrust_polynomial_limits 0.4).1 (by norm_num) (by norm_num), ?_, ?_⟩
  · rw [evR_at 0.5 (by norm_num)]
    have : ((37412.617753750004 + 0.000003 : ℚ) : ℝ) < ((evalQ JT8D_9_Sea_level_thrust_polynomial.q 0.5 : ℚ) : ℝ) := by exact_mod_cast (by decide +kernel)
    refine lt_of_eq_of_lt ?_ this
    norm_num
  · rw [evR_at 0.4 (by norm_num), abs_lt]
    have g1 : ((53179.248666918036 - 0.000000001 : ℚ) : ℝ) < ((evalQ JT8D_9_Sea_level_take_off_thrust_polynomial.q 0.4 : ℚ) : ℝ) := by exact_mod_cast (by decide +kernel)
    have g2 : ((evalQ JT8D_9_Sea_level_take_off_thrust_polynomial.q 0.4 : ℚ) : ℝ) < ((53179.248666918036 + 0.000000001 : ℚ) : ℝ) := by exact_mod_cast (by decide +kernel)
    push_cast at g1 g2
    constructor <;> linarith

example : ∃ d S, mkJet (holding jetFiles jetTables jetPolys) "JT8D-9" = .ok d ∧ d.sl_thrust (.num 0.5) = .ok (some [S]) ∧ S ≠ 37412.617753750004 := by
  obtain ⟨d, S, T, h1, h2, _, h4, _⟩ := C132_docs_violated jet_ships
  exact ⟨d, S, h1, h2, by rintro rfl; norm_num at h4⟩

end

end Verif.Propulsion
