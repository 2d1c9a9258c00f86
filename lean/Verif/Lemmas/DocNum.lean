import Verif.Lemmas.LogBounds
import Mathlib.Analysis.SpecialFunctions.Pow.Real
import Mathlib.Analysis.Real.Pi.Bounds

/-
Generated: values of the ISA formulae at the altitudes of the documented examples, bracketed.
Each logarithm is bracketed by `LogB.chk` in the kernel.
-/

namespace Verif.DocNum
open Verif.LogB

theorem ge_rpow {x y e : ℝ} (hx : 0 < x) (hy : 0 < y) (h : Real.log y ≤ e * Real.log x) : y ≤ x ^ e := by
  rw [← Real.log_le_log_iff hy (Real.rpow_pos_of_pos hx e), Real.log_rpow hx]; exact h

theorem rpow_le {x y e : ℝ} (hx : 0 < x) (hy : 0 < y) (h : e * Real.log x ≤ Real.log y) : x ^ e ≤ y := by
  rw [← Real.log_le_log_iff (Real.rpow_pos_of_pos hx e) hy, Real.log_rpow hx]; exact h

theorem ge_exp {y t : ℝ} (hy : 0 < y) (h : Real.log y ≤ t) : y ≤ Real.exp t := (Real.log_le_iff_le_exp hy).mp h

theorem exp_le {y t : ℝ} (hy : 0 < y) (h : t ≤ Real.log y) : Real.exp t ≤ y := (Real.le_log_iff_exp_le hy).mp h

theorem dens_0_x : (0.04768479156541070718660731 : ℝ) ≤ Real.log 1.04884 ∧ Real.log 1.04884 ≤ 0.04768479156541070718660734 :=
  log_bounds 0 9 1.04884 0.04768479156541070718660731 0.04768479156541070718660734 (by norm_num) (by norm_num) (by norm_num) (by decide +kernel)

theorem dens_0_lo : (0.20294073642196264364642089 : ℝ) ≤ Real.log 1.2249998682209657 ∧ Real.log 1.2249998682209657 ≤ 0.20294073642196264364642092 :=
  log_bounds 0 15 1.2249998682209657 0.20294073642196264364642089 0.20294073642196264364642092 (by norm_num) (by norm_num) (by norm_num) (by decide +kernel)

theorem dens_0_hi : (0.20294073642196272527908273 : ℝ) ≤ Real.log 1.2249998682209658 ∧ Real.log 1.2249998682209658 ≤ 0.20294073642196272527908276 :=
  log_bounds 0 15 1.2249998682209658 0.20294073642196272527908273 0.20294073642196272527908276 (by norm_num) (by norm_num) (by norm_num) (by decide +kernel)

theorem dens_0 : (1.2249998682209657 : ℝ) ≤ (1.04884 : ℝ) ^ (4.2558797 : ℝ) ∧ (1.04884 : ℝ) ^ (4.2558797 : ℝ) ≤ 1.2249998682209658 := by
  have a := dens_0_x; have b := dens_0_lo.2; have c := dens_0_hi.1
  exact ⟨ge_rpow (by norm_num) (by norm_num) (by linarith [a.1]), rpow_le (by norm_num) (by norm_num) (by linarith [a.2])⟩

theorem dens_500_x : (0.03634185494547849227393677 : ℝ) ≤ Real.log 1.037010293 ∧ Real.log 1.037010293 ≤ 0.0363418549454784922739368 :=
  log_bounds 0 8 1.037010293 0.03634185494547849227393677 0.0363418549454784922739368 (by norm_num) (by norm_num) (by norm_num) (by decide +kernel)

theorem dens_500_lo : (0.15466656272280644931363745 : ℝ) ≤ Real.log 1.1672686853170169 ∧ Real.log 1.1672686853170169 ≤ 0.15466656272280644931363748 :=
  log_bounds 0 13 1.1672686853170169 0.15466656272280644931363745 0.15466656272280644931363748 (by norm_num) (by norm_num) (by norm_num) (by decide +kernel)

theorem dens_500_hi : (0.15466656272280653498371604 : ℝ) ≤ Real.log 1.167268685317017 ∧ Real.log 1.167268685317017 ≤ 0.15466656272280653498371607 :=
  log_bounds 0 13 1.167268685317017 0.15466656272280653498371604 0.15466656272280653498371607 (by norm_num) (by norm_num) (by norm_num) (by decide +kernel)

theorem dens_500 : (1.1672686853170169 : ℝ) ≤ (1.037010293 : ℝ) ^ (4.2558797 : ℝ) ∧ (1.037010293 : ℝ) ^ (4.2558797 : ℝ) ≤ 1.167268685317017 := by
  have a := dens_500_x; have b := dens_500_lo.2; have c := dens_500_hi.1
  exact ⟨ge_rpow (by norm_num) (by norm_num) (by linarith [a.1]), rpow_le (by norm_num) (by norm_num) (by linarith [a.2])⟩

theorem dens_1000_x : (0.02486877853565475433947445 : ℝ) ≤ Real.log 1.025180586 ∧ Real.log 1.025180586 ≤ 0.02486877853565475433947448 :=
  log_bounds 0 8 1.025180586 0.02486877853565475433947445 0.02486877853565475433947448 (by norm_num) (by norm_num) (by norm_num) (by decide +kernel)

theorem dens_1000_lo : (0.10583852973368877746022275 : ℝ) ≤ Real.log 1.1116423648253302 ∧ Real.log 1.1116423648253302 ≤ 0.10583852973368877746022278 :=
  log_bounds 0 11 1.1116423648253302 0.10583852973368877746022275 0.10583852973368877746022278 (by norm_num) (by norm_num) (by norm_num) (by decide +kernel)

theorem dens_1000_hi : (0.10583852973368886741721177 : ℝ) ≤ Real.log 1.1116423648253303 ∧ Real.log 1.1116423648253303 ≤ 0.1058385297336888674172118 :=
  log_bounds 0 11 1.1116423648253303 0.10583852973368886741721177 0.1058385297336888674172118 (by norm_num) (by norm_num) (by norm_num) (by decide +kernel)

theorem dens_1000 : (1.1116423648253302 : ℝ) ≤ (1.025180586 : ℝ) ^ (4.2558797 : ℝ) ∧ (1.025180586 : ℝ) ^ (4.2558797 : ℝ) ≤ 1.1116423648253303 := by
  have a := dens_1000_x; have b := dens_1000_lo.2; have c := dens_1000_hi.1
  exact ⟨ge_rpow (by norm_num) (by norm_num) (by linarith [a.1]), rpow_le (by norm_num) (by norm_num) (by linarith [a.2])⟩

theorem dens_1500_x : (0.01326254140275275242609759 : ℝ) ≤ Real.log 1.013350879 ∧ Real.log 1.013350879 ≤ 0.01326254140275275242609762 :=
  log_bounds 0 7 1.013350879 0.01326254140275275242609759 0.01326254140275275242609762 (by norm_num) (by norm_num) (by norm_num) (by decide +kernel)

theorem dens_1500_lo : (0.05644378072638489741193866 : ℝ) ≤ Real.log 1.0580671293626789 ∧ Real.log 1.0580671293626789 ≤ 0.05644378072638489741193869 :=
  log_bounds 0 9 1.0580671293626789 0.05644378072638489741193866 0.05644378072638489741193869 (by norm_num) (by norm_num) (by norm_num) (by decide +kernel)

theorem dens_1500_hi : (0.05644378072638499192390035 : ℝ) ≤ Real.log 1.058067129362679 ∧ Real.log 1.058067129362679 ≤ 0.05644378072638499192390038 :=
  log_bounds 0 9 1.058067129362679 0.05644378072638499192390035 0.05644378072638499192390038 (by norm_num) (by norm_num) (by norm_num) (by decide +kernel)

theorem dens_1500 : (1.0580671293626789 : ℝ) ≤ (1.013350879 : ℝ) ^ (4.2558797 : ℝ) ∧ (1.013350879 : ℝ) ^ (4.2558797 : ℝ) ≤ 1.058067129362679 := by
  have a := dens_1500_x; have b := dens_1500_lo.2; have c := dens_1500_hi.1
  exact ⟨ge_rpow (by norm_num) (by norm_num) (by linarith [a.1]), rpow_le (by norm_num) (by norm_num) (by linarith [a.2])⟩

theorem dens_10000_x : ((-0.20795220139882546395165029) : ℝ) ≤ Real.log 0.81224586 ∧ Real.log 0.81224586 ≤ (-0.20795220139882546395165026) :=
  log_bounds (-1) 24 0.81224586 (-0.20795220139882546395165029) (-0.20795220139882546395165026) (by norm_num) (by norm_num) (by norm_num) (by decide +kernel)

theorem dens_10000_lo : ((-0.88501955250357295388634463) : ℝ) ≤ Real.log 0.4127061037625919 ∧ Real.log 0.4127061037625919 ≤ (-0.8850195525035729538863446) :=
  log_bounds (-2) 24 0.4127061037625919 (-0.88501955250357295388634463) (-0.8850195525035729538863446) (by norm_num) (by norm_num) (by norm_num) (by decide +kernel)

theorem dens_10000_hi : ((-0.88501955250357271158316789) : ℝ) ≤ Real.log 0.412706103762592 ∧ Real.log 0.412706103762592 ≤ (-0.88501955250357271158316786) :=
  log_bounds (-2) 24 0.412706103762592 (-0.88501955250357271158316789) (-0.88501955250357271158316786) (by norm_num) (by norm_num) (by norm_num) (by decide +kernel)

theorem dens_10000 : (0.4127061037625919 : ℝ) ≤ (0.81224586 : ℝ) ^ (4.2558797 : ℝ) ∧ (0.81224586 : ℝ) ^ (4.2558797 : ℝ) ≤ 0.412706103762592 := by
  have a := dens_10000_x; have b := dens_10000_lo.2; have c := dens_10000_hi.1
  exact ⟨ge_rpow (by norm_num) (by norm_num) (by linarith [a.1]), rpow_le (by norm_num) (by norm_num) (by linarith [a.2])⟩

theorem dens_m5000_x : (0.15455380141997245677237586 : ℝ) ≤ Real.log 1.16713707 ∧ Real.log 1.16713707 ≤ 0.15455380141997245677237589 :=
  log_bounds 0 13 1.16713707 0.15455380141997245677237586 0.15455380141997245677237589 (by norm_num) (by norm_num) (by norm_num) (by decide +kernel)

theorem dens_m5000_lo : (0.65776238602109195324778512 : ℝ) ≤ Real.log 1.9304678560892098 ∧ Real.log 1.9304678560892098 ≤ 0.65776238602109195324778515 :=
  log_bounds 0 29 1.9304678560892098 0.65776238602109195324778512 0.65776238602109195324778515 (by norm_num) (by norm_num) (by norm_num) (by decide +kernel)

theorem dens_m5000_hi : (0.65776238602109200504869944 : ℝ) ≤ Real.log 1.9304678560892099 ∧ Real.log 1.9304678560892099 ≤ 0.65776238602109200504869947 :=
  log_bounds 0 29 1.9304678560892099 0.65776238602109200504869944 0.65776238602109200504869947 (by norm_num) (by norm_num) (by norm_num) (by decide +kernel)

theorem dens_m5000 : (1.9304678560892098 : ℝ) ≤ (1.16713707 : ℝ) ^ (4.2558797 : ℝ) ∧ (1.16713707 : ℝ) ^ (4.2558797 : ℝ) ≤ 1.9304678560892099 := by
  have a := dens_m5000_x; have b := dens_m5000_lo.2; have c := dens_m5000_hi.1
  exact ⟨ge_rpow (by norm_num) (by norm_num) (by linarith [a.1]), rpow_le (by norm_num) (by norm_num) (by linarith [a.2])⟩

theorem dens_3048_x : ((-0.02354900797427545654684333) : ℝ) ≤ Real.log 0.976726106128 ∧ Real.log 0.976726106128 ≤ (-0.0235490079742754565468433) :=
  log_bounds (-1) 30 0.976726106128 (-0.02354900797427545654684333) (-0.0235490079742754565468433) (by norm_num) (by norm_num) (by norm_num) (by decide +kernel)

theorem dens_3048_lo : ((-0.10022174499285714322971712) : ℝ) ≤ Real.log 0.9046367971133249 ∧ Real.log 0.9046367971133249 ≤ (-0.10022174499285714322971709) :=
  log_bounds (-1) 27 0.9046367971133249 (-0.10022174499285714322971712) (-0.10022174499285714322971709) (by norm_num) (by norm_num) (by norm_num) (by decide +kernel)

theorem dens_3048_hi : ((-0.10022174499285703268811598) : ℝ) ≤ Real.log 0.904636797113325 ∧ Real.log 0.904636797113325 ≤ (-0.10022174499285703268811595) :=
  log_bounds (-1) 27 0.904636797113325 (-0.10022174499285703268811598) (-0.10022174499285703268811595) (by norm_num) (by norm_num) (by norm_num) (by decide +kernel)

theorem dens_3048 : (0.9046367971133249 : ℝ) ≤ (0.976726106128 : ℝ) ^ (4.2558797 : ℝ) ∧ (0.976726106128 : ℝ) ^ (4.2558797 : ℝ) ≤ 0.904636797113325 := by
  have a := dens_3048_x; have b := dens_3048_lo.2; have c := dens_3048_hi.1
  exact ⟨ge_rpow (by norm_num) (by norm_num) (by linarith [a.1]), rpow_le (by norm_num) (by norm_num) (by linarith [a.2])⟩

theorem press_0_x : (2.19298937707884627239743501 : ℝ) ≤ Real.log 8.9619638 ∧ Real.log 8.9619638 ≤ 2.19298937707884627239743504 :=
  log_bounds 3 12 8.9619638 2.19298937707884627239743501 2.19298937707884627239743504 (by norm_num) (by norm_num) (by norm_num) (by decide +kernel)

theorem press_0_lo : (11.52608834930435337275603174 : ℝ) ≤ Real.log 101324.98964538033 ∧ Real.log 101324.98964538033 ≤ 11.52608834930435337275603177 :=
  log_bounds 16 22 101324.98964538033 11.52608834930435337275603174 11.52608834930435337275603177 (by norm_num) (by norm_num) (by norm_num) (by decide +kernel)

theorem press_0_hi : (11.5260883493043534714483685 : ℝ) ≤ Real.log 101324.98964538034 ∧ Real.log 101324.98964538034 ≤ 11.52608834930435347144836853 :=
  log_bounds 16 22 101324.98964538034 11.5260883493043534714483685 11.52608834930435347144836853 (by norm_num) (by norm_num) (by norm_num) (by decide +kernel)

theorem press_0 : (101324.98964538033 : ℝ) ≤ (8.9619638 : ℝ) ^ (5.2558797 : ℝ) ∧ (8.9619638 : ℝ) ^ (5.2558797 : ℝ) ≤ 101324.98964538034 := by
  have a := press_0_x; have b := press_0_lo.2; have c := press_0_hi.1
  exact ⟨ge_rpow (by norm_num) (by norm_num) (by linarith [a.1]), rpow_le (by norm_num) (by norm_num) (by linarith [a.2])⟩

theorem press_1000_x : (2.17017336473993358376280577 : ℝ) ≤ Real.log 8.75980255 ∧ Real.log 8.75980255 ≤ 2.1701733647399335837628058 :=
  log_bounds 3 11 8.75980255 2.17017336473993358376280577 2.1701733647399335837628058 (by norm_num) (by norm_num) (by norm_num) (by decide +kernel)

theorem press_1000_lo : (11.40617013321731267673926476 : ℝ) ≤ Real.log 89874.55405878893 ∧ Real.log 89874.55405878893 ≤ 11.40617013321731267673926479 :=
  log_bounds 16 18 89874.55405878893 11.40617013321731267673926476 11.40617013321731267673926479 (by norm_num) (by norm_num) (by norm_num) (by decide +kernel)

theorem press_1000_hi : (11.40617013321731278800546358 : ℝ) ≤ Real.log 89874.55405878894 ∧ Real.log 89874.55405878894 ≤ 11.40617013321731278800546361 :=
  log_bounds 16 18 89874.55405878894 11.40617013321731278800546358 11.40617013321731278800546361 (by norm_num) (by norm_num) (by norm_num) (by decide +kernel)

theorem press_1000 : (89874.55405878893 : ℝ) ≤ (8.75980255 : ℝ) ^ (5.2558797 : ℝ) ∧ (8.75980255 : ℝ) ^ (5.2558797 : ℝ) ≤ 89874.55405878894 := by
  have a := press_1000_x; have b := press_1000_lo.2; have c := press_1000_hi.1
  exact ⟨ge_rpow (by norm_num) (by norm_num) (by linarith [a.1]), rpow_le (by norm_num) (by norm_num) (by linarith [a.2])⟩

theorem press_10000_x : (1.93735239283412637674277556 : ℝ) ≤ Real.log 6.9403513 ∧ Real.log 6.9403513 ≤ 1.93735239283412637674277559 :=
  log_bounds 2 26 6.9403513 1.93735239283412637674277556 1.93735239283412637674277559 (by norm_num) (by norm_num) (by norm_num) (by decide +kernel)

theorem press_10000_lo : (10.182491113243310004012694 : ℝ) ≤ Real.log 26436.24100893642 ∧ Real.log 26436.24100893642 ≤ 10.18249111324331000401269403 :=
  log_bounds 14 23 26436.24100893642 10.182491113243310004012694 10.18249111324331000401269403 (by norm_num) (by norm_num) (by norm_num) (by decide +kernel)

theorem press_10000_hi : (10.18249111324331038228129871 : ℝ) ≤ Real.log 26436.24100893643 ∧ Real.log 26436.24100893643 ≤ 10.18249111324331038228129874 :=
  log_bounds 14 23 26436.24100893643 10.18249111324331038228129871 10.18249111324331038228129874 (by norm_num) (by norm_num) (by norm_num) (by decide +kernel)

theorem press_10000 : (26436.24100893642 : ℝ) ≤ (6.9403513 : ℝ) ^ (5.2558797 : ℝ) ∧ (6.9403513 : ℝ) ^ (5.2558797 : ℝ) ≤ 26436.24100893643 := by
  have a := press_10000_x; have b := press_10000_lo.2; have c := press_10000_hi.1
  exact ⟨ge_rpow (by norm_num) (by norm_num) (by linarith [a.1]), rpow_le (by norm_num) (by norm_num) (by linarith [a.2])⟩

theorem press_m5000_x : (2.29985838389932092988785113 : ℝ) ≤ Real.log 9.97277005 ∧ Real.log 9.97277005 ≤ 2.29985838389932092988785116 :=
  log_bounds 3 15 9.97277005 2.29985838389932092988785113 2.29985838389932092988785116 (by norm_num) (by norm_num) (by norm_num) (by decide +kernel)

theorem press_m5000_lo : (12.08777899281124769031607442 : ℝ) ≤ Real.log 177687.02458314021 ∧ Real.log 177687.02458314021 ≤ 12.08777899281124769031607445 :=
  log_bounds 17 18 177687.02458314021 12.08777899281124769031607442 12.08777899281124769031607445 (by norm_num) (by norm_num) (by norm_num) (by decide +kernel)

theorem press_m5000_hi : (12.08777899281124774659480396 : ℝ) ≤ Real.log 177687.02458314022 ∧ Real.log 177687.02458314022 ≤ 12.08777899281124774659480399 :=
  log_bounds 17 18 177687.02458314022 12.08777899281124774659480396 12.08777899281124774659480399 (by norm_num) (by norm_num) (by norm_num) (by decide +kernel)

theorem press_m5000 : (177687.02458314021 : ℝ) ≤ (9.97277005 : ℝ) ^ (5.2558797 : ℝ) ∧ (9.97277005 : ℝ) ^ (5.2558797 : ℝ) ≤ 177687.02458314022 := by
  have a := press_m5000_x; have b := press_m5000_lo.2; have c := press_m5000_hi.1
  exact ⟨ge_rpow (by norm_num) (by norm_num) (by linarith [a.1]), rpow_le (by norm_num) (by norm_num) (by linarith [a.2])⟩

theorem to_2000_lo_x : (0.00480872964599811158097459 : ℝ) ≤ Real.log 1.00482031014145198 ∧ Real.log 1.00482031014145198 ≤ 0.00480872964599811158097462 :=
  log_bounds 0 6 1.00482031014145198 0.00480872964599811158097459 0.00480872964599811158097462 (by norm_num) (by norm_num) (by norm_num) (by decide +kernel)

theorem to_2000_lo_y : (0.01680057414972950150839141 : ℝ) ≤ Real.log 1.01694249747941825 ∧ Real.log 1.01694249747941825 ≤ 0.01680057414972950150839144 :=
  log_bounds 0 7 1.01694249747941825 0.01680057414972950150839141 0.01680057414972950150839144 (by norm_num) (by norm_num) (by norm_num) (by decide +kernel)

theorem to_2000_lo : (1.01694249747941825 : ℝ) ≤ (1.00482031014145198 : ℝ) ^ (1.401 / 0.401 : ℝ) := by
  have a := to_2000_lo_x.1; have b := to_2000_lo_y.2
  exact ge_rpow (by norm_num) (by norm_num) (by linarith)

theorem to_2000_hi_x : (0.00480872964601801563725027 : ℝ) ≤ Real.log 1.00482031014147198 ∧ Real.log 1.00482031014147198 ≤ 0.0048087296460180156372503 :=
  log_bounds 0 6 1.00482031014147198 0.00480872964601801563725027 0.0048087296460180156372503 (by norm_num) (by norm_num) (by norm_num) (by decide +kernel)

theorem to_2000_hi_y : (0.01680057414980816868986753 : ℝ) ≤ Real.log 1.01694249747949825 ∧ Real.log 1.01694249747949825 ≤ 0.01680057414980816868986756 :=
  log_bounds 0 7 1.01694249747949825 0.01680057414980816868986753 0.01680057414980816868986756 (by norm_num) (by norm_num) (by norm_num) (by decide +kernel)

theorem to_2000_hi : (1.00482031014147198 : ℝ) ^ (1.401 / 0.401 : ℝ) ≤ 1.01694249747949825 := by
  have a := to_2000_hi_x.2; have b := to_2000_hi_y.1
  exact rpow_le (by norm_num) (by norm_num) (by linarith)

theorem to_3000_lo_x : (0.00720445072123811071089582 : ℝ) ≤ Real.log 1.00723046521218297 ∧ Real.log 1.00723046521218297 ≤ 0.00720445072123811071089585 :=
  log_bounds 0 6 1.00723046521218297 0.00720445072123811071089582 0.00720445072123811071089585 (by norm_num) (by norm_num) (by norm_num) (by decide +kernel)

theorem to_3000_lo_y : (0.02517066199614182548360217 : ℝ) ≤ Real.log 1.02549011778183783 ∧ Real.log 1.02549011778183783 ≤ 0.0251706619961418254836022 :=
  log_bounds 0 8 1.02549011778183783 0.02517066199614182548360217 0.0251706619961418254836022 (by norm_num) (by norm_num) (by norm_num) (by decide +kernel)

theorem to_3000_lo : (1.02549011778183783 : ℝ) ≤ (1.00723046521218297 : ℝ) ^ (1.401 / 0.401 : ℝ) := by
  have a := to_3000_lo_x.1; have b := to_3000_lo_y.2
  exact ge_rpow (by norm_num) (by norm_num) (by linarith)

theorem to_3000_hi_x : (0.00720445072125796713967827 : ℝ) ≤ Real.log 1.00723046521220297 ∧ Real.log 1.00723046521220297 ≤ 0.0072044507212579671396783 :=
  log_bounds 0 6 1.00723046521220297 0.00720445072125796713967827 0.0072044507212579671396783 (by norm_num) (by norm_num) (by norm_num) (by decide +kernel)

theorem to_3000_hi_y : (0.02517066199621983696183371 : ℝ) ≤ Real.log 1.02549011778191783 ∧ Real.log 1.02549011778191783 ≤ 0.02517066199621983696183374 :=
  log_bounds 0 8 1.02549011778191783 0.02517066199621983696183371 0.02517066199621983696183374 (by norm_num) (by norm_num) (by norm_num) (by decide +kernel)

theorem to_3000_hi : (1.00723046521220297 : ℝ) ^ (1.401 / 0.401 : ℝ) ≤ 1.02549011778191783 := by
  have a := to_3000_hi_x.2; have b := to_3000_hi_y.1
  exact rpow_le (by norm_num) (by norm_num) (by linarith)

theorem to_4000_lo_x : (0.00959444603161130408999568 : ℝ) ≤ Real.log 1.00964062028291397 ∧ Real.log 1.00964062028291397 ≤ 0.00959444603161130408999571 :=
  log_bounds 0 6 1.00964062028291397 0.00959444603161130408999568 0.00959444603161130408999571 (by norm_num) (by norm_num) (by norm_num) (by decide +kernel)

theorem to_4000_lo_y : (0.03352074536230874031379767 : ℝ) ≤ Real.log 1.03408889605256767 ∧ Real.log 1.03408889605256767 ≤ 0.0335207453623087403137977 :=
  log_bounds 0 8 1.03408889605256767 0.03352074536230874031379767 0.0335207453623087403137977 (by norm_num) (by norm_num) (by norm_num) (by decide +kernel)

theorem to_4000_lo : (1.03408889605256767 : ℝ) ≤ (1.00964062028291397 : ℝ) ^ (1.401 / 0.401 : ℝ) := by
  have a := to_4000_lo_x.1; have b := to_4000_lo_y.2
  exact ge_rpow (by norm_num) (by norm_num) (by linarith)

theorem to_4000_hi_x : (0.00959444603163111311867203 : ℝ) ≤ Real.log 1.00964062028293397 ∧ Real.log 1.00964062028293397 ≤ 0.00959444603163111311867206 :=
  log_bounds 0 6 1.00964062028293397 0.00959444603163111311867203 0.00959444603163111311867206 (by norm_num) (by norm_num) (by norm_num) (by decide +kernel)

theorem to_4000_hi_y : (0.03352074536238610310176046 : ℝ) ≤ Real.log 1.03408889605264767 ∧ Real.log 1.03408889605264767 ≤ 0.03352074536238610310176049 :=
  log_bounds 0 8 1.03408889605264767 0.03352074536238610310176046 0.03352074536238610310176049 (by norm_num) (by norm_num) (by norm_num) (by decide +kernel)

theorem to_4000_hi : (1.00964062028293397 : ℝ) ^ (1.401 / 0.401 : ℝ) ≤ 1.03408889605264767 := by
  have a := to_4000_hi_x.2; have b := to_4000_hi_y.1
  exact rpow_le (by norm_num) (by norm_num) (by linarith)

theorem to_5000_lo_x : (0.01197874288098989905616751 : ℝ) ≤ Real.log 1.01205077535364496 ∧ Real.log 1.01205077535364496 ≤ 0.01197874288098989905616754 :=
  log_bounds 0 7 1.01205077535364496 0.01197874288098989905616751 0.01197874288098989905616754 (by norm_num) (by norm_num) (by norm_num) (by decide +kernel)

theorem to_5000_lo_y : (0.04185091964155938244028674 : ℝ) ≤ Real.log 1.04273901525661998 ∧ Real.log 1.04273901525661998 ≤ 0.04185091964155938244028677 :=
  log_bounds 0 9 1.04273901525661998 0.04185091964155938244028674 0.04185091964155938244028677 (by norm_num) (by norm_num) (by norm_num) (by decide +kernel)

theorem to_5000_lo : (1.04273901525661998 : ℝ) ≤ (1.01205077535364496 : ℝ) ^ (1.401 / 0.401 : ℝ) := by
  have a := to_5000_lo_x.1; have b := to_5000_lo_y.2
  exact ge_rpow (by norm_num) (by norm_num) (by linarith)

theorem to_5000_hi_x : (0.01197874288100966091050037 : ℝ) ≤ Real.log 1.01205077535366496 ∧ Real.log 1.01205077535366496 ≤ 0.0119787428810096609105004 :=
  log_bounds 0 7 1.01205077535366496 0.01197874288100966091050037 0.0119787428810096609105004 (by norm_num) (by norm_num) (by norm_num) (by decide +kernel)

theorem to_5000_hi_y : (0.04185091964163610345947706 : ℝ) ≤ Real.log 1.04273901525669998 ∧ Real.log 1.04273901525669998 ≤ 0.04185091964163610345947709 :=
  log_bounds 0 9 1.04273901525669998 0.04185091964163610345947706 0.04185091964163610345947709 (by norm_num) (by norm_num) (by norm_num) (by decide +kernel)

theorem to_5000_hi : (1.01205077535366496 : ℝ) ^ (1.401 / 0.401 : ℝ) ≤ 1.04273901525669998 := by
  have a := to_5000_hi_x.2; have b := to_5000_hi_y.1
  exact rpow_le (by norm_num) (by norm_num) (by linarith)

theorem exp_38000_lo : ((-1.82641151404800013976091836) : ℝ) ≤ Real.log 0.160990243687517 ∧ Real.log 0.160990243687517 ≤ (-1.82641151404800013976091833) :=
  log_bounds (-3) 16 0.160990243687517 (-1.82641151404800013976091836) (-1.82641151404800013976091833) (by norm_num) (by norm_num) (by norm_num) (by decide +kernel)

theorem exp_38000_hi : ((-1.82641151404799951860526501) : ℝ) ≤ Real.log 0.1609902436875171 ∧ Real.log 0.1609902436875171 ≤ (-1.82641151404799951860526498) :=
  log_bounds (-3) 16 0.1609902436875171 (-1.82641151404799951860526501) (-1.82641151404799951860526498) (by norm_num) (by norm_num) (by norm_num) (by decide +kernel)

theorem exp_38000 : (0.160990243687517 : ℝ) ≤ Real.exp (-1.826411514048) ∧ Real.exp (-1.826411514048) ≤ 0.1609902436875171 := by
  have b := exp_38000_lo.2; have c := exp_38000_hi.1
  exact ⟨ge_exp (by norm_num) (by linarith), exp_le (by norm_num) (by linarith)⟩

theorem exp_40000_lo : ((-1.92253843584000035212132411) : ℝ) ≤ Real.log 0.1462352817063213 ∧ Real.log 0.1462352817063213 ≤ (-1.92253843584000035212132408) :=
  log_bounds (-3) 13 0.1462352817063213 (-1.92253843584000035212132411) (-1.92253843584000035212132408) (by norm_num) (by norm_num) (by norm_num) (by decide +kernel)

theorem exp_40000_hi : ((-1.92253843583999966829182118) : ℝ) ≤ Real.log 0.1462352817063214 ∧ Real.log 0.1462352817063214 ≤ (-1.92253843583999966829182115) :=
  log_bounds (-3) 13 0.1462352817063214 (-1.92253843583999966829182118) (-1.92253843583999966829182115) (by norm_num) (by norm_num) (by norm_num) (by decide +kernel)

theorem exp_40000 : (0.1462352817063213 : ℝ) ≤ Real.exp (-1.92253843584) ∧ Real.exp (-1.92253843584) ≤ 0.1462352817063214 := by
  have b := exp_40000_lo.2; have c := exp_40000_hi.1
  exact ⟨ge_exp (by norm_num) (by linarith), exp_le (by norm_num) (by linarith)⟩


theorem cos_small {x xl xh lo hi : ℝ} (h1 : xl ≤ x) (h2 : x ≤ xh) (h0 : 0 ≤ xl) (hh : xh ≤ 1) (hl : lo ≤ 1 - xh ^ 2 / 2 - xh ^ 4 * (5 / 96))
    (hu : 1 - xl ^ 2 / 2 + xh ^ 4 * (5 / 96) ≤ hi) : lo ≤ Real.cos x ∧ Real.cos x ≤ hi := by
  have x0 : 0 ≤ x := h0.trans h1
  have b := Real.cos_bound (x := x) (by rw [abs_of_nonneg x0]; linarith)
  rw [abs_of_nonneg x0, abs_le] at b
  have p2 : x ^ 2 ≤ xh ^ 2 := by gcongr
  have p4 : x ^ 4 ≤ xh ^ 4 := by gcongr
  have q2 : xl ^ 2 ≤ x ^ 2 := by gcongr
  constructor <;> linarith [b.1, b.2]

theorem cos_double {x a b lo hi : ℝ} (h : a ≤ Real.cos x ∧ Real.cos x ≤ b) (a0 : 0 ≤ a) (hl : lo ≤ 2 * a ^ 2 - 1) (hu : 2 * b ^ 2 - 1 ≤ hi) :
    lo ≤ Real.cos (2 * x) ∧ Real.cos (2 * x) ≤ hi := by
  rw [Real.cos_two_mul]
  have p : a ^ 2 ≤ Real.cos x ^ 2 := by have := h.1; gcongr
  have q : Real.cos x ^ 2 ≤ b ^ 2 := by have := h.2; have := a0.trans h.1; gcongr
  constructor <;> linarith

theorem cos369_22 : (0.9999999999999882115240280944216633 : ℝ) ≤ Real.cos (41 * Real.pi / 838860800) ∧ Real.cos (41 * Real.pi / 838860800) ≤ 0.9999999999999882115240280944795670 := by
  have p1 := Real.pi_gt_d20; have p2 := Real.pi_lt_d20
  exact cos_small (by norm_num; linarith) (by norm_num; linarith) (xl := 41 * 3.14159265358979323846 / 838860800) (xh := 41 * 3.14159265358979323847 / 838860800)
    (by norm_num) (by norm_num) (by norm_num) (by norm_num)

theorem cos369_21 : (0.9999999999999528460961123779645895 : ℝ) ≤ Real.cos (41 * Real.pi / 419430400) ∧ Real.cos (41 * Real.pi / 419430400) ≤ 0.9999999999999528460961123781962044 := by
  have e : (41 * Real.pi / 419430400 : ℝ) = 2 * (41 * Real.pi / 838860800) := by ring
  rw [e]
  exact cos_double cos369_22 (by norm_num) (by norm_num) (by norm_num)

theorem cos369_20 : (0.9999999999998113843844495163053393 : ℝ) ≤ Real.cos (41 * Real.pi / 209715200) ∧ Real.cos (41 * Real.pi / 209715200) ≤ 0.9999999999998113843844495172317990 := by
  have e : (41 * Real.pi / 209715200 : ℝ) = 2 * (41 * Real.pi / 419430400) := by ring
  rw [e]
  exact cos_double cos369_21 (by norm_num) (by norm_num) (by norm_num)

theorem cos369_19 : (0.9999999999992455375377981363730580 : ℝ) ≤ Real.cos (41 * Real.pi / 104857600) ∧ Real.cos (41 * Real.pi / 104857600) ≤ 0.9999999999992455375377981400788969 := by
  have e : (41 * Real.pi / 104857600 : ℝ) = 2 * (41 * Real.pi / 209715200) := by ring
  rw [e]
  exact cos_double cos369_20 (by norm_num) (by norm_num) (by norm_num)

theorem cos369_18 : (0.9999999999969821501511936839194457 : ℝ) ≤ Real.cos (41 * Real.pi / 52428800) ∧ Real.cos (41 * Real.pi / 52428800) ≤ 0.9999999999969821501511936987428014 := by
  have e : (41 * Real.pi / 52428800 : ℝ) = 2 * (41 * Real.pi / 104857600) := by ring
  rw [e]
  exact cos_double cos369_19 (by norm_num) (by norm_num) (by norm_num)

theorem cos369_17 : (0.9999999999879286006047929505132026 : ℝ) ≤ Real.cos (41 * Real.pi / 26214400) ∧ Real.cos (41 * Real.pi / 26214400) ≤ 0.9999999999879286006047930098066255 := by
  have e : (41 * Real.pi / 26214400 : ℝ) = 2 * (41 * Real.pi / 52428800) := by ring
  rw [e]
  exact cos_double cos369_18 (by norm_num) (by norm_num) (by norm_num)

theorem cos369_16 : (0.9999999999517144024194632394195276 : ℝ) ≤ Real.cos (41 * Real.pi / 13107200) ∧ Real.cos (41 * Real.pi / 13107200) ≤ 0.9999999999517144024194634765932193 := by
  have e : (41 * Real.pi / 13107200 : ℝ) = 2 * (41 * Real.pi / 26214400) := by ring
  rw [e]
  exact cos_double cos369_17 (by norm_num) (by norm_num) (by norm_num)

theorem cos369_15 : (0.9999999998068576096825159555455294 : ℝ) ≤ Real.cos (41 * Real.pi / 6553600) ∧ Real.cos (41 * Real.pi / 6553600) ≤ 0.9999999998068576096825169042402963 := by
  have e : (41 * Real.pi / 6553600 : ℝ) = 2 * (41 * Real.pi / 13107200) := by ring
  rw [e]
  exact cos_double cos369_16 (by norm_num) (by norm_num) (by norm_num)

theorem cos369_14 : (0.9999999992274304388046717880572203 : ℝ) ≤ Real.cos (41 * Real.pi / 3276800) ∧ Real.cos (41 * Real.pi / 3276800) ≤ 0.9999999992274304388046755828362872 := by
  have e : (41 * Real.pi / 3276800 : ℝ) = 2 * (41 * Real.pi / 6553600) := by ring
  rw [e]
  exact cos_double cos369_15 (by norm_num) (by norm_num) (by norm_num)

theorem cos369_13 : (0.9999999969097217564124146059999651 : ℝ) ≤ Real.cos (41 * Real.pi / 1638400) ∧ Real.cos (41 * Real.pi / 1638400) ≤ 0.9999999969097217564124297851162211 := by
  have e : (41 * Real.pi / 1638400 : ℝ) = 2 * (41 * Real.pi / 3276800) := by ring
  rw [e]
  exact cos_double cos369_14 (by norm_num) (by norm_num) (by norm_num)

theorem cos369_12 : (0.9999999876388870447492976695814039 : ℝ) ≤ Real.cos (41 * Real.pi / 819200) ∧ Real.cos (41 * Real.pi / 819200) ≤ 0.9999999876388870447493583860462404 := by
  have e : (41 * Real.pi / 819200 : ℝ) = 2 * (41 * Real.pi / 1638400) := by ring
  rw [e]
  exact cos_double cos369_13 (by norm_num) (by norm_num) (by norm_num)

theorem cos369_11 : (0.9999999505555484845914176632591189 : ℝ) ≤ Real.cos (41 * Real.pi / 409600) ∧ Real.cos (41 * Real.pi / 409600) ≤ 0.9999999505555484845916605291154629 := by
  have e : (41 * Real.pi / 409600 : ℝ) = 2 * (41 * Real.pi / 819200) := by ring
  rw [e]
  exact cos_double cos369_12 (by norm_num) (by norm_num) (by norm_num)

theorem cos369_10 : (0.9999998022221988278732419722165842 : ℝ) ≤ Real.cos (41 * Real.pi / 204800) ∧ Real.cos (41 * Real.pi / 204800) ≤ 0.9999998022221988278742134355939268 := by
  have e : (41 * Real.pi / 204800 : ℝ) = 2 * (41 * Real.pi / 409600) := by ring
  rw [e]
  exact cos_double cos369_11 (by norm_num) (by norm_num) (by norm_num)

theorem cos369_9 : (0.9999992088888735436102408514751800 : ℝ) ≤ Real.cos (41 * Real.pi / 102400) ∧ Real.cos (41 * Real.pi / 102400) ≤ 0.9999992088888735436141267042160149 := by
  have e : (41 * Real.pi / 102400 : ℝ) = 2 * (41 * Real.pi / 204800) := by ring
  rw [e]
  exact cos_double cos369_10 (by norm_num) (by norm_num) (by norm_num)

theorem cos369_8 : (0.9999968355567458880697696017181560 : ℝ) ≤ Real.cos (41 * Real.pi / 51200) ∧ Real.cos (41 * Real.pi / 51200) ≤ 0.9999968355567458880853130003849303 := by
  have e : (41 * Real.pi / 51200 : ℝ) = 2 * (41 * Real.pi / 102400) := by ring
  rw [e]
  exact cos_double cos369_9 (by norm_num) (by norm_num) (by norm_num)

theorem cos369_7 : (0.9999873422470109544960674113546590 : ℝ) ≤ Real.cos (41 * Real.pi / 25600) ∧ Real.cos (41 * Real.pi / 25600) ≤ 0.9999873422470109545582408092769441 := by
  have e : (41 * Real.pi / 25600 : ℝ) = 2 * (41 * Real.pi / 51200) := by ring
  rw [e]
  exact cos_double cos369_8 (by norm_num) (by norm_num) (by norm_num)

theorem cos369_6 : (0.9999493693084812394476504238155808 : ℝ) ≤ Real.cos (41 * Real.pi / 12800) ∧ Real.cos (41 * Real.pi / 12800) ≤ 0.9999493693084812396963408676026678 := by
  have e : (41 * Real.pi / 12800 : ℝ) = 2 * (41 * Real.pi / 25600) := by ring
  rw [e]
  exact cos_double cos369_7 (by norm_num) (by norm_num) (by norm_num)

theorem cos369_5 : (0.9997974823608588051263851494902076 : ℝ) ≤ Real.cos (41 * Real.pi / 6400) ∧ Real.cos (41 * Real.pi / 6400) ≤ 0.9997974823608588061210965591619835 := by
  have e : (41 * Real.pi / 6400 : ℝ) = 2 * (41 * Real.pi / 12800) := by ring
  rw [e]
  exact cos_double cos369_6 (by norm_num) (by norm_num) (by norm_num)

theorem cos369_4 : (0.9991900114702235471519924113644973 : ℝ) ≤ Real.cos (41 * Real.pi / 3200) ∧ Real.cos (41 * Real.pi / 3200) ≤ 0.9991900114702235511300322636263469 := by
  have e : (41 * Real.pi / 3200 : ℝ) = 2 * (41 * Real.pi / 6400) := by ring
  rw [e]
  exact cos_double cos369_5 (by norm_num) (by norm_num) (by norm_num)

theorem cos369_3 : (0.9967613580437309274472536333252383 : ℝ) ≤ Real.cos (41 * Real.pi / 1600) ∧ Real.cos (41 * Real.pi / 1600) ≤ 0.9967613580437309433465243757673340 := by
  have e : (41 * Real.pi / 1600 : ℝ) = 2 * (41 * Real.pi / 3200) := by ring
  rw [e]
  exact cos_double cos369_4 (by norm_num) (by norm_num) (by norm_num)

theorem cos369_2 : (0.9870664097783655225195208077255882 : ℝ) ≤ Real.cos (41 * Real.pi / 800) ∧ Real.cos (41 * Real.pi / 800) ≤ 0.9870664097783655859106355962917544 := by
  have e : (41 * Real.pi / 800 : ℝ) = 2 * (41 * Real.pi / 1600) := by ring
  rw [e]
  exact cos_double cos369_3 (by norm_num) (by norm_num) (by norm_num)

theorem cos369_1 : (0.9486001946255044080227139176240765 : ℝ) ≤ Real.cos (41 * Real.pi / 400) ∧ Real.cos (41 * Real.pi / 400) ≤ 0.9486001946255046583076742624171171 := by
  have e : (41 * Real.pi / 400 : ℝ) = 2 * (41 * Real.pi / 800) := by ring
  rw [e]
  exact cos_double cos369_2 (by norm_num) (by norm_num) (by norm_num)

theorem cos369_0 : (0.7996846584870896839753178435704874 : ℝ) ≤ Real.cos (41 * Real.pi / 200) ∧ Real.cos (41 * Real.pi / 200) ≤ 0.7996846584870906336567662231999375 := by
  have e : (41 * Real.pi / 200 : ℝ) = 2 * (41 * Real.pi / 400) := by ring
  rw [e]
  exact cos_double cos369_1 (by norm_num) (by norm_num) (by norm_num)

end Verif.DocNum
