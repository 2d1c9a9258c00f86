import Verif.Lemmas.DocNum

/-
Generated: values of the ISA formulae that occur in the unit tests of the project, bracketed.
Each logarithm is bracketed by `LogB.chk` in the kernel.
-/

namespace Verif.TestNum
open Verif.LogB Verif.DocNum

theorem dens_9984_x : (-0.20749499021638390273720093 : ℝ) ≤ Real.log 0.8126173127998 ∧ Real.log 0.8126173127998 ≤ (-0.2074949902163839027372009) :=
  log_bounds (-1) 22 0.8126173127998 (-0.20749499021638390273720093) (-0.2074949902163839027372009) (by norm_num) (by norm_num) (by norm_num) (by decide +kernel)

theorem dens_9984_lo : (-0.88307371671564334523841549 : ℝ) ≤ Real.log 0.413509943886 ∧ Real.log 0.413509943886 ≤ (-0.88307371671564334523841546) :=
  log_bounds (-2) 23 0.413509943886 (-0.88307371671564334523841549) (-0.88307371671564334523841546) (by norm_num) (by norm_num) (by norm_num) (by decide +kernel)

theorem dens_9984_hi : (-0.88307371671322502370882616 : ℝ) ≤ Real.log 0.413509943887 ∧ Real.log 0.413509943887 ≤ (-0.88307371671322502370882613) :=
  log_bounds (-2) 23 0.413509943887 (-0.88307371671322502370882616) (-0.88307371671322502370882613) (by norm_num) (by norm_num) (by norm_num) (by decide +kernel)

theorem dens_9984 : (0.413509943886 : ℝ) ≤ (0.8126173127998 : ℝ) ^ (4.2558797 : ℝ) ∧ (0.8126173127998 : ℝ) ^ (4.2558797 : ℝ) ≤ 0.413509943887 := by
  have a := dens_9984_x; have b := dens_9984_lo.2; have c := dens_9984_hi.1
  exact ⟨ge_rpow (by norm_num) (by norm_num) (by linarith [a.1]), rpow_le (by norm_num) (by norm_num) (by linarith [a.2])⟩

theorem press_9984_x : (1.9378096039988988059950321 : ℝ) ≤ Real.log 6.943525231625 ∧ Real.log 6.943525231625 ≤ 1.93780960399889880599503213 :=
  log_bounds 2 25 6.943525231625 1.9378096039988988059950321 1.93780960399889880599503213 (by norm_num) (by norm_num) (by norm_num) (by decide +kernel)

theorem press_9984_lo : (10.18489416012247454407472661 : ℝ) ≤ Real.log 26499.84492638 ∧ Real.log 26499.84492638 ≤ 10.18489416012247454407472664 :=
  log_bounds 14 22 26499.84492638 10.18489416012247454407472661 10.18489416012247454407472664 (by norm_num) (by norm_num) (by norm_num) (by decide +kernel)

theorem press_9984_hi : (10.18489416012285190477354502 : ℝ) ≤ Real.log 26499.84492639 ∧ Real.log 26499.84492639 ≤ 10.18489416012285190477354505 :=
  log_bounds 14 22 26499.84492639 10.18489416012285190477354502 10.18489416012285190477354505 (by norm_num) (by norm_num) (by norm_num) (by decide +kernel)

theorem press_9984 : (26499.84492638 : ℝ) ≤ (6.943525231625 : ℝ) ^ (5.2558797 : ℝ) ∧ (6.943525231625 : ℝ) ^ (5.2558797 : ℝ) ≤ 26499.84492639 := by
  have a := press_9984_x; have b := press_9984_lo.2; have c := press_9984_hi.1
  exact ⟨ge_rpow (by norm_num) (by norm_num) (by linarith [a.1]), rpow_le (by norm_num) (by norm_num) (by linarith [a.2])⟩

theorem dens_5000_x : (-0.07198706747832618567701177 : ℝ) ≤ Real.log 0.93054293 ∧ Real.log 0.93054293 ≤ (-0.07198706747832618567701174) :=
  log_bounds (-1) 27 0.93054293 (-0.07198706747832618567701177) (-0.07198706747832618567701174) (by norm_num) (by norm_num) (by norm_num) (by decide +kernel)

theorem dens_5000_lo : (-0.30636829914356450063350064 : ℝ) ≤ Real.log 0.736115458832 ∧ Real.log 0.736115458832 ≤ (-0.30636829914356450063350061) :=
  log_bounds (-1) 19 0.736115458832 (-0.30636829914356450063350064) (-0.30636829914356450063350061) (by norm_num) (by norm_num) (by norm_num) (by decide +kernel)

theorem dens_5000_hi : (-0.30636829914220601809112063 : ℝ) ≤ Real.log 0.736115458833 ∧ Real.log 0.736115458833 ≤ (-0.3063682991422060180911206) :=
  log_bounds (-1) 19 0.736115458833 (-0.30636829914220601809112063) (-0.3063682991422060180911206) (by norm_num) (by norm_num) (by norm_num) (by decide +kernel)

theorem dens_5000 : (0.736115458832 : ℝ) ≤ (0.93054293 : ℝ) ^ (4.2558797 : ℝ) ∧ (0.93054293 : ℝ) ^ (4.2558797 : ℝ) ≤ 0.736115458833 := by
  have a := dens_5000_x; have b := dens_5000_lo.2; have c := dens_5000_hi.1
  exact ⟨ge_rpow (by norm_num) (by norm_num) (by linarith [a.1]), rpow_le (by norm_num) (by norm_num) (by linarith [a.2])⟩

theorem press_5000_x : (2.07331752184062483993584687 : ℝ) ≤ Real.log 7.95115755 ∧ Real.log 7.95115755 ≤ 2.0733175218406248399358469 :=
  log_bounds 2 29 7.95115755 2.07331752184062483993584687 2.0733175218406248399358469 (by norm_num) (by norm_num) (by norm_num) (by decide +kernel)

theorem press_5000_lo : (10.89710747469638143490731802 : ℝ) ≤ Real.log 54019.88371396 ∧ Real.log 54019.88371396 ≤ 10.89710747469638143490731805 :=
  log_bounds 15 23 54019.88371396 10.89710747469638143490731802 10.89710747469638143490731805 (by norm_num) (by norm_num) (by norm_num) (by decide +kernel)

theorem press_5000_hi : (10.89710747469656655192928256 : ℝ) ≤ Real.log 54019.88371397 ∧ Real.log 54019.88371397 ≤ 10.89710747469656655192928259 :=
  log_bounds 15 23 54019.88371397 10.89710747469656655192928256 10.89710747469656655192928259 (by norm_num) (by norm_num) (by norm_num) (by decide +kernel)

theorem press_5000 : (54019.88371396 : ℝ) ≤ (7.95115755 : ℝ) ^ (5.2558797 : ℝ) ∧ (7.95115755 : ℝ) ^ (5.2558797 : ℝ) ≤ 54019.88371397 := by
  have a := press_5000_x; have b := press_5000_lo.2; have c := press_5000_hi.1
  exact ⟨ge_rpow (by norm_num) (by norm_num) (by linarith [a.1]), rpow_le (by norm_num) (by norm_num) (by linarith [a.2])⟩

theorem exp_15000_lo : (-2.36532780000880018027315932 : ℝ) ≤ Real.log 0.093918508834 ∧ Real.log 0.093918508834 ≤ (-2.36532780000880018027315929) :=
  log_bounds (-4) 20 0.093918508834 (-2.36532780000880018027315932) (-2.36532780000880018027315929) (by norm_num) (by norm_num) (by norm_num) (by decide +kernel)

theorem exp_15000_hi : (-2.36532779999815265176775932 : ℝ) ≤ Real.log 0.093918508835 ∧ Real.log 0.093918508835 ≤ (-2.36532779999815265176775929) :=
  log_bounds (-4) 20 0.093918508835 (-2.36532779999815265176775932) (-2.36532779999815265176775929) (by norm_num) (by norm_num) (by norm_num) (by decide +kernel)

theorem exp_15000 : (0.093918508834 : ℝ) ≤ Real.exp (-2.3653278) ∧ Real.exp (-2.3653278) ≤ 0.093918508835 := by
  have b := exp_15000_lo.2; have c := exp_15000_hi.1
  exact ⟨ge_exp (by norm_num) (by linarith), exp_le (by norm_num) (by linarith)⟩

theorem ram_turn_x : (0.04545126290391737049438652 : ℝ) ≤ Real.log 1.0465 ∧ Real.log 1.0465 ≤ 0.04545126290391737049438655 :=
  log_bounds 0 9 1.0465 0.04545126290391737049438652 0.04545126290391737049438655 (by norm_num) (by norm_num) (by norm_num) (by decide +kernel)

theorem ram_turn_lo : (0.15879530540649217312543337 : ℝ) ≤ Real.log 1.172098 ∧ Real.log 1.172098 ≤ 0.1587953054064921731254334 :=
  log_bounds 0 13 1.172098 0.15879530540649217312543337 0.1587953054064921731254334 (by norm_num) (by norm_num) (by norm_num) (by decide +kernel)

theorem ram_turn_hi : (0.15879615857710880650621011 : ℝ) ≤ Real.log 1.172099 ∧ Real.log 1.172099 ≤ 0.15879615857710880650621014 :=
  log_bounds 0 13 1.172099 0.15879615857710880650621011 0.15879615857710880650621014 (by norm_num) (by norm_num) (by norm_num) (by decide +kernel)

theorem ram_turn : (1.172098 : ℝ) ≤ (1.0465 : ℝ) ^ (1.401 / 0.401 : ℝ) ∧ (1.0465 : ℝ) ^ (1.401 / 0.401 : ℝ) ≤ 1.172099 := by
  have a := ram_turn_x; have b := ram_turn_lo.2; have c := ram_turn_hi.1
  exact ⟨ge_rpow (by norm_num) (by norm_num) (by linarith [a.1]), rpow_le (by norm_num) (by norm_num) (by linarith [a.2])⟩

theorem ram_climb_x : (0.03178932248940733701578464 : ℝ) ≤ Real.log 1.0323 ∧ Real.log 1.0323 ≤ 0.03178932248940733701578467 :=
  log_bounds 0 8 1.0323 0.03178932248940733701578464 0.03178932248940733701578467 (by norm_num) (by norm_num) (by norm_num) (by decide +kernel)

theorem ram_climb_lo : (0.11106362198680703155029037 : ℝ) ≤ Real.log 1.117466 ∧ Real.log 1.117466 ≤ 0.1110636219868070315502904 :=
  log_bounds 0 11 1.117466 0.11106362198680703155029037 0.1110636219868070315502904 (by norm_num) (by norm_num) (by norm_num) (by decide +kernel)

theorem ram_climb_hi : (0.11106451686821958402209547 : ℝ) ≤ Real.log 1.117467 ∧ Real.log 1.117467 ≤ 0.1110645168682195840220955 :=
  log_bounds 0 11 1.117467 0.11106451686821958402209547 0.1110645168682195840220955 (by norm_num) (by norm_num) (by norm_num) (by decide +kernel)

theorem ram_climb : (1.117466 : ℝ) ≤ (1.0323 : ℝ) ^ (1.401 / 0.401 : ℝ) ∧ (1.0323 : ℝ) ^ (1.401 / 0.401 : ℝ) ≤ 1.117467 := by
  have a := ram_climb_x; have b := ram_climb_lo.2; have c := ram_climb_hi.1
  exact ⟨ge_rpow (by norm_num) (by norm_num) (by linarith [a.1]), rpow_le (by norm_num) (by norm_num) (by linarith [a.2])⟩

end Verif.TestNum
