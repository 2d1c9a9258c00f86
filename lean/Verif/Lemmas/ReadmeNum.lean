import Verif.Lemmas.DocNum

/-
Generated: numbers that occur in the examples of README.md and of the notebooks, bracketed.
Each logarithm is bracketed by `LogB.chk` in the kernel.
-/

namespace Verif.ReadmeNum
open Verif.LogB Verif.DocNum

theorem exp_41000_lo : (-1.97060189673600000658392579 : ℝ) ≤ Real.log 0.139372942844607503 ∧ Real.log 0.139372942844607503 ≤ (-1.97060189673600000658392576) :=
  log_bounds (-3) 11 0.139372942844607503 (-1.97060189673600000658392579) (-1.97060189673600000658392576) (by norm_num) (by norm_num) (by norm_num) (by decide +kernel)

theorem exp_41000_hi : (-1.970601896735999999408932 : ℝ) ≤ Real.log 0.139372942844607504 ∧ Real.log 0.139372942844607504 ≤ (-1.97060189673599999940893197) :=
  log_bounds (-3) 11 0.139372942844607504 (-1.970601896735999999408932) (-1.97060189673599999940893197) (by norm_num) (by norm_num) (by norm_num) (by decide +kernel)

theorem exp_41000 : (0.139372942844607503 : ℝ) ≤ Real.exp (-1.970601896736) ∧ Real.exp (-1.970601896736) ≤ 0.139372942844607504 := by
  have b := exp_41000_lo.2; have c := exp_41000_hi.1
  exact ⟨ge_exp (by norm_num) (by linarith), exp_le (by norm_num) (by linarith)⟩

theorem dens_7620_x : (-0.14092406225696632444162753 : ℝ) ≤ Real.log 0.86855526532 ∧ Real.log 0.86855526532 ≤ (-0.1409240622569663244416275) :=
  log_bounds (-1) 25 0.86855526532 (-0.14092406225696632444162753) (-0.1409240622569663244416275) (by norm_num) (by norm_num) (by norm_num) (by decide +kernel)

theorem dens_7620_lo : (-0.59975585580095916556420516 : ℝ) ≤ Real.log 0.54894564162901627 ∧ Real.log 0.54894564162901627 ≤ (-0.59975585580095916556420513) :=
  log_bounds (-1) 11 0.54894564162901627 (-0.59975585580095916556420516) (-0.59975585580095916556420513) (by norm_num) (by norm_num) (by norm_num) (by decide +kernel)

theorem dens_7620_hi : (-0.59975585580095914734746521 : ℝ) ≤ Real.log 0.54894564162901628 ∧ Real.log 0.54894564162901628 ≤ (-0.59975585580095914734746518) :=
  log_bounds (-1) 11 0.54894564162901628 (-0.59975585580095914734746521) (-0.59975585580095914734746518) (by norm_num) (by norm_num) (by norm_num) (by decide +kernel)

theorem dens_7620 : (0.54894564162901627 : ℝ) ≤ (0.86855526532 : ℝ) ^ (4.2558797 : ℝ) ∧ (0.86855526532 : ℝ) ^ (4.2558797 : ℝ) ≤ 0.54894564162901628 := by
  have a := dens_7620_x; have b := dens_7620_lo.2; have c := dens_7620_hi.1
  exact ⟨ge_rpow (by norm_num) (by norm_num) (by linarith [a.1]), rpow_le (by norm_num) (by norm_num) (by linarith [a.2])⟩

theorem hot_2000_lo_x : (0.00475939912495606127823909 : ℝ) ≤ Real.log 1.00477074305459423 ∧ Real.log 1.00477074305459423 ≤ 0.00475939912495606127823912 :=
  log_bounds 0 5 1.00477074305459423 0.00475939912495606127823909 0.00475939912495606127823912 (by norm_num) (by norm_num) (by norm_num) (by decide +kernel)

theorem hot_2000_lo_y : (0.01662822487297615947204728 : ℝ) ≤ Real.log 1.01676724327837915 ∧ Real.log 1.01676724327837915 ≤ 0.01662822487297615947204731 :=
  log_bounds 0 7 1.01676724327837915 0.01662822487297615947204728 0.01662822487297615947204731 (by norm_num) (by norm_num) (by norm_num) (by decide +kernel)

theorem hot_2000_hi_x : (0.00475939912495607123075818 : ℝ) ≤ Real.log 1.00477074305459424 ∧ Real.log 1.00477074305459424 ≤ 0.00475939912495607123075821 :=
  log_bounds 0 5 1.00477074305459424 0.00475939912495607123075818 0.00475939912495607123075821 (by norm_num) (by norm_num) (by norm_num) (by decide +kernel)

theorem hot_2000_hi_y : (0.01662822487297620864751033 : ℝ) ≤ Real.log 1.0167672432783792 ∧ Real.log 1.0167672432783792 ≤ 0.01662822487297620864751036 :=
  log_bounds 0 7 1.0167672432783792 0.01662822487297620864751033 0.01662822487297620864751036 (by norm_num) (by norm_num) (by norm_num) (by decide +kernel)

theorem hot_2000_lo : (1.01676724327837915 : ℝ) ≤ (1.00477074305459423 : ℝ) ^ (1.401 / 0.401 : ℝ) := by
  have a := hot_2000_lo_x.1; have b := hot_2000_lo_y.2
  exact ge_rpow (by norm_num) (by norm_num) (by linarith)

theorem hot_2000_hi : (1.00477074305459424 : ℝ) ^ (1.401 / 0.401 : ℝ) ≤ 1.0167672432783792 := by
  have a := hot_2000_hi_x.2; have b := hot_2000_hi_y.1
  exact rpow_le (by norm_num) (by norm_num) (by linarith)

theorem hot_3000_lo_x : (0.00713063109687088111167033 : ℝ) ≤ Real.log 1.00715611458189134 ∧ Real.log 1.00715611458189134 ≤ 0.00713063109687088111167036 :=
  log_bounds 0 6 1.00715611458189134 0.00713063109687088111167033 0.00713063109687088111167036 (by norm_num) (by norm_num) (by norm_num) (by decide +kernel)

theorem hot_3000_lo_y : (0.02491275353295786598593271 : ℝ) ≤ Real.log 1.02522566930476639 ∧ Real.log 1.02522566930476639 ≤ 0.02491275353295786598593274 :=
  log_bounds 0 7 1.02522566930476639 0.02491275353295786598593271 0.02491275353295786598593274 (by norm_num) (by norm_num) (by norm_num) (by decide +kernel)

theorem hot_3000_hi_x : (0.00713063109687089104061764 : ℝ) ≤ Real.log 1.00715611458189135 ∧ Real.log 1.00715611458189135 ≤ 0.00713063109687089104061767 :=
  log_bounds 0 6 1.00715611458189135 0.00713063109687089104061764 0.00713063109687089104061767 (by norm_num) (by norm_num) (by norm_num) (by decide +kernel)

theorem hot_3000_hi_y : (0.02491275353295790500173303 : ℝ) ≤ Real.log 1.02522566930476643 ∧ Real.log 1.02522566930476643 ≤ 0.02491275353295790500173306 :=
  log_bounds 0 7 1.02522566930476643 0.02491275353295790500173303 0.02491275353295790500173306 (by norm_num) (by norm_num) (by norm_num) (by decide +kernel)

theorem hot_3000_lo : (1.02522566930476639 : ℝ) ≤ (1.00715611458189134 : ℝ) ^ (1.401 / 0.401 : ℝ) := by
  have a := hot_3000_lo_x.1; have b := hot_3000_lo_y.2
  exact ge_rpow (by norm_num) (by norm_num) (by linarith)

theorem hot_3000_hi : (1.00715611458189135 : ℝ) ^ (1.401 / 0.401 : ℝ) ≤ 1.02522566930476643 := by
  have a := hot_3000_hi_x.2; have b := hot_3000_hi_y.1
  exact rpow_le (by norm_num) (by norm_num) (by linarith)

theorem hot_4000_lo_x : (0.00949625362638808596181936 : ℝ) ≤ Real.log 1.00954148610918846 ∧ Real.log 1.00954148610918846 ≤ 0.00949625362638808596181939 :=
  log_bounds 0 6 1.00954148610918846 0.00949625362638808596181936 0.00949625362638808596181939 (by norm_num) (by norm_num) (by norm_num) (by decide +kernel)

theorem hot_4000_lo_y : (0.03317768411613393297118873 : ℝ) ≤ Real.log 1.03373420107176211 ∧ Real.log 1.03373420107176211 ≤ 0.03317768411613393297118876 :=
  log_bounds 0 8 1.03373420107176211 0.03317768411613393297118873 0.03317768411613393297118876 (by norm_num) (by norm_num) (by norm_num) (by decide +kernel)

theorem hot_4000_hi_x : (0.00949625362638809586730629 : ℝ) ≤ Real.log 1.00954148610918847 ∧ Real.log 1.00954148610918847 ≤ 0.00949625362638809586730632 :=
  log_bounds 0 6 1.00954148610918847 0.00949625362638809586730629 0.00949625362638809586730632 (by norm_num) (by norm_num) (by norm_num) (by decide +kernel)

theorem hot_4000_hi_y : (0.03317768411613397166585508 : ℝ) ≤ Real.log 1.03373420107176215 ∧ Real.log 1.03373420107176215 ≤ 0.03317768411613397166585511 :=
  log_bounds 0 8 1.03373420107176215 0.03317768411613397166585508 0.03317768411613397166585511 (by norm_num) (by norm_num) (by norm_num) (by decide +kernel)

theorem hot_4000_lo : (1.03373420107176211 : ℝ) ≤ (1.00954148610918846 : ℝ) ^ (1.401 / 0.401 : ℝ) := by
  have a := hot_4000_lo_x.1; have b := hot_4000_lo_y.2
  exact ge_rpow (by norm_num) (by norm_num) (by linarith)

theorem hot_4000_hi : (1.00954148610918847 : ℝ) ^ (1.401 / 0.401 : ℝ) ≤ 1.03373420107176215 := by
  have a := hot_4000_hi_x.2; have b := hot_4000_hi_y.1
  exact rpow_le (by norm_num) (by norm_num) (by linarith)

theorem hot_5000_lo_x : (0.01185629319054430440636393 : ℝ) ≤ Real.log 1.01192685763648557 ∧ Real.log 1.01192685763648557 ≤ 0.01185629319054430440636396 :=
  log_bounds 0 6 1.01192685763648557 0.01185629319054430440636393 0.01185629319054430440636396 (by norm_num) (by norm_num) (by norm_num) (by decide +kernel)

theorem hot_5000_lo_y : (0.04142310912706376635082344 : ℝ) ≤ Real.log 1.04229301595041702 ∧ Real.log 1.04229301595041702 ≤ 0.04142310912706376635082347 :=
  log_bounds 0 8 1.04229301595041702 0.04142310912706376635082344 0.04142310912706376635082347 (by norm_num) (by norm_num) (by norm_num) (by decide +kernel)

theorem hot_5000_hi_x : (0.01185629319054431428850109 : ℝ) ≤ Real.log 1.01192685763648558 ∧ Real.log 1.01192685763648558 ≤ 0.01185629319054431428850112 :=
  log_bounds 0 6 1.01192685763648558 0.01185629319054431428850109 0.01185629319054431428850112 (by norm_num) (by norm_num) (by norm_num) (by decide +kernel)

theorem hot_5000_hi_y : (0.04142310912706380472774757 : ℝ) ≤ Real.log 1.04229301595041706 ∧ Real.log 1.04229301595041706 ≤ 0.0414231091270638047277476 :=
  log_bounds 0 8 1.04229301595041706 0.04142310912706380472774757 0.0414231091270638047277476 (by norm_num) (by norm_num) (by norm_num) (by decide +kernel)

theorem hot_5000_lo : (1.04229301595041702 : ℝ) ≤ (1.01192685763648557 : ℝ) ^ (1.401 / 0.401 : ℝ) := by
  have a := hot_5000_lo_x.1; have b := hot_5000_lo_y.2
  exact ge_rpow (by norm_num) (by norm_num) (by linarith)

theorem hot_5000_hi : (1.01192685763648558 : ℝ) ^ (1.401 / 0.401 : ℝ) ≤ 1.04229301595041706 := by
  have a := hot_5000_hi_x.2; have b := hot_5000_hi_y.1
  exact rpow_le (by norm_num) (by norm_num) (by linarith)

end Verif.ReadmeNum
