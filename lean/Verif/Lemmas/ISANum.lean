import Verif.Lemmas.LogBounds

/-
Generated: logarithms of the constants that occur at the ISA layer boundaries, bracketed to 26 digits.
Each bracket is checked by `LogB.chk` in the kernel.
-/

namespace Verif.ISANum
open Verif.LogB

theorem log_U1_11 : (1.90779135028560836116252727 : ℝ) ≤ Real.log 6.73819005 ∧ Real.log 6.73819005 ≤ 1.9077913502856083611625273 :=
  log_bounds 2 24 6.73819005 1.90779135028560836116252727 1.9077913502856083611625273
    (by norm_num) (by norm_num) (by norm_num) (by decide +kernel)

theorem log_U1_11p : (1.90778985016910724858692994 : ℝ) ≤ Real.log 6.7381799419375 ∧ Real.log 6.7381799419375 ≤ 1.90778985016910724858692997 :=
  log_bounds 2 24 6.7381799419375 1.90778985016910724858692994 1.90778985016910724858692997
    (by norm_num) (by norm_num) (by norm_num) (by decide +kernel)

theorem log_V1_11 : (-0.23751324510706128239197398 : ℝ) ≤ Real.log 0.788586446 ∧ Real.log 0.788586446 ≤ (-0.23751324510706128239197395) :=
  log_bounds (-1) 22 0.788586446 (-0.23751324510706128239197398) (-0.23751324510706128239197395)
    (by norm_num) (by norm_num) (by norm_num) (by decide +kernel)

theorem log_V1_11p : (-0.23751474522362212065785218 : ℝ) ≤ Real.log 0.7885852630293 ∧ Real.log 0.7885852630293 ≤ (-0.23751474522362212065785215) :=
  log_bounds (-1) 22 0.7885852630293 (-0.23751474522362212065785218) (-0.23751474522362212065785215)
    (by norm_num) (by norm_num) (by norm_num) (by decide +kernel)

theorem log_U3_20m : (-0.2519648964264114656481725 : ℝ) ≤ Real.log 0.777272022615695 ∧ Real.log 0.777272022615695 ≤ (-0.25196489642641146564817247) :=
  log_bounds (-1) 21 0.777272022615695 (-0.2519648964264114656481725) (-0.25196489642641146564817247)
    (by norm_num) (by norm_num) (by norm_num) (by decide +kernel)

theorem log_U3_20 : (-0.25196466563940372471742257 : ℝ) ≤ Real.log 0.777272202 ∧ Real.log 0.777272202 ≤ (-0.25196466563940372471742254) :=
  log_bounds (-1) 21 0.777272202 (-0.25196466563940372471742257) (-0.25196466563940372471742254)
    (by norm_num) (by norm_num) (by norm_num) (by decide +kernel)

theorem log_U3_20p : (-0.25196443485244924641732234 : ℝ) ≤ Real.log 0.777272381384305 ∧ Real.log 0.777272381384305 ≤ (-0.25196443485244924641732231) :=
  log_bounds (-1) 21 0.777272381384305 (-0.25196443485244924641732234) (-0.25196443485244924641732231)
    (by norm_num) (by norm_num) (by norm_num) (by decide +kernel)

theorem log_U3_32 : (-0.19805536429079500853798129 : ℝ) ≤ Real.log 0.8203244352 ∧ Real.log 0.8203244352 ≤ (-0.19805536429079500853798126) :=
  log_bounds (-1) 23 0.8203244352 (-0.19805536429079500853798129) (-0.19805536429079500853798126)
    (by norm_num) (by norm_num) (by norm_num) (by decide +kernel)

theorem log_U3_32p : (-0.19805514561599063939609102 : ℝ) ≤ Real.log 0.820324614584305 ∧ Real.log 0.820324614584305 ≤ (-0.19805514561599063939609099) :=
  log_bounds (-1) 23 0.820324614584305 (-0.19805514561599063939609102) (-0.19805514561599063939609099)
    (by norm_num) (by norm_num) (by norm_num) (by decide +kernel)

theorem log_U4_32 : (-0.55455495508040903394739428 : ℝ) ≤ Real.log 0.574327806 ∧ Real.log 0.574327806 ≤ (-0.55455495508040903394739425) :=
  log_bounds (-1) 12 0.574327806 (-0.55455495508040903394739428) (-0.55455495508040903394739425)
    (by norm_num) (by norm_num) (by norm_num) (by decide +kernel)

theorem log_U4_32e : (-0.55455495508039678815687791 : ℝ) ≤ Real.log 0.574327806000007033098 ∧ Real.log 0.574327806000007033098 ≤ (-0.55455495508039678815687788) :=
  log_bounds (-1) 12 0.574327806000007033098 (-0.55455495508039678815687791) (-0.55455495508039678815687788)
    (by norm_num) (by norm_num) (by norm_num) (by decide +kernel)

theorem log_U4_32m : (-0.55455556737012230154762487 : ℝ) ≤ Real.log 0.5743274543451 ∧ Real.log 0.5743274543451 ≤ (-0.55455556737012230154762484) :=
  log_bounds (-1) 12 0.5743274543451 (-0.55455556737012230154762487) (-0.55455556737012230154762484)
    (by norm_num) (by norm_num) (by norm_num) (by decide +kernel)

theorem log_U4_47m : (-0.38592144912800225329522731 : ℝ) ≤ Real.log 0.6798239243451 ∧ Real.log 0.6798239243451 ≤ (-0.38592144912800225329522728) :=
  log_bounds (-1) 17 0.6798239243451 (-0.38592144912800225329522731) (-0.38592144912800225329522728)
    (by norm_num) (by norm_num) (by norm_num) (by decide +kernel)

theorem log_U4_47 : (-0.38592093185463711258850344 : ℝ) ≤ Real.log 0.679824276 ∧ Real.log 0.679824276 ≤ (-0.38592093185463711258850341) :=
  log_bounds (-1) 17 0.679824276 (-0.38592093185463711258850344) (-0.38592093185463711258850341)
    (by norm_num) (by norm_num) (by norm_num) (by decide +kernel)

theorem log_U4_47j : (-0.38592103530928873499332002 : ℝ) ≤ Real.log 0.67982420566902 ∧ Real.log 0.67982420566902 ≤ (-0.38592103530928873499331999) :=
  log_bounds (-1) 17 0.67982420566902 (-0.38592103530928873499332002) (-0.38592103530928873499331999)
    (by norm_num) (by norm_num) (by norm_num) (by decide +kernel)

theorem log_U1_0 : (2.19298937707884627239743501 : ℝ) ≤ Real.log 8.9619638 ∧ Real.log 8.9619638 ≤ 2.19298937707884627239743504 :=
  log_bounds 3 11 8.9619638 2.19298937707884627239743501 2.19298937707884627239743504
    (by norm_num) (by norm_num) (by norm_num) (by decide +kernel)

theorem log_V3_20m : (0.06910680751599557872965826 : ℝ) ≤ Real.log 1.0715506527 ∧ Real.log 1.0715506527 ≤ 0.06910680751599557872965829 :=
  log_bounds 0 10 1.0715506527 0.06910680751599557872965826 0.06910680751599557872965829
    (by norm_num) (by norm_num) (by norm_num) (by decide +kernel)

theorem log_V3_20 : (0.06910703830300582417382195 : ℝ) ≤ Real.log 1.0715509 ∧ Real.log 1.0715509 ≤ 0.06910703830300582417382198 :=
  log_bounds 0 10 1.0715509 0.06910703830300582417382195 0.06910703830300582417382198
    (by norm_num) (by norm_num) (by norm_num) (by decide +kernel)

theorem log_V3_20p : (0.06910726908996280698617994 : ℝ) ≤ Real.log 1.0715511473 ∧ Real.log 1.0715511473 ≤ 0.06910726908996280698617997 :=
  log_bounds 0 10 1.0715511473 0.06910726908996280698617994 0.06910726908996280698617997
    (by norm_num) (by norm_num) (by norm_num) (by decide +kernel)

theorem log_V3_32 : (0.12301634022115160330992162 : ℝ) ≤ Real.log 1.1309029 ∧ Real.log 1.1309029 ≤ 0.12301634022115160330992165 :=
  log_bounds 0 12 1.1309029 0.12301634022115160330992162 0.12301634022115160330992165
    (by norm_num) (by norm_num) (by norm_num) (by decide +kernel)

theorem log_V3_32p : (0.12301655889595822097899576 : ℝ) ≤ Real.log 1.1309031473 ∧ Real.log 1.1309031473 ≤ 0.12301655889595822097899579 :=
  log_bounds 0 12 1.1309031473 0.12301655889595822097899576 0.12301655889595822097899579
    (by norm_num) (by norm_num) (by norm_num) (by decide +kernel)

theorem log_V4_32 : (0.3276723120397860558952769 : ℝ) ≤ Real.log 1.387734154 ∧ Real.log 1.387734154 ≤ 0.32767231203978605589527693 :=
  log_bounds 0 18 1.387734154 0.3276723120397860558952769 0.32767231203978605589527693
    (by norm_num) (by norm_num) (by norm_num) (by decide +kernel)

theorem log_V4_32e : (0.32767231203979830168597897 : ℝ) ≤ Real.log 1.387734154000016993902 ∧ Real.log 1.387734154000016993902 ≤ 0.327672312039798301685979 :=
  log_bounds 0 18 1.387734154000016993902 0.32767231203979830168597897 0.327672312039798301685979
    (by norm_num) (by norm_num) (by norm_num) (by decide +kernel)

theorem log_V4_32m : (0.32767169975006350301569809 : ℝ) ≤ Real.log 1.3877333043049 ∧ Real.log 1.3877333043049 ≤ 0.32767169975006350301569812 :=
  log_bounds 0 18 1.3877333043049 0.32767169975006350301569809 0.32767169975006350301569812
    (by norm_num) (by norm_num) (by norm_num) (by decide +kernel)

theorem log_V4_47m : (0.49630582034549618954791653 : ℝ) ≤ Real.log 1.6426418343049 ∧ Real.log 1.6426418343049 ≤ 0.49630582034549618954791656 :=
  log_bounds 0 23 1.6426418343049 0.49630582034549618954791653 0.49630582034549618954791656
    (by norm_num) (by norm_num) (by norm_num) (by decide +kernel)

theorem log_V4_47 : (0.49630633761886795732040306 : ℝ) ≤ Real.log 1.642642684 ∧ Real.log 1.642642684 ≤ 0.49630633761886795732040309 :=
  log_bounds 0 23 1.642642684 0.49630633761886795732040306 0.49630633761886795732040309
    (by norm_num) (by norm_num) (by norm_num) (by decide +kernel)

theorem log_V4_47j : (0.49630623416421500950298243 : ℝ) ≤ Real.log 1.64264251406098 ∧ Real.log 1.64264251406098 ≤ 0.49630623416421500950298246 :=
  log_bounds 0 23 1.64264251406098 0.49630623416421500950298243 0.49630623416421500950298246
    (by norm_num) (by norm_num) (by norm_num) (by decide +kernel)

theorem log_V1_0 : (0.04768479156541070718660731 : ℝ) ≤ Real.log 1.04884 ∧ Real.log 1.04884 ≤ 0.04768479156541070718660734 :=
  log_bounds 0 9 1.04884 0.04768479156541070718660731 0.04768479156541070718660734
    (by norm_num) (by norm_num) (by norm_num) (by decide +kernel)

theorem log_F2 : (11.761693877123175070496441 : ℝ) ≤ Real.log 128244.5 ∧ Real.log 128244.5 ≤ 11.76169387712317507049644103 :=
  log_bounds 16 29 128244.5 11.761693877123175070496441 11.76169387712317507049644103
    (by norm_num) (by norm_num) (by norm_num) (by decide +kernel)

theorem log_F5 : (10.64133129178884799867724621 : ℝ) ≤ Real.log 41828.42 ∧ Real.log 41828.42 ≤ 10.64133129178884799867724624 :=
  log_bounds 15 15 41828.42 10.64133129178884799867724621 10.64133129178884799867724624
    (by norm_num) (by norm_num) (by norm_num) (by decide +kernel)

theorem log_M2 : (0.72374427853732288592017018 : ℝ) ≤ Real.log 2.06214 ∧ Real.log 2.06214 ≤ 0.72374427853732288592017021 :=
  log_bounds 1 8 2.06214 0.72374427853732288592017018 0.72374427853732288592017021
    (by norm_num) (by norm_num) (by norm_num) (by decide +kernel)

theorem log_M5 : (-0.61916161732646105101499106 : ℝ) ≤ Real.log 0.53839563 ∧ Real.log 0.53839563 ≤ (-0.61916161732646105101499103) :=
  log_bounds (-1) 10 0.53839563 (-0.61916161732646105101499106) (-0.61916161732646105101499103)
    (by norm_num) (by norm_num) (by norm_num) (by decide +kernel)

theorem log_R : (5.65966641482180674639134688 : ℝ) ≤ Real.log 287.05287 ∧ Real.log 287.05287 ≤ 5.65966641482180674639134691 :=
  log_bounds 8 11 287.05287 5.65966641482180674639134688 5.65966641482180674639134691
    (by norm_num) (by norm_num) (by norm_num) (by decide +kernel)

theorem log_q11 : (2.14530458240237188925956391 : ℝ) ≤ Real.log 8.544643389 ∧ Real.log 8.544643389 ≤ 2.14530458240237188925956394 :=
  log_bounds 3 9 8.544643389 2.14530458240237188925956391 2.14530458240237188925956394
    (by norm_num) (by norm_num) (by norm_num) (by decide +kernel)

theorem log_q12 : (2.14530459539296660757379298 : ℝ) ≤ Real.log 8.5446435 ∧ Real.log 8.5446435 ≤ 2.14530459539296660757379301 :=
  log_bounds 3 9 8.5446435 2.14530459539296660757379298 2.14530459539296660757379301
    (by norm_num) (by norm_num) (by norm_num) (by decide +kernel)

theorem log_r11 : (-5.6157963932947512205245295 : ℝ) ≤ Real.log 0.00363990974382 ∧ Real.log 0.00363990974382 ≤ (-5.61579639329475122052452947) :=
  log_bounds (-9) 27 0.00363990974382 (-5.6157963932947512205245295) (-5.61579639329475122052452947)
    (by norm_num) (by norm_num) (by norm_num) (by decide +kernel)

theorem log_r12 : (-5.6157963841736459774733567 : ℝ) ≤ Real.log 0.00363990977702 ∧ Real.log 0.00363990977702 ≤ (-5.61579638417364597747335667) :=
  log_bounds (-9) 27 0.00363990977702 (-5.6157963841736459774733567) (-5.61579638417364597747335667)
    (by norm_num) (by norm_num) (by norm_num) (by decide +kernel)

theorem log_q31 : (-0.32107170455995636056560806 : ℝ) ≤ Real.log 0.7253712367 ∧ Real.log 0.7253712367 ≤ (-0.32107170455995636056560803) :=
  log_bounds (-1) 19 0.7253712367 (-0.32107170455995636056560806) (-0.32107170455995636056560803)
    (by norm_num) (by norm_num) (by norm_num) (by decide +kernel)

theorem log_q32 : (-0.3210717038706541460163081 : ℝ) ≤ Real.log 0.7253712372 ∧ Real.log 0.7253712372 ≤ (-0.32107170387065414601630807) :=
  log_bounds (-1) 19 0.7253712372 (-0.3210717038706541460163081) (-0.32107170387065414601630807)
    (by norm_num) (by norm_num) (by norm_num) (by decide +kernel)

theorem log_r3 : (-5.3091761098829125897243426 : ℝ) ≤ Real.log 0.004946 ∧ Real.log 0.004946 ≤ (-5.30917610988291258972434257) :=
  log_bounds (-8) 15 0.004946 (-5.3091761098829125897243426) (-5.30917610988291258972434257)
    (by norm_num) (by norm_num) (by norm_num) (by decide +kernel)

theorem log_q41 : (-0.88222726950671721486675286 : ℝ) ≤ Real.log 0.4138601064 ∧ Real.log 0.4138601064 ≤ (-0.88222726950671721486675283) :=
  log_bounds (-2) 23 0.4138601064 (-0.88222726950671721486675286) (-0.88222726950671721486675283)
    (by norm_num) (by norm_num) (by norm_num) (by decide +kernel)

theorem log_q42 : (-0.88222726709044180361618857 : ℝ) ≤ Real.log 0.4138601074 ∧ Real.log 0.4138601074 ≤ (-0.88222726709044180361618854) :=
  log_bounds (-2) 23 0.4138601074 (-0.88222726709044180361618857) (-0.88222726709044180361618854)
    (by norm_num) (by norm_num) (by norm_num) (by decide +kernel)

theorem log_r41 : (-5.10452013806588795555670265 : ℝ) ≤ Real.log 0.00606925061884 ∧ Real.log 0.00606925061884 ≤ (-5.10452013806588795555670262) :=
  log_bounds (-8) 21 0.00606925061884 (-5.10452013806588795555670265) (-5.10452013806588795555670262)
    (by norm_num) (by norm_num) (by norm_num) (by decide +kernel)

theorem log_r42 : (-5.10452013562407084952020104 : ℝ) ≤ Real.log 0.00606925063366 ∧ Real.log 0.00606925063366 ≤ (-5.10452013562407084952020101) :=
  log_bounds (-8) 21 0.00606925063366 (-5.10452013562407084952020104) (-5.10452013562407084952020101)
    (by norm_num) (by norm_num) (by norm_num) (by decide +kernel)

theorem log_T2 : (5.37828314818591841389816454 : ℝ) ≤ Real.log 216.65 ∧ Real.log 216.65 ≤ 5.37828314818591841389816457 :=
  log_bounds 7 24 216.65 5.37828314818591841389816454 5.37828314818591841389816457
    (by norm_num) (by norm_num) (by norm_num) (by decide +kernel)

theorem log_T5 : (5.60082647324298690007522504 : ℝ) ≤ Real.log 270.65 ∧ Real.log 270.65 ≤ 5.60082647324298690007522507 :=
  log_bounds 8 9 270.65 5.60082647324298690007522504 5.60082647324298690007522507
    (by norm_num) (by norm_num) (by norm_num) (by decide +kernel)

theorem log_p1 : (10.02712015712317498383347787 : ℝ) ≤ Real.log 22632.000999016603 ∧ Real.log 22632.000999016603 ≤ 10.0271201571231749838334779 :=
  log_bounds 14 18 22632.000999016603 10.02712015712317498383347787 10.0271201571231749838334779
    (by norm_num) (by norm_num) (by norm_num) (by decide +kernel)

theorem log_p2 : (8.60792380053606287326609962 : ℝ) ≤ Real.log 5474.8699475808515 ∧ Real.log 5474.8699475808515 ≤ 8.60792380053606287326609965 :=
  log_bounds 12 17 5474.8699475808515 8.60792380053606287326609962 8.60792380053606287326609965
    (by norm_num) (by norm_num) (by norm_num) (by decide +kernel)

theorem log_p3 : (6.76620763562437720525164216 : ℝ) ≤ Real.log 868.01381950678511 ∧ Real.log 868.01381950678511 ≤ 6.76620763562437720525164219 :=
  log_bounds 9 24 868.01381950678511 6.76620763562437720525164216 6.76620763562437720525164219
    (by norm_num) (by norm_num) (by norm_num) (by decide +kernel)

theorem log_p4 : (4.70868297178884878155474192 : ℝ) ≤ Real.log 110.90599734942646 ∧ Real.log 110.90599734942646 ≤ 4.70868297178884878155474195 :=
  log_bounds 6 25 110.90599734942646 4.70868297178884878155474192 4.70868297178884878155474195
    (by norm_num) (by norm_num) (by norm_num) (by decide +kernel)

theorem log_d1 : (-1.01082944146267719367835123 : ℝ) ≤ Real.log 0.36391700650017816 ∧ Real.log 0.36391700650017816 ≤ (-1.0108294414626771936783512) :=
  log_bounds (-2) 19 0.36391700650017816 (-1.01082944146267719367835123) (-1.0108294414626771936783512)
    (by norm_num) (by norm_num) (by norm_num) (by decide +kernel)

theorem log_d2 : (-2.4300258531829393037201204 : ℝ) ≤ Real.log 0.088034556579455497 ∧ Real.log 0.088034556579455497 ≤ (-2.43002585318293930372012037) :=
  log_bounds (-4) 18 0.088034556579455497 (-2.4300258531829393037201204) (-2.43002585318293930372012037)
    (by norm_num) (by norm_num) (by norm_num) (by decide +kernel)

theorem log_d3 : (-4.32565101441170825689699191 : ℝ) ≤ Real.log 0.013224937668421609 ∧ Real.log 0.013224937668421609 ≤ (-4.32565101441170825689699188) :=
  log_bounds (-7) 24 0.013224937668421609 (-4.32565101441170825689699191) (-4.32565101441170825689699188)
    (by norm_num) (by norm_num) (by norm_num) (by decide +kernel)

theorem log_d4 : (-6.5518099373264602054647026 : ℝ) ≤ Real.log 0.0014275295197313882 ∧ Real.log 0.0014275295197313882 ≤ (-6.55180993732646020546470257) :=
  log_bounds (-10) 19 0.0014275295197313882 (-6.5518099373264602054647026) (-6.55180993732646020546470257)
    (by norm_num) (by norm_num) (by norm_num) (by decide +kernel)

end Verif.ISANum
