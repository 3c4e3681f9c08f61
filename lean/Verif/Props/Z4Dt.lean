import Verif.Model.Z4Rhs

/-!
# What the right hand sides of the Z4 equations depend on

The values computed before the linear step do not depend on `dt`: one lemma for each assignment.
-/

namespace Sgrid.Z4
set_option linter.unusedSimpArgs false
set_option linter.unusedSectionVars false
variable {𝔽 : Type} [Field 𝔽] (c : Z4Args 𝔽) (d : 𝔽)

theorem K0_dt : K0 { c with dt := d } = K0 c := rfl
theorem psi_dt : psi { c with dt := d } = psi c := rfl
theorem g11_dt : g11 { c with dt := d } = g11 c := rfl
theorem g12_dt : g12 { c with dt := d } = g12 c := rfl
theorem g13_dt : g13 { c with dt := d } = g13 c := rfl
theorem g22_dt : g22 { c with dt := d } = g22 c := rfl
theorem g23_dt : g23 { c with dt := d } = g23 c := rfl
theorem g33_dt : g33 { c with dt := d } = g33 c := rfl
theorem K11_dt : K11 { c with dt := d } = K11 c := rfl
theorem K12_dt : K12 { c with dt := d } = K12 c := rfl
theorem K13_dt : K13 { c with dt := d } = K13 c := rfl
theorem K22_dt : K22 { c with dt := d } = K22 c := rfl
theorem K23_dt : K23 { c with dt := d } = K23 c := rfl
theorem K33_dt : K33 { c with dt := d } = K33 c := rfl
theorem Theta_dt : Theta { c with dt := d } = Theta c := rfl
theorem Z1_dt : Z1 { c with dt := d } = Z1 c := rfl
theorem Z2_dt : Z2 { c with dt := d } = Z2 c := rfl
theorem Z3_dt : Z3 { c with dt := d } = Z3 c := rfl
theorem alpha_dt : alpha { c with dt := d } = alpha c := rfl
theorem beta1_dt : beta1 { c with dt := d } = beta1 c := rfl
theorem beta2_dt : beta2 { c with dt := d } = beta2 c := rfl
theorem beta3_dt : beta3 { c with dt := d } = beta3 c := rfl
theorem pg11_dt : pg11 { c with dt := d } = pg11 c := rfl
theorem pg12_dt : pg12 { c with dt := d } = pg12 c := rfl
theorem pg13_dt : pg13 { c with dt := d } = pg13 c := rfl
theorem pg22_dt : pg22 { c with dt := d } = pg22 c := rfl
theorem pg23_dt : pg23 { c with dt := d } = pg23 c := rfl
theorem pg33_dt : pg33 { c with dt := d } = pg33 c := rfl
theorem pK11_dt : pK11 { c with dt := d } = pK11 c := rfl
theorem pK12_dt : pK12 { c with dt := d } = pK12 c := rfl
theorem pK13_dt : pK13 { c with dt := d } = pK13 c := rfl
theorem pK22_dt : pK22 { c with dt := d } = pK22 c := rfl
theorem pK23_dt : pK23 { c with dt := d } = pK23 c := rfl
theorem pK33_dt : pK33 { c with dt := d } = pK33 c := rfl
theorem pTheta_dt : pTheta { c with dt := d } = pTheta c := rfl
theorem pZ1_dt : pZ1 { c with dt := d } = pZ1 c := rfl
theorem pZ2_dt : pZ2 { c with dt := d } = pZ2 c := rfl
theorem pZ3_dt : pZ3 { c with dt := d } = pZ3 c := rfl
theorem palpha_dt : palpha { c with dt := d } = palpha c := rfl
theorem pbeta1_dt : pbeta1 { c with dt := d } = pbeta1 c := rfl
theorem pbeta2_dt : pbeta2 { c with dt := d } = pbeta2 c := rfl
theorem pbeta3_dt : pbeta3 { c with dt := d } = pbeta3 c := rfl
theorem pB1_dt : pB1 { c with dt := d } = pB1 c := rfl
theorem pB2_dt : pB2 { c with dt := d } = pB2 c := rfl
theorem pB3_dt : pB3 { c with dt := d } = pB3 c := rfl
theorem dg111_dt : dg111 { c with dt := d } = dg111 c := rfl
theorem dg112_dt : dg112 { c with dt := d } = dg112 c := rfl
theorem dg113_dt : dg113 { c with dt := d } = dg113 c := rfl
theorem dg121_dt : dg121 { c with dt := d } = dg121 c := rfl
theorem dg122_dt : dg122 { c with dt := d } = dg122 c := rfl
theorem dg123_dt : dg123 { c with dt := d } = dg123 c := rfl
theorem dg131_dt : dg131 { c with dt := d } = dg131 c := rfl
theorem dg132_dt : dg132 { c with dt := d } = dg132 c := rfl
theorem dg133_dt : dg133 { c with dt := d } = dg133 c := rfl
theorem dg221_dt : dg221 { c with dt := d } = dg221 c := rfl
theorem dg222_dt : dg222 { c with dt := d } = dg222 c := rfl
theorem dg223_dt : dg223 { c with dt := d } = dg223 c := rfl
theorem dg231_dt : dg231 { c with dt := d } = dg231 c := rfl
theorem dg232_dt : dg232 { c with dt := d } = dg232 c := rfl
theorem dg233_dt : dg233 { c with dt := d } = dg233 c := rfl
theorem dg331_dt : dg331 { c with dt := d } = dg331 c := rfl
theorem dg332_dt : dg332 { c with dt := d } = dg332 c := rfl
theorem dg333_dt : dg333 { c with dt := d } = dg333 c := rfl
theorem ddg1111_dt : ddg1111 { c with dt := d } = ddg1111 c := rfl
theorem ddg1112_dt : ddg1112 { c with dt := d } = ddg1112 c := rfl
theorem ddg1113_dt : ddg1113 { c with dt := d } = ddg1113 c := rfl
theorem ddg1122_dt : ddg1122 { c with dt := d } = ddg1122 c := rfl
theorem ddg1123_dt : ddg1123 { c with dt := d } = ddg1123 c := rfl
theorem ddg1133_dt : ddg1133 { c with dt := d } = ddg1133 c := rfl
theorem ddg1211_dt : ddg1211 { c with dt := d } = ddg1211 c := rfl
theorem ddg1212_dt : ddg1212 { c with dt := d } = ddg1212 c := rfl
theorem ddg1213_dt : ddg1213 { c with dt := d } = ddg1213 c := rfl
theorem ddg1222_dt : ddg1222 { c with dt := d } = ddg1222 c := rfl
theorem ddg1223_dt : ddg1223 { c with dt := d } = ddg1223 c := rfl
theorem ddg1233_dt : ddg1233 { c with dt := d } = ddg1233 c := rfl
theorem ddg1311_dt : ddg1311 { c with dt := d } = ddg1311 c := rfl
theorem ddg1312_dt : ddg1312 { c with dt := d } = ddg1312 c := rfl
theorem ddg1313_dt : ddg1313 { c with dt := d } = ddg1313 c := rfl
theorem ddg1322_dt : ddg1322 { c with dt := d } = ddg1322 c := rfl
theorem ddg1323_dt : ddg1323 { c with dt := d } = ddg1323 c := rfl
theorem ddg1333_dt : ddg1333 { c with dt := d } = ddg1333 c := rfl
theorem ddg2211_dt : ddg2211 { c with dt := d } = ddg2211 c := rfl
theorem ddg2212_dt : ddg2212 { c with dt := d } = ddg2212 c := rfl
theorem ddg2213_dt : ddg2213 { c with dt := d } = ddg2213 c := rfl
theorem ddg2222_dt : ddg2222 { c with dt := d } = ddg2222 c := rfl
theorem ddg2223_dt : ddg2223 { c with dt := d } = ddg2223 c := rfl
theorem ddg2233_dt : ddg2233 { c with dt := d } = ddg2233 c := rfl
theorem ddg2311_dt : ddg2311 { c with dt := d } = ddg2311 c := rfl
theorem ddg2312_dt : ddg2312 { c with dt := d } = ddg2312 c := rfl
theorem ddg2313_dt : ddg2313 { c with dt := d } = ddg2313 c := rfl
theorem ddg2322_dt : ddg2322 { c with dt := d } = ddg2322 c := rfl
theorem ddg2323_dt : ddg2323 { c with dt := d } = ddg2323 c := rfl
theorem ddg2333_dt : ddg2333 { c with dt := d } = ddg2333 c := rfl
theorem ddg3311_dt : ddg3311 { c with dt := d } = ddg3311 c := rfl
theorem ddg3312_dt : ddg3312 { c with dt := d } = ddg3312 c := rfl
theorem ddg3313_dt : ddg3313 { c with dt := d } = ddg3313 c := rfl
theorem ddg3322_dt : ddg3322 { c with dt := d } = ddg3322 c := rfl
theorem ddg3323_dt : ddg3323 { c with dt := d } = ddg3323 c := rfl
theorem ddg3333_dt : ddg3333 { c with dt := d } = ddg3333 c := rfl
theorem dK111_dt : dK111 { c with dt := d } = dK111 c := rfl
theorem dK112_dt : dK112 { c with dt := d } = dK112 c := rfl
theorem dK113_dt : dK113 { c with dt := d } = dK113 c := rfl
theorem dK121_dt : dK121 { c with dt := d } = dK121 c := rfl
theorem dK122_dt : dK122 { c with dt := d } = dK122 c := rfl
theorem dK123_dt : dK123 { c with dt := d } = dK123 c := rfl
theorem dK131_dt : dK131 { c with dt := d } = dK131 c := rfl
theorem dK132_dt : dK132 { c with dt := d } = dK132 c := rfl
theorem dK133_dt : dK133 { c with dt := d } = dK133 c := rfl
theorem dK221_dt : dK221 { c with dt := d } = dK221 c := rfl
theorem dK222_dt : dK222 { c with dt := d } = dK222 c := rfl
theorem dK223_dt : dK223 { c with dt := d } = dK223 c := rfl
theorem dK231_dt : dK231 { c with dt := d } = dK231 c := rfl
theorem dK232_dt : dK232 { c with dt := d } = dK232 c := rfl
theorem dK233_dt : dK233 { c with dt := d } = dK233 c := rfl
theorem dK331_dt : dK331 { c with dt := d } = dK331 c := rfl
theorem dK332_dt : dK332 { c with dt := d } = dK332 c := rfl
theorem dK333_dt : dK333 { c with dt := d } = dK333 c := rfl
theorem dTheta1_dt : dTheta1 { c with dt := d } = dTheta1 c := rfl
theorem dTheta2_dt : dTheta2 { c with dt := d } = dTheta2 c := rfl
theorem dTheta3_dt : dTheta3 { c with dt := d } = dTheta3 c := rfl
theorem dZ11_dt : dZ11 { c with dt := d } = dZ11 c := rfl
theorem dZ12_dt : dZ12 { c with dt := d } = dZ12 c := rfl
theorem dZ13_dt : dZ13 { c with dt := d } = dZ13 c := rfl
theorem dZ21_dt : dZ21 { c with dt := d } = dZ21 c := rfl
theorem dZ22_dt : dZ22 { c with dt := d } = dZ22 c := rfl
theorem dZ23_dt : dZ23 { c with dt := d } = dZ23 c := rfl
theorem dZ31_dt : dZ31 { c with dt := d } = dZ31 c := rfl
theorem dZ32_dt : dZ32 { c with dt := d } = dZ32 c := rfl
theorem dZ33_dt : dZ33 { c with dt := d } = dZ33 c := rfl
theorem dalp1_dt : dalp1 { c with dt := d } = dalp1 c := rfl
theorem dalp2_dt : dalp2 { c with dt := d } = dalp2 c := rfl
theorem dalp3_dt : dalp3 { c with dt := d } = dalp3 c := rfl
theorem ddalp11_dt : ddalp11 { c with dt := d } = ddalp11 c := rfl
theorem ddalp12_dt : ddalp12 { c with dt := d } = ddalp12 c := rfl
theorem ddalp13_dt : ddalp13 { c with dt := d } = ddalp13 c := rfl
theorem ddalp22_dt : ddalp22 { c with dt := d } = ddalp22 c := rfl
theorem ddalp23_dt : ddalp23 { c with dt := d } = ddalp23 c := rfl
theorem ddalp33_dt : ddalp33 { c with dt := d } = ddalp33 c := rfl
theorem dbeta11_dt : dbeta11 { c with dt := d } = dbeta11 c := rfl
theorem dbeta12_dt : dbeta12 { c with dt := d } = dbeta12 c := rfl
theorem dbeta13_dt : dbeta13 { c with dt := d } = dbeta13 c := rfl
theorem dbeta21_dt : dbeta21 { c with dt := d } = dbeta21 c := rfl
theorem dbeta22_dt : dbeta22 { c with dt := d } = dbeta22 c := rfl
theorem dbeta23_dt : dbeta23 { c with dt := d } = dbeta23 c := rfl
theorem dbeta31_dt : dbeta31 { c with dt := d } = dbeta31 c := rfl
theorem dbeta32_dt : dbeta32 { c with dt := d } = dbeta32 c := rfl
theorem dbeta33_dt : dbeta33 { c with dt := d } = dbeta33 c := rfl
theorem betadg11_dt : betadg11 { c with dt := d } = betadg11 c := by
  simp only [betadg11, beta1_dt, dg111_dt, beta2_dt, dg112_dt, beta3_dt, dg113_dt]
theorem betadg12_dt : betadg12 { c with dt := d } = betadg12 c := by
  simp only [betadg12, beta1_dt, dg121_dt, beta2_dt, dg122_dt, beta3_dt, dg123_dt]
theorem betadg13_dt : betadg13 { c with dt := d } = betadg13 c := by
  simp only [betadg13, beta1_dt, dg131_dt, beta2_dt, dg132_dt, beta3_dt, dg133_dt]
theorem betadg21_dt : betadg21 { c with dt := d } = betadg21 c := by
  simp only [betadg21, beta1_dt, dg121_dt, beta2_dt, dg122_dt, beta3_dt, dg123_dt]
theorem betadg22_dt : betadg22 { c with dt := d } = betadg22 c := by
  simp only [betadg22, beta1_dt, dg221_dt, beta2_dt, dg222_dt, beta3_dt, dg223_dt]
theorem betadg23_dt : betadg23 { c with dt := d } = betadg23 c := by
  simp only [betadg23, beta1_dt, dg231_dt, beta2_dt, dg232_dt, beta3_dt, dg233_dt]
theorem betadg31_dt : betadg31 { c with dt := d } = betadg31 c := by
  simp only [betadg31, beta1_dt, dg131_dt, beta2_dt, dg132_dt, beta3_dt, dg133_dt]
theorem betadg32_dt : betadg32 { c with dt := d } = betadg32 c := by
  simp only [betadg32, beta1_dt, dg231_dt, beta2_dt, dg232_dt, beta3_dt, dg233_dt]
theorem betadg33_dt : betadg33 { c with dt := d } = betadg33 c := by
  simp only [betadg33, beta1_dt, dg331_dt, beta2_dt, dg332_dt, beta3_dt, dg333_dt]
theorem betadK11_dt : betadK11 { c with dt := d } = betadK11 c := by
  simp only [betadK11, beta1_dt, dK111_dt, beta2_dt, dK112_dt, beta3_dt, dK113_dt]
theorem betadK12_dt : betadK12 { c with dt := d } = betadK12 c := by
  simp only [betadK12, beta1_dt, dK121_dt, beta2_dt, dK122_dt, beta3_dt, dK123_dt]
theorem betadK13_dt : betadK13 { c with dt := d } = betadK13 c := by
  simp only [betadK13, beta1_dt, dK131_dt, beta2_dt, dK132_dt, beta3_dt, dK133_dt]
theorem betadK21_dt : betadK21 { c with dt := d } = betadK21 c := by
  simp only [betadK21, beta1_dt, dK121_dt, beta2_dt, dK122_dt, beta3_dt, dK123_dt]
theorem betadK22_dt : betadK22 { c with dt := d } = betadK22 c := by
  simp only [betadK22, beta1_dt, dK221_dt, beta2_dt, dK222_dt, beta3_dt, dK223_dt]
theorem betadK23_dt : betadK23 { c with dt := d } = betadK23 c := by
  simp only [betadK23, beta1_dt, dK231_dt, beta2_dt, dK232_dt, beta3_dt, dK233_dt]
theorem betadK31_dt : betadK31 { c with dt := d } = betadK31 c := by
  simp only [betadK31, beta1_dt, dK131_dt, beta2_dt, dK132_dt, beta3_dt, dK133_dt]
theorem betadK32_dt : betadK32 { c with dt := d } = betadK32 c := by
  simp only [betadK32, beta1_dt, dK231_dt, beta2_dt, dK232_dt, beta3_dt, dK233_dt]
theorem betadK33_dt : betadK33 { c with dt := d } = betadK33 c := by
  simp only [betadK33, beta1_dt, dK331_dt, beta2_dt, dK332_dt, beta3_dt, dK333_dt]
theorem betadTheta_dt : betadTheta { c with dt := d } = betadTheta c := by
  simp only [betadTheta, beta1_dt, dTheta1_dt, beta2_dt, dTheta2_dt, beta3_dt, dTheta3_dt]
theorem betadZ1_dt : betadZ1 { c with dt := d } = betadZ1 c := by
  simp only [betadZ1, beta1_dt, dZ11_dt, beta2_dt, dZ12_dt, beta3_dt, dZ13_dt]
theorem betadZ2_dt : betadZ2 { c with dt := d } = betadZ2 c := by
  simp only [betadZ2, beta1_dt, dZ21_dt, beta2_dt, dZ22_dt, beta3_dt, dZ23_dt]
theorem betadZ3_dt : betadZ3 { c with dt := d } = betadZ3 c := by
  simp only [betadZ3, beta1_dt, dZ31_dt, beta2_dt, dZ32_dt, beta3_dt, dZ33_dt]
theorem betadalp_dt : betadalp { c with dt := d } = betadalp c := by
  simp only [betadalp, beta1_dt, dalp1_dt, beta2_dt, dalp2_dt, beta3_dt, dalp3_dt]
theorem detginv_dt : detginv { c with dt := d } = detginv c := by
  simp only [detginv, g12_dt, g13_dt, g23_dt, g11_dt, g22_dt, g33_dt]
theorem ginv11_dt : ginv11 { c with dt := d } = ginv11 c := by
  simp only [ginv11, detginv_dt, g22_dt, g33_dt, g23_dt]
theorem ginv12_dt : ginv12 { c with dt := d } = ginv12 c := by
  simp only [ginv12, detginv_dt, g13_dt, g23_dt, g12_dt, g33_dt]
theorem ginv13_dt : ginv13 { c with dt := d } = ginv13 c := by
  simp only [ginv13, detginv_dt, g13_dt, g22_dt, g12_dt, g23_dt]
theorem ginv22_dt : ginv22 { c with dt := d } = ginv22 c := by
  simp only [ginv22, detginv_dt, g11_dt, g33_dt, g13_dt]
theorem ginv23_dt : ginv23 { c with dt := d } = ginv23 c := by
  simp only [ginv23, detginv_dt, g12_dt, g13_dt, g11_dt, g23_dt]
theorem ginv33_dt : ginv33 { c with dt := d } = ginv33 c := by
  simp only [ginv33, detginv_dt, g11_dt, g22_dt, g12_dt]
theorem gammado111_dt : gammado111 { c with dt := d } = gammado111 c := by
  simp only [gammado111, dg111_dt]
theorem gammado112_dt : gammado112 { c with dt := d } = gammado112 c := by
  simp only [gammado112, dg112_dt]
theorem gammado113_dt : gammado113 { c with dt := d } = gammado113 c := by
  simp only [gammado113, dg113_dt]
theorem gammado122_dt : gammado122 { c with dt := d } = gammado122 c := by
  simp only [gammado122, dg122_dt, dg221_dt]
theorem gammado123_dt : gammado123 { c with dt := d } = gammado123 c := by
  simp only [gammado123, dg123_dt, dg132_dt, dg231_dt]
theorem gammado133_dt : gammado133 { c with dt := d } = gammado133 c := by
  simp only [gammado133, dg133_dt, dg331_dt]
theorem gammado211_dt : gammado211 { c with dt := d } = gammado211 c := by
  simp only [gammado211, dg112_dt, dg121_dt]
theorem gammado212_dt : gammado212 { c with dt := d } = gammado212 c := by
  simp only [gammado212, dg221_dt]
theorem gammado213_dt : gammado213 { c with dt := d } = gammado213 c := by
  simp only [gammado213, dg123_dt, dg132_dt, dg231_dt]
theorem gammado222_dt : gammado222 { c with dt := d } = gammado222 c := by
  simp only [gammado222, dg222_dt]
theorem gammado223_dt : gammado223 { c with dt := d } = gammado223 c := by
  simp only [gammado223, dg223_dt]
theorem gammado233_dt : gammado233 { c with dt := d } = gammado233 c := by
  simp only [gammado233, dg233_dt, dg332_dt]
theorem gammado311_dt : gammado311 { c with dt := d } = gammado311 c := by
  simp only [gammado311, dg113_dt, dg131_dt]
theorem gammado312_dt : gammado312 { c with dt := d } = gammado312 c := by
  simp only [gammado312, dg123_dt, dg132_dt, dg231_dt]
theorem gammado313_dt : gammado313 { c with dt := d } = gammado313 c := by
  simp only [gammado313, dg331_dt]
theorem gammado322_dt : gammado322 { c with dt := d } = gammado322 c := by
  simp only [gammado322, dg223_dt, dg232_dt]
theorem gammado323_dt : gammado323 { c with dt := d } = gammado323 c := by
  simp only [gammado323, dg332_dt]
theorem gammado333_dt : gammado333 { c with dt := d } = gammado333 c := by
  simp only [gammado333, dg333_dt]
theorem gamma111_dt : gamma111 { c with dt := d } = gamma111 c := by
  simp only [gamma111, gammado111_dt, ginv11_dt, gammado211_dt, ginv12_dt, gammado311_dt, ginv13_dt]
theorem gamma112_dt : gamma112 { c with dt := d } = gamma112 c := by
  simp only [gamma112, gammado112_dt, ginv11_dt, gammado212_dt, ginv12_dt, gammado312_dt, ginv13_dt]
theorem gamma113_dt : gamma113 { c with dt := d } = gamma113 c := by
  simp only [gamma113, gammado113_dt, ginv11_dt, gammado213_dt, ginv12_dt, gammado313_dt, ginv13_dt]
theorem gamma122_dt : gamma122 { c with dt := d } = gamma122 c := by
  simp only [gamma122, gammado122_dt, ginv11_dt, gammado222_dt, ginv12_dt, gammado322_dt, ginv13_dt]
theorem gamma123_dt : gamma123 { c with dt := d } = gamma123 c := by
  simp only [gamma123, gammado123_dt, ginv11_dt, gammado223_dt, ginv12_dt, gammado323_dt, ginv13_dt]
theorem gamma133_dt : gamma133 { c with dt := d } = gamma133 c := by
  simp only [gamma133, gammado133_dt, ginv11_dt, gammado233_dt, ginv12_dt, gammado333_dt, ginv13_dt]
theorem gamma211_dt : gamma211 { c with dt := d } = gamma211 c := by
  simp only [gamma211, gammado111_dt, ginv12_dt, gammado211_dt, ginv22_dt, gammado311_dt, ginv23_dt]
theorem gamma212_dt : gamma212 { c with dt := d } = gamma212 c := by
  simp only [gamma212, gammado112_dt, ginv12_dt, gammado212_dt, ginv22_dt, gammado312_dt, ginv23_dt]
theorem gamma213_dt : gamma213 { c with dt := d } = gamma213 c := by
  simp only [gamma213, gammado113_dt, ginv12_dt, gammado213_dt, ginv22_dt, gammado313_dt, ginv23_dt]
theorem gamma222_dt : gamma222 { c with dt := d } = gamma222 c := by
  simp only [gamma222, gammado122_dt, ginv12_dt, gammado222_dt, ginv22_dt, gammado322_dt, ginv23_dt]
theorem gamma223_dt : gamma223 { c with dt := d } = gamma223 c := by
  simp only [gamma223, gammado123_dt, ginv12_dt, gammado223_dt, ginv22_dt, gammado323_dt, ginv23_dt]
theorem gamma233_dt : gamma233 { c with dt := d } = gamma233 c := by
  simp only [gamma233, gammado133_dt, ginv12_dt, gammado233_dt, ginv22_dt, gammado333_dt, ginv23_dt]
theorem gamma311_dt : gamma311 { c with dt := d } = gamma311 c := by
  simp only [gamma311, gammado111_dt, ginv13_dt, gammado211_dt, ginv23_dt, gammado311_dt, ginv33_dt]
theorem gamma312_dt : gamma312 { c with dt := d } = gamma312 c := by
  simp only [gamma312, gammado112_dt, ginv13_dt, gammado212_dt, ginv23_dt, gammado312_dt, ginv33_dt]
theorem gamma313_dt : gamma313 { c with dt := d } = gamma313 c := by
  simp only [gamma313, gammado113_dt, ginv13_dt, gammado213_dt, ginv23_dt, gammado313_dt, ginv33_dt]
theorem gamma322_dt : gamma322 { c with dt := d } = gamma322 c := by
  simp only [gamma322, gammado122_dt, ginv13_dt, gammado222_dt, ginv23_dt, gammado322_dt, ginv33_dt]
theorem gamma323_dt : gamma323 { c with dt := d } = gamma323 c := by
  simp only [gamma323, gammado123_dt, ginv13_dt, gammado223_dt, ginv23_dt, gammado323_dt, ginv33_dt]
theorem gamma333_dt : gamma333 { c with dt := d } = gamma333 c := by
  simp only [gamma333, gammado133_dt, ginv13_dt, gammado233_dt, ginv23_dt, gammado333_dt, ginv33_dt]
theorem R11_dt : R11 { c with dt := d } = R11 c := by
  simp only [R11, gamma112_dt, gammado111_dt, gamma111_dt, gammado112_dt, gamma212_dt, gammado211_dt, gamma211_dt, gammado212_dt, gamma312_dt, gammado311_dt, gamma311_dt, gammado312_dt, ginv12_dt, gamma113_dt, gammado113_dt, gamma213_dt, gammado213_dt, gamma313_dt, gammado313_dt, ginv13_dt, ginv22_dt, gammado122_dt, gammado222_dt, gammado322_dt, ddg1212_dt, ddg1122_dt, ddg2211_dt, ginv23_dt, gammado123_dt, gammado223_dt, gammado323_dt, ddg1123_dt, ddg1213_dt, ddg1312_dt, ddg2311_dt, ginv33_dt, gammado133_dt, gammado233_dt, gammado333_dt, ddg1313_dt, ddg1133_dt, ddg3311_dt]
theorem R12_0_dt : R12_0 { c with dt := d } = R12_0 c := by
  simp only [R12_0, gamma122_dt, gammado112_dt, gamma112_dt, gammado122_dt, gamma222_dt, gammado212_dt, gamma212_dt, gammado222_dt, gamma322_dt, gammado312_dt, gamma312_dt, gammado322_dt, ginv22_dt, ginv12_dt, gammado111_dt, gammado211_dt, gammado311_dt, ddg1212_dt, ddg1122_dt, ddg2211_dt, ginv13_dt, gamma123_dt, gammado113_dt, gamma223_dt, gammado213_dt, gamma323_dt, gammado313_dt, ddg1213_dt, ddg1123_dt, ddg1312_dt, ddg2311_dt, ginv23_dt, gammado123_dt, gammado223_dt, gammado323_dt, ddg1223_dt, ddg1322_dt, ddg2213_dt, ddg2312_dt, ginv33_dt, gammado133_dt, gammado233_dt, gammado333_dt, ddg1323_dt, ddg2313_dt, ddg1233_dt, ddg3312_dt]
theorem R12_dt : R12 { c with dt := d } = R12 c := by
  simp only [R12, gamma112_dt, gammado111_dt, gamma111_dt, gammado112_dt, gamma212_dt, gammado211_dt, gamma211_dt, gammado212_dt, gamma312_dt, gammado311_dt, gamma311_dt, gammado312_dt, ginv11_dt, ginv12_dt, gammado122_dt, gammado222_dt, gammado322_dt, ddg1212_dt, ddg1122_dt, ddg2211_dt, ginv13_dt, gamma113_dt, gammado123_dt, gamma213_dt, gammado223_dt, gamma313_dt, gammado113_dt, gammado213_dt, gammado313_dt, gammado323_dt, ddg1123_dt, ddg1213_dt, ddg1312_dt, ddg2311_dt, ginv23_dt, ddg1322_dt, ddg2213_dt, ddg1223_dt, ddg2312_dt, ginv33_dt, gammado133_dt, gammado233_dt, gammado333_dt, ddg1323_dt, ddg2313_dt, ddg1233_dt, ddg3312_dt]
theorem R13_0_dt : R13_0 { c with dt := d } = R13_0 c := by
  simp only [R13_0, gamma113_dt, gammado111_dt, gamma111_dt, gammado113_dt, gamma213_dt, gammado211_dt, gamma211_dt, gammado213_dt, gamma313_dt, gammado311_dt, gamma311_dt, gammado313_dt, ginv11_dt, ginv12_dt, gamma112_dt, gammado123_dt, gamma212_dt, gammado223_dt, gammado112_dt, gammado212_dt, gammado312_dt, gamma312_dt, gammado323_dt, ddg1123_dt, ddg1213_dt, ddg1312_dt, ddg2311_dt, ginv22_dt, gammado122_dt, gammado222_dt, gammado322_dt, ddg1322_dt, ddg1223_dt, ddg2213_dt, ddg2312_dt, ginv13_dt, gammado133_dt, gammado233_dt, gammado333_dt, ddg1313_dt, ddg1133_dt, ddg3311_dt, ginv23_dt, ddg1323_dt, ddg1233_dt, ddg2313_dt, ddg3312_dt]
theorem R13_dt : R13 { c with dt := d } = R13 c := by
  simp only [R13, gamma133_dt, gammado113_dt, gamma113_dt, gammado133_dt, gamma233_dt, gammado213_dt, gamma213_dt, gammado233_dt, gamma333_dt, gammado313_dt, gamma313_dt, gammado333_dt, ginv33_dt, ginv12_dt, gamma123_dt, gammado111_dt, gammado112_dt, gamma223_dt, gammado211_dt, gammado212_dt, gamma323_dt, gammado311_dt, gammado312_dt, ddg1213_dt, ddg1123_dt, ddg1312_dt, ddg2311_dt, ginv22_dt, gammado122_dt, gammado222_dt, gammado322_dt, ddg1322_dt, ddg1223_dt, ddg2213_dt, ddg2312_dt, ginv13_dt, ddg1313_dt, ddg1133_dt, ddg3311_dt, ginv23_dt, gammado123_dt, gammado223_dt, gammado323_dt, ddg1233_dt, ddg1323_dt, ddg2313_dt, ddg3312_dt]
theorem R22_dt : R22 { c with dt := d } = R22 c := by
  simp only [R22, gamma122_dt, gammado112_dt, gamma112_dt, gammado122_dt, gamma222_dt, gammado212_dt, gamma212_dt, gammado222_dt, gamma322_dt, gammado312_dt, gamma312_dt, gammado322_dt, ginv12_dt, gamma123_dt, gammado123_dt, gamma223_dt, gammado223_dt, gamma323_dt, gammado323_dt, ginv23_dt, ginv11_dt, gammado111_dt, gammado211_dt, gammado311_dt, ddg1212_dt, ddg1122_dt, ddg2211_dt, ginv13_dt, gammado113_dt, gammado213_dt, gammado313_dt, ddg1223_dt, ddg1322_dt, ddg2213_dt, ddg2312_dt, ginv33_dt, gammado133_dt, gammado233_dt, gammado333_dt, ddg2323_dt, ddg2233_dt, ddg3322_dt]
theorem R23_0_dt : R23_0 { c with dt := d } = R23_0 c := by
  simp only [R23_0, gamma123_dt, gammado122_dt, gamma122_dt, gammado123_dt, gamma223_dt, gammado222_dt, gamma222_dt, gammado223_dt, gamma323_dt, gammado322_dt, gamma322_dt, gammado323_dt, ginv22_dt, ginv11_dt, gammado111_dt, gamma112_dt, gammado113_dt, gammado211_dt, gamma212_dt, gammado213_dt, gammado311_dt, gamma312_dt, gammado313_dt, ddg1213_dt, ddg1312_dt, ddg1123_dt, ddg2311_dt, ginv12_dt, gammado112_dt, gammado212_dt, gammado312_dt, ddg1223_dt, ddg1322_dt, ddg2213_dt, ddg2312_dt, ginv13_dt, gammado133_dt, gammado233_dt, gammado333_dt, ddg1323_dt, ddg1233_dt, ddg2313_dt, ddg3312_dt, ginv23_dt, ddg2323_dt, ddg2233_dt, ddg3322_dt]
theorem R23_dt : R23 { c with dt := d } = R23 c := by
  simp only [R23, gamma133_dt, gammado123_dt, gamma123_dt, gammado133_dt, gamma233_dt, gammado223_dt, gamma223_dt, gammado233_dt, gamma333_dt, gammado323_dt, gamma323_dt, gammado333_dt, ginv33_dt, ginv11_dt, gammado111_dt, gamma113_dt, gammado112_dt, gammado211_dt, gamma213_dt, gammado212_dt, gammado311_dt, gamma313_dt, gammado312_dt, ddg1213_dt, ddg1312_dt, ddg1123_dt, ddg2311_dt, ginv12_dt, gammado122_dt, gammado222_dt, gammado322_dt, ddg1322_dt, ddg2213_dt, ddg1223_dt, ddg2312_dt, ginv13_dt, gammado113_dt, gammado213_dt, gammado313_dt, ddg1233_dt, ddg1323_dt, ddg2313_dt, ddg3312_dt, ginv23_dt, ddg2323_dt, ddg2233_dt, ddg3322_dt]
theorem R33_dt : R33 { c with dt := d } = R33 c := by
  simp only [R33, gamma133_dt, gammado113_dt, gamma113_dt, gammado133_dt, gamma233_dt, gammado213_dt, gamma213_dt, gammado233_dt, gamma333_dt, gammado313_dt, gamma313_dt, gammado333_dt, ginv13_dt, gammado123_dt, gamma123_dt, gammado223_dt, gamma223_dt, gammado323_dt, gamma323_dt, ginv23_dt, ginv11_dt, gammado111_dt, gammado211_dt, gammado311_dt, ddg1313_dt, ddg1133_dt, ddg3311_dt, ginv12_dt, gammado112_dt, gammado212_dt, gammado312_dt, ddg1233_dt, ddg1323_dt, ddg2313_dt, ddg3312_dt, ginv22_dt, gammado122_dt, gammado222_dt, gammado322_dt, ddg2323_dt, ddg2233_dt, ddg3322_dt]
theorem R_0_dt : R_0 { c with dt := d } = R_0 c := by
  simp only [R_0, ginv11_dt, R11_dt, ginv22_dt, R22_dt, ginv12_dt, R12_dt, ginv13_dt, R13_dt, ginv23_dt, R23_dt, ginv33_dt, R33_dt]
theorem KK11_dt : KK11 { c with dt := d } = KK11 c := by
  simp only [KK11, ginv23_dt, K12_dt, K13_dt, K11_dt, ginv12_dt, ginv13_dt, ginv11_dt, ginv22_dt, ginv33_dt]
theorem KK12_dt : KK12 { c with dt := d } = KK12 c := by
  simp only [KK12, K12_dt, ginv11_dt, K11_dt, ginv22_dt, K22_dt, ginv33_dt, K13_dt, K23_dt, ginv13_dt, ginv23_dt, ginv12_dt]
theorem KK13_dt : KK13 { c with dt := d } = KK13 c := by
  simp only [KK13, ginv22_dt, K12_dt, K23_dt, ginv12_dt, K13_dt, K11_dt, ginv11_dt, ginv33_dt, K33_dt, ginv23_dt, ginv13_dt]
theorem KK22_dt : KK22 { c with dt := d } = KK22 c := by
  simp only [KK22, ginv23_dt, K22_dt, K23_dt, K12_dt, ginv12_dt, ginv13_dt, ginv11_dt, ginv22_dt, ginv33_dt]
theorem KK23_dt : KK23 { c with dt := d } = KK23 c := by
  simp only [KK23, ginv11_dt, K12_dt, K13_dt, ginv12_dt, K22_dt, K23_dt, ginv22_dt, ginv33_dt, K33_dt, ginv13_dt, ginv23_dt]
theorem KK33_dt : KK33 { c with dt := d } = KK33 c := by
  simp only [KK33, ginv23_dt, K23_dt, K33_dt, K13_dt, ginv12_dt, ginv13_dt, ginv11_dt, ginv22_dt, ginv33_dt]
theorem trK_dt : trK { c with dt := d } = trK c := by
  simp only [trK, ginv11_dt, K11_dt, ginv22_dt, K22_dt, ginv12_dt, K12_dt, ginv13_dt, K13_dt, ginv23_dt, K23_dt, ginv33_dt, K33_dt]
theorem trKK_dt : trKK { c with dt := d } = trKK c := by
  simp only [trKK, ginv11_dt, KK11_dt, ginv22_dt, KK22_dt, ginv12_dt, KK12_dt, ginv13_dt, KK13_dt, ginv23_dt, KK23_dt, ginv33_dt, KK33_dt]
theorem hamil_dt : hamil { c with dt := d } = hamil c := by
  simp only [hamil, R_0_dt, trKK_dt, trK_dt]
theorem R_dt : R { c with dt := d } = R c := by
  simp only [R, R_0_dt, hamil_dt]
theorem dginv111_dt : dginv111 { c with dt := d } = dginv111 c := by
  simp only [dginv111, ginv11_dt, ginv12_dt, dg121_dt, ginv13_dt, dg131_dt, dg231_dt, dg111_dt, dg221_dt, dg331_dt]
theorem dginv112_dt : dginv112 { c with dt := d } = dginv112 c := by
  simp only [dginv112, ginv11_dt, ginv12_dt, dg122_dt, ginv13_dt, dg132_dt, dg232_dt, dg112_dt, dg222_dt, dg332_dt]
theorem dginv113_dt : dginv113 { c with dt := d } = dginv113 c := by
  simp only [dginv113, ginv11_dt, ginv12_dt, dg123_dt, ginv13_dt, dg133_dt, dg233_dt, dg113_dt, dg223_dt, dg333_dt]
theorem dginv121_dt : dginv121 { c with dt := d } = dginv121 c := by
  simp only [dginv121, ginv11_dt, ginv12_dt, dg111_dt, ginv22_dt, dg121_dt, ginv23_dt, dg131_dt, ginv13_dt, dg221_dt, dg231_dt, dg331_dt]
theorem dginv122_dt : dginv122 { c with dt := d } = dginv122 c := by
  simp only [dginv122, ginv11_dt, ginv12_dt, dg112_dt, ginv22_dt, dg122_dt, ginv23_dt, dg132_dt, ginv13_dt, dg222_dt, dg232_dt, dg332_dt]
theorem dginv123_dt : dginv123 { c with dt := d } = dginv123 c := by
  simp only [dginv123, ginv11_dt, ginv12_dt, dg113_dt, ginv22_dt, dg123_dt, ginv23_dt, dg133_dt, ginv13_dt, dg223_dt, dg233_dt, dg333_dt]
theorem dginv131_dt : dginv131 { c with dt := d } = dginv131 c := by
  simp only [dginv131, ginv11_dt, ginv13_dt, dg111_dt, ginv23_dt, dg121_dt, ginv33_dt, dg131_dt, ginv12_dt, dg221_dt, dg231_dt, dg331_dt]
theorem dginv132_dt : dginv132 { c with dt := d } = dginv132 c := by
  simp only [dginv132, ginv11_dt, ginv13_dt, dg112_dt, ginv23_dt, dg122_dt, ginv33_dt, dg132_dt, ginv12_dt, dg222_dt, dg232_dt, dg332_dt]
theorem dginv133_dt : dginv133 { c with dt := d } = dginv133 c := by
  simp only [dginv133, ginv11_dt, ginv13_dt, dg113_dt, ginv23_dt, dg123_dt, ginv33_dt, dg133_dt, ginv12_dt, dg223_dt, dg233_dt, dg333_dt]
theorem dginv221_dt : dginv221 { c with dt := d } = dginv221 c := by
  simp only [dginv221, ginv12_dt, ginv22_dt, dg121_dt, ginv23_dt, dg131_dt, dg231_dt, dg111_dt, dg221_dt, dg331_dt]
theorem dginv222_dt : dginv222 { c with dt := d } = dginv222 c := by
  simp only [dginv222, ginv12_dt, ginv22_dt, dg122_dt, ginv23_dt, dg132_dt, dg232_dt, dg112_dt, dg222_dt, dg332_dt]
theorem dginv223_dt : dginv223 { c with dt := d } = dginv223 c := by
  simp only [dginv223, ginv12_dt, ginv22_dt, dg123_dt, ginv23_dt, dg133_dt, dg233_dt, dg113_dt, dg223_dt, dg333_dt]
theorem dginv231_dt : dginv231 { c with dt := d } = dginv231 c := by
  simp only [dginv231, ginv13_dt, ginv22_dt, dg121_dt, ginv23_dt, dg131_dt, ginv12_dt, dg111_dt, ginv33_dt, dg221_dt, dg231_dt, dg331_dt]
theorem dginv232_dt : dginv232 { c with dt := d } = dginv232 c := by
  simp only [dginv232, ginv13_dt, ginv22_dt, dg122_dt, ginv23_dt, dg132_dt, ginv12_dt, dg112_dt, ginv33_dt, dg222_dt, dg232_dt, dg332_dt]
theorem dginv233_dt : dginv233 { c with dt := d } = dginv233 c := by
  simp only [dginv233, ginv13_dt, ginv22_dt, dg123_dt, ginv23_dt, dg133_dt, ginv12_dt, dg113_dt, ginv33_dt, dg223_dt, dg233_dt, dg333_dt]
theorem dginv331_dt : dginv331 { c with dt := d } = dginv331 c := by
  simp only [dginv331, ginv13_dt, ginv23_dt, dg121_dt, ginv33_dt, dg131_dt, dg231_dt, dg111_dt, dg221_dt, dg331_dt]
theorem dginv332_dt : dginv332 { c with dt := d } = dginv332 c := by
  simp only [dginv332, ginv13_dt, ginv23_dt, dg122_dt, ginv33_dt, dg132_dt, dg232_dt, dg112_dt, dg222_dt, dg332_dt]
theorem dginv333_dt : dginv333 { c with dt := d } = dginv333 c := by
  simp only [dginv333, ginv13_dt, ginv23_dt, dg123_dt, ginv33_dt, dg133_dt, dg233_dt, dg113_dt, dg223_dt, dg333_dt]
theorem dtrK1_dt : dtrK1 { c with dt := d } = dtrK1 c := by
  simp only [dtrK1, ginv11_dt, dK111_dt, ginv22_dt, dK221_dt, ginv33_dt, dK331_dt, dginv111_dt, K11_dt, dginv221_dt, K22_dt, ginv12_dt, dK121_dt, ginv13_dt, dK131_dt, ginv23_dt, dK231_dt, dginv121_dt, K12_dt, dginv131_dt, K13_dt, dginv231_dt, K23_dt, dginv331_dt, K33_dt]
theorem dtrK2_dt : dtrK2 { c with dt := d } = dtrK2 c := by
  simp only [dtrK2, ginv11_dt, dK112_dt, ginv22_dt, dK222_dt, ginv33_dt, dK332_dt, dginv112_dt, K11_dt, dginv222_dt, K22_dt, ginv12_dt, dK122_dt, ginv13_dt, dK132_dt, ginv23_dt, dK232_dt, dginv122_dt, K12_dt, dginv132_dt, K13_dt, dginv232_dt, K23_dt, dginv332_dt, K33_dt]
theorem dtrK3_dt : dtrK3 { c with dt := d } = dtrK3 c := by
  simp only [dtrK3, ginv11_dt, dK113_dt, ginv22_dt, dK223_dt, ginv33_dt, dK333_dt, dginv113_dt, K11_dt, dginv223_dt, K22_dt, ginv12_dt, dK123_dt, ginv13_dt, dK133_dt, ginv23_dt, dK233_dt, dginv123_dt, K12_dt, dginv133_dt, K13_dt, dginv233_dt, K23_dt, dginv333_dt, K33_dt]
theorem cddalp11_dt : cddalp11 { c with dt := d } = cddalp11 c := by
  simp only [cddalp11, gamma111_dt, dalp1_dt, gamma211_dt, dalp2_dt, gamma311_dt, dalp3_dt, ddalp11_dt]
theorem cddalp12_dt : cddalp12 { c with dt := d } = cddalp12 c := by
  simp only [cddalp12, gamma112_dt, dalp1_dt, gamma212_dt, dalp2_dt, gamma312_dt, dalp3_dt, ddalp12_dt]
theorem cddalp13_dt : cddalp13 { c with dt := d } = cddalp13 c := by
  simp only [cddalp13, gamma113_dt, dalp1_dt, gamma213_dt, dalp2_dt, gamma313_dt, dalp3_dt, ddalp13_dt]
theorem cddalp22_dt : cddalp22 { c with dt := d } = cddalp22 c := by
  simp only [cddalp22, gamma122_dt, dalp1_dt, gamma222_dt, dalp2_dt, gamma322_dt, dalp3_dt, ddalp22_dt]
theorem cddalp23_dt : cddalp23 { c with dt := d } = cddalp23 c := by
  simp only [cddalp23, gamma123_dt, dalp1_dt, gamma223_dt, dalp2_dt, gamma323_dt, dalp3_dt, ddalp23_dt]
theorem cddalp33_dt : cddalp33 { c with dt := d } = cddalp33 c := by
  simp only [cddalp33, gamma133_dt, dalp1_dt, gamma233_dt, dalp2_dt, gamma333_dt, dalp3_dt, ddalp33_dt]
theorem cdZ11_dt : cdZ11 { c with dt := d } = cdZ11 c := by
  simp only [cdZ11, dZ11_dt, gamma111_dt, Z1_dt, gamma211_dt, Z2_dt, gamma311_dt, Z3_dt]
theorem cdZ12_dt : cdZ12 { c with dt := d } = cdZ12 c := by
  simp only [cdZ12, dZ12_dt, gamma112_dt, Z1_dt, gamma212_dt, Z2_dt, gamma312_dt, Z3_dt]
theorem cdZ13_dt : cdZ13 { c with dt := d } = cdZ13 c := by
  simp only [cdZ13, dZ13_dt, gamma113_dt, Z1_dt, gamma213_dt, Z2_dt, gamma313_dt, Z3_dt]
theorem cdZ21_dt : cdZ21 { c with dt := d } = cdZ21 c := by
  simp only [cdZ21, dZ21_dt, gamma112_dt, Z1_dt, gamma212_dt, Z2_dt, gamma312_dt, Z3_dt]
theorem cdZ22_dt : cdZ22 { c with dt := d } = cdZ22 c := by
  simp only [cdZ22, dZ22_dt, gamma122_dt, Z1_dt, gamma222_dt, Z2_dt, gamma322_dt, Z3_dt]
theorem cdZ23_dt : cdZ23 { c with dt := d } = cdZ23 c := by
  simp only [cdZ23, dZ23_dt, gamma123_dt, Z1_dt, gamma223_dt, Z2_dt, gamma323_dt, Z3_dt]
theorem cdZ31_dt : cdZ31 { c with dt := d } = cdZ31 c := by
  simp only [cdZ31, dZ31_dt, gamma113_dt, Z1_dt, gamma213_dt, Z2_dt, gamma313_dt, Z3_dt]
theorem cdZ32_dt : cdZ32 { c with dt := d } = cdZ32 c := by
  simp only [cdZ32, dZ32_dt, gamma123_dt, Z1_dt, gamma223_dt, Z2_dt, gamma323_dt, Z3_dt]
theorem cdZ33_dt : cdZ33 { c with dt := d } = cdZ33 c := by
  simp only [cdZ33, dZ33_dt, gamma133_dt, Z1_dt, gamma233_dt, Z2_dt, gamma333_dt, Z3_dt]
theorem cdK111_dt : cdK111 { c with dt := d } = cdK111 c := by
  simp only [cdK111, dK111_dt, gamma111_dt, K11_dt, gamma211_dt, K12_dt, gamma311_dt, K13_dt]
theorem cdK112_dt : cdK112 { c with dt := d } = cdK112 c := by
  simp only [cdK112, dK112_dt, gamma112_dt, K11_dt, gamma111_dt, gamma212_dt, K12_dt, gamma312_dt, K13_dt, gamma211_dt, K22_dt, gamma311_dt, K23_dt]
theorem cdK113_dt : cdK113 { c with dt := d } = cdK113 c := by
  simp only [cdK113, dK113_dt, gamma113_dt, K11_dt, gamma213_dt, K12_dt, gamma111_dt, gamma313_dt, K13_dt, gamma211_dt, K23_dt, gamma311_dt, K33_dt]
theorem cdK121_dt : cdK121 { c with dt := d } = cdK121 c := by
  simp only [cdK121, dK121_dt, gamma112_dt, K11_dt, gamma111_dt, gamma212_dt, K12_dt, gamma312_dt, K13_dt, gamma211_dt, K22_dt, gamma311_dt, K23_dt]
theorem cdK122_dt : cdK122 { c with dt := d } = cdK122 c := by
  simp only [cdK122, dK122_dt, gamma112_dt, K12_dt, gamma212_dt, K22_dt, gamma312_dt, K23_dt]
theorem cdK123_dt : cdK123 { c with dt := d } = cdK123 c := by
  simp only [cdK123, dK123_dt, gamma113_dt, K12_dt, gamma112_dt, K13_dt, gamma213_dt, K22_dt, gamma212_dt, gamma313_dt, K23_dt, gamma312_dt, K33_dt]
theorem cdK131_dt : cdK131 { c with dt := d } = cdK131 c := by
  simp only [cdK131, dK131_dt, gamma113_dt, K11_dt, gamma213_dt, K12_dt, gamma111_dt, gamma313_dt, K13_dt, gamma211_dt, K23_dt, gamma311_dt, K33_dt]
theorem cdK132_dt : cdK132 { c with dt := d } = cdK132 c := by
  simp only [cdK132, dK132_dt, gamma113_dt, K12_dt, gamma112_dt, K13_dt, gamma213_dt, K22_dt, gamma212_dt, gamma313_dt, K23_dt, gamma312_dt, K33_dt]
theorem cdK133_dt : cdK133 { c with dt := d } = cdK133 c := by
  simp only [cdK133, dK133_dt, gamma113_dt, K13_dt, gamma213_dt, K23_dt, gamma313_dt, K33_dt]
theorem cdK211_dt : cdK211 { c with dt := d } = cdK211 c := by
  simp only [cdK211, dK121_dt, gamma112_dt, K11_dt, gamma212_dt, K12_dt, gamma312_dt, K13_dt]
theorem cdK212_dt : cdK212 { c with dt := d } = cdK212 c := by
  simp only [cdK212, dK122_dt, gamma122_dt, K11_dt, gamma112_dt, gamma222_dt, K12_dt, gamma322_dt, K13_dt, gamma212_dt, K22_dt, gamma312_dt, K23_dt]
theorem cdK213_dt : cdK213 { c with dt := d } = cdK213 c := by
  simp only [cdK213, dK123_dt, gamma123_dt, K11_dt, gamma223_dt, K12_dt, gamma112_dt, gamma323_dt, K13_dt, gamma212_dt, K23_dt, gamma312_dt, K33_dt]
theorem cdK221_dt : cdK221 { c with dt := d } = cdK221 c := by
  simp only [cdK221, dK221_dt, gamma122_dt, K11_dt, gamma112_dt, gamma222_dt, K12_dt, gamma322_dt, K13_dt, gamma212_dt, K22_dt, gamma312_dt, K23_dt]
theorem cdK222_dt : cdK222 { c with dt := d } = cdK222 c := by
  simp only [cdK222, dK222_dt, gamma122_dt, K12_dt, gamma222_dt, K22_dt, gamma322_dt, K23_dt]
theorem cdK223_dt : cdK223 { c with dt := d } = cdK223 c := by
  simp only [cdK223, dK223_dt, gamma123_dt, K12_dt, gamma122_dt, K13_dt, gamma223_dt, K22_dt, gamma222_dt, gamma323_dt, K23_dt, gamma322_dt, K33_dt]
theorem cdK231_dt : cdK231 { c with dt := d } = cdK231 c := by
  simp only [cdK231, dK231_dt, gamma123_dt, K11_dt, gamma223_dt, K12_dt, gamma112_dt, gamma323_dt, K13_dt, gamma212_dt, K23_dt, gamma312_dt, K33_dt]
theorem cdK232_dt : cdK232 { c with dt := d } = cdK232 c := by
  simp only [cdK232, dK232_dt, gamma123_dt, K12_dt, gamma122_dt, K13_dt, gamma223_dt, K22_dt, gamma222_dt, gamma323_dt, K23_dt, gamma322_dt, K33_dt]
theorem cdK233_dt : cdK233 { c with dt := d } = cdK233 c := by
  simp only [cdK233, dK233_dt, gamma123_dt, K13_dt, gamma223_dt, K23_dt, gamma323_dt, K33_dt]
theorem cdK311_dt : cdK311 { c with dt := d } = cdK311 c := by
  simp only [cdK311, dK131_dt, gamma113_dt, K11_dt, gamma213_dt, K12_dt, gamma313_dt, K13_dt]
theorem cdK312_dt : cdK312 { c with dt := d } = cdK312 c := by
  simp only [cdK312, dK132_dt, gamma123_dt, K11_dt, gamma113_dt, gamma223_dt, K12_dt, gamma323_dt, K13_dt, gamma213_dt, K22_dt, gamma313_dt, K23_dt]
theorem cdK313_dt : cdK313 { c with dt := d } = cdK313 c := by
  simp only [cdK313, dK133_dt, gamma133_dt, K11_dt, gamma233_dt, K12_dt, gamma113_dt, gamma333_dt, K13_dt, gamma213_dt, K23_dt, gamma313_dt, K33_dt]
theorem cdK321_dt : cdK321 { c with dt := d } = cdK321 c := by
  simp only [cdK321, dK231_dt, gamma123_dt, K11_dt, gamma113_dt, gamma223_dt, K12_dt, gamma323_dt, K13_dt, gamma213_dt, K22_dt, gamma313_dt, K23_dt]
theorem cdK322_dt : cdK322 { c with dt := d } = cdK322 c := by
  simp only [cdK322, dK232_dt, gamma123_dt, K12_dt, gamma223_dt, K22_dt, gamma323_dt, K23_dt]
theorem cdK323_dt : cdK323 { c with dt := d } = cdK323 c := by
  simp only [cdK323, dK233_dt, gamma133_dt, K12_dt, gamma123_dt, K13_dt, gamma233_dt, K22_dt, gamma223_dt, gamma333_dt, K23_dt, gamma323_dt, K33_dt]
theorem cdK331_dt : cdK331 { c with dt := d } = cdK331 c := by
  simp only [cdK331, dK331_dt, gamma133_dt, K11_dt, gamma233_dt, K12_dt, gamma113_dt, gamma333_dt, K13_dt, gamma213_dt, K23_dt, gamma313_dt, K33_dt]
theorem cdK332_dt : cdK332 { c with dt := d } = cdK332 c := by
  simp only [cdK332, dK332_dt, gamma133_dt, K12_dt, gamma123_dt, K13_dt, gamma233_dt, K22_dt, gamma223_dt, gamma333_dt, K23_dt, gamma323_dt, K33_dt]
theorem cdK333_dt : cdK333 { c with dt := d } = cdK333 c := by
  simp only [cdK333, dK333_dt, gamma133_dt, K13_dt, gamma233_dt, K23_dt, gamma333_dt, K33_dt]
theorem lieg11_dt : lieg11 { c with dt := d } = lieg11 c := by
  simp only [lieg11, betadg11_dt, dbeta11_dt, g11_dt, dbeta21_dt, g12_dt, dbeta31_dt, g13_dt]
theorem lieg12_0_dt : lieg12_0 { c with dt := d } = lieg12_0 c := by
  simp only [lieg12_0, betadg12_dt, dbeta12_dt, g11_dt, dbeta11_dt, dbeta22_dt, g12_dt, dbeta32_dt, g13_dt, dbeta21_dt, g22_dt, dbeta31_dt, g23_dt]
theorem lieg12_dt : lieg12 { c with dt := d } = lieg12 c := by
  simp only [lieg12, betadg21_dt, dbeta12_dt, g11_dt, dbeta11_dt, dbeta22_dt, g12_dt, dbeta32_dt, g13_dt, dbeta21_dt, g22_dt, dbeta31_dt, g23_dt]
theorem lieg13_0_dt : lieg13_0 { c with dt := d } = lieg13_0 c := by
  simp only [lieg13_0, betadg13_dt, dbeta13_dt, g11_dt, dbeta23_dt, g12_dt, dbeta11_dt, dbeta33_dt, g13_dt, dbeta21_dt, g23_dt, dbeta31_dt, g33_dt]
theorem lieg13_dt : lieg13 { c with dt := d } = lieg13 c := by
  simp only [lieg13, betadg31_dt, dbeta13_dt, g11_dt, dbeta23_dt, g12_dt, dbeta11_dt, dbeta33_dt, g13_dt, dbeta21_dt, g23_dt, dbeta31_dt, g33_dt]
theorem lieg22_dt : lieg22 { c with dt := d } = lieg22 c := by
  simp only [lieg22, betadg22_dt, dbeta12_dt, g12_dt, dbeta22_dt, g22_dt, dbeta32_dt, g23_dt]
theorem lieg23_0_dt : lieg23_0 { c with dt := d } = lieg23_0 c := by
  simp only [lieg23_0, betadg23_dt, dbeta13_dt, g12_dt, dbeta12_dt, g13_dt, dbeta23_dt, g22_dt, dbeta22_dt, dbeta33_dt, g23_dt, dbeta32_dt, g33_dt]
theorem lieg23_dt : lieg23 { c with dt := d } = lieg23 c := by
  simp only [lieg23, betadg32_dt, dbeta13_dt, g12_dt, dbeta12_dt, g13_dt, dbeta23_dt, g22_dt, dbeta22_dt, dbeta33_dt, g23_dt, dbeta32_dt, g33_dt]
theorem lieg33_dt : lieg33 { c with dt := d } = lieg33 c := by
  simp only [lieg33, betadg33_dt, dbeta13_dt, g13_dt, dbeta23_dt, g23_dt, dbeta33_dt, g33_dt]
theorem lieK11_dt : lieK11 { c with dt := d } = lieK11 c := by
  simp only [lieK11, betadK11_dt, dbeta11_dt, K11_dt, dbeta21_dt, K12_dt, dbeta31_dt, K13_dt]
theorem lieK12_0_dt : lieK12_0 { c with dt := d } = lieK12_0 c := by
  simp only [lieK12_0, betadK12_dt, dbeta12_dt, K11_dt, dbeta11_dt, dbeta22_dt, K12_dt, dbeta32_dt, K13_dt, dbeta21_dt, K22_dt, dbeta31_dt, K23_dt]
theorem lieK12_dt : lieK12 { c with dt := d } = lieK12 c := by
  simp only [lieK12, betadK21_dt, dbeta12_dt, K11_dt, dbeta11_dt, dbeta22_dt, K12_dt, dbeta32_dt, K13_dt, dbeta21_dt, K22_dt, dbeta31_dt, K23_dt]
theorem lieK13_0_dt : lieK13_0 { c with dt := d } = lieK13_0 c := by
  simp only [lieK13_0, betadK13_dt, dbeta13_dt, K11_dt, dbeta23_dt, K12_dt, dbeta11_dt, dbeta33_dt, K13_dt, dbeta21_dt, K23_dt, dbeta31_dt, K33_dt]
theorem lieK13_dt : lieK13 { c with dt := d } = lieK13 c := by
  simp only [lieK13, betadK31_dt, dbeta13_dt, K11_dt, dbeta23_dt, K12_dt, dbeta11_dt, dbeta33_dt, K13_dt, dbeta21_dt, K23_dt, dbeta31_dt, K33_dt]
theorem lieK22_dt : lieK22 { c with dt := d } = lieK22 c := by
  simp only [lieK22, betadK22_dt, dbeta12_dt, K12_dt, dbeta22_dt, K22_dt, dbeta32_dt, K23_dt]
theorem lieK23_0_dt : lieK23_0 { c with dt := d } = lieK23_0 c := by
  simp only [lieK23_0, betadK23_dt, dbeta13_dt, K12_dt, dbeta12_dt, K13_dt, dbeta23_dt, K22_dt, dbeta22_dt, dbeta33_dt, K23_dt, dbeta32_dt, K33_dt]
theorem lieK23_dt : lieK23 { c with dt := d } = lieK23 c := by
  simp only [lieK23, betadK32_dt, dbeta13_dt, K12_dt, dbeta12_dt, K13_dt, dbeta23_dt, K22_dt, dbeta22_dt, dbeta33_dt, K23_dt, dbeta32_dt, K33_dt]
theorem lieK33_dt : lieK33 { c with dt := d } = lieK33 c := by
  simp only [lieK33, betadK33_dt, dbeta13_dt, K13_dt, dbeta23_dt, K23_dt, dbeta33_dt, K33_dt]
theorem lieTheta_dt : lieTheta { c with dt := d } = lieTheta c := by
  simp only [lieTheta, betadTheta_dt]
theorem lieZ1_dt : lieZ1 { c with dt := d } = lieZ1 c := by
  simp only [lieZ1, betadZ1_dt, dbeta11_dt, Z1_dt, dbeta21_dt, Z2_dt, dbeta31_dt, Z3_dt]
theorem lieZ2_dt : lieZ2 { c with dt := d } = lieZ2 c := by
  simp only [lieZ2, betadZ2_dt, dbeta12_dt, Z1_dt, dbeta22_dt, Z2_dt, dbeta32_dt, Z3_dt]
theorem lieZ3_dt : lieZ3 { c with dt := d } = lieZ3 c := by
  simp only [lieZ3, betadZ3_dt, dbeta13_dt, Z1_dt, dbeta23_dt, Z2_dt, dbeta33_dt, Z3_dt]
theorem rg11_dt : rg11 { c with dt := d } = rg11 c := by
  simp only [rg11, lieg11_dt, alpha_dt, K11_dt]
theorem rg12_dt : rg12 { c with dt := d } = rg12 c := by
  simp only [rg12, lieg12_dt, alpha_dt, K12_dt]
theorem rg13_dt : rg13 { c with dt := d } = rg13 c := by
  simp only [rg13, lieg13_dt, alpha_dt, K13_dt]
theorem rg22_dt : rg22 { c with dt := d } = rg22 c := by
  simp only [rg22, lieg22_dt, alpha_dt, K22_dt]
theorem rg23_dt : rg23 { c with dt := d } = rg23 c := by
  simp only [rg23, lieg23_dt, alpha_dt, K23_dt]
theorem rg33_dt : rg33 { c with dt := d } = rg33 c := by
  simp only [rg33, lieg33_dt, alpha_dt, K33_dt]
theorem rK11_dt : rK11 { c with dt := d } = rK11 c := by
  simp only [rK11, cddalp11_dt, lieK11_dt, alpha_dt, R11_dt, trK_dt, K11_dt, cdZ11_dt, KK11_dt, Theta_dt]
theorem rK12_dt : rK12 { c with dt := d } = rK12 c := by
  simp only [rK12, cddalp12_dt, lieK12_dt, alpha_dt, cdZ12_dt, cdZ21_dt, R12_dt, trK_dt, K12_dt, KK12_dt, Theta_dt]
theorem rK13_dt : rK13 { c with dt := d } = rK13 c := by
  simp only [rK13, cddalp13_dt, lieK13_dt, alpha_dt, cdZ13_dt, cdZ31_dt, R13_dt, trK_dt, K13_dt, KK13_dt, Theta_dt]
theorem rK22_dt : rK22 { c with dt := d } = rK22 c := by
  simp only [rK22, cddalp22_dt, lieK22_dt, alpha_dt, R22_dt, trK_dt, K22_dt, cdZ22_dt, KK22_dt, Theta_dt]
theorem rK23_dt : rK23 { c with dt := d } = rK23 c := by
  simp only [rK23, cddalp23_dt, lieK23_dt, alpha_dt, cdZ23_dt, cdZ32_dt, R23_dt, trK_dt, K23_dt, KK23_dt, Theta_dt]
theorem rK33_dt : rK33 { c with dt := d } = rK33 c := by
  simp only [rK33, cddalp33_dt, lieK33_dt, alpha_dt, R33_dt, trK_dt, K33_dt, cdZ33_dt, KK33_dt, Theta_dt]
theorem rTheta_dt : rTheta { c with dt := d } = rTheta c := by
  simp only [rTheta, lieTheta_dt, Theta_dt, ginv11_dt, cdZ11_dt, alpha_dt, dalp1_dt, Z1_dt, ginv12_dt, cdZ12_dt, cdZ21_dt, dalp2_dt, Z2_dt, ginv22_dt, cdZ22_dt, ginv13_dt, cdZ13_dt, cdZ31_dt, dalp3_dt, Z3_dt, ginv23_dt, cdZ23_dt, cdZ32_dt, ginv33_dt, cdZ33_dt, trK_dt, R_dt, trKK_dt]
theorem rZ1_dt : rZ1 { c with dt := d } = rZ1 c := by
  simp only [rZ1, lieZ1_dt, dalp1_dt, Theta_dt, Z1_dt, alpha_dt, dtrK1_dt, dTheta1_dt, ginv11_dt, cdK111_dt, K11_dt, ginv22_dt, cdK212_dt, K12_dt, Z2_dt, ginv12_dt, cdK112_dt, cdK211_dt, ginv33_dt, cdK313_dt, K13_dt, Z3_dt, ginv13_dt, cdK113_dt, cdK311_dt, ginv23_dt, cdK213_dt, cdK312_dt]
theorem rZ2_dt : rZ2 { c with dt := d } = rZ2 c := by
  simp only [rZ2, lieZ2_dt, dalp2_dt, Theta_dt, Z2_dt, alpha_dt, dtrK2_dt, dTheta2_dt, ginv11_dt, cdK121_dt, K12_dt, Z1_dt, ginv22_dt, cdK222_dt, K22_dt, ginv12_dt, cdK122_dt, cdK221_dt, ginv33_dt, cdK323_dt, K23_dt, Z3_dt, ginv13_dt, cdK123_dt, cdK321_dt, ginv23_dt, cdK223_dt, cdK322_dt]
theorem rZ3_dt : rZ3 { c with dt := d } = rZ3 c := by
  simp only [rZ3, lieZ3_dt, dalp3_dt, Theta_dt, Z3_dt, alpha_dt, dtrK3_dt, dTheta3_dt, ginv11_dt, cdK131_dt, K13_dt, Z1_dt, ginv22_dt, cdK232_dt, K23_dt, Z2_dt, ginv12_dt, cdK132_dt, cdK231_dt, ginv33_dt, cdK333_dt, K33_dt, ginv13_dt, cdK133_dt, cdK331_dt, ginv23_dt, cdK233_dt, cdK332_dt]
theorem liealpha_dt : liealpha { c with dt := d } = liealpha c := by
  simp only [liealpha, betadalp_dt]
theorem ralpha0_dt : ralpha0 { c with dt := d } = ralpha0 c := by
  simp only [ralpha0, alpha_dt, psi_dt, trK_dt, K0_dt, Theta_dt]
theorem ralpha_dt : ralpha { c with dt := d } = ralpha c := by
  simp only [ralpha, liealpha_dt, ralpha0_dt, alpha_dt]
theorem rbeta1_dt : rbeta1 { c with dt := d } = rbeta1 c := rfl
theorem rbeta2_dt : rbeta2 { c with dt := d } = rbeta2 c := rfl
theorem rbeta3_dt : rbeta3 { c with dt := d } = rbeta3 c := rfl
theorem rB1_dt : rB1 { c with dt := d } = rB1 c := rfl
theorem rB2_dt : rB2 { c with dt := d } = rB2 c := rfl
theorem rB3_dt : rB3 { c with dt := d } = rB3 c := rfl
theorem ng11_n_dt : ng11_n { c with dt := d } = ng11_n c := by
  simp only [ng11_n, rg11_dt]
theorem ng12_n_dt : ng12_n { c with dt := d } = ng12_n c := by
  simp only [ng12_n, rg12_dt]
theorem ng13_n_dt : ng13_n { c with dt := d } = ng13_n c := by
  simp only [ng13_n, rg13_dt]
theorem ng22_n_dt : ng22_n { c with dt := d } = ng22_n c := by
  simp only [ng22_n, rg22_dt]
theorem ng23_n_dt : ng23_n { c with dt := d } = ng23_n c := by
  simp only [ng23_n, rg23_dt]
theorem ng33_n_dt : ng33_n { c with dt := d } = ng33_n c := by
  simp only [ng33_n, rg33_dt]
theorem nK11_n_dt : nK11_n { c with dt := d } = nK11_n c := by
  simp only [nK11_n, rK11_dt]
theorem nK12_n_dt : nK12_n { c with dt := d } = nK12_n c := by
  simp only [nK12_n, rK12_dt]
theorem nK13_n_dt : nK13_n { c with dt := d } = nK13_n c := by
  simp only [nK13_n, rK13_dt]
theorem nK22_n_dt : nK22_n { c with dt := d } = nK22_n c := by
  simp only [nK22_n, rK22_dt]
theorem nK23_n_dt : nK23_n { c with dt := d } = nK23_n c := by
  simp only [nK23_n, rK23_dt]
theorem nK33_n_dt : nK33_n { c with dt := d } = nK33_n c := by
  simp only [nK33_n, rK33_dt]
theorem nZ1_n_dt : nZ1_n { c with dt := d } = nZ1_n c := by
  simp only [nZ1_n, rZ1_dt]
theorem nZ2_n_dt : nZ2_n { c with dt := d } = nZ2_n c := by
  simp only [nZ2_n, rZ2_dt]
theorem nZ3_n_dt : nZ3_n { c with dt := d } = nZ3_n c := by
  simp only [nZ3_n, rZ3_dt]
theorem nTheta_n_dt : nTheta_n { c with dt := d } = nTheta_n c := by
  simp only [nTheta_n, rTheta_dt]
theorem nalpha_n_dt : nalpha_n { c with dt := d } = nalpha_n c := by
  simp only [nalpha_n, ralpha_dt]
theorem nbeta1_n_dt : nbeta1_n { c with dt := d } = nbeta1_n c := by
  simp only [nbeta1_n, rbeta1_dt]
theorem nbeta2_n_dt : nbeta2_n { c with dt := d } = nbeta2_n c := by
  simp only [nbeta2_n, rbeta2_dt]
theorem nbeta3_n_dt : nbeta3_n { c with dt := d } = nbeta3_n c := by
  simp only [nbeta3_n, rbeta3_dt]
theorem nB1_n_dt : nB1_n { c with dt := d } = nB1_n c := by
  simp only [nB1_n, rB1_dt]
theorem nB2_n_dt : nB2_n { c with dt := d } = nB2_n c := by
  simp only [nB2_n, rB2_dt]
theorem nB3_n_dt : nB3_n { c with dt := d } = nB3_n c := by
  simp only [nB3_n, rB3_dt]

end Sgrid.Z4
