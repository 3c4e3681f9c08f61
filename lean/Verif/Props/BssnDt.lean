import Verif.Model.BssnRhs

/-!
# What the right hand sides of the BSSN equations depend on

The values computed before the linear step do not depend on `dt` and `densitizedLapse`: one lemma for each assignment.
-/

namespace Sgrid.Bs
set_option linter.unusedSimpArgs false
set_option linter.unusedSectionVars false
variable {𝔽 : Type} [Field 𝔽] (c : BssnArgs 𝔽) (d : 𝔽) (e : Bool)

theorem K0_dt : K0 { c with dt := d, densitized := e } = K0 c := rfl
theorem psi_dt : psi { c with dt := d, densitized := e } = psi c := rfl
theorem dpop1_dt : dpop1 { c with dt := d, densitized := e } = dpop1 c := rfl
theorem dpop2_dt : dpop2 { c with dt := d, densitized := e } = dpop2 c := rfl
theorem dpop3_dt : dpop3 { c with dt := d, densitized := e } = dpop3 c := rfl
theorem ddpop11_dt : ddpop11 { c with dt := d, densitized := e } = ddpop11 c := rfl
theorem ddpop12_dt : ddpop12 { c with dt := d, densitized := e } = ddpop12 c := rfl
theorem ddpop13_dt : ddpop13 { c with dt := d, densitized := e } = ddpop13 c := rfl
theorem ddpop22_dt : ddpop22 { c with dt := d, densitized := e } = ddpop22 c := rfl
theorem ddpop23_dt : ddpop23 { c with dt := d, densitized := e } = ddpop23 c := rfl
theorem ddpop33_dt : ddpop33 { c with dt := d, densitized := e } = ddpop33 c := rfl
theorem g11_dt : g11 { c with dt := d, densitized := e } = g11 c := rfl
theorem g12_dt : g12 { c with dt := d, densitized := e } = g12 c := rfl
theorem g13_dt : g13 { c with dt := d, densitized := e } = g13 c := rfl
theorem g22_dt : g22 { c with dt := d, densitized := e } = g22 c := rfl
theorem g23_dt : g23 { c with dt := d, densitized := e } = g23 c := rfl
theorem g33_dt : g33 { c with dt := d, densitized := e } = g33 c := rfl
theorem phi_dt : phi { c with dt := d, densitized := e } = phi c := rfl
theorem A11_dt : A11 { c with dt := d, densitized := e } = A11 c := rfl
theorem A12_dt : A12 { c with dt := d, densitized := e } = A12 c := rfl
theorem A13_dt : A13 { c with dt := d, densitized := e } = A13 c := rfl
theorem A22_dt : A22 { c with dt := d, densitized := e } = A22 c := rfl
theorem A23_dt : A23 { c with dt := d, densitized := e } = A23 c := rfl
theorem A33_dt : A33 { c with dt := d, densitized := e } = A33 c := rfl
theorem K_0_dt : K_0 { c with dt := d, densitized := e } = K_0 c := rfl
theorem G1_dt : G1 { c with dt := d, densitized := e } = G1 c := rfl
theorem G2_dt : G2 { c with dt := d, densitized := e } = G2 c := rfl
theorem G3_dt : G3 { c with dt := d, densitized := e } = G3 c := rfl
theorem alpha_dt : alpha { c with dt := d, densitized := e } = alpha c := rfl
theorem beta1_dt : beta1 { c with dt := d, densitized := e } = beta1 c := rfl
theorem beta2_dt : beta2 { c with dt := d, densitized := e } = beta2 c := rfl
theorem beta3_dt : beta3 { c with dt := d, densitized := e } = beta3 c := rfl
theorem B1_dt : B1 { c with dt := d, densitized := e } = B1 c := rfl
theorem B2_dt : B2 { c with dt := d, densitized := e } = B2 c := rfl
theorem B3_dt : B3 { c with dt := d, densitized := e } = B3 c := rfl
theorem alphaDensity_dt : alphaDensity { c with dt := d, densitized := e } = alphaDensity c := rfl
theorem pg11_dt : pg11 { c with dt := d, densitized := e } = pg11 c := rfl
theorem pg12_dt : pg12 { c with dt := d, densitized := e } = pg12 c := rfl
theorem pg13_dt : pg13 { c with dt := d, densitized := e } = pg13 c := rfl
theorem pg22_dt : pg22 { c with dt := d, densitized := e } = pg22 c := rfl
theorem pg23_dt : pg23 { c with dt := d, densitized := e } = pg23 c := rfl
theorem pg33_dt : pg33 { c with dt := d, densitized := e } = pg33 c := rfl
theorem pphi_dt : pphi { c with dt := d, densitized := e } = pphi c := rfl
theorem pA11_dt : pA11 { c with dt := d, densitized := e } = pA11 c := rfl
theorem pA12_dt : pA12 { c with dt := d, densitized := e } = pA12 c := rfl
theorem pA13_dt : pA13 { c with dt := d, densitized := e } = pA13 c := rfl
theorem pA22_dt : pA22 { c with dt := d, densitized := e } = pA22 c := rfl
theorem pA23_dt : pA23 { c with dt := d, densitized := e } = pA23 c := rfl
theorem pA33_dt : pA33 { c with dt := d, densitized := e } = pA33 c := rfl
theorem pK_dt : pK { c with dt := d, densitized := e } = pK c := rfl
theorem pG1_dt : pG1 { c with dt := d, densitized := e } = pG1 c := rfl
theorem pG2_dt : pG2 { c with dt := d, densitized := e } = pG2 c := rfl
theorem pG3_dt : pG3 { c with dt := d, densitized := e } = pG3 c := rfl
theorem palpha_dt : palpha { c with dt := d, densitized := e } = palpha c := rfl
theorem pbeta1_dt : pbeta1 { c with dt := d, densitized := e } = pbeta1 c := rfl
theorem pbeta2_dt : pbeta2 { c with dt := d, densitized := e } = pbeta2 c := rfl
theorem pbeta3_dt : pbeta3 { c with dt := d, densitized := e } = pbeta3 c := rfl
theorem pB1_dt : pB1 { c with dt := d, densitized := e } = pB1 c := rfl
theorem pB2_dt : pB2 { c with dt := d, densitized := e } = pB2 c := rfl
theorem pB3_dt : pB3 { c with dt := d, densitized := e } = pB3 c := rfl
theorem palphaDensity_dt : palphaDensity { c with dt := d, densitized := e } = palphaDensity c := rfl
theorem dgt111_dt : dgt111 { c with dt := d, densitized := e } = dgt111 c := rfl
theorem dgt112_dt : dgt112 { c with dt := d, densitized := e } = dgt112 c := rfl
theorem dgt113_dt : dgt113 { c with dt := d, densitized := e } = dgt113 c := rfl
theorem dgt121_dt : dgt121 { c with dt := d, densitized := e } = dgt121 c := rfl
theorem dgt122_dt : dgt122 { c with dt := d, densitized := e } = dgt122 c := rfl
theorem dgt123_dt : dgt123 { c with dt := d, densitized := e } = dgt123 c := rfl
theorem dgt131_dt : dgt131 { c with dt := d, densitized := e } = dgt131 c := rfl
theorem dgt132_dt : dgt132 { c with dt := d, densitized := e } = dgt132 c := rfl
theorem dgt133_dt : dgt133 { c with dt := d, densitized := e } = dgt133 c := rfl
theorem dgt221_dt : dgt221 { c with dt := d, densitized := e } = dgt221 c := rfl
theorem dgt222_dt : dgt222 { c with dt := d, densitized := e } = dgt222 c := rfl
theorem dgt223_dt : dgt223 { c with dt := d, densitized := e } = dgt223 c := rfl
theorem dgt231_dt : dgt231 { c with dt := d, densitized := e } = dgt231 c := rfl
theorem dgt232_dt : dgt232 { c with dt := d, densitized := e } = dgt232 c := rfl
theorem dgt233_dt : dgt233 { c with dt := d, densitized := e } = dgt233 c := rfl
theorem dgt331_dt : dgt331 { c with dt := d, densitized := e } = dgt331 c := rfl
theorem dgt332_dt : dgt332 { c with dt := d, densitized := e } = dgt332 c := rfl
theorem dgt333_dt : dgt333 { c with dt := d, densitized := e } = dgt333 c := rfl
theorem ddgt1111_dt : ddgt1111 { c with dt := d, densitized := e } = ddgt1111 c := rfl
theorem ddgt1112_dt : ddgt1112 { c with dt := d, densitized := e } = ddgt1112 c := rfl
theorem ddgt1113_dt : ddgt1113 { c with dt := d, densitized := e } = ddgt1113 c := rfl
theorem ddgt1122_dt : ddgt1122 { c with dt := d, densitized := e } = ddgt1122 c := rfl
theorem ddgt1123_dt : ddgt1123 { c with dt := d, densitized := e } = ddgt1123 c := rfl
theorem ddgt1133_dt : ddgt1133 { c with dt := d, densitized := e } = ddgt1133 c := rfl
theorem ddgt1211_dt : ddgt1211 { c with dt := d, densitized := e } = ddgt1211 c := rfl
theorem ddgt1212_dt : ddgt1212 { c with dt := d, densitized := e } = ddgt1212 c := rfl
theorem ddgt1213_dt : ddgt1213 { c with dt := d, densitized := e } = ddgt1213 c := rfl
theorem ddgt1222_dt : ddgt1222 { c with dt := d, densitized := e } = ddgt1222 c := rfl
theorem ddgt1223_dt : ddgt1223 { c with dt := d, densitized := e } = ddgt1223 c := rfl
theorem ddgt1233_dt : ddgt1233 { c with dt := d, densitized := e } = ddgt1233 c := rfl
theorem ddgt1311_dt : ddgt1311 { c with dt := d, densitized := e } = ddgt1311 c := rfl
theorem ddgt1312_dt : ddgt1312 { c with dt := d, densitized := e } = ddgt1312 c := rfl
theorem ddgt1313_dt : ddgt1313 { c with dt := d, densitized := e } = ddgt1313 c := rfl
theorem ddgt1322_dt : ddgt1322 { c with dt := d, densitized := e } = ddgt1322 c := rfl
theorem ddgt1323_dt : ddgt1323 { c with dt := d, densitized := e } = ddgt1323 c := rfl
theorem ddgt1333_dt : ddgt1333 { c with dt := d, densitized := e } = ddgt1333 c := rfl
theorem ddgt2211_dt : ddgt2211 { c with dt := d, densitized := e } = ddgt2211 c := rfl
theorem ddgt2212_dt : ddgt2212 { c with dt := d, densitized := e } = ddgt2212 c := rfl
theorem ddgt2213_dt : ddgt2213 { c with dt := d, densitized := e } = ddgt2213 c := rfl
theorem ddgt2222_dt : ddgt2222 { c with dt := d, densitized := e } = ddgt2222 c := rfl
theorem ddgt2223_dt : ddgt2223 { c with dt := d, densitized := e } = ddgt2223 c := rfl
theorem ddgt2233_dt : ddgt2233 { c with dt := d, densitized := e } = ddgt2233 c := rfl
theorem ddgt2311_dt : ddgt2311 { c with dt := d, densitized := e } = ddgt2311 c := rfl
theorem ddgt2312_dt : ddgt2312 { c with dt := d, densitized := e } = ddgt2312 c := rfl
theorem ddgt2313_dt : ddgt2313 { c with dt := d, densitized := e } = ddgt2313 c := rfl
theorem ddgt2322_dt : ddgt2322 { c with dt := d, densitized := e } = ddgt2322 c := rfl
theorem ddgt2323_dt : ddgt2323 { c with dt := d, densitized := e } = ddgt2323 c := rfl
theorem ddgt2333_dt : ddgt2333 { c with dt := d, densitized := e } = ddgt2333 c := rfl
theorem ddgt3311_dt : ddgt3311 { c with dt := d, densitized := e } = ddgt3311 c := rfl
theorem ddgt3312_dt : ddgt3312 { c with dt := d, densitized := e } = ddgt3312 c := rfl
theorem ddgt3313_dt : ddgt3313 { c with dt := d, densitized := e } = ddgt3313 c := rfl
theorem ddgt3322_dt : ddgt3322 { c with dt := d, densitized := e } = ddgt3322 c := rfl
theorem ddgt3323_dt : ddgt3323 { c with dt := d, densitized := e } = ddgt3323 c := rfl
theorem ddgt3333_dt : ddgt3333 { c with dt := d, densitized := e } = ddgt3333 c := rfl
theorem dAt111_dt : dAt111 { c with dt := d, densitized := e } = dAt111 c := rfl
theorem dAt112_dt : dAt112 { c with dt := d, densitized := e } = dAt112 c := rfl
theorem dAt113_dt : dAt113 { c with dt := d, densitized := e } = dAt113 c := rfl
theorem dAt121_dt : dAt121 { c with dt := d, densitized := e } = dAt121 c := rfl
theorem dAt122_dt : dAt122 { c with dt := d, densitized := e } = dAt122 c := rfl
theorem dAt123_dt : dAt123 { c with dt := d, densitized := e } = dAt123 c := rfl
theorem dAt131_dt : dAt131 { c with dt := d, densitized := e } = dAt131 c := rfl
theorem dAt132_dt : dAt132 { c with dt := d, densitized := e } = dAt132 c := rfl
theorem dAt133_dt : dAt133 { c with dt := d, densitized := e } = dAt133 c := rfl
theorem dAt221_dt : dAt221 { c with dt := d, densitized := e } = dAt221 c := rfl
theorem dAt222_dt : dAt222 { c with dt := d, densitized := e } = dAt222 c := rfl
theorem dAt223_dt : dAt223 { c with dt := d, densitized := e } = dAt223 c := rfl
theorem dAt231_dt : dAt231 { c with dt := d, densitized := e } = dAt231 c := rfl
theorem dAt232_dt : dAt232 { c with dt := d, densitized := e } = dAt232 c := rfl
theorem dAt233_dt : dAt233 { c with dt := d, densitized := e } = dAt233 c := rfl
theorem dAt331_dt : dAt331 { c with dt := d, densitized := e } = dAt331 c := rfl
theorem dAt332_dt : dAt332 { c with dt := d, densitized := e } = dAt332 c := rfl
theorem dAt333_dt : dAt333 { c with dt := d, densitized := e } = dAt333 c := rfl
theorem dphi1_dt : dphi1 { c with dt := d, densitized := e } = dphi1 c := rfl
theorem dphi2_dt : dphi2 { c with dt := d, densitized := e } = dphi2 c := rfl
theorem dphi3_dt : dphi3 { c with dt := d, densitized := e } = dphi3 c := rfl
theorem ddphi11_dt : ddphi11 { c with dt := d, densitized := e } = ddphi11 c := rfl
theorem ddphi12_dt : ddphi12 { c with dt := d, densitized := e } = ddphi12 c := rfl
theorem ddphi13_dt : ddphi13 { c with dt := d, densitized := e } = ddphi13 c := rfl
theorem ddphi22_dt : ddphi22 { c with dt := d, densitized := e } = ddphi22 c := rfl
theorem ddphi23_dt : ddphi23 { c with dt := d, densitized := e } = ddphi23 c := rfl
theorem ddphi33_dt : ddphi33 { c with dt := d, densitized := e } = ddphi33 c := rfl
theorem dGt11_dt : dGt11 { c with dt := d, densitized := e } = dGt11 c := rfl
theorem dGt12_dt : dGt12 { c with dt := d, densitized := e } = dGt12 c := rfl
theorem dGt13_dt : dGt13 { c with dt := d, densitized := e } = dGt13 c := rfl
theorem dGt21_dt : dGt21 { c with dt := d, densitized := e } = dGt21 c := rfl
theorem dGt22_dt : dGt22 { c with dt := d, densitized := e } = dGt22 c := rfl
theorem dGt23_dt : dGt23 { c with dt := d, densitized := e } = dGt23 c := rfl
theorem dGt31_dt : dGt31 { c with dt := d, densitized := e } = dGt31 c := rfl
theorem dGt32_dt : dGt32 { c with dt := d, densitized := e } = dGt32 c := rfl
theorem dGt33_dt : dGt33 { c with dt := d, densitized := e } = dGt33 c := rfl
theorem dK1_0_dt : dK1_0 { c with dt := d, densitized := e } = dK1_0 c := rfl
theorem dK2_0_dt : dK2_0 { c with dt := d, densitized := e } = dK2_0 c := rfl
theorem dK3_0_dt : dK3_0 { c with dt := d, densitized := e } = dK3_0 c := rfl
theorem dalp1_dt : dalp1 { c with dt := d, densitized := e } = dalp1 c := rfl
theorem dalp2_dt : dalp2 { c with dt := d, densitized := e } = dalp2 c := rfl
theorem dalp3_dt : dalp3 { c with dt := d, densitized := e } = dalp3 c := rfl
theorem ddalp11_dt : ddalp11 { c with dt := d, densitized := e } = ddalp11 c := rfl
theorem ddalp12_dt : ddalp12 { c with dt := d, densitized := e } = ddalp12 c := rfl
theorem ddalp13_dt : ddalp13 { c with dt := d, densitized := e } = ddalp13 c := rfl
theorem ddalp22_dt : ddalp22 { c with dt := d, densitized := e } = ddalp22 c := rfl
theorem ddalp23_dt : ddalp23 { c with dt := d, densitized := e } = ddalp23 c := rfl
theorem ddalp33_dt : ddalp33 { c with dt := d, densitized := e } = ddalp33 c := rfl
theorem dbeta11_dt : dbeta11 { c with dt := d, densitized := e } = dbeta11 c := rfl
theorem dbeta12_dt : dbeta12 { c with dt := d, densitized := e } = dbeta12 c := rfl
theorem dbeta13_dt : dbeta13 { c with dt := d, densitized := e } = dbeta13 c := rfl
theorem dbeta21_dt : dbeta21 { c with dt := d, densitized := e } = dbeta21 c := rfl
theorem dbeta22_dt : dbeta22 { c with dt := d, densitized := e } = dbeta22 c := rfl
theorem dbeta23_dt : dbeta23 { c with dt := d, densitized := e } = dbeta23 c := rfl
theorem dbeta31_dt : dbeta31 { c with dt := d, densitized := e } = dbeta31 c := rfl
theorem dbeta32_dt : dbeta32 { c with dt := d, densitized := e } = dbeta32 c := rfl
theorem dbeta33_dt : dbeta33 { c with dt := d, densitized := e } = dbeta33 c := rfl
theorem ddbeta111_dt : ddbeta111 { c with dt := d, densitized := e } = ddbeta111 c := rfl
theorem ddbeta112_dt : ddbeta112 { c with dt := d, densitized := e } = ddbeta112 c := rfl
theorem ddbeta113_dt : ddbeta113 { c with dt := d, densitized := e } = ddbeta113 c := rfl
theorem ddbeta122_dt : ddbeta122 { c with dt := d, densitized := e } = ddbeta122 c := rfl
theorem ddbeta123_dt : ddbeta123 { c with dt := d, densitized := e } = ddbeta123 c := rfl
theorem ddbeta133_dt : ddbeta133 { c with dt := d, densitized := e } = ddbeta133 c := rfl
theorem ddbeta211_dt : ddbeta211 { c with dt := d, densitized := e } = ddbeta211 c := rfl
theorem ddbeta212_dt : ddbeta212 { c with dt := d, densitized := e } = ddbeta212 c := rfl
theorem ddbeta213_dt : ddbeta213 { c with dt := d, densitized := e } = ddbeta213 c := rfl
theorem ddbeta222_dt : ddbeta222 { c with dt := d, densitized := e } = ddbeta222 c := rfl
theorem ddbeta223_dt : ddbeta223 { c with dt := d, densitized := e } = ddbeta223 c := rfl
theorem ddbeta233_dt : ddbeta233 { c with dt := d, densitized := e } = ddbeta233 c := rfl
theorem ddbeta311_dt : ddbeta311 { c with dt := d, densitized := e } = ddbeta311 c := rfl
theorem ddbeta312_dt : ddbeta312 { c with dt := d, densitized := e } = ddbeta312 c := rfl
theorem ddbeta313_dt : ddbeta313 { c with dt := d, densitized := e } = ddbeta313 c := rfl
theorem ddbeta322_dt : ddbeta322 { c with dt := d, densitized := e } = ddbeta322 c := rfl
theorem ddbeta323_dt : ddbeta323 { c with dt := d, densitized := e } = ddbeta323 c := rfl
theorem ddbeta333_dt : ddbeta333 { c with dt := d, densitized := e } = ddbeta333 c := rfl
theorem alphaRHS_dt : alphaRHS { c with dt := d, densitized := e } = alphaRHS c := rfl
theorem evolveshift_dt [LinearOrder 𝔽] : evolveshift { c with dt := d, densitized := e } = evolveshift c := rfl
theorem df1_0_dt : df1_0 { c with dt := d, densitized := e } = df1_0 c := by
  simp only [df1_0, dphi1_dt]
theorem df2_0_dt : df2_0 { c with dt := d, densitized := e } = df2_0 c := by
  simp only [df2_0, dphi2_dt]
theorem df3_0_dt : df3_0 { c with dt := d, densitized := e } = df3_0 c := by
  simp only [df3_0, dphi3_dt]
theorem ddf11_0_dt : ddf11_0 { c with dt := d, densitized := e } = ddf11_0 c := by
  simp only [ddf11_0, ddphi11_dt]
theorem ddf12_0_dt : ddf12_0 { c with dt := d, densitized := e } = ddf12_0 c := by
  simp only [ddf12_0, ddphi12_dt]
theorem ddf13_0_dt : ddf13_0 { c with dt := d, densitized := e } = ddf13_0 c := by
  simp only [ddf13_0, ddphi13_dt]
theorem ddf22_0_dt : ddf22_0 { c with dt := d, densitized := e } = ddf22_0 c := by
  simp only [ddf22_0, ddphi22_dt]
theorem ddf23_0_dt : ddf23_0 { c with dt := d, densitized := e } = ddf23_0 c := by
  simp only [ddf23_0, ddphi23_dt]
theorem ddf33_0_dt : ddf33_0 { c with dt := d, densitized := e } = ddf33_0 c := by
  simp only [ddf33_0, ddphi33_dt]
theorem da1_dt : da1 { c with dt := d, densitized := e } = da1 c := by
  simp only [da1, dalp1_dt]
theorem da2_dt : da2 { c with dt := d, densitized := e } = da2 c := by
  simp only [da2, dalp2_dt]
theorem da3_dt : da3 { c with dt := d, densitized := e } = da3 c := by
  simp only [da3, dalp3_dt]
theorem dda11_dt : dda11 { c with dt := d, densitized := e } = dda11 c := by
  simp only [dda11, ddalp11_dt]
theorem dda12_dt : dda12 { c with dt := d, densitized := e } = dda12 c := by
  simp only [dda12, ddalp12_dt]
theorem dda13_dt : dda13 { c with dt := d, densitized := e } = dda13 c := by
  simp only [dda13, ddalp13_dt]
theorem dda22_dt : dda22 { c with dt := d, densitized := e } = dda22 c := by
  simp only [dda22, ddalp22_dt]
theorem dda23_dt : dda23 { c with dt := d, densitized := e } = dda23 c := by
  simp only [dda23, ddalp23_dt]
theorem dda33_dt : dda33 { c with dt := d, densitized := e } = dda33 c := by
  simp only [dda33, ddalp33_dt]
theorem db11_dt : db11 { c with dt := d, densitized := e } = db11 c := by
  simp only [db11, dbeta11_dt]
theorem db12_dt : db12 { c with dt := d, densitized := e } = db12 c := by
  simp only [db12, dbeta21_dt]
theorem db13_dt : db13 { c with dt := d, densitized := e } = db13 c := by
  simp only [db13, dbeta31_dt]
theorem db21_dt : db21 { c with dt := d, densitized := e } = db21 c := by
  simp only [db21, dbeta12_dt]
theorem db22_dt : db22 { c with dt := d, densitized := e } = db22 c := by
  simp only [db22, dbeta22_dt]
theorem db23_dt : db23 { c with dt := d, densitized := e } = db23 c := by
  simp only [db23, dbeta32_dt]
theorem db31_dt : db31 { c with dt := d, densitized := e } = db31 c := by
  simp only [db31, dbeta13_dt]
theorem db32_dt : db32 { c with dt := d, densitized := e } = db32 c := by
  simp only [db32, dbeta23_dt]
theorem db33_dt : db33 { c with dt := d, densitized := e } = db33 c := by
  simp only [db33, dbeta33_dt]
theorem ddb111_dt : ddb111 { c with dt := d, densitized := e } = ddb111 c := by
  simp only [ddb111, ddbeta111_dt]
theorem ddb112_dt : ddb112 { c with dt := d, densitized := e } = ddb112 c := by
  simp only [ddb112, ddbeta211_dt]
theorem ddb113_dt : ddb113 { c with dt := d, densitized := e } = ddb113 c := by
  simp only [ddb113, ddbeta311_dt]
theorem ddb121_dt : ddb121 { c with dt := d, densitized := e } = ddb121 c := by
  simp only [ddb121, ddbeta112_dt]
theorem ddb122_dt : ddb122 { c with dt := d, densitized := e } = ddb122 c := by
  simp only [ddb122, ddbeta212_dt]
theorem ddb123_dt : ddb123 { c with dt := d, densitized := e } = ddb123 c := by
  simp only [ddb123, ddbeta312_dt]
theorem ddb131_dt : ddb131 { c with dt := d, densitized := e } = ddb131 c := by
  simp only [ddb131, ddbeta113_dt]
theorem ddb132_dt : ddb132 { c with dt := d, densitized := e } = ddb132 c := by
  simp only [ddb132, ddbeta213_dt]
theorem ddb133_dt : ddb133 { c with dt := d, densitized := e } = ddb133 c := by
  simp only [ddb133, ddbeta313_dt]
theorem ddb221_dt : ddb221 { c with dt := d, densitized := e } = ddb221 c := by
  simp only [ddb221, ddbeta122_dt]
theorem ddb222_dt : ddb222 { c with dt := d, densitized := e } = ddb222 c := by
  simp only [ddb222, ddbeta222_dt]
theorem ddb223_dt : ddb223 { c with dt := d, densitized := e } = ddb223 c := by
  simp only [ddb223, ddbeta322_dt]
theorem ddb231_dt : ddb231 { c with dt := d, densitized := e } = ddb231 c := by
  simp only [ddb231, ddbeta123_dt]
theorem ddb232_dt : ddb232 { c with dt := d, densitized := e } = ddb232 c := by
  simp only [ddb232, ddbeta223_dt]
theorem ddb233_dt : ddb233 { c with dt := d, densitized := e } = ddb233 c := by
  simp only [ddb233, ddbeta323_dt]
theorem ddb331_dt : ddb331 { c with dt := d, densitized := e } = ddb331 c := by
  simp only [ddb331, ddbeta133_dt]
theorem ddb332_dt : ddb332 { c with dt := d, densitized := e } = ddb332 c := by
  simp only [ddb332, ddbeta233_dt]
theorem ddb333_dt : ddb333 { c with dt := d, densitized := e } = ddb333 c := by
  simp only [ddb333, ddbeta333_dt]
theorem delg111_dt : delg111 { c with dt := d, densitized := e } = delg111 c := by
  simp only [delg111, dgt111_dt]
theorem delg112_dt : delg112 { c with dt := d, densitized := e } = delg112 c := by
  simp only [delg112, dgt121_dt]
theorem delg113_dt : delg113 { c with dt := d, densitized := e } = delg113 c := by
  simp only [delg113, dgt131_dt]
theorem delg122_dt : delg122 { c with dt := d, densitized := e } = delg122 c := by
  simp only [delg122, dgt221_dt]
theorem delg123_dt : delg123 { c with dt := d, densitized := e } = delg123 c := by
  simp only [delg123, dgt231_dt]
theorem delg133_dt : delg133 { c with dt := d, densitized := e } = delg133 c := by
  simp only [delg133, dgt331_dt]
theorem delg211_dt : delg211 { c with dt := d, densitized := e } = delg211 c := by
  simp only [delg211, dgt112_dt]
theorem delg212_dt : delg212 { c with dt := d, densitized := e } = delg212 c := by
  simp only [delg212, dgt122_dt]
theorem delg213_dt : delg213 { c with dt := d, densitized := e } = delg213 c := by
  simp only [delg213, dgt132_dt]
theorem delg222_dt : delg222 { c with dt := d, densitized := e } = delg222 c := by
  simp only [delg222, dgt222_dt]
theorem delg223_dt : delg223 { c with dt := d, densitized := e } = delg223 c := by
  simp only [delg223, dgt232_dt]
theorem delg233_dt : delg233 { c with dt := d, densitized := e } = delg233 c := by
  simp only [delg233, dgt332_dt]
theorem delg311_dt : delg311 { c with dt := d, densitized := e } = delg311 c := by
  simp only [delg311, dgt113_dt]
theorem delg312_dt : delg312 { c with dt := d, densitized := e } = delg312 c := by
  simp only [delg312, dgt123_dt]
theorem delg313_dt : delg313 { c with dt := d, densitized := e } = delg313 c := by
  simp only [delg313, dgt133_dt]
theorem delg322_dt : delg322 { c with dt := d, densitized := e } = delg322 c := by
  simp only [delg322, dgt223_dt]
theorem delg323_dt : delg323 { c with dt := d, densitized := e } = delg323 c := by
  simp only [delg323, dgt233_dt]
theorem delg333_dt : delg333 { c with dt := d, densitized := e } = delg333 c := by
  simp only [delg333, dgt333_dt]
theorem deldelg1111_dt : deldelg1111 { c with dt := d, densitized := e } = deldelg1111 c := by
  simp only [deldelg1111, ddgt1111_dt]
theorem deldelg1112_dt : deldelg1112 { c with dt := d, densitized := e } = deldelg1112 c := by
  simp only [deldelg1112, ddgt1211_dt]
theorem deldelg1113_dt : deldelg1113 { c with dt := d, densitized := e } = deldelg1113 c := by
  simp only [deldelg1113, ddgt1311_dt]
theorem deldelg1122_dt : deldelg1122 { c with dt := d, densitized := e } = deldelg1122 c := by
  simp only [deldelg1122, ddgt2211_dt]
theorem deldelg1123_dt : deldelg1123 { c with dt := d, densitized := e } = deldelg1123 c := by
  simp only [deldelg1123, ddgt2311_dt]
theorem deldelg1133_dt : deldelg1133 { c with dt := d, densitized := e } = deldelg1133 c := by
  simp only [deldelg1133, ddgt3311_dt]
theorem deldelg1211_dt : deldelg1211 { c with dt := d, densitized := e } = deldelg1211 c := by
  simp only [deldelg1211, ddgt1112_dt]
theorem deldelg1212_dt : deldelg1212 { c with dt := d, densitized := e } = deldelg1212 c := by
  simp only [deldelg1212, ddgt1212_dt]
theorem deldelg1213_dt : deldelg1213 { c with dt := d, densitized := e } = deldelg1213 c := by
  simp only [deldelg1213, ddgt1312_dt]
theorem deldelg1222_dt : deldelg1222 { c with dt := d, densitized := e } = deldelg1222 c := by
  simp only [deldelg1222, ddgt2212_dt]
theorem deldelg1223_dt : deldelg1223 { c with dt := d, densitized := e } = deldelg1223 c := by
  simp only [deldelg1223, ddgt2312_dt]
theorem deldelg1233_dt : deldelg1233 { c with dt := d, densitized := e } = deldelg1233 c := by
  simp only [deldelg1233, ddgt3312_dt]
theorem deldelg1311_dt : deldelg1311 { c with dt := d, densitized := e } = deldelg1311 c := by
  simp only [deldelg1311, ddgt1113_dt]
theorem deldelg1312_dt : deldelg1312 { c with dt := d, densitized := e } = deldelg1312 c := by
  simp only [deldelg1312, ddgt1213_dt]
theorem deldelg1313_dt : deldelg1313 { c with dt := d, densitized := e } = deldelg1313 c := by
  simp only [deldelg1313, ddgt1313_dt]
theorem deldelg1322_dt : deldelg1322 { c with dt := d, densitized := e } = deldelg1322 c := by
  simp only [deldelg1322, ddgt2213_dt]
theorem deldelg1323_dt : deldelg1323 { c with dt := d, densitized := e } = deldelg1323 c := by
  simp only [deldelg1323, ddgt2313_dt]
theorem deldelg1333_dt : deldelg1333 { c with dt := d, densitized := e } = deldelg1333 c := by
  simp only [deldelg1333, ddgt3313_dt]
theorem deldelg2211_dt : deldelg2211 { c with dt := d, densitized := e } = deldelg2211 c := by
  simp only [deldelg2211, ddgt1122_dt]
theorem deldelg2212_dt : deldelg2212 { c with dt := d, densitized := e } = deldelg2212 c := by
  simp only [deldelg2212, ddgt1222_dt]
theorem deldelg2213_dt : deldelg2213 { c with dt := d, densitized := e } = deldelg2213 c := by
  simp only [deldelg2213, ddgt1322_dt]
theorem deldelg2222_dt : deldelg2222 { c with dt := d, densitized := e } = deldelg2222 c := by
  simp only [deldelg2222, ddgt2222_dt]
theorem deldelg2223_dt : deldelg2223 { c with dt := d, densitized := e } = deldelg2223 c := by
  simp only [deldelg2223, ddgt2322_dt]
theorem deldelg2233_dt : deldelg2233 { c with dt := d, densitized := e } = deldelg2233 c := by
  simp only [deldelg2233, ddgt3322_dt]
theorem deldelg2311_dt : deldelg2311 { c with dt := d, densitized := e } = deldelg2311 c := by
  simp only [deldelg2311, ddgt1123_dt]
theorem deldelg2312_dt : deldelg2312 { c with dt := d, densitized := e } = deldelg2312 c := by
  simp only [deldelg2312, ddgt1223_dt]
theorem deldelg2313_dt : deldelg2313 { c with dt := d, densitized := e } = deldelg2313 c := by
  simp only [deldelg2313, ddgt1323_dt]
theorem deldelg2322_dt : deldelg2322 { c with dt := d, densitized := e } = deldelg2322 c := by
  simp only [deldelg2322, ddgt2223_dt]
theorem deldelg2323_dt : deldelg2323 { c with dt := d, densitized := e } = deldelg2323 c := by
  simp only [deldelg2323, ddgt2323_dt]
theorem deldelg2333_dt : deldelg2333 { c with dt := d, densitized := e } = deldelg2333 c := by
  simp only [deldelg2333, ddgt3323_dt]
theorem deldelg3311_dt : deldelg3311 { c with dt := d, densitized := e } = deldelg3311 c := by
  simp only [deldelg3311, ddgt1133_dt]
theorem deldelg3312_dt : deldelg3312 { c with dt := d, densitized := e } = deldelg3312 c := by
  simp only [deldelg3312, ddgt1233_dt]
theorem deldelg3313_dt : deldelg3313 { c with dt := d, densitized := e } = deldelg3313 c := by
  simp only [deldelg3313, ddgt1333_dt]
theorem deldelg3322_dt : deldelg3322 { c with dt := d, densitized := e } = deldelg3322 c := by
  simp only [deldelg3322, ddgt2233_dt]
theorem deldelg3323_dt : deldelg3323 { c with dt := d, densitized := e } = deldelg3323 c := by
  simp only [deldelg3323, ddgt2333_dt]
theorem deldelg3333_dt : deldelg3333 { c with dt := d, densitized := e } = deldelg3333 c := by
  simp only [deldelg3333, ddgt3333_dt]
theorem delG11_dt : delG11 { c with dt := d, densitized := e } = delG11 c := by
  simp only [delG11, dGt11_dt]
theorem delG12_dt : delG12 { c with dt := d, densitized := e } = delG12 c := by
  simp only [delG12, dGt21_dt]
theorem delG13_dt : delG13 { c with dt := d, densitized := e } = delG13 c := by
  simp only [delG13, dGt31_dt]
theorem delG21_dt : delG21 { c with dt := d, densitized := e } = delG21 c := by
  simp only [delG21, dGt12_dt]
theorem delG22_dt : delG22 { c with dt := d, densitized := e } = delG22 c := by
  simp only [delG22, dGt22_dt]
theorem delG23_dt : delG23 { c with dt := d, densitized := e } = delG23 c := by
  simp only [delG23, dGt32_dt]
theorem delG31_dt : delG31 { c with dt := d, densitized := e } = delG31 c := by
  simp only [delG31, dGt13_dt]
theorem delG32_dt : delG32 { c with dt := d, densitized := e } = delG32 c := by
  simp only [delG32, dGt23_dt]
theorem delG33_dt : delG33 { c with dt := d, densitized := e } = delG33 c := by
  simp only [delG33, dGt33_dt]
theorem dA111_dt : dA111 { c with dt := d, densitized := e } = dA111 c := by
  simp only [dA111, dAt111_dt]
theorem dA112_dt : dA112 { c with dt := d, densitized := e } = dA112 c := by
  simp only [dA112, dAt121_dt]
theorem dA113_dt : dA113 { c with dt := d, densitized := e } = dA113 c := by
  simp only [dA113, dAt131_dt]
theorem dA122_dt : dA122 { c with dt := d, densitized := e } = dA122 c := by
  simp only [dA122, dAt221_dt]
theorem dA123_dt : dA123 { c with dt := d, densitized := e } = dA123 c := by
  simp only [dA123, dAt231_dt]
theorem dA133_dt : dA133 { c with dt := d, densitized := e } = dA133 c := by
  simp only [dA133, dAt331_dt]
theorem dA211_dt : dA211 { c with dt := d, densitized := e } = dA211 c := by
  simp only [dA211, dAt112_dt]
theorem dA212_dt : dA212 { c with dt := d, densitized := e } = dA212 c := by
  simp only [dA212, dAt122_dt]
theorem dA213_dt : dA213 { c with dt := d, densitized := e } = dA213 c := by
  simp only [dA213, dAt132_dt]
theorem dA222_dt : dA222 { c with dt := d, densitized := e } = dA222 c := by
  simp only [dA222, dAt222_dt]
theorem dA223_dt : dA223 { c with dt := d, densitized := e } = dA223 c := by
  simp only [dA223, dAt232_dt]
theorem dA233_dt : dA233 { c with dt := d, densitized := e } = dA233 c := by
  simp only [dA233, dAt332_dt]
theorem dA311_dt : dA311 { c with dt := d, densitized := e } = dA311 c := by
  simp only [dA311, dAt113_dt]
theorem dA312_dt : dA312 { c with dt := d, densitized := e } = dA312 c := by
  simp only [dA312, dAt123_dt]
theorem dA313_dt : dA313 { c with dt := d, densitized := e } = dA313 c := by
  simp only [dA313, dAt133_dt]
theorem dA322_dt : dA322 { c with dt := d, densitized := e } = dA322 c := by
  simp only [dA322, dAt223_dt]
theorem dA323_dt : dA323 { c with dt := d, densitized := e } = dA323 c := by
  simp only [dA323, dAt233_dt]
theorem dA333_dt : dA333 { c with dt := d, densitized := e } = dA333 c := by
  simp only [dA333, dAt333_dt]
theorem betadf_0_dt : betadf_0 { c with dt := d, densitized := e } = betadf_0 c := by
  simp only [betadf_0, beta1_dt, dphi1_dt, beta2_dt, dphi2_dt, beta3_dt, dphi3_dt]
theorem betadg11_dt : betadg11 { c with dt := d, densitized := e } = betadg11 c := by
  simp only [betadg11, beta1_dt, dgt111_dt, beta2_dt, dgt112_dt, beta3_dt, dgt113_dt]
theorem betadg12_dt : betadg12 { c with dt := d, densitized := e } = betadg12 c := by
  simp only [betadg12, beta1_dt, dgt121_dt, beta2_dt, dgt122_dt, beta3_dt, dgt123_dt]
theorem betadg13_dt : betadg13 { c with dt := d, densitized := e } = betadg13 c := by
  simp only [betadg13, beta1_dt, dgt131_dt, beta2_dt, dgt132_dt, beta3_dt, dgt133_dt]
theorem betadg21_dt : betadg21 { c with dt := d, densitized := e } = betadg21 c := by
  simp only [betadg21, beta1_dt, dgt121_dt, beta2_dt, dgt122_dt, beta3_dt, dgt123_dt]
theorem betadg22_dt : betadg22 { c with dt := d, densitized := e } = betadg22 c := by
  simp only [betadg22, beta1_dt, dgt221_dt, beta2_dt, dgt222_dt, beta3_dt, dgt223_dt]
theorem betadg23_dt : betadg23 { c with dt := d, densitized := e } = betadg23 c := by
  simp only [betadg23, beta1_dt, dgt231_dt, beta2_dt, dgt232_dt, beta3_dt, dgt233_dt]
theorem betadg31_dt : betadg31 { c with dt := d, densitized := e } = betadg31 c := by
  simp only [betadg31, beta1_dt, dgt131_dt, beta2_dt, dgt132_dt, beta3_dt, dgt133_dt]
theorem betadg32_dt : betadg32 { c with dt := d, densitized := e } = betadg32 c := by
  simp only [betadg32, beta1_dt, dgt231_dt, beta2_dt, dgt232_dt, beta3_dt, dgt233_dt]
theorem betadg33_dt : betadg33 { c with dt := d, densitized := e } = betadg33 c := by
  simp only [betadg33, beta1_dt, dgt331_dt, beta2_dt, dgt332_dt, beta3_dt, dgt333_dt]
theorem betadA11_dt : betadA11 { c with dt := d, densitized := e } = betadA11 c := by
  simp only [betadA11, beta1_dt, dAt111_dt, beta2_dt, dAt112_dt, beta3_dt, dAt113_dt]
theorem betadA12_dt : betadA12 { c with dt := d, densitized := e } = betadA12 c := by
  simp only [betadA12, beta1_dt, dAt121_dt, beta2_dt, dAt122_dt, beta3_dt, dAt123_dt]
theorem betadA13_dt : betadA13 { c with dt := d, densitized := e } = betadA13 c := by
  simp only [betadA13, beta1_dt, dAt131_dt, beta2_dt, dAt132_dt, beta3_dt, dAt133_dt]
theorem betadA21_dt : betadA21 { c with dt := d, densitized := e } = betadA21 c := by
  simp only [betadA21, beta1_dt, dAt121_dt, beta2_dt, dAt122_dt, beta3_dt, dAt123_dt]
theorem betadA22_dt : betadA22 { c with dt := d, densitized := e } = betadA22 c := by
  simp only [betadA22, beta1_dt, dAt221_dt, beta2_dt, dAt222_dt, beta3_dt, dAt223_dt]
theorem betadA23_dt : betadA23 { c with dt := d, densitized := e } = betadA23 c := by
  simp only [betadA23, beta1_dt, dAt231_dt, beta2_dt, dAt232_dt, beta3_dt, dAt233_dt]
theorem betadA31_dt : betadA31 { c with dt := d, densitized := e } = betadA31 c := by
  simp only [betadA31, beta1_dt, dAt131_dt, beta2_dt, dAt132_dt, beta3_dt, dAt133_dt]
theorem betadA32_dt : betadA32 { c with dt := d, densitized := e } = betadA32 c := by
  simp only [betadA32, beta1_dt, dAt231_dt, beta2_dt, dAt232_dt, beta3_dt, dAt233_dt]
theorem betadA33_dt : betadA33 { c with dt := d, densitized := e } = betadA33 c := by
  simp only [betadA33, beta1_dt, dAt331_dt, beta2_dt, dAt332_dt, beta3_dt, dAt333_dt]
theorem betadK_dt : betadK { c with dt := d, densitized := e } = betadK c := by
  simp only [betadK, beta1_dt, dK1_0_dt, beta2_dt, dK2_0_dt, beta3_dt, dK3_0_dt]
theorem betadG1_dt : betadG1 { c with dt := d, densitized := e } = betadG1 c := by
  simp only [betadG1, beta1_dt, dGt11_dt, beta2_dt, dGt12_dt, beta3_dt, dGt13_dt]
theorem betadG2_dt : betadG2 { c with dt := d, densitized := e } = betadG2 c := by
  simp only [betadG2, beta1_dt, dGt21_dt, beta2_dt, dGt22_dt, beta3_dt, dGt23_dt]
theorem betadG3_dt : betadG3 { c with dt := d, densitized := e } = betadG3 c := by
  simp only [betadG3, beta1_dt, dGt31_dt, beta2_dt, dGt32_dt, beta3_dt, dGt33_dt]
theorem betadalp_dt : betadalp { c with dt := d, densitized := e } = betadalp c := by
  simp only [betadalp, beta1_dt, dalp1_dt, beta2_dt, dalp2_dt, beta3_dt, dalp3_dt]
theorem detginv_dt : detginv { c with dt := d, densitized := e } = detginv c := by
  simp only [detginv, g12_dt, g13_dt, g23_dt, g11_dt, g22_dt, g33_dt]
theorem ginv11_dt : ginv11 { c with dt := d, densitized := e } = ginv11 c := by
  simp only [ginv11, detginv_dt, g22_dt, g33_dt, g23_dt]
theorem ginv12_dt : ginv12 { c with dt := d, densitized := e } = ginv12 c := by
  simp only [ginv12, detginv_dt, g13_dt, g23_dt, g12_dt, g33_dt]
theorem ginv13_dt : ginv13 { c with dt := d, densitized := e } = ginv13 c := by
  simp only [ginv13, detginv_dt, g13_dt, g22_dt, g12_dt, g23_dt]
theorem ginv22_dt : ginv22 { c with dt := d, densitized := e } = ginv22 c := by
  simp only [ginv22, detginv_dt, g11_dt, g33_dt, g13_dt]
theorem ginv23_dt : ginv23 { c with dt := d, densitized := e } = ginv23 c := by
  simp only [ginv23, detginv_dt, g12_dt, g13_dt, g11_dt, g23_dt]
theorem ginv33_dt : ginv33 { c with dt := d, densitized := e } = ginv33 c := by
  simp only [ginv33, detginv_dt, g11_dt, g22_dt, g12_dt]
theorem dginv111_dt : dginv111 { c with dt := d, densitized := e } = dginv111 c := by
  simp only [dginv111, delg123_dt, ginv12_dt, ginv13_dt, ginv11_dt, delg112_dt, delg113_dt, delg111_dt, delg122_dt, delg133_dt]
theorem dginv112_dt : dginv112 { c with dt := d, densitized := e } = dginv112 c := by
  simp only [dginv112, ginv11_dt, delg111_dt, ginv12_dt, delg112_dt, ginv22_dt, delg113_dt, ginv23_dt, ginv13_dt, delg122_dt, delg123_dt, delg133_dt]
theorem dginv113_dt : dginv113 { c with dt := d, densitized := e } = dginv113 c := by
  simp only [dginv113, ginv11_dt, delg111_dt, ginv13_dt, delg112_dt, ginv23_dt, delg113_dt, ginv33_dt, ginv12_dt, delg122_dt, delg123_dt, delg133_dt]
theorem dginv122_dt : dginv122 { c with dt := d, densitized := e } = dginv122 c := by
  simp only [dginv122, delg123_dt, ginv22_dt, ginv23_dt, ginv12_dt, delg112_dt, delg113_dt, delg111_dt, delg122_dt, delg133_dt]
theorem dginv123_dt : dginv123 { c with dt := d, densitized := e } = dginv123 c := by
  simp only [dginv123, ginv13_dt, delg112_dt, ginv22_dt, delg113_dt, ginv23_dt, delg133_dt, ginv33_dt, ginv12_dt, delg111_dt, delg122_dt, delg123_dt]
theorem dginv133_dt : dginv133 { c with dt := d, densitized := e } = dginv133 c := by
  simp only [dginv133, delg123_dt, ginv23_dt, ginv33_dt, ginv13_dt, delg112_dt, delg113_dt, delg111_dt, delg122_dt, delg133_dt]
theorem dginv211_dt : dginv211 { c with dt := d, densitized := e } = dginv211 c := by
  simp only [dginv211, delg223_dt, ginv12_dt, ginv13_dt, ginv11_dt, delg212_dt, delg213_dt, delg211_dt, delg222_dt, delg233_dt]
theorem dginv212_dt : dginv212 { c with dt := d, densitized := e } = dginv212 c := by
  simp only [dginv212, ginv11_dt, delg211_dt, ginv12_dt, delg212_dt, ginv22_dt, delg213_dt, ginv23_dt, ginv13_dt, delg222_dt, delg223_dt, delg233_dt]
theorem dginv213_dt : dginv213 { c with dt := d, densitized := e } = dginv213 c := by
  simp only [dginv213, ginv11_dt, delg211_dt, ginv13_dt, delg212_dt, ginv23_dt, delg213_dt, ginv33_dt, ginv12_dt, delg222_dt, delg223_dt, delg233_dt]
theorem dginv222_dt : dginv222 { c with dt := d, densitized := e } = dginv222 c := by
  simp only [dginv222, delg223_dt, ginv22_dt, ginv23_dt, ginv12_dt, delg212_dt, delg213_dt, delg211_dt, delg222_dt, delg233_dt]
theorem dginv223_dt : dginv223 { c with dt := d, densitized := e } = dginv223 c := by
  simp only [dginv223, ginv13_dt, delg212_dt, ginv22_dt, delg213_dt, ginv23_dt, delg233_dt, ginv33_dt, ginv12_dt, delg211_dt, delg222_dt, delg223_dt]
theorem dginv233_dt : dginv233 { c with dt := d, densitized := e } = dginv233 c := by
  simp only [dginv233, delg223_dt, ginv23_dt, ginv33_dt, ginv13_dt, delg212_dt, delg213_dt, delg211_dt, delg222_dt, delg233_dt]
theorem dginv311_dt : dginv311 { c with dt := d, densitized := e } = dginv311 c := by
  simp only [dginv311, delg323_dt, ginv12_dt, ginv13_dt, ginv11_dt, delg312_dt, delg313_dt, delg311_dt, delg322_dt, delg333_dt]
theorem dginv312_dt : dginv312 { c with dt := d, densitized := e } = dginv312 c := by
  simp only [dginv312, ginv11_dt, delg311_dt, ginv12_dt, delg312_dt, ginv22_dt, delg313_dt, ginv23_dt, ginv13_dt, delg322_dt, delg323_dt, delg333_dt]
theorem dginv313_dt : dginv313 { c with dt := d, densitized := e } = dginv313 c := by
  simp only [dginv313, ginv11_dt, delg311_dt, ginv13_dt, delg312_dt, ginv23_dt, delg313_dt, ginv33_dt, ginv12_dt, delg322_dt, delg323_dt, delg333_dt]
theorem dginv322_dt : dginv322 { c with dt := d, densitized := e } = dginv322 c := by
  simp only [dginv322, delg323_dt, ginv22_dt, ginv23_dt, ginv12_dt, delg312_dt, delg313_dt, delg311_dt, delg322_dt, delg333_dt]
theorem dginv323_dt : dginv323 { c with dt := d, densitized := e } = dginv323 c := by
  simp only [dginv323, ginv13_dt, delg312_dt, ginv22_dt, delg313_dt, ginv23_dt, delg333_dt, ginv33_dt, ginv12_dt, delg311_dt, delg322_dt, delg323_dt]
theorem dginv333_dt : dginv333 { c with dt := d, densitized := e } = dginv333 c := by
  simp only [dginv333, delg323_dt, ginv23_dt, ginv33_dt, ginv13_dt, delg312_dt, delg313_dt, delg311_dt, delg322_dt, delg333_dt]
theorem gammado111_dt : gammado111 { c with dt := d, densitized := e } = gammado111 c := by
  simp only [gammado111, delg111_dt]
theorem gammado112_dt : gammado112 { c with dt := d, densitized := e } = gammado112 c := by
  simp only [gammado112, delg211_dt]
theorem gammado113_dt : gammado113 { c with dt := d, densitized := e } = gammado113 c := by
  simp only [gammado113, delg311_dt]
theorem gammado122_dt : gammado122 { c with dt := d, densitized := e } = gammado122 c := by
  simp only [gammado122, delg122_dt, delg212_dt]
theorem gammado123_dt : gammado123 { c with dt := d, densitized := e } = gammado123 c := by
  simp only [gammado123, delg123_dt, delg213_dt, delg312_dt]
theorem gammado133_dt : gammado133 { c with dt := d, densitized := e } = gammado133 c := by
  simp only [gammado133, delg133_dt, delg313_dt]
theorem gammado211_dt : gammado211 { c with dt := d, densitized := e } = gammado211 c := by
  simp only [gammado211, delg112_dt, delg211_dt]
theorem gammado212_dt : gammado212 { c with dt := d, densitized := e } = gammado212 c := by
  simp only [gammado212, delg122_dt]
theorem gammado213_dt : gammado213 { c with dt := d, densitized := e } = gammado213 c := by
  simp only [gammado213, delg123_dt, delg213_dt, delg312_dt]
theorem gammado222_dt : gammado222 { c with dt := d, densitized := e } = gammado222 c := by
  simp only [gammado222, delg222_dt]
theorem gammado223_dt : gammado223 { c with dt := d, densitized := e } = gammado223 c := by
  simp only [gammado223, delg322_dt]
theorem gammado233_dt : gammado233 { c with dt := d, densitized := e } = gammado233 c := by
  simp only [gammado233, delg233_dt, delg323_dt]
theorem gammado311_dt : gammado311 { c with dt := d, densitized := e } = gammado311 c := by
  simp only [gammado311, delg113_dt, delg311_dt]
theorem gammado312_dt : gammado312 { c with dt := d, densitized := e } = gammado312 c := by
  simp only [gammado312, delg123_dt, delg213_dt, delg312_dt]
theorem gammado313_dt : gammado313 { c with dt := d, densitized := e } = gammado313 c := by
  simp only [gammado313, delg133_dt]
theorem gammado322_dt : gammado322 { c with dt := d, densitized := e } = gammado322 c := by
  simp only [gammado322, delg223_dt, delg322_dt]
theorem gammado323_dt : gammado323 { c with dt := d, densitized := e } = gammado323 c := by
  simp only [gammado323, delg233_dt]
theorem gammado333_dt : gammado333 { c with dt := d, densitized := e } = gammado333 c := by
  simp only [gammado333, delg333_dt]
theorem gamma111_dt : gamma111 { c with dt := d, densitized := e } = gamma111 c := by
  simp only [gamma111, gammado111_dt, ginv11_dt, gammado211_dt, ginv12_dt, gammado311_dt, ginv13_dt]
theorem gamma112_dt : gamma112 { c with dt := d, densitized := e } = gamma112 c := by
  simp only [gamma112, gammado112_dt, ginv11_dt, gammado212_dt, ginv12_dt, gammado312_dt, ginv13_dt]
theorem gamma113_dt : gamma113 { c with dt := d, densitized := e } = gamma113 c := by
  simp only [gamma113, gammado113_dt, ginv11_dt, gammado213_dt, ginv12_dt, gammado313_dt, ginv13_dt]
theorem gamma122_dt : gamma122 { c with dt := d, densitized := e } = gamma122 c := by
  simp only [gamma122, gammado122_dt, ginv11_dt, gammado222_dt, ginv12_dt, gammado322_dt, ginv13_dt]
theorem gamma123_dt : gamma123 { c with dt := d, densitized := e } = gamma123 c := by
  simp only [gamma123, gammado123_dt, ginv11_dt, gammado223_dt, ginv12_dt, gammado323_dt, ginv13_dt]
theorem gamma133_dt : gamma133 { c with dt := d, densitized := e } = gamma133 c := by
  simp only [gamma133, gammado133_dt, ginv11_dt, gammado233_dt, ginv12_dt, gammado333_dt, ginv13_dt]
theorem gamma211_dt : gamma211 { c with dt := d, densitized := e } = gamma211 c := by
  simp only [gamma211, gammado111_dt, ginv12_dt, gammado211_dt, ginv22_dt, gammado311_dt, ginv23_dt]
theorem gamma212_dt : gamma212 { c with dt := d, densitized := e } = gamma212 c := by
  simp only [gamma212, gammado112_dt, ginv12_dt, gammado212_dt, ginv22_dt, gammado312_dt, ginv23_dt]
theorem gamma213_dt : gamma213 { c with dt := d, densitized := e } = gamma213 c := by
  simp only [gamma213, gammado113_dt, ginv12_dt, gammado213_dt, ginv22_dt, gammado313_dt, ginv23_dt]
theorem gamma222_dt : gamma222 { c with dt := d, densitized := e } = gamma222 c := by
  simp only [gamma222, gammado122_dt, ginv12_dt, gammado222_dt, ginv22_dt, gammado322_dt, ginv23_dt]
theorem gamma223_dt : gamma223 { c with dt := d, densitized := e } = gamma223 c := by
  simp only [gamma223, gammado123_dt, ginv12_dt, gammado223_dt, ginv22_dt, gammado323_dt, ginv23_dt]
theorem gamma233_dt : gamma233 { c with dt := d, densitized := e } = gamma233 c := by
  simp only [gamma233, gammado133_dt, ginv12_dt, gammado233_dt, ginv22_dt, gammado333_dt, ginv23_dt]
theorem gamma311_dt : gamma311 { c with dt := d, densitized := e } = gamma311 c := by
  simp only [gamma311, gammado111_dt, ginv13_dt, gammado211_dt, ginv23_dt, gammado311_dt, ginv33_dt]
theorem gamma312_dt : gamma312 { c with dt := d, densitized := e } = gamma312 c := by
  simp only [gamma312, gammado112_dt, ginv13_dt, gammado212_dt, ginv23_dt, gammado312_dt, ginv33_dt]
theorem gamma313_dt : gamma313 { c with dt := d, densitized := e } = gamma313 c := by
  simp only [gamma313, gammado113_dt, ginv13_dt, gammado213_dt, ginv23_dt, gammado313_dt, ginv33_dt]
theorem gamma322_dt : gamma322 { c with dt := d, densitized := e } = gamma322 c := by
  simp only [gamma322, gammado122_dt, ginv13_dt, gammado222_dt, ginv23_dt, gammado322_dt, ginv33_dt]
theorem gamma323_dt : gamma323 { c with dt := d, densitized := e } = gamma323 c := by
  simp only [gamma323, gammado123_dt, ginv13_dt, gammado223_dt, ginv23_dt, gammado323_dt, ginv33_dt]
theorem gamma333_dt : gamma333 { c with dt := d, densitized := e } = gamma333 c := by
  simp only [gamma333, gammado133_dt, ginv13_dt, gammado233_dt, ginv23_dt, gammado333_dt, ginv33_dt]
theorem Gfromg1_dt : Gfromg1 { c with dt := d, densitized := e } = Gfromg1 c := by
  simp only [Gfromg1, gamma111_dt, ginv11_dt, gamma122_dt, ginv22_dt, gamma112_dt, ginv12_dt, gamma113_dt, ginv13_dt, gamma123_dt, ginv23_dt, gamma133_dt, ginv33_dt]
theorem Gfromg2_dt : Gfromg2 { c with dt := d, densitized := e } = Gfromg2 c := by
  simp only [Gfromg2, gamma211_dt, ginv11_dt, gamma222_dt, ginv22_dt, gamma212_dt, ginv12_dt, gamma213_dt, ginv13_dt, gamma223_dt, ginv23_dt, gamma233_dt, ginv33_dt]
theorem Gfromg3_dt : Gfromg3 { c with dt := d, densitized := e } = Gfromg3 c := by
  simp only [Gfromg3, gamma311_dt, ginv11_dt, gamma322_dt, ginv22_dt, gamma312_dt, ginv12_dt, gamma313_dt, ginv13_dt, gamma323_dt, ginv23_dt, gamma333_dt, ginv33_dt]
theorem undiffdG1_0_dt : undiffdG1_0 { c with dt := d, densitized := e } = undiffdG1_0 c := by
  simp only [undiffdG1_0, Gfromg1_dt]
theorem undiffdG2_0_dt : undiffdG2_0 { c with dt := d, densitized := e } = undiffdG2_0 c := by
  simp only [undiffdG2_0, Gfromg2_dt]
theorem undiffdG3_0_dt : undiffdG3_0 { c with dt := d, densitized := e } = undiffdG3_0 c := by
  simp only [undiffdG3_0, Gfromg3_dt]
theorem undiffdG1_1_dt : undiffdG1_1 { c with dt := d, densitized := e } = undiffdG1_1 c := by
  simp only [undiffdG1_1, G1_dt]
theorem undiffdG1_dt : undiffdG1 { c with dt := d, densitized := e } = undiffdG1 c := by
  simp only [undiffdG1, undiffdG1_0_dt, undiffdG1_1_dt]
theorem undiffdG2_1_dt : undiffdG2_1 { c with dt := d, densitized := e } = undiffdG2_1 c := by
  simp only [undiffdG2_1, G2_dt]
theorem undiffdG2_dt : undiffdG2 { c with dt := d, densitized := e } = undiffdG2 c := by
  simp only [undiffdG2, undiffdG2_0_dt, undiffdG2_1_dt]
theorem undiffdG3_1_dt : undiffdG3_1 { c with dt := d, densitized := e } = undiffdG3_1 c := by
  simp only [undiffdG3_1, G3_dt]
theorem undiffdG3_dt : undiffdG3 { c with dt := d, densitized := e } = undiffdG3 c := by
  simp only [undiffdG3, undiffdG3_0_dt, undiffdG3_1_dt]
theorem R11_dt : R11 { c with dt := d, densitized := e } = R11 c := by
  simp only [R11, deldelg1111_dt, gamma111_dt, gammado111_dt, gamma211_dt, gammado112_dt, gamma311_dt, gammado113_dt, gammado211_dt, gammado311_dt, ginv11_dt, deldelg1211_dt, gamma112_dt, gamma212_dt, gamma312_dt, gammado122_dt, gammado123_dt, gammado212_dt, gammado312_dt, ginv12_dt, deldelg1311_dt, gamma113_dt, gamma213_dt, gamma313_dt, gammado133_dt, gammado213_dt, gammado313_dt, ginv13_dt, deldelg2211_dt, ginv22_dt, deldelg2311_dt, ginv23_dt, deldelg3311_dt, ginv33_dt, undiffdG1_dt, undiffdG2_dt, undiffdG3_dt, delG11_dt, g11_dt, delG12_dt, g12_dt, delG13_dt, g13_dt]
theorem R12_0_dt : R12_0 { c with dt := d, densitized := e } = R12_0 c := by
  simp only [R12_0, deldelg1112_dt, gamma112_dt, gammado111_dt, gamma111_dt, gammado211_dt, gamma212_dt, gammado112_dt, gamma211_dt, gammado212_dt, gamma311_dt, gammado213_dt, gamma312_dt, gammado113_dt, gammado311_dt, ginv11_dt, deldelg1212_dt, gammado122_dt, gamma222_dt, gamma122_dt, gammado222_dt, gammado223_dt, gamma322_dt, gammado123_dt, gammado312_dt, ginv12_dt, deldelg1312_dt, gamma123_dt, gamma113_dt, gamma223_dt, gamma213_dt, gamma313_dt, gammado233_dt, gamma323_dt, gammado133_dt, gammado313_dt, ginv13_dt, deldelg2212_dt, ginv22_dt, deldelg2312_dt, ginv23_dt, deldelg3312_dt, ginv33_dt, undiffdG1_dt, undiffdG2_dt, undiffdG3_dt, delG21_dt, g11_dt, delG11_dt, delG22_dt, g12_dt, delG23_dt, g13_dt, delG12_dt, g22_dt, delG13_dt, g23_dt]
theorem R12_dt : R12 { c with dt := d, densitized := e } = R12 c := by
  simp only [R12, deldelg1112_dt, gamma112_dt, gammado111_dt, gamma111_dt, gamma212_dt, gammado112_dt, gamma312_dt, gammado113_dt, gammado211_dt, gamma211_dt, gammado212_dt, gamma311_dt, gammado213_dt, gammado312_dt, ginv11_dt, deldelg1212_dt, gamma122_dt, gamma222_dt, gamma322_dt, gammado122_dt, gammado222_dt, gammado123_dt, gammado223_dt, gammado322_dt, ginv12_dt, deldelg1312_dt, gamma123_dt, gamma113_dt, gamma223_dt, gamma323_dt, gammado133_dt, gamma313_dt, gamma213_dt, gammado233_dt, gammado323_dt, ginv13_dt, deldelg2212_dt, ginv22_dt, deldelg2312_dt, ginv23_dt, deldelg3312_dt, ginv33_dt, undiffdG1_dt, undiffdG2_dt, undiffdG3_dt, delG21_dt, g11_dt, delG11_dt, delG22_dt, g12_dt, delG23_dt, g13_dt, delG12_dt, g22_dt, delG13_dt, g23_dt]
theorem R13_0_dt : R13_0 { c with dt := d, densitized := e } = R13_0 c := by
  simp only [R13_0, deldelg1113_dt, gamma113_dt, gammado111_dt, gamma213_dt, gammado112_dt, gammado211_dt, gamma111_dt, gammado311_dt, gamma313_dt, gammado113_dt, gamma211_dt, gammado312_dt, gamma311_dt, gammado313_dt, ginv11_dt, deldelg1213_dt, gamma123_dt, gamma223_dt, gammado122_dt, gammado212_dt, gamma112_dt, gamma323_dt, gamma212_dt, gammado123_dt, gamma312_dt, gammado322_dt, gammado323_dt, ginv12_dt, deldelg1313_dt, gammado133_dt, gamma233_dt, gamma333_dt, gammado213_dt, gamma133_dt, gammado333_dt, ginv13_dt, deldelg2213_dt, ginv22_dt, deldelg2313_dt, ginv23_dt, deldelg3313_dt, ginv33_dt, undiffdG1_dt, undiffdG2_dt, undiffdG3_dt, delG31_dt, g11_dt, delG32_dt, g12_dt, delG11_dt, delG33_dt, g13_dt, delG12_dt, g23_dt, delG13_dt, g33_dt]
theorem R13_dt : R13 { c with dt := d, densitized := e } = R13 c := by
  simp only [R13, deldelg1113_dt, gamma113_dt, gammado111_dt, gamma213_dt, gammado112_dt, gamma111_dt, gamma313_dt, gammado113_dt, gammado311_dt, gamma211_dt, gammado213_dt, gammado312_dt, gamma311_dt, gammado313_dt, ginv11_dt, deldelg1213_dt, gamma123_dt, gamma223_dt, gamma112_dt, gamma323_dt, gammado122_dt, gammado123_dt, gamma212_dt, gammado223_dt, gammado322_dt, gamma312_dt, gammado323_dt, ginv12_dt, deldelg1313_dt, gamma133_dt, gamma233_dt, gamma333_dt, gammado133_dt, gammado233_dt, gammado333_dt, ginv13_dt, deldelg2213_dt, ginv22_dt, deldelg2313_dt, ginv23_dt, deldelg3313_dt, ginv33_dt, undiffdG1_dt, undiffdG2_dt, undiffdG3_dt, delG31_dt, g11_dt, delG32_dt, g12_dt, delG11_dt, delG33_dt, g13_dt, delG12_dt, g23_dt, delG13_dt, g33_dt]
theorem R22_dt : R22 { c with dt := d, densitized := e } = R22 c := by
  simp only [R22, deldelg1122_dt, gamma112_dt, gammado112_dt, gammado211_dt, gamma212_dt, gammado212_dt, gamma312_dt, gammado213_dt, gammado312_dt, ginv11_dt, deldelg1222_dt, gamma122_dt, gammado122_dt, gamma222_dt, gammado222_dt, gamma322_dt, gammado223_dt, gammado322_dt, ginv12_dt, deldelg1322_dt, gamma123_dt, gammado123_dt, gamma223_dt, gamma323_dt, gammado233_dt, gammado323_dt, ginv13_dt, deldelg2222_dt, ginv22_dt, deldelg2322_dt, ginv23_dt, deldelg3322_dt, ginv33_dt, undiffdG1_dt, undiffdG2_dt, undiffdG3_dt, delG21_dt, g12_dt, delG22_dt, g22_dt, delG23_dt, g23_dt]
theorem R23_0_dt : R23_0 { c with dt := d, densitized := e } = R23_0 c := by
  simp only [R23_0, deldelg1123_dt, gamma113_dt, gammado112_dt, gammado211_dt, gamma213_dt, gammado212_dt, gamma112_dt, gammado311_dt, gamma212_dt, gammado312_dt, gamma313_dt, gammado213_dt, gamma312_dt, gammado313_dt, ginv11_dt, deldelg1223_dt, gamma123_dt, gammado122_dt, gamma223_dt, gammado222_dt, gamma122_dt, gamma222_dt, gamma323_dt, gamma322_dt, gammado322_dt, gammado223_dt, gammado323_dt, ginv12_dt, deldelg1323_dt, gamma133_dt, gammado123_dt, gamma233_dt, gamma333_dt, gammado233_dt, gammado333_dt, ginv13_dt, deldelg2223_dt, ginv22_dt, deldelg2323_dt, ginv23_dt, deldelg3323_dt, ginv33_dt, undiffdG1_dt, undiffdG2_dt, undiffdG3_dt, delG31_dt, g12_dt, delG21_dt, g13_dt, delG32_dt, g22_dt, delG22_dt, delG33_dt, g23_dt, delG23_dt, g33_dt]
theorem R23_dt : R23 { c with dt := d, densitized := e } = R23 c := by
  simp only [R23, deldelg1123_dt, gamma113_dt, gammado211_dt, gamma213_dt, gammado212_dt, gamma212_dt, gamma313_dt, gammado213_dt, gamma112_dt, gammado113_dt, gammado311_dt, gammado312_dt, gamma312_dt, gammado313_dt, ginv11_dt, deldelg1223_dt, gamma123_dt, gamma223_dt, gamma222_dt, gamma323_dt, gammado222_dt, gammado223_dt, gamma122_dt, gammado123_dt, gammado322_dt, gamma322_dt, gammado323_dt, ginv12_dt, deldelg1323_dt, gamma133_dt, gamma233_dt, gamma333_dt, gammado233_dt, gammado133_dt, gammado333_dt, ginv13_dt, deldelg2223_dt, ginv22_dt, deldelg2323_dt, ginv23_dt, deldelg3323_dt, ginv33_dt, undiffdG1_dt, undiffdG2_dt, undiffdG3_dt, delG31_dt, g12_dt, delG21_dt, g13_dt, delG32_dt, g22_dt, delG22_dt, delG33_dt, g23_dt, delG23_dt, g33_dt]
theorem R33_dt : R33 { c with dt := d, densitized := e } = R33 c := by
  simp only [R33, deldelg1133_dt, gamma113_dt, gammado113_dt, gammado311_dt, gamma213_dt, gammado213_dt, gammado312_dt, gamma313_dt, gammado313_dt, ginv11_dt, deldelg1233_dt, gamma123_dt, gammado123_dt, gamma223_dt, gammado223_dt, gammado322_dt, gamma323_dt, gammado323_dt, ginv12_dt, deldelg1333_dt, gamma133_dt, gamma233_dt, gammado133_dt, gammado233_dt, gamma333_dt, gammado333_dt, ginv13_dt, deldelg2233_dt, ginv22_dt, deldelg2333_dt, ginv23_dt, deldelg3333_dt, ginv33_dt, undiffdG1_dt, undiffdG2_dt, undiffdG3_dt, delG31_dt, g13_dt, delG32_dt, g23_dt, delG33_dt, g33_dt]
theorem f_0_dt : f_0 { c with dt := d, densitized := e } = f_0 c := by
  simp only [f_0, phi_dt]
theorem logpsi_0_dt : logpsi_0 { c with dt := d, densitized := e } = logpsi_0 c := rfl
theorem logpsi_dt : logpsi { c with dt := d, densitized := e } = logpsi c := by
  simp only [logpsi, psi_dt]
theorem f_dt : f { c with dt := d, densitized := e } = f c := by
  simp only [f, f_0_dt, logpsi_dt]
theorem df1_dt : df1 { c with dt := d, densitized := e } = df1 c := by
  simp only [df1, df1_0_dt, dpop1_dt]
theorem df2_dt : df2 { c with dt := d, densitized := e } = df2 c := by
  simp only [df2, df2_0_dt, dpop2_dt]
theorem df3_dt : df3 { c with dt := d, densitized := e } = df3 c := by
  simp only [df3, df3_0_dt, dpop3_dt]
theorem ddf11_dt : ddf11 { c with dt := d, densitized := e } = ddf11 c := by
  simp only [ddf11, ddf11_0_dt, ddpop11_dt, dpop1_dt]
theorem ddf12_dt : ddf12 { c with dt := d, densitized := e } = ddf12 c := by
  simp only [ddf12, ddf12_0_dt, ddpop12_dt, dpop1_dt, dpop2_dt]
theorem ddf13_dt : ddf13 { c with dt := d, densitized := e } = ddf13 c := by
  simp only [ddf13, ddf13_0_dt, ddpop13_dt, dpop1_dt, dpop3_dt]
theorem ddf22_dt : ddf22 { c with dt := d, densitized := e } = ddf22 c := by
  simp only [ddf22, ddf22_0_dt, ddpop22_dt, dpop2_dt]
theorem ddf23_dt : ddf23 { c with dt := d, densitized := e } = ddf23 c := by
  simp only [ddf23, ddf23_0_dt, ddpop23_dt, dpop2_dt, dpop3_dt]
theorem ddf33_dt : ddf33 { c with dt := d, densitized := e } = ddf33 c := by
  simp only [ddf33, ddf33_0_dt, ddpop33_dt, dpop3_dt]
theorem betadf_dt : betadf { c with dt := d, densitized := e } = betadf c := by
  simp only [betadf, betadf_0_dt, beta1_dt, dpop1_dt, beta2_dt, dpop2_dt, beta3_dt, dpop3_dt]
theorem cddf11_dt : cddf11 { c with dt := d, densitized := e } = cddf11 c := by
  simp only [cddf11, ddf11_dt, df1_dt, gamma111_dt, df2_dt, gamma211_dt, df3_dt, gamma311_dt]
theorem cddf12_dt : cddf12 { c with dt := d, densitized := e } = cddf12 c := by
  simp only [cddf12, ddf12_dt, df1_dt, gamma112_dt, df2_dt, gamma212_dt, df3_dt, gamma312_dt]
theorem cddf13_dt : cddf13 { c with dt := d, densitized := e } = cddf13 c := by
  simp only [cddf13, ddf13_dt, df1_dt, gamma113_dt, df2_dt, gamma213_dt, df3_dt, gamma313_dt]
theorem cddf22_dt : cddf22 { c with dt := d, densitized := e } = cddf22 c := by
  simp only [cddf22, ddf22_dt, df1_dt, gamma122_dt, df2_dt, gamma222_dt, df3_dt, gamma322_dt]
theorem cddf23_dt : cddf23 { c with dt := d, densitized := e } = cddf23 c := by
  simp only [cddf23, ddf23_dt, df1_dt, gamma123_dt, df2_dt, gamma223_dt, df3_dt, gamma323_dt]
theorem cddf33_dt : cddf33 { c with dt := d, densitized := e } = cddf33 c := by
  simp only [cddf33, ddf33_dt, df1_dt, gamma133_dt, df2_dt, gamma233_dt, df3_dt, gamma333_dt]
theorem trcddf_dt : trcddf { c with dt := d, densitized := e } = trcddf c := by
  simp only [trcddf, cddf11_dt, ginv11_dt, cddf22_dt, ginv22_dt, cddf12_dt, ginv12_dt, cddf13_dt, ginv13_dt, cddf23_dt, ginv23_dt, cddf33_dt, ginv33_dt]
theorem psim4_dt : psim4 { c with dt := d, densitized := e } = psim4 c := by
  simp only [psim4, f_dt]
theorem Rphi11_dt : Rphi11 { c with dt := d, densitized := e } = Rphi11 c := by
  simp only [Rphi11, cddf11_dt, trcddf_dt, g11_dt, ginv11_dt, df1_dt, df2_dt, ginv12_dt, df3_dt, ginv13_dt, ginv23_dt, ginv22_dt, ginv33_dt]
theorem Rphi12_dt : Rphi12 { c with dt := d, densitized := e } = Rphi12 c := by
  simp only [Rphi12, df1_dt, df2_dt, ginv12_dt, g12_dt, cddf12_dt, trcddf_dt, df3_dt, ginv13_dt, ginv23_dt, ginv11_dt, ginv22_dt, ginv33_dt]
theorem Rphi13_dt : Rphi13 { c with dt := d, densitized := e } = Rphi13 c := by
  simp only [Rphi13, df1_dt, df3_dt, df2_dt, ginv12_dt, g13_dt, cddf13_dt, trcddf_dt, ginv13_dt, ginv23_dt, ginv11_dt, ginv22_dt, ginv33_dt]
theorem Rphi22_dt : Rphi22 { c with dt := d, densitized := e } = Rphi22 c := by
  simp only [Rphi22, cddf22_dt, trcddf_dt, g22_dt, ginv22_dt, df2_dt, df1_dt, ginv12_dt, df3_dt, ginv13_dt, ginv23_dt, ginv11_dt, ginv33_dt]
theorem Rphi23_dt : Rphi23 { c with dt := d, densitized := e } = Rphi23 c := by
  simp only [Rphi23, df2_dt, df3_dt, df1_dt, ginv12_dt, g23_dt, cddf23_dt, trcddf_dt, ginv13_dt, ginv23_dt, ginv11_dt, ginv22_dt, ginv33_dt]
theorem Rphi33_dt : Rphi33 { c with dt := d, densitized := e } = Rphi33 c := by
  simp only [Rphi33, cddf33_dt, trcddf_dt, g33_dt, df1_dt, df2_dt, ginv12_dt, df3_dt, ginv13_dt, ginv23_dt, ginv11_dt, ginv22_dt, ginv33_dt]
theorem cdda11_dt : cdda11 { c with dt := d, densitized := e } = cdda11 c := by
  simp only [cdda11, dda11_dt, da2_dt, gamma211_dt, da3_dt, gamma311_dt, df1_dt, da1_dt, df2_dt, ginv12_dt, df3_dt, ginv13_dt, ginv22_dt, ginv23_dt, ginv33_dt, g11_dt, gamma111_dt, ginv11_dt]
theorem cdda12_dt : cdda12 { c with dt := d, densitized := e } = cdda12 c := by
  simp only [cdda12, dda12_dt, da2_dt, df1_dt, da1_dt, df2_dt, gamma112_dt, gamma212_dt, da3_dt, gamma312_dt, ginv11_dt, ginv12_dt, df3_dt, ginv13_dt, ginv22_dt, ginv23_dt, ginv33_dt, g12_dt]
theorem cdda13_dt : cdda13 { c with dt := d, densitized := e } = cdda13 c := by
  simp only [cdda13, dda13_dt, da3_dt, df1_dt, da1_dt, df3_dt, gamma113_dt, da2_dt, gamma213_dt, gamma313_dt, ginv11_dt, df2_dt, ginv12_dt, ginv13_dt, ginv22_dt, ginv23_dt, ginv33_dt, g13_dt]
theorem cdda22_dt : cdda22 { c with dt := d, densitized := e } = cdda22 c := by
  simp only [cdda22, dda22_dt, da1_dt, gamma122_dt, da3_dt, gamma322_dt, df1_dt, ginv11_dt, da2_dt, df2_dt, ginv12_dt, df3_dt, ginv13_dt, ginv23_dt, ginv33_dt, g22_dt, gamma222_dt, ginv22_dt]
theorem cdda23_dt : cdda23 { c with dt := d, densitized := e } = cdda23 c := by
  simp only [cdda23, dda23_dt, da3_dt, df2_dt, da2_dt, df3_dt, da1_dt, gamma123_dt, gamma223_dt, gamma323_dt, df1_dt, ginv11_dt, ginv12_dt, ginv13_dt, ginv22_dt, ginv23_dt, ginv33_dt, g23_dt]
theorem cdda33_dt : cdda33 { c with dt := d, densitized := e } = cdda33 c := by
  simp only [cdda33, dda33_dt, da1_dt, gamma133_dt, da2_dt, gamma233_dt, df1_dt, ginv11_dt, df2_dt, ginv12_dt, da3_dt, df3_dt, ginv13_dt, ginv22_dt, ginv23_dt, g33_dt, gamma333_dt, ginv33_dt]
theorem trcdda_dt : trcdda { c with dt := d, densitized := e } = trcdda c := by
  simp only [trcdda, cdda11_dt, ginv11_dt, cdda22_dt, ginv22_dt, cdda12_dt, ginv12_dt, cdda13_dt, ginv13_dt, cdda23_dt, ginv23_dt, cdda33_dt, ginv33_dt, psim4_dt]
theorem K_dt : K { c with dt := d, densitized := e } = K c := by
  simp only [K, K_0_dt]
theorem dK1_dt : dK1 { c with dt := d, densitized := e } = dK1 c := by
  simp only [dK1, dK1_0_dt]
theorem dK2_dt : dK2 { c with dt := d, densitized := e } = dK2 c := by
  simp only [dK2, dK2_0_dt]
theorem dK3_dt : dK3 { c with dt := d, densitized := e } = dK3 c := by
  simp only [dK3, dK3_0_dt]
theorem AA11_dt : AA11 { c with dt := d, densitized := e } = AA11 c := by
  simp only [AA11, ginv23_dt, A12_dt, A13_dt, A11_dt, ginv12_dt, ginv13_dt, ginv11_dt, ginv22_dt, ginv33_dt]
theorem AA12_dt : AA12 { c with dt := d, densitized := e } = AA12 c := by
  simp only [AA12, A12_dt, ginv11_dt, A11_dt, ginv22_dt, A22_dt, ginv33_dt, A13_dt, A23_dt, ginv13_dt, ginv23_dt, ginv12_dt]
theorem AA13_dt : AA13 { c with dt := d, densitized := e } = AA13 c := by
  simp only [AA13, ginv22_dt, A12_dt, A23_dt, ginv12_dt, A13_dt, A11_dt, ginv11_dt, ginv33_dt, A33_dt, ginv23_dt, ginv13_dt]
theorem AA22_dt : AA22 { c with dt := d, densitized := e } = AA22 c := by
  simp only [AA22, ginv23_dt, A22_dt, A23_dt, A12_dt, ginv12_dt, ginv13_dt, ginv11_dt, ginv22_dt, ginv33_dt]
theorem AA23_dt : AA23 { c with dt := d, densitized := e } = AA23 c := by
  simp only [AA23, ginv11_dt, A12_dt, A13_dt, ginv12_dt, A22_dt, A23_dt, ginv22_dt, ginv33_dt, A33_dt, ginv13_dt, ginv23_dt]
theorem AA33_dt : AA33 { c with dt := d, densitized := e } = AA33 c := by
  simp only [AA33, ginv23_dt, A23_dt, A33_dt, A13_dt, ginv12_dt, ginv13_dt, ginv11_dt, ginv22_dt, ginv33_dt]
theorem AA_dt : AA { c with dt := d, densitized := e } = AA c := by
  simp only [AA, AA11_dt, ginv11_dt, AA22_dt, ginv22_dt, AA12_dt, ginv12_dt, AA13_dt, ginv13_dt, AA23_dt, ginv23_dt, AA33_dt, ginv33_dt]
theorem Ainv11_dt : Ainv11 { c with dt := d, densitized := e } = Ainv11 c := by
  simp only [Ainv11, ginv11_dt, ginv12_dt, A12_dt, ginv13_dt, A13_dt, A23_dt, A11_dt, A22_dt, A33_dt]
theorem Ainv12_dt : Ainv12 { c with dt := d, densitized := e } = Ainv12 c := by
  simp only [Ainv12, ginv11_dt, ginv12_dt, A11_dt, ginv22_dt, A12_dt, ginv23_dt, A13_dt, ginv13_dt, A22_dt, A23_dt, A33_dt]
theorem Ainv13_dt : Ainv13 { c with dt := d, densitized := e } = Ainv13 c := by
  simp only [Ainv13, ginv11_dt, ginv13_dt, A11_dt, ginv23_dt, A12_dt, ginv33_dt, A13_dt, ginv12_dt, A22_dt, A23_dt, A33_dt]
theorem Ainv22_dt : Ainv22 { c with dt := d, densitized := e } = Ainv22 c := by
  simp only [Ainv22, ginv12_dt, ginv22_dt, A12_dt, ginv23_dt, A13_dt, A23_dt, A11_dt, A22_dt, A33_dt]
theorem Ainv23_dt : Ainv23 { c with dt := d, densitized := e } = Ainv23 c := by
  simp only [Ainv23, ginv13_dt, ginv22_dt, A12_dt, ginv23_dt, A13_dt, ginv12_dt, A11_dt, ginv33_dt, A22_dt, A23_dt, A33_dt]
theorem Ainv33_dt : Ainv33 { c with dt := d, densitized := e } = Ainv33 c := by
  simp only [Ainv33, ginv13_dt, ginv23_dt, A12_dt, ginv33_dt, A13_dt, A23_dt, A11_dt, A22_dt, A33_dt]
theorem divAinv1_dt : divAinv1 { c with dt := d, densitized := e } = divAinv1 c := by
  simp only [divAinv1, Ainv11_dt, df1_dt, Ainv12_dt, df2_dt, Ainv13_dt, df3_dt, gamma111_dt, Ainv22_dt, gamma122_dt, gamma112_dt, gamma113_dt, Ainv23_dt, gamma123_dt, Ainv33_dt, gamma133_dt, ginv11_dt, dK1_dt, ginv12_dt, dK2_dt, ginv13_dt, dK3_dt]
theorem divAinv2_dt : divAinv2 { c with dt := d, densitized := e } = divAinv2 c := by
  simp only [divAinv2, Ainv12_dt, df1_dt, Ainv22_dt, df2_dt, Ainv23_dt, df3_dt, Ainv11_dt, gamma211_dt, gamma222_dt, gamma212_dt, Ainv13_dt, gamma213_dt, gamma223_dt, Ainv33_dt, gamma233_dt, ginv12_dt, dK1_dt, ginv22_dt, dK2_dt, ginv23_dt, dK3_dt]
theorem divAinv3_dt : divAinv3 { c with dt := d, densitized := e } = divAinv3 c := by
  simp only [divAinv3, Ainv13_dt, df1_dt, Ainv23_dt, df2_dt, Ainv33_dt, df3_dt, Ainv11_dt, gamma311_dt, Ainv22_dt, gamma322_dt, Ainv12_dt, gamma312_dt, gamma313_dt, gamma323_dt, gamma333_dt, ginv13_dt, dK1_dt, ginv23_dt, dK2_dt, ginv33_dt, dK3_dt]
theorem trRicci_dt : trRicci { c with dt := d, densitized := e } = trRicci c := by
  simp only [trRicci, psim4_dt, ginv11_dt, R11_dt, Rphi11_dt, ginv22_dt, R22_dt, Rphi22_dt, ginv12_dt, R12_dt, Rphi12_dt, ginv13_dt, R13_dt, Rphi13_dt, ginv23_dt, R23_dt, Rphi23_dt, ginv33_dt, R33_dt, Rphi33_dt]
theorem KK_dt : KK { c with dt := d, densitized := e } = KK c := by
  simp only [KK, K_dt]
theorem hamil_dt : hamil { c with dt := d, densitized := e } = hamil c := by
  simp only [hamil, AA_dt, KK_dt, trRicci_dt]
theorem Abshamil_dt [LinearOrder 𝔽] : Abshamil { c with dt := d, densitized := e } = Abshamil c := by
  simp only [Abshamil, hamil_dt]
theorem R_dt : R { c with dt := d, densitized := e } = R c := by
  simp only [R, hamil_dt, trRicci_dt]
theorem divbeta_dt : divbeta { c with dt := d, densitized := e } = divbeta c := by
  simp only [divbeta, db11_dt, db22_dt, db33_dt]
theorem totdivbeta_dt : totdivbeta { c with dt := d, densitized := e } = totdivbeta c := by
  simp only [totdivbeta, divbeta_dt]
theorem ootddivbeta1_dt : ootddivbeta1 { c with dt := d, densitized := e } = ootddivbeta1 c := by
  simp only [ootddivbeta1, ddb111_dt, ddb122_dt, ddb133_dt]
theorem ootddivbeta2_dt : ootddivbeta2 { c with dt := d, densitized := e } = ootddivbeta2 c := by
  simp only [ootddivbeta2, ddb121_dt, ddb222_dt, ddb233_dt]
theorem ootddivbeta3_dt : ootddivbeta3 { c with dt := d, densitized := e } = ootddivbeta3 c := by
  simp only [ootddivbeta3, ddb131_dt, ddb232_dt, ddb333_dt]
theorem lieg11_dt : lieg11 { c with dt := d, densitized := e } = lieg11 c := by
  simp only [lieg11, betadg11_dt, db11_dt, totdivbeta_dt, g11_dt, db12_dt, g12_dt, db13_dt, g13_dt]
theorem lieg12_0_dt : lieg12_0 { c with dt := d, densitized := e } = lieg12_0 c := by
  simp only [lieg12_0, betadg12_dt, db21_dt, g11_dt, db11_dt, db22_dt, totdivbeta_dt, g12_dt, db23_dt, g13_dt, db12_dt, g22_dt, db13_dt, g23_dt]
theorem lieg12_dt : lieg12 { c with dt := d, densitized := e } = lieg12 c := by
  simp only [lieg12, betadg21_dt, db21_dt, g11_dt, db11_dt, db22_dt, totdivbeta_dt, g12_dt, db23_dt, g13_dt, db12_dt, g22_dt, db13_dt, g23_dt]
theorem lieg13_0_dt : lieg13_0 { c with dt := d, densitized := e } = lieg13_0 c := by
  simp only [lieg13_0, betadg13_dt, db31_dt, g11_dt, db32_dt, g12_dt, db11_dt, db33_dt, totdivbeta_dt, g13_dt, db12_dt, g23_dt, db13_dt, g33_dt]
theorem lieg13_dt : lieg13 { c with dt := d, densitized := e } = lieg13 c := by
  simp only [lieg13, betadg31_dt, db31_dt, g11_dt, db32_dt, g12_dt, db11_dt, db33_dt, totdivbeta_dt, g13_dt, db12_dt, g23_dt, db13_dt, g33_dt]
theorem lieg22_dt : lieg22 { c with dt := d, densitized := e } = lieg22 c := by
  simp only [lieg22, betadg22_dt, totdivbeta_dt, g22_dt, db21_dt, g12_dt, db22_dt, db23_dt, g23_dt]
theorem lieg23_0_dt : lieg23_0 { c with dt := d, densitized := e } = lieg23_0 c := by
  simp only [lieg23_0, betadg23_dt, db31_dt, g12_dt, db21_dt, g13_dt, db32_dt, g22_dt, db22_dt, db33_dt, totdivbeta_dt, g23_dt, db23_dt, g33_dt]
theorem lieg23_dt : lieg23 { c with dt := d, densitized := e } = lieg23 c := by
  simp only [lieg23, betadg32_dt, db31_dt, g12_dt, db21_dt, g13_dt, db32_dt, g22_dt, db22_dt, db33_dt, totdivbeta_dt, g23_dt, db23_dt, g33_dt]
theorem lieg33_dt : lieg33 { c with dt := d, densitized := e } = lieg33 c := by
  simp only [lieg33, betadg33_dt, totdivbeta_dt, g33_dt, db31_dt, g13_dt, db32_dt, g23_dt, db33_dt]
theorem lieA11_dt : lieA11 { c with dt := d, densitized := e } = lieA11 c := by
  simp only [lieA11, betadA11_dt, db11_dt, totdivbeta_dt, A11_dt, db12_dt, A12_dt, db13_dt, A13_dt]
theorem lieA12_0_dt : lieA12_0 { c with dt := d, densitized := e } = lieA12_0 c := by
  simp only [lieA12_0, betadA12_dt, db21_dt, A11_dt, db11_dt, db22_dt, totdivbeta_dt, A12_dt, db23_dt, A13_dt, db12_dt, A22_dt, db13_dt, A23_dt]
theorem lieA12_dt : lieA12 { c with dt := d, densitized := e } = lieA12 c := by
  simp only [lieA12, betadA21_dt, db21_dt, A11_dt, db11_dt, db22_dt, totdivbeta_dt, A12_dt, db23_dt, A13_dt, db12_dt, A22_dt, db13_dt, A23_dt]
theorem lieA13_0_dt : lieA13_0 { c with dt := d, densitized := e } = lieA13_0 c := by
  simp only [lieA13_0, betadA13_dt, db31_dt, A11_dt, db32_dt, A12_dt, db11_dt, db33_dt, totdivbeta_dt, A13_dt, db12_dt, A23_dt, db13_dt, A33_dt]
theorem lieA13_dt : lieA13 { c with dt := d, densitized := e } = lieA13 c := by
  simp only [lieA13, betadA31_dt, db31_dt, A11_dt, db32_dt, A12_dt, db11_dt, db33_dt, totdivbeta_dt, A13_dt, db12_dt, A23_dt, db13_dt, A33_dt]
theorem lieA22_dt : lieA22 { c with dt := d, densitized := e } = lieA22 c := by
  simp only [lieA22, betadA22_dt, totdivbeta_dt, A22_dt, db21_dt, A12_dt, db22_dt, db23_dt, A23_dt]
theorem lieA23_0_dt : lieA23_0 { c with dt := d, densitized := e } = lieA23_0 c := by
  simp only [lieA23_0, betadA23_dt, db31_dt, A12_dt, db21_dt, A13_dt, db32_dt, A22_dt, db22_dt, db33_dt, totdivbeta_dt, A23_dt, db23_dt, A33_dt]
theorem lieA23_dt : lieA23 { c with dt := d, densitized := e } = lieA23 c := by
  simp only [lieA23, betadA32_dt, db31_dt, A12_dt, db21_dt, A13_dt, db32_dt, A22_dt, db22_dt, db33_dt, totdivbeta_dt, A23_dt, db23_dt, A33_dt]
theorem lieA33_dt : lieA33 { c with dt := d, densitized := e } = lieA33 c := by
  simp only [lieA33, betadA33_dt, totdivbeta_dt, A33_dt, db31_dt, A13_dt, db32_dt, A23_dt, db33_dt]
theorem lieK_dt : lieK { c with dt := d, densitized := e } = lieK c := by
  simp only [lieK, betadK_dt]
theorem liephi_dt : liephi { c with dt := d, densitized := e } = liephi c := by
  simp only [liephi, betadf_dt, divbeta_dt]
theorem pseudolieG1_dt : pseudolieG1 { c with dt := d, densitized := e } = pseudolieG1 c := by
  simp only [pseudolieG1, betadG1_dt, ddb221_dt, ginv22_dt, ddb231_dt, ginv23_dt, ddb331_dt, ginv33_dt, ginv11_dt, ddb111_dt, ootddivbeta1_dt, ginv12_dt, ddb121_dt, ootddivbeta2_dt, ginv13_dt, ddb131_dt, ootddivbeta3_dt, db11_dt, totdivbeta_dt, undiffdG1_dt, db21_dt, undiffdG2_dt, db31_dt, undiffdG3_dt]
theorem pseudolieG2_dt : pseudolieG2 { c with dt := d, densitized := e } = pseudolieG2 c := by
  simp only [pseudolieG2, betadG2_dt, ddb112_dt, ginv11_dt, ddb132_dt, ginv13_dt, ddb332_dt, ginv33_dt, ginv12_dt, ddb122_dt, ootddivbeta1_dt, ginv22_dt, ddb222_dt, ootddivbeta2_dt, ginv23_dt, ddb232_dt, ootddivbeta3_dt, db12_dt, undiffdG1_dt, db22_dt, undiffdG2_dt, totdivbeta_dt, db32_dt, undiffdG3_dt]
theorem pseudolieG3_dt : pseudolieG3 { c with dt := d, densitized := e } = pseudolieG3 c := by
  simp only [pseudolieG3, betadG3_dt, ddb113_dt, ginv11_dt, ddb123_dt, ginv12_dt, ddb223_dt, ginv22_dt, ginv13_dt, ddb133_dt, ootddivbeta1_dt, ginv23_dt, ddb233_dt, ootddivbeta2_dt, ginv33_dt, ddb333_dt, ootddivbeta3_dt, db13_dt, undiffdG1_dt, db23_dt, undiffdG2_dt, db33_dt, undiffdG3_dt, totdivbeta_dt]
theorem rg11_dt : rg11 { c with dt := d, densitized := e } = rg11 c := by
  simp only [rg11, lieg11_dt, A11_dt, alpha_dt]
theorem rg12_dt : rg12 { c with dt := d, densitized := e } = rg12 c := by
  simp only [rg12, lieg12_dt, A12_dt, alpha_dt]
theorem rg13_dt : rg13 { c with dt := d, densitized := e } = rg13 c := by
  simp only [rg13, lieg13_dt, A13_dt, alpha_dt]
theorem rg22_dt : rg22 { c with dt := d, densitized := e } = rg22 c := by
  simp only [rg22, lieg22_dt, A22_dt, alpha_dt]
theorem rg23_dt : rg23 { c with dt := d, densitized := e } = rg23 c := by
  simp only [rg23, lieg23_dt, A23_dt, alpha_dt]
theorem rg33_dt : rg33 { c with dt := d, densitized := e } = rg33 c := by
  simp only [rg33, lieg33_dt, A33_dt, alpha_dt]
theorem rA11_dt : rA11 { c with dt := d, densitized := e } = rA11 c := by
  simp only [rA11, lieA11_dt, psim4_dt, cdda11_dt, R11_dt, alpha_dt, trcdda_dt, g11_dt, AA11_dt, Rphi11_dt, R_dt, A11_dt, K_dt]
theorem rA12_dt : rA12 { c with dt := d, densitized := e } = rA12 c := by
  simp only [rA12, lieA12_dt, psim4_dt, cdda12_dt, R12_dt, alpha_dt, trcdda_dt, g12_dt, AA12_dt, Rphi12_dt, R_dt, A12_dt, K_dt]
theorem rA13_dt : rA13 { c with dt := d, densitized := e } = rA13 c := by
  simp only [rA13, lieA13_dt, psim4_dt, cdda13_dt, R13_dt, alpha_dt, trcdda_dt, g13_dt, AA13_dt, Rphi13_dt, R_dt, A13_dt, K_dt]
theorem rA22_dt : rA22 { c with dt := d, densitized := e } = rA22 c := by
  simp only [rA22, lieA22_dt, psim4_dt, cdda22_dt, R22_dt, alpha_dt, trcdda_dt, g22_dt, AA22_dt, Rphi22_dt, R_dt, A22_dt, K_dt]
theorem rA23_dt : rA23 { c with dt := d, densitized := e } = rA23 c := by
  simp only [rA23, lieA23_dt, psim4_dt, cdda23_dt, R23_dt, alpha_dt, trcdda_dt, g23_dt, AA23_dt, Rphi23_dt, R_dt, A23_dt, K_dt]
theorem rA33_dt : rA33 { c with dt := d, densitized := e } = rA33 c := by
  simp only [rA33, lieA33_dt, psim4_dt, cdda33_dt, R33_dt, alpha_dt, trcdda_dt, g33_dt, AA33_dt, Rphi33_dt, R_dt, A33_dt, K_dt]
theorem rG1_dt : rG1 { c with dt := d, densitized := e } = rG1 c := by
  simp only [rG1, pseudolieG1_dt, Ainv11_dt, da1_dt, Ainv12_dt, da2_dt, Ainv13_dt, da3_dt, divAinv1_dt, alpha_dt, divbeta_dt, Gfromg1_dt, G1_dt]
theorem rG2_dt : rG2 { c with dt := d, densitized := e } = rG2 c := by
  simp only [rG2, pseudolieG2_dt, Ainv12_dt, da1_dt, Ainv22_dt, da2_dt, Ainv23_dt, da3_dt, divAinv2_dt, alpha_dt, divbeta_dt, Gfromg2_dt, G2_dt]
theorem rG3_dt : rG3 { c with dt := d, densitized := e } = rG3 c := by
  simp only [rG3, pseudolieG3_dt, Ainv13_dt, da1_dt, Ainv23_dt, da2_dt, Ainv33_dt, da3_dt, divAinv3_dt, alpha_dt, divbeta_dt, Gfromg3_dt, G3_dt]
theorem rK_dt : rK { c with dt := d, densitized := e } = rK c := by
  simp only [rK, lieK_dt, trcdda_dt, alpha_dt, AA_dt, K_dt]
theorem rphi_0_dt : rphi_0 { c with dt := d, densitized := e } = rphi_0 c := by
  simp only [rphi_0, liephi_dt, alpha_dt, K_dt]
theorem rphi_1_dt : rphi_1 { c with dt := d, densitized := e } = rphi_1 c := by
  simp only [rphi_1, liephi_dt, AA_dt, trRicci_dt, alpha_dt, K_dt]
theorem rphi_dt [LinearOrder 𝔽] : rphi { c with dt := d, densitized := e } = rphi c := by
  simp only [rphi, Abshamil_dt, KK_dt, rphi_1_dt, rphi_0_dt]
theorem ralpha0_dt : ralpha0 { c with dt := d, densitized := e } = ralpha0 c := by
  simp only [ralpha0, liephi_dt, alpha_dt, K_dt, K0_dt, psi_dt]
theorem ralpha_dt : ralpha { c with dt := d, densitized := e } = ralpha c := by
  simp only [ralpha, betadalp_dt, ralpha0_dt, alpha_dt, alphaRHS_dt]
theorem E6alphaDensityWeightf_dt : E6alphaDensityWeightf { c with dt := d, densitized := e } = E6alphaDensityWeightf c := by
  simp only [E6alphaDensityWeightf, f_dt]
theorem ooE6alphaDensityWeightf_dt : ooE6alphaDensityWeightf { c with dt := d, densitized := e } = ooE6alphaDensityWeightf c := by
  simp only [ooE6alphaDensityWeightf, E6alphaDensityWeightf_dt]
theorem ralphaDensity_0_dt [LinearOrder 𝔽] : ralphaDensity_0 { c with dt := d, densitized := e } = ralphaDensity_0 c := by
  simp only [ralphaDensity_0, ooE6alphaDensityWeightf_dt, ralpha_dt, rphi_dt, alphaDensity_dt]
theorem ralphaDensity_1_dt : ralphaDensity_1 { c with dt := d, densitized := e } = ralphaDensity_1 c := by
  simp only [ralphaDensity_1, alphaDensity_dt, alpha_dt, K_dt, K0_dt, psi_dt]
theorem ralphaDensity_2_dt [LinearOrder 𝔽] : ralphaDensity_2 { c with dt := d, densitized := e } = ralphaDensity_2 c := by
  simp only [ralphaDensity_2, ralphaDensity_1_dt, ralphaDensity_0_dt]
theorem ralphaDensity_dt [LinearOrder 𝔽] : ralphaDensity { c with dt := d, densitized := e } = ralphaDensity c := by
  simp only [ralphaDensity, ralphaDensity_2_dt]
theorem betaF_dt : betaF { c with dt := d, densitized := e } = betaF c := by
  simp only [betaF, alpha_dt, psi_dt]
theorem rbeta1_dt [LinearOrder 𝔽] : rbeta1 { c with dt := d, densitized := e } = rbeta1 c := by
  simp only [rbeta1, evolveshift_dt, betaF_dt, B1_dt]
theorem rbeta2_dt [LinearOrder 𝔽] : rbeta2 { c with dt := d, densitized := e } = rbeta2 c := by
  simp only [rbeta2, evolveshift_dt, betaF_dt, B2_dt]
theorem rbeta3_dt [LinearOrder 𝔽] : rbeta3 { c with dt := d, densitized := e } = rbeta3 c := by
  simp only [rbeta3, evolveshift_dt, betaF_dt, B3_dt]
theorem rB1_dt [LinearOrder 𝔽] : rB1 { c with dt := d, densitized := e } = rB1 c := by
  simp only [rB1, evolveshift_dt, betaF_dt, rG1_dt, B1_dt]
theorem rB2_dt [LinearOrder 𝔽] : rB2 { c with dt := d, densitized := e } = rB2 c := by
  simp only [rB2, evolveshift_dt, betaF_dt, rG2_dt, B2_dt]
theorem rB3_dt [LinearOrder 𝔽] : rB3 { c with dt := d, densitized := e } = rB3 c := by
  simp only [rB3, evolveshift_dt, betaF_dt, rG3_dt, B3_dt]
theorem ng11_n_dt : ng11_n { c with dt := d, densitized := e } = ng11_n c := by
  simp only [ng11_n, rg11_dt]
theorem ng12_n_dt : ng12_n { c with dt := d, densitized := e } = ng12_n c := by
  simp only [ng12_n, rg12_dt]
theorem ng13_n_dt : ng13_n { c with dt := d, densitized := e } = ng13_n c := by
  simp only [ng13_n, rg13_dt]
theorem ng22_n_dt : ng22_n { c with dt := d, densitized := e } = ng22_n c := by
  simp only [ng22_n, rg22_dt]
theorem ng23_n_dt : ng23_n { c with dt := d, densitized := e } = ng23_n c := by
  simp only [ng23_n, rg23_dt]
theorem ng33_n_dt : ng33_n { c with dt := d, densitized := e } = ng33_n c := by
  simp only [ng33_n, rg33_dt]
theorem nA11_n_dt : nA11_n { c with dt := d, densitized := e } = nA11_n c := by
  simp only [nA11_n, rA11_dt]
theorem nA12_n_dt : nA12_n { c with dt := d, densitized := e } = nA12_n c := by
  simp only [nA12_n, rA12_dt]
theorem nA13_n_dt : nA13_n { c with dt := d, densitized := e } = nA13_n c := by
  simp only [nA13_n, rA13_dt]
theorem nA22_n_dt : nA22_n { c with dt := d, densitized := e } = nA22_n c := by
  simp only [nA22_n, rA22_dt]
theorem nA23_n_dt : nA23_n { c with dt := d, densitized := e } = nA23_n c := by
  simp only [nA23_n, rA23_dt]
theorem nA33_n_dt : nA33_n { c with dt := d, densitized := e } = nA33_n c := by
  simp only [nA33_n, rA33_dt]
theorem nG1_n_dt : nG1_n { c with dt := d, densitized := e } = nG1_n c := by
  simp only [nG1_n, rG1_dt]
theorem nG2_n_dt : nG2_n { c with dt := d, densitized := e } = nG2_n c := by
  simp only [nG2_n, rG2_dt]
theorem nG3_n_dt : nG3_n { c with dt := d, densitized := e } = nG3_n c := by
  simp only [nG3_n, rG3_dt]
theorem nK_n_dt : nK_n { c with dt := d, densitized := e } = nK_n c := by
  simp only [nK_n, rK_dt]
theorem nphi_n_dt [LinearOrder 𝔽] : nphi_n { c with dt := d, densitized := e } = nphi_n c := by
  simp only [nphi_n, rphi_dt]
theorem nalpha_n_dt : nalpha_n { c with dt := d, densitized := e } = nalpha_n c := by
  simp only [nalpha_n, ralpha_dt]
theorem nbeta1_n_dt [LinearOrder 𝔽] : nbeta1_n { c with dt := d, densitized := e } = nbeta1_n c := by
  simp only [nbeta1_n, rbeta1_dt]
theorem nbeta2_n_dt [LinearOrder 𝔽] : nbeta2_n { c with dt := d, densitized := e } = nbeta2_n c := by
  simp only [nbeta2_n, rbeta2_dt]
theorem nbeta3_n_dt [LinearOrder 𝔽] : nbeta3_n { c with dt := d, densitized := e } = nbeta3_n c := by
  simp only [nbeta3_n, rbeta3_dt]
theorem nB1_n_dt [LinearOrder 𝔽] : nB1_n { c with dt := d, densitized := e } = nB1_n c := by
  simp only [nB1_n, rB1_dt]
theorem nB2_n_dt [LinearOrder 𝔽] : nB2_n { c with dt := d, densitized := e } = nB2_n c := by
  simp only [nB2_n, rB2_dt]
theorem nB3_n_dt [LinearOrder 𝔽] : nB3_n { c with dt := d, densitized := e } = nB3_n c := by
  simp only [nB3_n, rB3_dt]

end Sgrid.Bs
