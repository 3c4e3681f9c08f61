import Verif.Model.BssnRhs
import Verif.Props.AdmIndex

/-!
# C114-C116: the components computed by BSSN_rhs as sums over indices
-/

namespace Sgrid
open Finset

section
set_option linter.unusedSectionVars false
set_option linter.unusedSimpArgs false
set_option linter.unreachableTactic false
set_option linter.unusedTactic false
variable {𝔽 : Type} [Field 𝔽] [CharZero 𝔽]

/-- The components of `g`. -/
def Bs.gT (c : BssnArgs 𝔽) : Fin 3 → Fin 3 → 𝔽
  | 0, 0 => Bs.g11 c
  | 0, 1 => Bs.g12 c
  | 0, 2 => Bs.g13 c
  | 1, 0 => Bs.g12 c
  | 1, 1 => Bs.g22 c
  | 1, 2 => Bs.g23 c
  | 2, 0 => Bs.g13 c
  | 2, 1 => Bs.g23 c
  | 2, 2 => Bs.g33 c

/-- The components of `A`. -/
def Bs.AT (c : BssnArgs 𝔽) : Fin 3 → Fin 3 → 𝔽
  | 0, 0 => Bs.A11 c
  | 0, 1 => Bs.A12 c
  | 0, 2 => Bs.A13 c
  | 1, 0 => Bs.A12 c
  | 1, 1 => Bs.A22 c
  | 1, 2 => Bs.A23 c
  | 2, 0 => Bs.A13 c
  | 2, 1 => Bs.A23 c
  | 2, 2 => Bs.A33 c

/-- The components of `G`. -/
def Bs.GT (c : BssnArgs 𝔽) : Fin 3 → 𝔽
  | 0 => Bs.G1 c
  | 1 => Bs.G2 c
  | 2 => Bs.G3 c

/-- The components of `beta`. -/
def Bs.betaT (c : BssnArgs 𝔽) : Fin 3 → 𝔽
  | 0 => Bs.beta1 c
  | 1 => Bs.beta2 c
  | 2 => Bs.beta3 c

/-- The components of `B`. -/
def Bs.BT (c : BssnArgs 𝔽) : Fin 3 → 𝔽
  | 0 => Bs.B1 c
  | 1 => Bs.B2 c
  | 2 => Bs.B3 c

/-- The components of `delg`. -/
def Bs.delgT (c : BssnArgs 𝔽) : Fin 3 → Fin 3 → Fin 3 → 𝔽
  | 0, 0, 0 => Bs.delg111 c
  | 0, 0, 1 => Bs.delg112 c
  | 0, 0, 2 => Bs.delg113 c
  | 0, 1, 0 => Bs.delg112 c
  | 0, 1, 1 => Bs.delg122 c
  | 0, 1, 2 => Bs.delg123 c
  | 0, 2, 0 => Bs.delg113 c
  | 0, 2, 1 => Bs.delg123 c
  | 0, 2, 2 => Bs.delg133 c
  | 1, 0, 0 => Bs.delg211 c
  | 1, 0, 1 => Bs.delg212 c
  | 1, 0, 2 => Bs.delg213 c
  | 1, 1, 0 => Bs.delg212 c
  | 1, 1, 1 => Bs.delg222 c
  | 1, 1, 2 => Bs.delg223 c
  | 1, 2, 0 => Bs.delg213 c
  | 1, 2, 1 => Bs.delg223 c
  | 1, 2, 2 => Bs.delg233 c
  | 2, 0, 0 => Bs.delg311 c
  | 2, 0, 1 => Bs.delg312 c
  | 2, 0, 2 => Bs.delg313 c
  | 2, 1, 0 => Bs.delg312 c
  | 2, 1, 1 => Bs.delg322 c
  | 2, 1, 2 => Bs.delg323 c
  | 2, 2, 0 => Bs.delg313 c
  | 2, 2, 1 => Bs.delg323 c
  | 2, 2, 2 => Bs.delg333 c

/-- The components of `deldelg`. -/
def Bs.deldelgT (c : BssnArgs 𝔽) : Fin 3 → Fin 3 → Fin 3 → Fin 3 → 𝔽
  | 0, 0, 0, 0 => Bs.deldelg1111 c
  | 0, 0, 0, 1 => Bs.deldelg1112 c
  | 0, 0, 0, 2 => Bs.deldelg1113 c
  | 0, 0, 1, 0 => Bs.deldelg1112 c
  | 0, 0, 1, 1 => Bs.deldelg1122 c
  | 0, 0, 1, 2 => Bs.deldelg1123 c
  | 0, 0, 2, 0 => Bs.deldelg1113 c
  | 0, 0, 2, 1 => Bs.deldelg1123 c
  | 0, 0, 2, 2 => Bs.deldelg1133 c
  | 0, 1, 0, 0 => Bs.deldelg1211 c
  | 0, 1, 0, 1 => Bs.deldelg1212 c
  | 0, 1, 0, 2 => Bs.deldelg1213 c
  | 0, 1, 1, 0 => Bs.deldelg1212 c
  | 0, 1, 1, 1 => Bs.deldelg1222 c
  | 0, 1, 1, 2 => Bs.deldelg1223 c
  | 0, 1, 2, 0 => Bs.deldelg1213 c
  | 0, 1, 2, 1 => Bs.deldelg1223 c
  | 0, 1, 2, 2 => Bs.deldelg1233 c
  | 0, 2, 0, 0 => Bs.deldelg1311 c
  | 0, 2, 0, 1 => Bs.deldelg1312 c
  | 0, 2, 0, 2 => Bs.deldelg1313 c
  | 0, 2, 1, 0 => Bs.deldelg1312 c
  | 0, 2, 1, 1 => Bs.deldelg1322 c
  | 0, 2, 1, 2 => Bs.deldelg1323 c
  | 0, 2, 2, 0 => Bs.deldelg1313 c
  | 0, 2, 2, 1 => Bs.deldelg1323 c
  | 0, 2, 2, 2 => Bs.deldelg1333 c
  | 1, 0, 0, 0 => Bs.deldelg1211 c
  | 1, 0, 0, 1 => Bs.deldelg1212 c
  | 1, 0, 0, 2 => Bs.deldelg1213 c
  | 1, 0, 1, 0 => Bs.deldelg1212 c
  | 1, 0, 1, 1 => Bs.deldelg1222 c
  | 1, 0, 1, 2 => Bs.deldelg1223 c
  | 1, 0, 2, 0 => Bs.deldelg1213 c
  | 1, 0, 2, 1 => Bs.deldelg1223 c
  | 1, 0, 2, 2 => Bs.deldelg1233 c
  | 1, 1, 0, 0 => Bs.deldelg2211 c
  | 1, 1, 0, 1 => Bs.deldelg2212 c
  | 1, 1, 0, 2 => Bs.deldelg2213 c
  | 1, 1, 1, 0 => Bs.deldelg2212 c
  | 1, 1, 1, 1 => Bs.deldelg2222 c
  | 1, 1, 1, 2 => Bs.deldelg2223 c
  | 1, 1, 2, 0 => Bs.deldelg2213 c
  | 1, 1, 2, 1 => Bs.deldelg2223 c
  | 1, 1, 2, 2 => Bs.deldelg2233 c
  | 1, 2, 0, 0 => Bs.deldelg2311 c
  | 1, 2, 0, 1 => Bs.deldelg2312 c
  | 1, 2, 0, 2 => Bs.deldelg2313 c
  | 1, 2, 1, 0 => Bs.deldelg2312 c
  | 1, 2, 1, 1 => Bs.deldelg2322 c
  | 1, 2, 1, 2 => Bs.deldelg2323 c
  | 1, 2, 2, 0 => Bs.deldelg2313 c
  | 1, 2, 2, 1 => Bs.deldelg2323 c
  | 1, 2, 2, 2 => Bs.deldelg2333 c
  | 2, 0, 0, 0 => Bs.deldelg1311 c
  | 2, 0, 0, 1 => Bs.deldelg1312 c
  | 2, 0, 0, 2 => Bs.deldelg1313 c
  | 2, 0, 1, 0 => Bs.deldelg1312 c
  | 2, 0, 1, 1 => Bs.deldelg1322 c
  | 2, 0, 1, 2 => Bs.deldelg1323 c
  | 2, 0, 2, 0 => Bs.deldelg1313 c
  | 2, 0, 2, 1 => Bs.deldelg1323 c
  | 2, 0, 2, 2 => Bs.deldelg1333 c
  | 2, 1, 0, 0 => Bs.deldelg2311 c
  | 2, 1, 0, 1 => Bs.deldelg2312 c
  | 2, 1, 0, 2 => Bs.deldelg2313 c
  | 2, 1, 1, 0 => Bs.deldelg2312 c
  | 2, 1, 1, 1 => Bs.deldelg2322 c
  | 2, 1, 1, 2 => Bs.deldelg2323 c
  | 2, 1, 2, 0 => Bs.deldelg2313 c
  | 2, 1, 2, 1 => Bs.deldelg2323 c
  | 2, 1, 2, 2 => Bs.deldelg2333 c
  | 2, 2, 0, 0 => Bs.deldelg3311 c
  | 2, 2, 0, 1 => Bs.deldelg3312 c
  | 2, 2, 0, 2 => Bs.deldelg3313 c
  | 2, 2, 1, 0 => Bs.deldelg3312 c
  | 2, 2, 1, 1 => Bs.deldelg3322 c
  | 2, 2, 1, 2 => Bs.deldelg3323 c
  | 2, 2, 2, 0 => Bs.deldelg3313 c
  | 2, 2, 2, 1 => Bs.deldelg3323 c
  | 2, 2, 2, 2 => Bs.deldelg3333 c

/-- The components of `delG`. -/
def Bs.delGT (c : BssnArgs 𝔽) : Fin 3 → Fin 3 → 𝔽
  | 0, 0 => Bs.delG11 c
  | 0, 1 => Bs.delG12 c
  | 0, 2 => Bs.delG13 c
  | 1, 0 => Bs.delG21 c
  | 1, 1 => Bs.delG22 c
  | 1, 2 => Bs.delG23 c
  | 2, 0 => Bs.delG31 c
  | 2, 1 => Bs.delG32 c
  | 2, 2 => Bs.delG33 c

/-- The components of `da`. -/
def Bs.daT (c : BssnArgs 𝔽) : Fin 3 → 𝔽
  | 0 => Bs.da1 c
  | 1 => Bs.da2 c
  | 2 => Bs.da3 c

/-- The components of `dda`. -/
def Bs.ddaT (c : BssnArgs 𝔽) : Fin 3 → Fin 3 → 𝔽
  | 0, 0 => Bs.dda11 c
  | 0, 1 => Bs.dda12 c
  | 0, 2 => Bs.dda13 c
  | 1, 0 => Bs.dda12 c
  | 1, 1 => Bs.dda22 c
  | 1, 2 => Bs.dda23 c
  | 2, 0 => Bs.dda13 c
  | 2, 1 => Bs.dda23 c
  | 2, 2 => Bs.dda33 c

/-- The components of `db`. -/
def Bs.dbT (c : BssnArgs 𝔽) : Fin 3 → Fin 3 → 𝔽
  | 0, 0 => Bs.db11 c
  | 0, 1 => Bs.db12 c
  | 0, 2 => Bs.db13 c
  | 1, 0 => Bs.db21 c
  | 1, 1 => Bs.db22 c
  | 1, 2 => Bs.db23 c
  | 2, 0 => Bs.db31 c
  | 2, 1 => Bs.db32 c
  | 2, 2 => Bs.db33 c

/-- The components of `ddb`. -/
def Bs.ddbT (c : BssnArgs 𝔽) : Fin 3 → Fin 3 → Fin 3 → 𝔽
  | 0, 0, 0 => Bs.ddb111 c
  | 0, 0, 1 => Bs.ddb112 c
  | 0, 0, 2 => Bs.ddb113 c
  | 0, 1, 0 => Bs.ddb121 c
  | 0, 1, 1 => Bs.ddb122 c
  | 0, 1, 2 => Bs.ddb123 c
  | 0, 2, 0 => Bs.ddb131 c
  | 0, 2, 1 => Bs.ddb132 c
  | 0, 2, 2 => Bs.ddb133 c
  | 1, 0, 0 => Bs.ddb121 c
  | 1, 0, 1 => Bs.ddb122 c
  | 1, 0, 2 => Bs.ddb123 c
  | 1, 1, 0 => Bs.ddb221 c
  | 1, 1, 1 => Bs.ddb222 c
  | 1, 1, 2 => Bs.ddb223 c
  | 1, 2, 0 => Bs.ddb231 c
  | 1, 2, 1 => Bs.ddb232 c
  | 1, 2, 2 => Bs.ddb233 c
  | 2, 0, 0 => Bs.ddb131 c
  | 2, 0, 1 => Bs.ddb132 c
  | 2, 0, 2 => Bs.ddb133 c
  | 2, 1, 0 => Bs.ddb231 c
  | 2, 1, 1 => Bs.ddb232 c
  | 2, 1, 2 => Bs.ddb233 c
  | 2, 2, 0 => Bs.ddb331 c
  | 2, 2, 1 => Bs.ddb332 c
  | 2, 2, 2 => Bs.ddb333 c

/-- The components of `df`. -/
def Bs.dfT (c : BssnArgs 𝔽) : Fin 3 → 𝔽
  | 0 => Bs.df1 c
  | 1 => Bs.df2 c
  | 2 => Bs.df3 c

/-- The components of `ddf`. -/
def Bs.ddfT (c : BssnArgs 𝔽) : Fin 3 → Fin 3 → 𝔽
  | 0, 0 => Bs.ddf11 c
  | 0, 1 => Bs.ddf12 c
  | 0, 2 => Bs.ddf13 c
  | 1, 0 => Bs.ddf12 c
  | 1, 1 => Bs.ddf22 c
  | 1, 2 => Bs.ddf23 c
  | 2, 0 => Bs.ddf13 c
  | 2, 1 => Bs.ddf23 c
  | 2, 2 => Bs.ddf33 c

/-- The components of `dK`. -/
def Bs.dKT (c : BssnArgs 𝔽) : Fin 3 → 𝔽
  | 0 => Bs.dK1 c
  | 1 => Bs.dK2 c
  | 2 => Bs.dK3 c

/-- The components of `betadg`. -/
def Bs.betadgT (c : BssnArgs 𝔽) : Fin 3 → Fin 3 → 𝔽
  | 0, 0 => Bs.betadg11 c
  | 0, 1 => Bs.betadg12 c
  | 0, 2 => Bs.betadg13 c
  | 1, 0 => Bs.betadg21 c
  | 1, 1 => Bs.betadg22 c
  | 1, 2 => Bs.betadg23 c
  | 2, 0 => Bs.betadg31 c
  | 2, 1 => Bs.betadg32 c
  | 2, 2 => Bs.betadg33 c

/-- The components of `betadA`. -/
def Bs.betadAT (c : BssnArgs 𝔽) : Fin 3 → Fin 3 → 𝔽
  | 0, 0 => Bs.betadA11 c
  | 0, 1 => Bs.betadA12 c
  | 0, 2 => Bs.betadA13 c
  | 1, 0 => Bs.betadA21 c
  | 1, 1 => Bs.betadA22 c
  | 1, 2 => Bs.betadA23 c
  | 2, 0 => Bs.betadA31 c
  | 2, 1 => Bs.betadA32 c
  | 2, 2 => Bs.betadA33 c

/-- The components of `betadG`. -/
def Bs.betadGT (c : BssnArgs 𝔽) : Fin 3 → 𝔽
  | 0 => Bs.betadG1 c
  | 1 => Bs.betadG2 c
  | 2 => Bs.betadG3 c

/-- The components of `ginv`. -/
def Bs.ginvT (c : BssnArgs 𝔽) : Fin 3 → Fin 3 → 𝔽
  | 0, 0 => Bs.ginv11 c
  | 0, 1 => Bs.ginv12 c
  | 0, 2 => Bs.ginv13 c
  | 1, 0 => Bs.ginv12 c
  | 1, 1 => Bs.ginv22 c
  | 1, 2 => Bs.ginv23 c
  | 2, 0 => Bs.ginv13 c
  | 2, 1 => Bs.ginv23 c
  | 2, 2 => Bs.ginv33 c

/-- The components of `gammado`. -/
def Bs.gammadoT (c : BssnArgs 𝔽) : Fin 3 → Fin 3 → Fin 3 → 𝔽
  | 0, 0, 0 => Bs.gammado111 c
  | 0, 0, 1 => Bs.gammado112 c
  | 0, 0, 2 => Bs.gammado113 c
  | 0, 1, 0 => Bs.gammado112 c
  | 0, 1, 1 => Bs.gammado122 c
  | 0, 1, 2 => Bs.gammado123 c
  | 0, 2, 0 => Bs.gammado113 c
  | 0, 2, 1 => Bs.gammado123 c
  | 0, 2, 2 => Bs.gammado133 c
  | 1, 0, 0 => Bs.gammado211 c
  | 1, 0, 1 => Bs.gammado212 c
  | 1, 0, 2 => Bs.gammado213 c
  | 1, 1, 0 => Bs.gammado212 c
  | 1, 1, 1 => Bs.gammado222 c
  | 1, 1, 2 => Bs.gammado223 c
  | 1, 2, 0 => Bs.gammado213 c
  | 1, 2, 1 => Bs.gammado223 c
  | 1, 2, 2 => Bs.gammado233 c
  | 2, 0, 0 => Bs.gammado311 c
  | 2, 0, 1 => Bs.gammado312 c
  | 2, 0, 2 => Bs.gammado313 c
  | 2, 1, 0 => Bs.gammado312 c
  | 2, 1, 1 => Bs.gammado322 c
  | 2, 1, 2 => Bs.gammado323 c
  | 2, 2, 0 => Bs.gammado313 c
  | 2, 2, 1 => Bs.gammado323 c
  | 2, 2, 2 => Bs.gammado333 c

/-- The components of `gamma`. -/
def Bs.gammaT (c : BssnArgs 𝔽) : Fin 3 → Fin 3 → Fin 3 → 𝔽
  | 0, 0, 0 => Bs.gamma111 c
  | 0, 0, 1 => Bs.gamma112 c
  | 0, 0, 2 => Bs.gamma113 c
  | 0, 1, 0 => Bs.gamma112 c
  | 0, 1, 1 => Bs.gamma122 c
  | 0, 1, 2 => Bs.gamma123 c
  | 0, 2, 0 => Bs.gamma113 c
  | 0, 2, 1 => Bs.gamma123 c
  | 0, 2, 2 => Bs.gamma133 c
  | 1, 0, 0 => Bs.gamma211 c
  | 1, 0, 1 => Bs.gamma212 c
  | 1, 0, 2 => Bs.gamma213 c
  | 1, 1, 0 => Bs.gamma212 c
  | 1, 1, 1 => Bs.gamma222 c
  | 1, 1, 2 => Bs.gamma223 c
  | 1, 2, 0 => Bs.gamma213 c
  | 1, 2, 1 => Bs.gamma223 c
  | 1, 2, 2 => Bs.gamma233 c
  | 2, 0, 0 => Bs.gamma311 c
  | 2, 0, 1 => Bs.gamma312 c
  | 2, 0, 2 => Bs.gamma313 c
  | 2, 1, 0 => Bs.gamma312 c
  | 2, 1, 1 => Bs.gamma322 c
  | 2, 1, 2 => Bs.gamma323 c
  | 2, 2, 0 => Bs.gamma313 c
  | 2, 2, 1 => Bs.gamma323 c
  | 2, 2, 2 => Bs.gamma333 c

/-- The components of `Gfromg`. -/
def Bs.GfromgT (c : BssnArgs 𝔽) : Fin 3 → 𝔽
  | 0 => Bs.Gfromg1 c
  | 1 => Bs.Gfromg2 c
  | 2 => Bs.Gfromg3 c

/-- The components of `undiffdG`. -/
def Bs.undiffdGT (c : BssnArgs 𝔽) : Fin 3 → 𝔽
  | 0 => Bs.undiffdG1 c
  | 1 => Bs.undiffdG2 c
  | 2 => Bs.undiffdG3 c

/-- The components of `R`. -/
def Bs.RT (c : BssnArgs 𝔽) : Fin 3 → Fin 3 → 𝔽
  | 0, 0 => Bs.R11 c
  | 0, 1 => Bs.R12 c
  | 0, 2 => Bs.R13 c
  | 1, 0 => Bs.R12 c
  | 1, 1 => Bs.R22 c
  | 1, 2 => Bs.R23 c
  | 2, 0 => Bs.R13 c
  | 2, 1 => Bs.R23 c
  | 2, 2 => Bs.R33 c

/-- The components of `cddf`. -/
def Bs.cddfT (c : BssnArgs 𝔽) : Fin 3 → Fin 3 → 𝔽
  | 0, 0 => Bs.cddf11 c
  | 0, 1 => Bs.cddf12 c
  | 0, 2 => Bs.cddf13 c
  | 1, 0 => Bs.cddf12 c
  | 1, 1 => Bs.cddf22 c
  | 1, 2 => Bs.cddf23 c
  | 2, 0 => Bs.cddf13 c
  | 2, 1 => Bs.cddf23 c
  | 2, 2 => Bs.cddf33 c

/-- The components of `Rphi`. -/
def Bs.RphiT (c : BssnArgs 𝔽) : Fin 3 → Fin 3 → 𝔽
  | 0, 0 => Bs.Rphi11 c
  | 0, 1 => Bs.Rphi12 c
  | 0, 2 => Bs.Rphi13 c
  | 1, 0 => Bs.Rphi12 c
  | 1, 1 => Bs.Rphi22 c
  | 1, 2 => Bs.Rphi23 c
  | 2, 0 => Bs.Rphi13 c
  | 2, 1 => Bs.Rphi23 c
  | 2, 2 => Bs.Rphi33 c

/-- The components of `cdda`. -/
def Bs.cddaT (c : BssnArgs 𝔽) : Fin 3 → Fin 3 → 𝔽
  | 0, 0 => Bs.cdda11 c
  | 0, 1 => Bs.cdda12 c
  | 0, 2 => Bs.cdda13 c
  | 1, 0 => Bs.cdda12 c
  | 1, 1 => Bs.cdda22 c
  | 1, 2 => Bs.cdda23 c
  | 2, 0 => Bs.cdda13 c
  | 2, 1 => Bs.cdda23 c
  | 2, 2 => Bs.cdda33 c

/-- The components of `AA`. -/
def Bs.AAT (c : BssnArgs 𝔽) : Fin 3 → Fin 3 → 𝔽
  | 0, 0 => Bs.AA11 c
  | 0, 1 => Bs.AA12 c
  | 0, 2 => Bs.AA13 c
  | 1, 0 => Bs.AA12 c
  | 1, 1 => Bs.AA22 c
  | 1, 2 => Bs.AA23 c
  | 2, 0 => Bs.AA13 c
  | 2, 1 => Bs.AA23 c
  | 2, 2 => Bs.AA33 c

/-- The components of `Ainv`. -/
def Bs.AinvT (c : BssnArgs 𝔽) : Fin 3 → Fin 3 → 𝔽
  | 0, 0 => Bs.Ainv11 c
  | 0, 1 => Bs.Ainv12 c
  | 0, 2 => Bs.Ainv13 c
  | 1, 0 => Bs.Ainv12 c
  | 1, 1 => Bs.Ainv22 c
  | 1, 2 => Bs.Ainv23 c
  | 2, 0 => Bs.Ainv13 c
  | 2, 1 => Bs.Ainv23 c
  | 2, 2 => Bs.Ainv33 c

/-- The components of `divAinv`. -/
def Bs.divAinvT (c : BssnArgs 𝔽) : Fin 3 → 𝔽
  | 0 => Bs.divAinv1 c
  | 1 => Bs.divAinv2 c
  | 2 => Bs.divAinv3 c

/-- The components of `ootddivbeta`. -/
def Bs.ootddivbetaT (c : BssnArgs 𝔽) : Fin 3 → 𝔽
  | 0 => Bs.ootddivbeta1 c
  | 1 => Bs.ootddivbeta2 c
  | 2 => Bs.ootddivbeta3 c

/-- The components of `lieg`. -/
def Bs.liegT (c : BssnArgs 𝔽) : Fin 3 → Fin 3 → 𝔽
  | 0, 0 => Bs.lieg11 c
  | 0, 1 => Bs.lieg12 c
  | 0, 2 => Bs.lieg13 c
  | 1, 0 => Bs.lieg12 c
  | 1, 1 => Bs.lieg22 c
  | 1, 2 => Bs.lieg23 c
  | 2, 0 => Bs.lieg13 c
  | 2, 1 => Bs.lieg23 c
  | 2, 2 => Bs.lieg33 c

/-- The components of `lieA`. -/
def Bs.lieAT (c : BssnArgs 𝔽) : Fin 3 → Fin 3 → 𝔽
  | 0, 0 => Bs.lieA11 c
  | 0, 1 => Bs.lieA12 c
  | 0, 2 => Bs.lieA13 c
  | 1, 0 => Bs.lieA12 c
  | 1, 1 => Bs.lieA22 c
  | 1, 2 => Bs.lieA23 c
  | 2, 0 => Bs.lieA13 c
  | 2, 1 => Bs.lieA23 c
  | 2, 2 => Bs.lieA33 c

/-- The components of `pseudolieG`. -/
def Bs.pseudolieGT (c : BssnArgs 𝔽) : Fin 3 → 𝔽
  | 0 => Bs.pseudolieG1 c
  | 1 => Bs.pseudolieG2 c
  | 2 => Bs.pseudolieG3 c

/-- The components of `rg`. -/
def Bs.rgT (c : BssnArgs 𝔽) : Fin 3 → Fin 3 → 𝔽
  | 0, 0 => Bs.rg11 c
  | 0, 1 => Bs.rg12 c
  | 0, 2 => Bs.rg13 c
  | 1, 0 => Bs.rg12 c
  | 1, 1 => Bs.rg22 c
  | 1, 2 => Bs.rg23 c
  | 2, 0 => Bs.rg13 c
  | 2, 1 => Bs.rg23 c
  | 2, 2 => Bs.rg33 c

/-- The components of `rA`. -/
def Bs.rAT (c : BssnArgs 𝔽) : Fin 3 → Fin 3 → 𝔽
  | 0, 0 => Bs.rA11 c
  | 0, 1 => Bs.rA12 c
  | 0, 2 => Bs.rA13 c
  | 1, 0 => Bs.rA12 c
  | 1, 1 => Bs.rA22 c
  | 1, 2 => Bs.rA23 c
  | 2, 0 => Bs.rA13 c
  | 2, 1 => Bs.rA23 c
  | 2, 2 => Bs.rA33 c

/-- The components of `rG`. -/
def Bs.rGT (c : BssnArgs 𝔽) : Fin 3 → 𝔽
  | 0 => Bs.rG1 c
  | 1 => Bs.rG2 c
  | 2 => Bs.rG3 c

variable (c : BssnArgs 𝔽)

theorem Bs.g_eq : ∀ a b, Bs.gT c a b = c.cur (Spec.sym2 a b) := by
  refine fin3₂ ⟨?_, ?_, ?_, ?_, ?_, ?_, ?_, ?_, ?_⟩ <;> rfl

theorem Bs.A_eq : ∀ a b, Bs.AT c a b = c.cur (7 + Spec.sym2 a b) := by
  refine fin3₂ ⟨?_, ?_, ?_, ?_, ?_, ?_, ?_, ?_, ?_⟩ <;> rfl

theorem Bs.G_eq : ∀ a : Fin 3, Bs.GT c a = c.cur (14 + a) := by
  refine fin3 ?_ ?_ ?_ <;> rfl

theorem Bs.beta_eq : ∀ a : Fin 3, Bs.betaT c a = c.cur (18 + a) := by
  refine fin3 ?_ ?_ ?_ <;> rfl

theorem Bs.B_eq : ∀ a : Fin 3, Bs.BT c a = c.cur (21 + a) := by
  refine fin3 ?_ ?_ ?_ <;> rfl

theorem Bs.delg_eq : ∀ k a b, Bs.delgT c k a b = c.dg (3 * Spec.sym2 a b + k) := by
  refine fin3 ?_ ?_ ?_ <;> refine fin3₂ ⟨?_, ?_, ?_, ?_, ?_, ?_, ?_, ?_, ?_⟩ <;> rfl

theorem Bs.deldelg_eq : ∀ k l a b, Bs.deldelgT c k l a b = c.ddg (6 * Spec.sym2 a b + Spec.sym2 k l) := by
  refine fin3₂ ⟨?_, ?_, ?_, ?_, ?_, ?_, ?_, ?_, ?_⟩ <;> refine fin3₂ ⟨?_, ?_, ?_, ?_, ?_, ?_, ?_, ?_, ?_⟩ <;> rfl

theorem Bs.delG_eq : ∀ a b : Fin 3, Bs.delGT c a b = c.dG (3 * b + a) := by
  refine fin3₂ ⟨?_, ?_, ?_, ?_, ?_, ?_, ?_, ?_, ?_⟩ <;> rfl

theorem Bs.da_eq : ∀ a : Fin 3, Bs.daT c a = c.dalp a := by
  refine fin3 ?_ ?_ ?_ <;> rfl

theorem Bs.dda_eq : ∀ a b : Fin 3, Bs.ddaT c a b = c.ddalp (Spec.sym2 a b) := by
  refine fin3₂ ⟨?_, ?_, ?_, ?_, ?_, ?_, ?_, ?_, ?_⟩ <;> rfl

theorem Bs.db_eq : ∀ a b : Fin 3, Bs.dbT c a b = c.dbeta (3 * b + a) := by
  refine fin3₂ ⟨?_, ?_, ?_, ?_, ?_, ?_, ?_, ?_, ?_⟩ <;> rfl

theorem Bs.ddb_eq : ∀ k a b : Fin 3, Bs.ddbT c a b k = c.ddbeta (6 * k + Spec.sym2 a b) := by
  refine fin3 ?_ ?_ ?_ <;> refine fin3₂ ⟨?_, ?_, ?_, ?_, ?_, ?_, ?_, ?_, ?_⟩ <;> rfl

theorem Bs.df_eq : ∀ a : Fin 3, Bs.dfT c a = c.dphi a + c.ps (1 + a) := by
  refine fin3 ?_ ?_ ?_ <;> rfl

theorem Bs.ddf_eq : ∀ a b : Fin 3, Bs.ddfT c a b = c.ddphi (Spec.sym2 a b) - c.ps (1 + a) * c.ps (1 + b) + c.ps (4 + Spec.sym2 a b) := by
  refine fin3₂ ⟨?_, ?_, ?_, ?_, ?_, ?_, ?_, ?_, ?_⟩ <;>
    · simp only [Bs.ddfT, Bs.ddf11, Bs.ddf12, Bs.ddf13, Bs.ddf22, Bs.ddf23, Bs.ddf33, Bs.ddf11_0, Bs.ddf12_0, Bs.ddf13_0,
      Bs.ddf22_0, Bs.ddf23_0, Bs.ddf33_0, Bs.dpop1, Bs.dpop2, Bs.dpop3, Bs.ddpop11, Bs.ddpop12, Bs.ddpop13, Bs.ddpop22,
      Bs.ddpop23, Bs.ddpop33, Bs.ddphi11, Bs.ddphi12, Bs.ddphi13, Bs.ddphi22, Bs.ddphi23, Bs.ddphi33, Spec.sym2,
      Fin.val_zero, Fin.val_one, Fin.val_two]
      ring

theorem Bs.dK_eq : ∀ a : Fin 3, Bs.dKT c a = c.dK a * Bs.b2 c.noForceK := by
  refine fin3 ?_ ?_ ?_ <;>
    · simp only [Bs.dKT, Bs.dK1, Bs.dK2, Bs.dK3, Bs.dK1_0, Bs.dK2_0, Bs.dK3_0, Fin.val_zero, Fin.val_one, Fin.val_two]
      try ring

theorem Bs.betadf_eq : Bs.betadf c = ∑ d, Bs.betaT c d * Bs.dfT c d := by
  simp only [Fin.sum_univ_three, Bs.betaT, Bs.dfT, Bs.betadf, Bs.betadf_0, Bs.df1, Bs.df2, Bs.df3, Bs.df1_0, Bs.df2_0,
    Bs.df3_0, Bs.dphi1, Bs.dphi2, Bs.dphi3]
  ring

theorem Bs.betadg_eq : ∀ a b : Fin 3, Bs.betadgT c a b = ∑ d : Fin 3, Bs.betaT c d * c.dg (3 * Spec.sym2 a b + d) := by
  refine fin3₂ ⟨?_, ?_, ?_, ?_, ?_, ?_, ?_, ?_, ?_⟩ <;>
    · simp only [Fin.sum_univ_three, Bs.betaT, Bs.betadgT, Bs.betadg11, Bs.betadg12, Bs.betadg13, Bs.betadg21,
      Bs.betadg22, Bs.betadg23, Bs.betadg31, Bs.betadg32, Bs.betadg33, Bs.dgt111, Bs.dgt112, Bs.dgt113, Bs.dgt121,
      Bs.dgt122, Bs.dgt123, Bs.dgt131, Bs.dgt132, Bs.dgt133, Bs.dgt221, Bs.dgt222, Bs.dgt223, Bs.dgt231, Bs.dgt232,
      Bs.dgt233, Bs.dgt331, Bs.dgt332, Bs.dgt333, Spec.sym2, Fin.val_zero, Fin.val_one, Fin.val_two]
      try ring

theorem Bs.betadA_eq : ∀ a b : Fin 3, Bs.betadAT c a b = ∑ d : Fin 3, Bs.betaT c d * c.dA (3 * Spec.sym2 a b + d) := by
  refine fin3₂ ⟨?_, ?_, ?_, ?_, ?_, ?_, ?_, ?_, ?_⟩ <;>
    · simp only [Fin.sum_univ_three, Bs.betaT, Bs.betadAT, Bs.betadA11, Bs.betadA12, Bs.betadA13, Bs.betadA21,
      Bs.betadA22, Bs.betadA23, Bs.betadA31, Bs.betadA32, Bs.betadA33, Bs.dAt111, Bs.dAt112, Bs.dAt113, Bs.dAt121,
      Bs.dAt122, Bs.dAt123, Bs.dAt131, Bs.dAt132, Bs.dAt133, Bs.dAt221, Bs.dAt222, Bs.dAt223, Bs.dAt231, Bs.dAt232,
      Bs.dAt233, Bs.dAt331, Bs.dAt332, Bs.dAt333, Spec.sym2, Fin.val_zero, Fin.val_one, Fin.val_two]
      try ring

theorem Bs.betadK_eq : Bs.betadK c = ∑ d : Fin 3, Bs.betaT c d * c.dK d := by
  simp only [Fin.sum_univ_three, Bs.betaT, Bs.betadK, Bs.dK1_0, Bs.dK2_0, Bs.dK3_0, Fin.val_zero, Fin.val_one, Fin.val_two]
  try ring

theorem Bs.betadG_eq : ∀ a : Fin 3, Bs.betadGT c a = ∑ d : Fin 3, Bs.betaT c d * c.dG (3 * a + d) := by
  refine fin3 ?_ ?_ ?_ <;>
    · simp only [Fin.sum_univ_three, Bs.betaT, Bs.betadGT, Bs.betadG1, Bs.betadG2, Bs.betadG3, Bs.dGt11, Bs.dGt12,
      Bs.dGt13, Bs.dGt21, Bs.dGt22, Bs.dGt23, Bs.dGt31, Bs.dGt32, Bs.dGt33, Fin.val_zero, Fin.val_one, Fin.val_two]
      try ring

theorem Bs.betadalp_eq : Bs.betadalp c = ∑ d : Fin 3, Bs.betaT c d * c.dalp d := by
  simp only [Fin.sum_univ_three, Bs.betaT, Bs.betadalp, Bs.dalp1, Bs.dalp2, Bs.dalp3, Fin.val_zero, Fin.val_one, Fin.val_two]
  try ring

theorem Bs.gamma_eq : ∀ k a b, Bs.gammaT c k a b = ∑ d, Bs.ginvT c k d * Bs.gammadoT c d a b := by
  refine fin3 ?_ ?_ ?_ <;> refine fin3₂ ⟨?_, ?_, ?_, ?_, ?_, ?_, ?_, ?_, ?_⟩ <;>
    · simp only [Fin.sum_univ_three, Bs.gammaT, Bs.gammadoT, Bs.ginvT, Bs.gamma111, Bs.gamma112, Bs.gamma113, Bs.gamma122,
      Bs.gamma123, Bs.gamma133, Bs.gamma211, Bs.gamma212, Bs.gamma213, Bs.gamma222, Bs.gamma223, Bs.gamma233, Bs.gamma311,
      Bs.gamma312, Bs.gamma313, Bs.gamma322, Bs.gamma323, Bs.gamma333]
      try ring

theorem Bs.gammado_eq : ∀ k a b, Bs.gammadoT c k a b =
    1 / 2 * (Bs.delgT c a b k + Bs.delgT c b a k - Bs.delgT c k a b) := by
  refine fin3 ?_ ?_ ?_ <;> refine fin3₂ ⟨?_, ?_, ?_, ?_, ?_, ?_, ?_, ?_, ?_⟩ <;>
    · simp only [Bs.gammadoT, Bs.delgT, Bs.gammado111, Bs.gammado112, Bs.gammado113, Bs.gammado122, Bs.gammado123,
      Bs.gammado133, Bs.gammado211, Bs.gammado212, Bs.gammado213, Bs.gammado222, Bs.gammado223, Bs.gammado233,
      Bs.gammado311, Bs.gammado312, Bs.gammado313, Bs.gammado322, Bs.gammado323, Bs.gammado333]
      try ring

theorem Bs.Gfromg_eq : ∀ a, Bs.GfromgT c a = ∑ b, ∑ d, Bs.ginvT c b d * Bs.gammaT c a b d := by
  refine fin3 ?_ ?_ ?_ <;>
    · simp only [Fin.sum_univ_three, Bs.GfromgT, Bs.gammaT, Bs.ginvT, Bs.Gfromg1, Bs.Gfromg2, Bs.Gfromg3]
      ring

theorem Bs.undiffdG_eq : ∀ a, Bs.undiffdGT c a = if c.gReplaced then Bs.GfromgT c a else Bs.GT c a := by
  refine fin3 ?_ ?_ ?_ <;> rfl

theorem Bs.R_eq00 : Bs.R11 c = ∑ k, ∑ d, Bs.ginvT c k d * (-(1 / 2 * Bs.deldelgT c k d 0 0) +
      ∑ e, (Bs.gammaT c e k 0 * Bs.gammadoT c 0 e d + Bs.gammaT c e k 0 * Bs.gammadoT c 0 e d +
        Bs.gammaT c e 0 d * Bs.gammadoT c e k 0)) +
    1 / 2 * ∑ k, (Bs.gT c k 0 * Bs.delGT c 0 k + Bs.gT c k 0 * Bs.delGT c 0 k +
      Bs.undiffdGT c k * (Bs.gammadoT c 0 0 k + Bs.gammadoT c 0 0 k)) := by
  simp only [Fin.sum_univ_three, Bs.ginvT, Bs.deldelgT, Bs.gammaT, Bs.gammadoT, Bs.gT, Bs.delGT, Bs.undiffdGT, Bs.R11]
  ring

theorem Bs.R_eq01 : Bs.R12 c = ∑ k, ∑ d, Bs.ginvT c k d * (-(1 / 2 * Bs.deldelgT c k d 0 1) +
      ∑ e, (Bs.gammaT c e k 0 * Bs.gammadoT c 1 e d + Bs.gammaT c e k 1 * Bs.gammadoT c 0 e d +
        Bs.gammaT c e 0 d * Bs.gammadoT c e k 1)) +
    1 / 2 * ∑ k, (Bs.gT c k 0 * Bs.delGT c 1 k + Bs.gT c k 1 * Bs.delGT c 0 k +
      Bs.undiffdGT c k * (Bs.gammadoT c 0 1 k + Bs.gammadoT c 1 0 k)) := by
  simp only [Fin.sum_univ_three, Bs.ginvT, Bs.deldelgT, Bs.gammaT, Bs.gammadoT, Bs.gT, Bs.delGT, Bs.undiffdGT, Bs.R12]
  ring

theorem Bs.R_eq02 : Bs.R13 c = ∑ k, ∑ d, Bs.ginvT c k d * (-(1 / 2 * Bs.deldelgT c k d 0 2) +
      ∑ e, (Bs.gammaT c e k 0 * Bs.gammadoT c 2 e d + Bs.gammaT c e k 2 * Bs.gammadoT c 0 e d +
        Bs.gammaT c e 0 d * Bs.gammadoT c e k 2)) +
    1 / 2 * ∑ k, (Bs.gT c k 0 * Bs.delGT c 2 k + Bs.gT c k 2 * Bs.delGT c 0 k +
      Bs.undiffdGT c k * (Bs.gammadoT c 0 2 k + Bs.gammadoT c 2 0 k)) := by
  simp only [Fin.sum_univ_three, Bs.ginvT, Bs.deldelgT, Bs.gammaT, Bs.gammadoT, Bs.gT, Bs.delGT, Bs.undiffdGT, Bs.R13]
  ring

theorem Bs.R_eq11 : Bs.R22 c = ∑ k, ∑ d, Bs.ginvT c k d * (-(1 / 2 * Bs.deldelgT c k d 1 1) +
      ∑ e, (Bs.gammaT c e k 1 * Bs.gammadoT c 1 e d + Bs.gammaT c e k 1 * Bs.gammadoT c 1 e d +
        Bs.gammaT c e 1 d * Bs.gammadoT c e k 1)) +
    1 / 2 * ∑ k, (Bs.gT c k 1 * Bs.delGT c 1 k + Bs.gT c k 1 * Bs.delGT c 1 k +
      Bs.undiffdGT c k * (Bs.gammadoT c 1 1 k + Bs.gammadoT c 1 1 k)) := by
  simp only [Fin.sum_univ_three, Bs.ginvT, Bs.deldelgT, Bs.gammaT, Bs.gammadoT, Bs.gT, Bs.delGT, Bs.undiffdGT, Bs.R22]
  ring

theorem Bs.R_eq12 : Bs.R23 c = ∑ k, ∑ d, Bs.ginvT c k d * (-(1 / 2 * Bs.deldelgT c k d 1 2) +
      ∑ e, (Bs.gammaT c e k 1 * Bs.gammadoT c 2 e d + Bs.gammaT c e k 2 * Bs.gammadoT c 1 e d +
        Bs.gammaT c e 1 d * Bs.gammadoT c e k 2)) +
    1 / 2 * ∑ k, (Bs.gT c k 1 * Bs.delGT c 2 k + Bs.gT c k 2 * Bs.delGT c 1 k +
      Bs.undiffdGT c k * (Bs.gammadoT c 1 2 k + Bs.gammadoT c 2 1 k)) := by
  simp only [Fin.sum_univ_three, Bs.ginvT, Bs.deldelgT, Bs.gammaT, Bs.gammadoT, Bs.gT, Bs.delGT, Bs.undiffdGT, Bs.R23]
  ring

theorem Bs.R_eq22 : Bs.R33 c = ∑ k, ∑ d, Bs.ginvT c k d * (-(1 / 2 * Bs.deldelgT c k d 2 2) +
      ∑ e, (Bs.gammaT c e k 2 * Bs.gammadoT c 2 e d + Bs.gammaT c e k 2 * Bs.gammadoT c 2 e d +
        Bs.gammaT c e 2 d * Bs.gammadoT c e k 2)) +
    1 / 2 * ∑ k, (Bs.gT c k 2 * Bs.delGT c 2 k + Bs.gT c k 2 * Bs.delGT c 2 k +
      Bs.undiffdGT c k * (Bs.gammadoT c 2 2 k + Bs.gammadoT c 2 2 k)) := by
  simp only [Fin.sum_univ_three, Bs.ginvT, Bs.deldelgT, Bs.gammaT, Bs.gammadoT, Bs.gT, Bs.delGT, Bs.undiffdGT, Bs.R33]
  ring

theorem Bs.R_eq : ∀ a b : Fin 3, a ≤ b → Bs.RT c a b = ∑ k, ∑ d, Bs.ginvT c k d * (-(1 / 2 * Bs.deldelgT c k d a b) +
      ∑ e, (Bs.gammaT c e k a * Bs.gammadoT c b e d + Bs.gammaT c e k b * Bs.gammadoT c a e d +
        Bs.gammaT c e a d * Bs.gammadoT c e k b)) +
    1 / 2 * ∑ k, (Bs.gT c k a * Bs.delGT c b k + Bs.gT c k b * Bs.delGT c a k +
      Bs.undiffdGT c k * (Bs.gammadoT c a b k + Bs.gammadoT c b a k)) := by
  refine fin3₂ ⟨?_, ?_, ?_, ?_, ?_, ?_, ?_, ?_, ?_⟩
  · exact fun _ => Bs.R_eq00 c
  · exact fun _ => Bs.R_eq01 c
  · exact fun _ => Bs.R_eq02 c
  · exact fun h => absurd h (by decide)
  · exact fun _ => Bs.R_eq11 c
  · exact fun _ => Bs.R_eq12 c
  · exact fun h => absurd h (by decide)
  · exact fun h => absurd h (by decide)
  · exact fun _ => Bs.R_eq22 c

theorem Bs.R_symm : ∀ a b, Bs.RT c a b = Bs.RT c b a := by
  refine fin3₂ ⟨?_, ?_, ?_, ?_, ?_, ?_, ?_, ?_, ?_⟩ <;> rfl

theorem Bs.cddf_eq : ∀ a b, Bs.cddfT c a b = Bs.ddfT c a b - ∑ d, Bs.gammaT c d a b * Bs.dfT c d := by
  refine fin3₂ ⟨?_, ?_, ?_, ?_, ?_, ?_, ?_, ?_, ?_⟩ <;>
    · simp only [Fin.sum_univ_three, Bs.cddfT, Bs.ddfT, Bs.gammaT, Bs.dfT, Bs.cddf11, Bs.cddf12, Bs.cddf13, Bs.cddf22,
      Bs.cddf23, Bs.cddf33]
      ring

theorem Bs.trcddf_eq : Bs.trcddf c = ∑ a, ∑ b, Bs.ginvT c a b * Bs.cddfT c a b := by
  simp only [Fin.sum_univ_three, Bs.cddfT, Bs.ginvT, Bs.trcddf]
  ring

theorem Bs.Rphi_eq : ∀ a b, Bs.RphiT c a b = 4 * (Bs.dfT c a * Bs.dfT c b) - 2 * Bs.cddfT c a b - 2 * (Bs.gT c a b * Bs.trcddf c) -
    4 * (Bs.gT c a b * ∑ k, ∑ d, Bs.ginvT c k d * (Bs.dfT c k * Bs.dfT c d)) := by
  refine fin3₂ ⟨?_, ?_, ?_, ?_, ?_, ?_, ?_, ?_, ?_⟩ <;>
    · simp only [Fin.sum_univ_three, Bs.RphiT, Bs.cddfT, Bs.ginvT, Bs.gT, Bs.dfT, Bs.Rphi11, Bs.Rphi12, Bs.Rphi13,
      Bs.Rphi22, Bs.Rphi23, Bs.Rphi33]
      ring

theorem Bs.cdda_eq : ∀ a b, Bs.cddaT c a b = Bs.ddaT c a b - ∑ d, Bs.gammaT c d a b * Bs.daT c d -
    2 * (Bs.dfT c a * Bs.daT c b + Bs.dfT c b * Bs.daT c a - Bs.gT c a b * ∑ k, ∑ d, Bs.ginvT c k d * (Bs.dfT c k * Bs.daT c d)) := by
  refine fin3₂ ⟨?_, ?_, ?_, ?_, ?_, ?_, ?_, ?_, ?_⟩ <;>
    · simp only [Fin.sum_univ_three, Bs.cddaT, Bs.ddaT, Bs.gammaT, Bs.daT, Bs.dfT, Bs.ginvT, Bs.gT, Bs.cdda11, Bs.cdda12,
      Bs.cdda13, Bs.cdda22, Bs.cdda23, Bs.cdda33]
      ring

theorem Bs.trcdda_eq : Bs.trcdda c = Bs.psim4 c * ∑ a, ∑ b, Bs.ginvT c a b * Bs.cddaT c a b := by
  simp only [Fin.sum_univ_three, Bs.cddaT, Bs.ginvT, Bs.trcdda]
  ring

theorem Bs.AA_eq : ∀ a b, Bs.AAT c a b = ∑ k, ∑ d, Bs.ginvT c k d * (Bs.AT c a k * Bs.AT c d b) := by
  refine fin3₂ ⟨?_, ?_, ?_, ?_, ?_, ?_, ?_, ?_, ?_⟩ <;>
    · simp only [Fin.sum_univ_three, Bs.AAT, Bs.ginvT, Bs.AT, Bs.AA11, Bs.AA12, Bs.AA13, Bs.AA22, Bs.AA23, Bs.AA33]
      ring

theorem Bs.trAA_eq : Bs.AA c = ∑ a, ∑ b, Bs.ginvT c a b * Bs.AAT c a b := by
  simp only [Fin.sum_univ_three, Bs.AAT, Bs.ginvT, Bs.AA]
  ring

theorem Bs.Ainv_eq : ∀ a b, Bs.AinvT c a b = ∑ k, ∑ d, Bs.ginvT c a k * Bs.ginvT c b d * Bs.AT c k d := by
  refine fin3₂ ⟨?_, ?_, ?_, ?_, ?_, ?_, ?_, ?_, ?_⟩ <;>
    · simp only [Fin.sum_univ_three, Bs.AinvT, Bs.ginvT, Bs.AT, Bs.Ainv11, Bs.Ainv12, Bs.Ainv13, Bs.Ainv22, Bs.Ainv23, Bs.Ainv33]
      ring

theorem Bs.divAinv_eq : ∀ a, Bs.divAinvT c a = 2 / 3 * ∑ b, Bs.ginvT c a b * Bs.dKT c b - 6 * ∑ b, Bs.AinvT c a b * Bs.dfT c b -
    ∑ b, ∑ d, Bs.gammaT c a b d * Bs.AinvT c b d := by
  refine fin3 ?_ ?_ ?_ <;>
    · simp only [Fin.sum_univ_three, Bs.divAinvT, Bs.ginvT, Bs.dKT, Bs.AinvT, Bs.dfT, Bs.gammaT, Bs.divAinv1, Bs.divAinv2,
      Bs.divAinv3]
      ring

theorem Bs.trRicci_eq : Bs.trRicci c = Bs.psim4 c * ∑ a, ∑ b, Bs.ginvT c a b * (Bs.RT c a b + Bs.RphiT c a b) := by
  simp only [Fin.sum_univ_three, Bs.RT, Bs.RphiT, Bs.ginvT, Bs.trRicci]
  ring

theorem Bs.divbeta_eq : Bs.divbeta c = ∑ a, Bs.dbT c a a := by
  simp only [Fin.sum_univ_three, Bs.dbT, Bs.divbeta]

theorem Bs.ootddivbeta_eq : ∀ a, Bs.ootddivbetaT c a = 1 / 3 * ∑ b, Bs.ddbT c a b b := by
  refine fin3 ?_ ?_ ?_ <;>
    · simp only [Fin.sum_univ_three, Bs.ootddivbetaT, Bs.ddbT, Bs.ootddivbeta1, Bs.ootddivbeta2, Bs.ootddivbeta3]
      try ring

theorem Bs.lieg_eq : ∀ a b, Bs.liegT c a b = Bs.betadgT c a b - 2 / 3 * Bs.gT c a b * Bs.divbeta c +
    ∑ k, (Bs.dbT c a k * Bs.gT c b k + Bs.dbT c b k * Bs.gT c a k) := by
  refine fin3₂ ⟨?_, ?_, ?_, ?_, ?_, ?_, ?_, ?_, ?_⟩ <;>
    · simp only [Fin.sum_univ_three, Bs.liegT, Bs.betadgT, Bs.betadg11, Bs.betadg12, Bs.betadg13, Bs.betadg21,
      Bs.betadg22, Bs.betadg23, Bs.betadg31, Bs.betadg32, Bs.betadg33, Bs.gT, Bs.dbT, Bs.totdivbeta, Bs.lieg11, Bs.lieg12,
      Bs.lieg13, Bs.lieg22, Bs.lieg23, Bs.lieg33]
      ring

theorem Bs.lieA_eq : ∀ a b, Bs.lieAT c a b = Bs.betadAT c a b - 2 / 3 * Bs.AT c a b * Bs.divbeta c +
    ∑ k, (Bs.dbT c a k * Bs.AT c b k + Bs.dbT c b k * Bs.AT c a k) := by
  refine fin3₂ ⟨?_, ?_, ?_, ?_, ?_, ?_, ?_, ?_, ?_⟩ <;>
    · simp only [Fin.sum_univ_three, Bs.lieAT, Bs.betadAT, Bs.betadA11, Bs.betadA12, Bs.betadA13, Bs.betadA21,
      Bs.betadA22, Bs.betadA23, Bs.betadA31, Bs.betadA32, Bs.betadA33, Bs.AT, Bs.dbT, Bs.totdivbeta, Bs.lieA11, Bs.lieA12,
      Bs.lieA13, Bs.lieA22, Bs.lieA23, Bs.lieA33]
      ring

theorem Bs.liephi_eq : Bs.liephi c = Bs.betadf c + Bs.divbeta c / 6 := by
  unfold Bs.liephi
  ring

theorem Bs.pseudolieG_eq : ∀ a, Bs.pseudolieGT c a = ∑ b, ∑ d, Bs.ginvT c b d * Bs.ddbT c b d a + ∑ b, Bs.ginvT c a b * Bs.ootddivbetaT c b -
    ∑ b, Bs.undiffdGT c b * Bs.dbT c b a + 2 / 3 * Bs.undiffdGT c a * Bs.divbeta c + Bs.betadGT c a := by
  refine fin3 ?_ ?_ ?_ <;>
    · simp only [Fin.sum_univ_three, Bs.pseudolieGT, Bs.ginvT, Bs.ddbT, Bs.ootddivbetaT, Bs.undiffdGT, Bs.dbT, Bs.betadGT,
      Bs.totdivbeta, Bs.pseudolieG1, Bs.pseudolieG2, Bs.pseudolieG3]
      ring

theorem Bs.rg_eq : ∀ a b, Bs.rgT c a b = -2 * Bs.alpha c * Bs.AT c a b + Bs.liegT c a b := by
  refine fin3₂ ⟨?_, ?_, ?_, ?_, ?_, ?_, ?_, ?_, ?_⟩ <;>
    · simp only [Bs.rgT, Bs.AT, Bs.liegT, Bs.rg11, Bs.rg12, Bs.rg13, Bs.rg22, Bs.rg23, Bs.rg33]
      try ring

theorem Bs.rA_eq : ∀ a b, Bs.rAT c a b = Bs.psim4 c * (-Bs.cddaT c a b + Bs.alpha c * (Bs.RT c a b + Bs.RphiT c a b)) -
    1 / 3 * (Bs.gT c a b * (-Bs.trcdda c + Bs.alpha c * Bs.R c)) + Bs.alpha c * (Bs.K c * Bs.AT c a b - 2 * Bs.AAT c a b) +
    Bs.lieAT c a b := by
  refine fin3₂ ⟨?_, ?_, ?_, ?_, ?_, ?_, ?_, ?_, ?_⟩ <;>
    · simp only [Bs.rAT, Bs.cddaT, Bs.RT, Bs.RphiT, Bs.gT, Bs.AT, Bs.AAT, Bs.lieAT, Bs.rA11, Bs.rA12, Bs.rA13, Bs.rA22,
      Bs.rA23, Bs.rA33]
      ring

theorem Bs.rG_eq : ∀ a, Bs.rGT c a = Bs.b2 c.evolveGamma * (-2 * ∑ b, Bs.AinvT c a b * Bs.daT c b - 2 * Bs.alpha c * Bs.divAinvT c a +
    Bs.pseudolieGT c a - c.YoTermFactor * (Bs.GT c a - Bs.GfromgT c a) * Bs.divbeta c) := by
  refine fin3 ?_ ?_ ?_ <;>
    · simp only [Fin.sum_univ_three, Bs.rGT, Bs.AinvT, Bs.daT, Bs.divAinvT, Bs.pseudolieGT, Bs.GT, Bs.GfromgT, Bs.rG1,
      Bs.rG2, Bs.rG3]
      ring

/-- The inverse metric of the code is the inverse. -/
theorem Bs.ginv_eq (I : Fin 3 → Fin 3 → 𝔽) (h : ∀ a b, ∑ k, Bs.gT c a k * I k b = if a = b then 1 else 0) :
    ∀ a b, Bs.ginvT c a b = I a b := by
  have hd : 2 * Bs.g12 c * Bs.g13 c * Bs.g23 c + Bs.g11 c * Bs.g22 c * Bs.g33 c - Bs.g33 c * Bs.g12 c ^ 2 -
      Bs.g22 c * Bs.g13 c ^ 2 - Bs.g11 c * Bs.g23 c ^ 2 ≠ 0 := by
    intro h0
    have hm : Matrix.of (fun a b => Bs.gT c a b) * Matrix.of I = 1 := by
      ext a b
      rw [Matrix.mul_apply, Matrix.one_apply]
      exact h a b
    have hm' := congrArg Matrix.det hm
    rw [Matrix.det_mul, Matrix.det_one, Matrix.det_fin_three] at hm'
    simp only [Matrix.of_apply, Bs.gT] at hm'
    rw [show Bs.g11 c * Bs.g22 c * Bs.g33 c - Bs.g11 c * Bs.g23 c * Bs.g23 c -
      Bs.g12 c * Bs.g12 c * Bs.g33 c + Bs.g12 c * Bs.g23 c * Bs.g13 c +
      Bs.g13 c * Bs.g12 c * Bs.g23 c - Bs.g13 c * Bs.g22 c * Bs.g13 c =
      2 * Bs.g12 c * Bs.g13 c * Bs.g23 c + Bs.g11 c * Bs.g22 c * Bs.g33 c - Bs.g33 c * Bs.g12 c ^ 2 -
      Bs.g22 c * Bs.g13 c ^ 2 - Bs.g11 c * Bs.g23 c ^ 2 by ring, h0] at hm'
    simp at hm'
  have hinv : Bs.detginv c * (2 * Bs.g12 c * Bs.g13 c * Bs.g23 c + Bs.g11 c * Bs.g22 c * Bs.g33 c - Bs.g33 c * Bs.g12 c ^ 2 -
      Bs.g22 c * Bs.g13 c ^ 2 - Bs.g11 c * Bs.g23 c ^ 2) = 1 := by
    unfold Bs.detginv
    exact one_div_mul_cancel hd
  have H : ∀ b, (Bs.g11 c * I 0 b + Bs.g12 c * I 1 b + Bs.g13 c * I 2 b = if (0 : Fin 3) = b then 1 else 0) ∧
      (Bs.g12 c * I 0 b + Bs.g22 c * I 1 b + Bs.g23 c * I 2 b = if (1 : Fin 3) = b then 1 else 0) ∧
      (Bs.g13 c * I 0 b + Bs.g23 c * I 1 b + Bs.g33 c * I 2 b = if (2 : Fin 3) = b then 1 else 0) := by
    intro b
    have h0 := h 0 b
    have h1 := h 1 b
    have h2 := h 2 b
    simp only [Fin.sum_univ_three, Bs.gT] at h0 h1 h2
    exact ⟨h0, h1, h2⟩
  obtain ⟨a0, a1, a2⟩ := H 0
  obtain ⟨b0, b1, b2⟩ := H 1
  obtain ⟨c0, c1, c2⟩ := H 2
  rw [if_pos rfl] at a0 b1 c2
  rw [if_neg (by decide)] at a1 a2 b0 b2 c0 c1
  refine fin3₂ ⟨?_, ?_, ?_, ?_, ?_, ?_, ?_, ?_, ?_⟩ <;> simp only [Bs.ginvT, Bs.ginv11, Bs.ginv12, Bs.ginv13, Bs.ginv22,
    Bs.ginv23, Bs.ginv33]
  · linear_combination I 0 0 * hinv - Bs.detginv c * ((Bs.g22 c * Bs.g33 c - Bs.g23 c ^ 2) * a0 + (Bs.g13 c * Bs.g23 c - Bs.g12 c * Bs.g33 c) * a1 + (Bs.g12 c * Bs.g23 c - Bs.g13 c * Bs.g22 c) * a2)
  · linear_combination I 0 1 * hinv - Bs.detginv c * ((Bs.g22 c * Bs.g33 c - Bs.g23 c ^ 2) * b0 + (Bs.g13 c * Bs.g23 c - Bs.g12 c * Bs.g33 c) * b1 + (Bs.g12 c * Bs.g23 c - Bs.g13 c * Bs.g22 c) * b2)
  · linear_combination I 0 2 * hinv - Bs.detginv c * ((Bs.g22 c * Bs.g33 c - Bs.g23 c ^ 2) * c0 + (Bs.g13 c * Bs.g23 c - Bs.g12 c * Bs.g33 c) * c1 + (Bs.g12 c * Bs.g23 c - Bs.g13 c * Bs.g22 c) * c2)
  · linear_combination I 1 0 * hinv - Bs.detginv c * ((Bs.g13 c * Bs.g23 c - Bs.g12 c * Bs.g33 c) * a0 + (Bs.g11 c * Bs.g33 c - Bs.g13 c ^ 2) * a1 + (Bs.g12 c * Bs.g13 c - Bs.g11 c * Bs.g23 c) * a2)
  · linear_combination I 1 1 * hinv - Bs.detginv c * ((Bs.g13 c * Bs.g23 c - Bs.g12 c * Bs.g33 c) * b0 + (Bs.g11 c * Bs.g33 c - Bs.g13 c ^ 2) * b1 + (Bs.g12 c * Bs.g13 c - Bs.g11 c * Bs.g23 c) * b2)
  · linear_combination I 1 2 * hinv - Bs.detginv c * ((Bs.g13 c * Bs.g23 c - Bs.g12 c * Bs.g33 c) * c0 + (Bs.g11 c * Bs.g33 c - Bs.g13 c ^ 2) * c1 + (Bs.g12 c * Bs.g13 c - Bs.g11 c * Bs.g23 c) * c2)
  · linear_combination I 2 0 * hinv - Bs.detginv c * ((Bs.g12 c * Bs.g23 c - Bs.g13 c * Bs.g22 c) * a0 + (Bs.g12 c * Bs.g13 c - Bs.g11 c * Bs.g23 c) * a1 + (Bs.g11 c * Bs.g22 c - Bs.g12 c ^ 2) * a2)
  · linear_combination I 2 1 * hinv - Bs.detginv c * ((Bs.g12 c * Bs.g23 c - Bs.g13 c * Bs.g22 c) * b0 + (Bs.g12 c * Bs.g13 c - Bs.g11 c * Bs.g23 c) * b1 + (Bs.g11 c * Bs.g22 c - Bs.g12 c ^ 2) * b2)
  · linear_combination I 2 2 * hinv - Bs.detginv c * ((Bs.g12 c * Bs.g23 c - Bs.g13 c * Bs.g22 c) * c0 + (Bs.g12 c * Bs.g13 c - Bs.g11 c * Bs.g23 c) * c1 + (Bs.g11 c * Bs.g22 c - Bs.g12 c ^ 2) * c2)

end

end Sgrid
