import Verif.Model.Z4Rhs
import Verif.Props.AdmIndex

/-!
# C121: the components computed by Z4secondO_rhs as sums over indices
-/

namespace Sgrid
open Finset

section
set_option linter.unusedSectionVars false
set_option linter.unusedSimpArgs false
set_option linter.unreachableTactic false
set_option linter.unusedTactic false
variable {𝔽 : Type} [Field 𝔽] [CharZero 𝔽]

/-- A symmetric tensor from its components 11, 12, 13, 22, 23, 33. -/
def sym6 (x y z u v w : 𝔽) : Fin 3 → Fin 3 → 𝔽
  | 0, 0 => x
  | 0, 1 => y
  | 0, 2 => z
  | 1, 0 => y
  | 1, 1 => u
  | 1, 2 => v
  | 2, 0 => z
  | 2, 1 => v
  | 2, 2 => w

/-- The components of `g`. -/
def Z4.gT (c : Z4Args 𝔽) : Fin 3 → Fin 3 → 𝔽
  | 0, 0 => Z4.g11 c
  | 0, 1 => Z4.g12 c
  | 0, 2 => Z4.g13 c
  | 1, 0 => Z4.g12 c
  | 1, 1 => Z4.g22 c
  | 1, 2 => Z4.g23 c
  | 2, 0 => Z4.g13 c
  | 2, 1 => Z4.g23 c
  | 2, 2 => Z4.g33 c

/-- The components of `K`. -/
def Z4.KT (c : Z4Args 𝔽) : Fin 3 → Fin 3 → 𝔽
  | 0, 0 => Z4.K11 c
  | 0, 1 => Z4.K12 c
  | 0, 2 => Z4.K13 c
  | 1, 0 => Z4.K12 c
  | 1, 1 => Z4.K22 c
  | 1, 2 => Z4.K23 c
  | 2, 0 => Z4.K13 c
  | 2, 1 => Z4.K23 c
  | 2, 2 => Z4.K33 c

/-- The components of `Z`. -/
def Z4.ZT (c : Z4Args 𝔽) : Fin 3 → 𝔽
  | 0 => Z4.Z1 c
  | 1 => Z4.Z2 c
  | 2 => Z4.Z3 c

/-- The components of `beta`. -/
def Z4.betaT (c : Z4Args 𝔽) : Fin 3 → 𝔽
  | 0 => Z4.beta1 c
  | 1 => Z4.beta2 c
  | 2 => Z4.beta3 c

/-- The components of `dg`. -/
def Z4.dgT (c : Z4Args 𝔽) : Fin 3 → Fin 3 → Fin 3 → 𝔽
  | 0, 0, 0 => Z4.dg111 c
  | 0, 0, 1 => Z4.dg112 c
  | 0, 0, 2 => Z4.dg113 c
  | 0, 1, 0 => Z4.dg121 c
  | 0, 1, 1 => Z4.dg122 c
  | 0, 1, 2 => Z4.dg123 c
  | 0, 2, 0 => Z4.dg131 c
  | 0, 2, 1 => Z4.dg132 c
  | 0, 2, 2 => Z4.dg133 c
  | 1, 0, 0 => Z4.dg121 c
  | 1, 0, 1 => Z4.dg122 c
  | 1, 0, 2 => Z4.dg123 c
  | 1, 1, 0 => Z4.dg221 c
  | 1, 1, 1 => Z4.dg222 c
  | 1, 1, 2 => Z4.dg223 c
  | 1, 2, 0 => Z4.dg231 c
  | 1, 2, 1 => Z4.dg232 c
  | 1, 2, 2 => Z4.dg233 c
  | 2, 0, 0 => Z4.dg131 c
  | 2, 0, 1 => Z4.dg132 c
  | 2, 0, 2 => Z4.dg133 c
  | 2, 1, 0 => Z4.dg231 c
  | 2, 1, 1 => Z4.dg232 c
  | 2, 1, 2 => Z4.dg233 c
  | 2, 2, 0 => Z4.dg331 c
  | 2, 2, 1 => Z4.dg332 c
  | 2, 2, 2 => Z4.dg333 c

/-- The components of `ddg`. -/
def Z4.ddgT (c : Z4Args 𝔽) : Fin 3 → Fin 3 → Fin 3 → Fin 3 → 𝔽
  | 0, 0 => sym6 (Z4.ddg1111 c) (Z4.ddg1112 c) (Z4.ddg1113 c) (Z4.ddg1122 c) (Z4.ddg1123 c) (Z4.ddg1133 c)
  | 0, 1 => sym6 (Z4.ddg1211 c) (Z4.ddg1212 c) (Z4.ddg1213 c) (Z4.ddg1222 c) (Z4.ddg1223 c) (Z4.ddg1233 c)
  | 0, 2 => sym6 (Z4.ddg1311 c) (Z4.ddg1312 c) (Z4.ddg1313 c) (Z4.ddg1322 c) (Z4.ddg1323 c) (Z4.ddg1333 c)
  | 1, 0 => sym6 (Z4.ddg1211 c) (Z4.ddg1212 c) (Z4.ddg1213 c) (Z4.ddg1222 c) (Z4.ddg1223 c) (Z4.ddg1233 c)
  | 1, 1 => sym6 (Z4.ddg2211 c) (Z4.ddg2212 c) (Z4.ddg2213 c) (Z4.ddg2222 c) (Z4.ddg2223 c) (Z4.ddg2233 c)
  | 1, 2 => sym6 (Z4.ddg2311 c) (Z4.ddg2312 c) (Z4.ddg2313 c) (Z4.ddg2322 c) (Z4.ddg2323 c) (Z4.ddg2333 c)
  | 2, 0 => sym6 (Z4.ddg1311 c) (Z4.ddg1312 c) (Z4.ddg1313 c) (Z4.ddg1322 c) (Z4.ddg1323 c) (Z4.ddg1333 c)
  | 2, 1 => sym6 (Z4.ddg2311 c) (Z4.ddg2312 c) (Z4.ddg2313 c) (Z4.ddg2322 c) (Z4.ddg2323 c) (Z4.ddg2333 c)
  | 2, 2 => sym6 (Z4.ddg3311 c) (Z4.ddg3312 c) (Z4.ddg3313 c) (Z4.ddg3322 c) (Z4.ddg3323 c) (Z4.ddg3333 c)

/-- The components of `dK`. -/
def Z4.dKT (c : Z4Args 𝔽) : Fin 3 → Fin 3 → Fin 3 → 𝔽
  | 0, 0, 0 => Z4.dK111 c
  | 0, 0, 1 => Z4.dK112 c
  | 0, 0, 2 => Z4.dK113 c
  | 0, 1, 0 => Z4.dK121 c
  | 0, 1, 1 => Z4.dK122 c
  | 0, 1, 2 => Z4.dK123 c
  | 0, 2, 0 => Z4.dK131 c
  | 0, 2, 1 => Z4.dK132 c
  | 0, 2, 2 => Z4.dK133 c
  | 1, 0, 0 => Z4.dK121 c
  | 1, 0, 1 => Z4.dK122 c
  | 1, 0, 2 => Z4.dK123 c
  | 1, 1, 0 => Z4.dK221 c
  | 1, 1, 1 => Z4.dK222 c
  | 1, 1, 2 => Z4.dK223 c
  | 1, 2, 0 => Z4.dK231 c
  | 1, 2, 1 => Z4.dK232 c
  | 1, 2, 2 => Z4.dK233 c
  | 2, 0, 0 => Z4.dK131 c
  | 2, 0, 1 => Z4.dK132 c
  | 2, 0, 2 => Z4.dK133 c
  | 2, 1, 0 => Z4.dK231 c
  | 2, 1, 1 => Z4.dK232 c
  | 2, 1, 2 => Z4.dK233 c
  | 2, 2, 0 => Z4.dK331 c
  | 2, 2, 1 => Z4.dK332 c
  | 2, 2, 2 => Z4.dK333 c

/-- The components of `dTheta`. -/
def Z4.dThetaT (c : Z4Args 𝔽) : Fin 3 → 𝔽
  | 0 => Z4.dTheta1 c
  | 1 => Z4.dTheta2 c
  | 2 => Z4.dTheta3 c

/-- The components of `dZ`. -/
def Z4.dZT (c : Z4Args 𝔽) : Fin 3 → Fin 3 → 𝔽
  | 0, 0 => Z4.dZ11 c
  | 0, 1 => Z4.dZ12 c
  | 0, 2 => Z4.dZ13 c
  | 1, 0 => Z4.dZ21 c
  | 1, 1 => Z4.dZ22 c
  | 1, 2 => Z4.dZ23 c
  | 2, 0 => Z4.dZ31 c
  | 2, 1 => Z4.dZ32 c
  | 2, 2 => Z4.dZ33 c

/-- The components of `dalp`. -/
def Z4.dalpT (c : Z4Args 𝔽) : Fin 3 → 𝔽
  | 0 => Z4.dalp1 c
  | 1 => Z4.dalp2 c
  | 2 => Z4.dalp3 c

/-- The components of `ddalp`. -/
def Z4.ddalpT (c : Z4Args 𝔽) : Fin 3 → Fin 3 → 𝔽
  | 0, 0 => Z4.ddalp11 c
  | 0, 1 => Z4.ddalp12 c
  | 0, 2 => Z4.ddalp13 c
  | 1, 0 => Z4.ddalp12 c
  | 1, 1 => Z4.ddalp22 c
  | 1, 2 => Z4.ddalp23 c
  | 2, 0 => Z4.ddalp13 c
  | 2, 1 => Z4.ddalp23 c
  | 2, 2 => Z4.ddalp33 c

/-- The components of `dbeta`. -/
def Z4.dbetaT (c : Z4Args 𝔽) : Fin 3 → Fin 3 → 𝔽
  | 0, 0 => Z4.dbeta11 c
  | 0, 1 => Z4.dbeta12 c
  | 0, 2 => Z4.dbeta13 c
  | 1, 0 => Z4.dbeta21 c
  | 1, 1 => Z4.dbeta22 c
  | 1, 2 => Z4.dbeta23 c
  | 2, 0 => Z4.dbeta31 c
  | 2, 1 => Z4.dbeta32 c
  | 2, 2 => Z4.dbeta33 c

/-- The components of `betadg`. -/
def Z4.betadgT (c : Z4Args 𝔽) : Fin 3 → Fin 3 → 𝔽
  | 0, 0 => Z4.betadg11 c
  | 0, 1 => Z4.betadg12 c
  | 0, 2 => Z4.betadg13 c
  | 1, 0 => Z4.betadg21 c
  | 1, 1 => Z4.betadg22 c
  | 1, 2 => Z4.betadg23 c
  | 2, 0 => Z4.betadg31 c
  | 2, 1 => Z4.betadg32 c
  | 2, 2 => Z4.betadg33 c

/-- The components of `betadK`. -/
def Z4.betadKT (c : Z4Args 𝔽) : Fin 3 → Fin 3 → 𝔽
  | 0, 0 => Z4.betadK11 c
  | 0, 1 => Z4.betadK12 c
  | 0, 2 => Z4.betadK13 c
  | 1, 0 => Z4.betadK21 c
  | 1, 1 => Z4.betadK22 c
  | 1, 2 => Z4.betadK23 c
  | 2, 0 => Z4.betadK31 c
  | 2, 1 => Z4.betadK32 c
  | 2, 2 => Z4.betadK33 c

/-- The components of `betadZ`. -/
def Z4.betadZT (c : Z4Args 𝔽) : Fin 3 → 𝔽
  | 0 => Z4.betadZ1 c
  | 1 => Z4.betadZ2 c
  | 2 => Z4.betadZ3 c

/-- The components of `ginv`. -/
def Z4.ginvT (c : Z4Args 𝔽) : Fin 3 → Fin 3 → 𝔽
  | 0, 0 => Z4.ginv11 c
  | 0, 1 => Z4.ginv12 c
  | 0, 2 => Z4.ginv13 c
  | 1, 0 => Z4.ginv12 c
  | 1, 1 => Z4.ginv22 c
  | 1, 2 => Z4.ginv23 c
  | 2, 0 => Z4.ginv13 c
  | 2, 1 => Z4.ginv23 c
  | 2, 2 => Z4.ginv33 c

/-- The components of `gammado`. -/
def Z4.gammadoT (c : Z4Args 𝔽) : Fin 3 → Fin 3 → Fin 3 → 𝔽
  | 0 => sym6 (Z4.gammado111 c) (Z4.gammado112 c) (Z4.gammado113 c) (Z4.gammado122 c) (Z4.gammado123 c) (Z4.gammado133 c)
  | 1 => sym6 (Z4.gammado211 c) (Z4.gammado212 c) (Z4.gammado213 c) (Z4.gammado222 c) (Z4.gammado223 c) (Z4.gammado233 c)
  | 2 => sym6 (Z4.gammado311 c) (Z4.gammado312 c) (Z4.gammado313 c) (Z4.gammado322 c) (Z4.gammado323 c) (Z4.gammado333 c)

/-- The components of `gamma`. -/
def Z4.gammaT (c : Z4Args 𝔽) : Fin 3 → Fin 3 → Fin 3 → 𝔽
  | 0 => sym6 (Z4.gamma111 c) (Z4.gamma112 c) (Z4.gamma113 c) (Z4.gamma122 c) (Z4.gamma123 c) (Z4.gamma133 c)
  | 1 => sym6 (Z4.gamma211 c) (Z4.gamma212 c) (Z4.gamma213 c) (Z4.gamma222 c) (Z4.gamma223 c) (Z4.gamma233 c)
  | 2 => sym6 (Z4.gamma311 c) (Z4.gamma312 c) (Z4.gamma313 c) (Z4.gamma322 c) (Z4.gamma323 c) (Z4.gamma333 c)

/-- The components of `R`. -/
def Z4.RT (c : Z4Args 𝔽) : Fin 3 → Fin 3 → 𝔽
  | 0, 0 => Z4.R11 c
  | 0, 1 => Z4.R12 c
  | 0, 2 => Z4.R13 c
  | 1, 0 => Z4.R12 c
  | 1, 1 => Z4.R22 c
  | 1, 2 => Z4.R23 c
  | 2, 0 => Z4.R13 c
  | 2, 1 => Z4.R23 c
  | 2, 2 => Z4.R33 c

/-- The components of `KK`. -/
def Z4.KKT (c : Z4Args 𝔽) : Fin 3 → Fin 3 → 𝔽
  | 0, 0 => Z4.KK11 c
  | 0, 1 => Z4.KK12 c
  | 0, 2 => Z4.KK13 c
  | 1, 0 => Z4.KK12 c
  | 1, 1 => Z4.KK22 c
  | 1, 2 => Z4.KK23 c
  | 2, 0 => Z4.KK13 c
  | 2, 1 => Z4.KK23 c
  | 2, 2 => Z4.KK33 c

/-- The components of `dginv`. -/
def Z4.dginvT (c : Z4Args 𝔽) : Fin 3 → Fin 3 → Fin 3 → 𝔽
  | 0, 0, 0 => Z4.dginv111 c
  | 0, 0, 1 => Z4.dginv112 c
  | 0, 0, 2 => Z4.dginv113 c
  | 0, 1, 0 => Z4.dginv121 c
  | 0, 1, 1 => Z4.dginv122 c
  | 0, 1, 2 => Z4.dginv123 c
  | 0, 2, 0 => Z4.dginv131 c
  | 0, 2, 1 => Z4.dginv132 c
  | 0, 2, 2 => Z4.dginv133 c
  | 1, 0, 0 => Z4.dginv121 c
  | 1, 0, 1 => Z4.dginv122 c
  | 1, 0, 2 => Z4.dginv123 c
  | 1, 1, 0 => Z4.dginv221 c
  | 1, 1, 1 => Z4.dginv222 c
  | 1, 1, 2 => Z4.dginv223 c
  | 1, 2, 0 => Z4.dginv231 c
  | 1, 2, 1 => Z4.dginv232 c
  | 1, 2, 2 => Z4.dginv233 c
  | 2, 0, 0 => Z4.dginv131 c
  | 2, 0, 1 => Z4.dginv132 c
  | 2, 0, 2 => Z4.dginv133 c
  | 2, 1, 0 => Z4.dginv231 c
  | 2, 1, 1 => Z4.dginv232 c
  | 2, 1, 2 => Z4.dginv233 c
  | 2, 2, 0 => Z4.dginv331 c
  | 2, 2, 1 => Z4.dginv332 c
  | 2, 2, 2 => Z4.dginv333 c

/-- The components of `dtrK`. -/
def Z4.dtrKT (c : Z4Args 𝔽) : Fin 3 → 𝔽
  | 0 => Z4.dtrK1 c
  | 1 => Z4.dtrK2 c
  | 2 => Z4.dtrK3 c

/-- The components of `cddalp`. -/
def Z4.cddalpT (c : Z4Args 𝔽) : Fin 3 → Fin 3 → 𝔽
  | 0, 0 => Z4.cddalp11 c
  | 0, 1 => Z4.cddalp12 c
  | 0, 2 => Z4.cddalp13 c
  | 1, 0 => Z4.cddalp12 c
  | 1, 1 => Z4.cddalp22 c
  | 1, 2 => Z4.cddalp23 c
  | 2, 0 => Z4.cddalp13 c
  | 2, 1 => Z4.cddalp23 c
  | 2, 2 => Z4.cddalp33 c

/-- The components of `cdZ`. -/
def Z4.cdZT (c : Z4Args 𝔽) : Fin 3 → Fin 3 → 𝔽
  | 0, 0 => Z4.cdZ11 c
  | 0, 1 => Z4.cdZ12 c
  | 0, 2 => Z4.cdZ13 c
  | 1, 0 => Z4.cdZ21 c
  | 1, 1 => Z4.cdZ22 c
  | 1, 2 => Z4.cdZ23 c
  | 2, 0 => Z4.cdZ31 c
  | 2, 1 => Z4.cdZ32 c
  | 2, 2 => Z4.cdZ33 c

/-- The components of `cdK`. -/
def Z4.cdKT (c : Z4Args 𝔽) : Fin 3 → Fin 3 → Fin 3 → 𝔽
  | 0, 0, 0 => Z4.cdK111 c
  | 0, 0, 1 => Z4.cdK112 c
  | 0, 0, 2 => Z4.cdK113 c
  | 0, 1, 0 => Z4.cdK121 c
  | 0, 1, 1 => Z4.cdK122 c
  | 0, 1, 2 => Z4.cdK123 c
  | 0, 2, 0 => Z4.cdK131 c
  | 0, 2, 1 => Z4.cdK132 c
  | 0, 2, 2 => Z4.cdK133 c
  | 1, 0, 0 => Z4.cdK211 c
  | 1, 0, 1 => Z4.cdK212 c
  | 1, 0, 2 => Z4.cdK213 c
  | 1, 1, 0 => Z4.cdK221 c
  | 1, 1, 1 => Z4.cdK222 c
  | 1, 1, 2 => Z4.cdK223 c
  | 1, 2, 0 => Z4.cdK231 c
  | 1, 2, 1 => Z4.cdK232 c
  | 1, 2, 2 => Z4.cdK233 c
  | 2, 0, 0 => Z4.cdK311 c
  | 2, 0, 1 => Z4.cdK312 c
  | 2, 0, 2 => Z4.cdK313 c
  | 2, 1, 0 => Z4.cdK321 c
  | 2, 1, 1 => Z4.cdK322 c
  | 2, 1, 2 => Z4.cdK323 c
  | 2, 2, 0 => Z4.cdK331 c
  | 2, 2, 1 => Z4.cdK332 c
  | 2, 2, 2 => Z4.cdK333 c

/-- The components of `lieg`. -/
def Z4.liegT (c : Z4Args 𝔽) : Fin 3 → Fin 3 → 𝔽
  | 0, 0 => Z4.lieg11 c
  | 0, 1 => Z4.lieg12 c
  | 0, 2 => Z4.lieg13 c
  | 1, 0 => Z4.lieg12 c
  | 1, 1 => Z4.lieg22 c
  | 1, 2 => Z4.lieg23 c
  | 2, 0 => Z4.lieg13 c
  | 2, 1 => Z4.lieg23 c
  | 2, 2 => Z4.lieg33 c

/-- The components of `lieK`. -/
def Z4.lieKT (c : Z4Args 𝔽) : Fin 3 → Fin 3 → 𝔽
  | 0, 0 => Z4.lieK11 c
  | 0, 1 => Z4.lieK12 c
  | 0, 2 => Z4.lieK13 c
  | 1, 0 => Z4.lieK12 c
  | 1, 1 => Z4.lieK22 c
  | 1, 2 => Z4.lieK23 c
  | 2, 0 => Z4.lieK13 c
  | 2, 1 => Z4.lieK23 c
  | 2, 2 => Z4.lieK33 c

/-- The components of `lieZ`. -/
def Z4.lieZT (c : Z4Args 𝔽) : Fin 3 → 𝔽
  | 0 => Z4.lieZ1 c
  | 1 => Z4.lieZ2 c
  | 2 => Z4.lieZ3 c

/-- The components of `rg`. -/
def Z4.rgT (c : Z4Args 𝔽) : Fin 3 → Fin 3 → 𝔽
  | 0, 0 => Z4.rg11 c
  | 0, 1 => Z4.rg12 c
  | 0, 2 => Z4.rg13 c
  | 1, 0 => Z4.rg12 c
  | 1, 1 => Z4.rg22 c
  | 1, 2 => Z4.rg23 c
  | 2, 0 => Z4.rg13 c
  | 2, 1 => Z4.rg23 c
  | 2, 2 => Z4.rg33 c

/-- The components of `rK`. -/
def Z4.rKT (c : Z4Args 𝔽) : Fin 3 → Fin 3 → 𝔽
  | 0, 0 => Z4.rK11 c
  | 0, 1 => Z4.rK12 c
  | 0, 2 => Z4.rK13 c
  | 1, 0 => Z4.rK12 c
  | 1, 1 => Z4.rK22 c
  | 1, 2 => Z4.rK23 c
  | 2, 0 => Z4.rK13 c
  | 2, 1 => Z4.rK23 c
  | 2, 2 => Z4.rK33 c

/-- The components of `rZ`. -/
def Z4.rZT (c : Z4Args 𝔽) : Fin 3 → 𝔽
  | 0 => Z4.rZ1 c
  | 1 => Z4.rZ2 c
  | 2 => Z4.rZ3 c

variable (c : Z4Args 𝔽)

theorem Z4.g_eq : ∀ a b : Fin 3, Z4.gT c a b = c.cur (Spec.sym2 a b) := by
  refine fin3₂ ⟨?_, ?_, ?_, ?_, ?_, ?_, ?_, ?_, ?_⟩ <;> rfl

theorem Z4.K_eq : ∀ a b : Fin 3, Z4.KT c a b = c.cur (6 + Spec.sym2 a b) := by
  refine fin3₂ ⟨?_, ?_, ?_, ?_, ?_, ?_, ?_, ?_, ?_⟩ <;> rfl

theorem Z4.Z_eq : ∀ a : Fin 3, Z4.ZT c a = c.cur (13 + a) := by
  refine fin3 ?_ ?_ ?_ <;> rfl

theorem Z4.beta_eq : ∀ a : Fin 3, Z4.betaT c a = c.cur (17 + a) := by
  refine fin3 ?_ ?_ ?_ <;> rfl

theorem Z4.dg_eq : ∀ a b k : Fin 3, Z4.dgT c a b k = c.dg (3 * Spec.sym2 a b + k) := by
  refine fin3 ?_ ?_ ?_ <;> refine fin3₂ ⟨?_, ?_, ?_, ?_, ?_, ?_, ?_, ?_, ?_⟩ <;> rfl

theorem Z4.ddg_eq : ∀ a b k d : Fin 3, Z4.ddgT c a b k d = c.ddg (6 * Spec.sym2 a b + Spec.sym2 k d) := by
  refine fin3₂ ⟨?_, ?_, ?_, ?_, ?_, ?_, ?_, ?_, ?_⟩ <;> refine fin3₂ ⟨?_, ?_, ?_, ?_, ?_, ?_, ?_, ?_, ?_⟩ <;> rfl

theorem Z4.dK_eq : ∀ a b k : Fin 3, Z4.dKT c a b k = c.dK (3 * Spec.sym2 a b + k) := by
  refine fin3 ?_ ?_ ?_ <;> refine fin3₂ ⟨?_, ?_, ?_, ?_, ?_, ?_, ?_, ?_, ?_⟩ <;> rfl

theorem Z4.dTheta_eq : ∀ a : Fin 3, Z4.dThetaT c a = c.dTheta a := by
  refine fin3 ?_ ?_ ?_ <;> rfl

theorem Z4.dZ_eq : ∀ a b : Fin 3, Z4.dZT c a b = c.dZ (3 * a + b) := by
  refine fin3₂ ⟨?_, ?_, ?_, ?_, ?_, ?_, ?_, ?_, ?_⟩ <;> rfl

theorem Z4.dalp_eq : ∀ a : Fin 3, Z4.dalpT c a = c.dalp a := by
  refine fin3 ?_ ?_ ?_ <;> rfl

theorem Z4.ddalp_eq : ∀ a b : Fin 3, Z4.ddalpT c a b = c.ddalp (Spec.sym2 a b) := by
  refine fin3₂ ⟨?_, ?_, ?_, ?_, ?_, ?_, ?_, ?_, ?_⟩ <;> rfl

theorem Z4.dbeta_eq : ∀ a b : Fin 3, Z4.dbetaT c a b = c.dbeta (3 * a + b) := by
  refine fin3₂ ⟨?_, ?_, ?_, ?_, ?_, ?_, ?_, ?_, ?_⟩ <;> rfl

theorem Z4.betadg_eq : ∀ a b, Z4.betadgT c a b = ∑ k, Z4.betaT c k * Z4.dgT c a b k := by
  refine fin3₂ ⟨?_, ?_, ?_, ?_, ?_, ?_, ?_, ?_, ?_⟩ <;>
    · simp only [Fin.sum_univ_three, sym6, Z4.betadgT, Z4.betaT, Z4.dgT, Z4.betadg11, Z4.betadg12, Z4.betadg13,
      Z4.betadg21, Z4.betadg22, Z4.betadg23, Z4.betadg31, Z4.betadg32, Z4.betadg33]
      try ring

theorem Z4.betadK_eq : ∀ a b, Z4.betadKT c a b = ∑ k, Z4.betaT c k * Z4.dKT c a b k := by
  refine fin3₂ ⟨?_, ?_, ?_, ?_, ?_, ?_, ?_, ?_, ?_⟩ <;>
    · simp only [Fin.sum_univ_three, sym6, Z4.betadKT, Z4.betaT, Z4.dKT, Z4.betadK11, Z4.betadK12, Z4.betadK13,
      Z4.betadK21, Z4.betadK22, Z4.betadK23, Z4.betadK31, Z4.betadK32, Z4.betadK33]
      try ring

theorem Z4.betadZ_eq : ∀ a, Z4.betadZT c a = ∑ k, Z4.betaT c k * Z4.dZT c a k := by
  refine fin3 ?_ ?_ ?_ <;>
    · simp only [Fin.sum_univ_three, sym6, Z4.betadZT, Z4.betaT, Z4.dZT, Z4.betadZ1, Z4.betadZ2, Z4.betadZ3]
      try ring

theorem Z4.betadTheta_eq : Z4.betadTheta c = ∑ k, Z4.betaT c k * Z4.dThetaT c k := by
  simp only [Fin.sum_univ_three, sym6, Z4.betaT, Z4.dThetaT, Z4.betadTheta]
  try ring

theorem Z4.betadalp_eq : Z4.betadalp c = ∑ k, Z4.betaT c k * Z4.dalpT c k := by
  simp only [Fin.sum_univ_three, sym6, Z4.betaT, Z4.dalpT, Z4.betadalp]
  try ring

theorem Z4.gammado_eq : ∀ k a b, Z4.gammadoT c k a b = 1 / 2 * (Z4.dgT c b k a + Z4.dgT c a k b - Z4.dgT c a b k) := by
  refine fin3 ?_ ?_ ?_ <;> refine fin3₂ ⟨?_, ?_, ?_, ?_, ?_, ?_, ?_, ?_, ?_⟩ <;>
    · simp only [Fin.sum_univ_three, sym6, Z4.gammadoT, Z4.dgT, Z4.gammado111, Z4.gammado112, Z4.gammado113,
      Z4.gammado122, Z4.gammado123, Z4.gammado133, Z4.gammado211, Z4.gammado212, Z4.gammado213, Z4.gammado222,
      Z4.gammado223, Z4.gammado233, Z4.gammado311, Z4.gammado312, Z4.gammado313, Z4.gammado322, Z4.gammado323,
      Z4.gammado333]
      try ring

theorem Z4.gamma_eq : ∀ k a b, Z4.gammaT c k a b = ∑ d, Z4.ginvT c k d * Z4.gammadoT c d a b := by
  refine fin3 ?_ ?_ ?_ <;> refine fin3₂ ⟨?_, ?_, ?_, ?_, ?_, ?_, ?_, ?_, ?_⟩ <;>
    · simp only [Fin.sum_univ_three, sym6, Z4.gammaT, Z4.ginvT, Z4.gammadoT, Z4.gamma111, Z4.gamma112, Z4.gamma113,
      Z4.gamma122, Z4.gamma123, Z4.gamma133, Z4.gamma211, Z4.gamma212, Z4.gamma213, Z4.gamma222, Z4.gamma223, Z4.gamma233,
      Z4.gamma311, Z4.gamma312, Z4.gamma313, Z4.gamma322, Z4.gamma323, Z4.gamma333]
      try ring

theorem Z4.R_eq00 : Z4.R11 c = ∑ k, ∑ d, Z4.ginvT c k d *
    (1 / 2 * (-Z4.ddgT c 0 0 k d - Z4.ddgT c k d 0 0 + Z4.ddgT c 0 d 0 k + Z4.ddgT c 0 d 0 k) +
      ∑ e, (Z4.gammaT c e 0 k * Z4.gammadoT c e 0 d - Z4.gammaT c e 0 0 * Z4.gammadoT c e k d)) := by
  simp only [Fin.sum_univ_three, sym6, Z4.ginvT, Z4.ddgT, Z4.gammaT, Z4.gammadoT, Z4.R11]
  ring

theorem Z4.R_eq01 : Z4.R12 c = ∑ k, ∑ d, Z4.ginvT c k d *
    (1 / 2 * (-Z4.ddgT c 0 1 k d - Z4.ddgT c k d 0 1 + Z4.ddgT c 1 d 0 k + Z4.ddgT c 0 d 1 k) +
      ∑ e, (Z4.gammaT c e 0 k * Z4.gammadoT c e 1 d - Z4.gammaT c e 0 1 * Z4.gammadoT c e k d)) := by
  simp only [Fin.sum_univ_three, sym6, Z4.ginvT, Z4.ddgT, Z4.gammaT, Z4.gammadoT, Z4.R12]
  ring

theorem Z4.R_eq20 : Z4.R13 c = ∑ k, ∑ d, Z4.ginvT c k d *
    (1 / 2 * (-Z4.ddgT c 2 0 k d - Z4.ddgT c k d 2 0 + Z4.ddgT c 0 d 2 k + Z4.ddgT c 2 d 0 k) +
      ∑ e, (Z4.gammaT c e 2 k * Z4.gammadoT c e 0 d - Z4.gammaT c e 2 0 * Z4.gammadoT c e k d)) := by
  simp only [Fin.sum_univ_three, sym6, Z4.ginvT, Z4.ddgT, Z4.gammaT, Z4.gammadoT, Z4.R13]
  ring

theorem Z4.R_eq11 : Z4.R22 c = ∑ k, ∑ d, Z4.ginvT c k d *
    (1 / 2 * (-Z4.ddgT c 1 1 k d - Z4.ddgT c k d 1 1 + Z4.ddgT c 1 d 1 k + Z4.ddgT c 1 d 1 k) +
      ∑ e, (Z4.gammaT c e 1 k * Z4.gammadoT c e 1 d - Z4.gammaT c e 1 1 * Z4.gammadoT c e k d)) := by
  simp only [Fin.sum_univ_three, sym6, Z4.ginvT, Z4.ddgT, Z4.gammaT, Z4.gammadoT, Z4.R22]
  ring

theorem Z4.R_eq21 : Z4.R23 c = ∑ k, ∑ d, Z4.ginvT c k d *
    (1 / 2 * (-Z4.ddgT c 2 1 k d - Z4.ddgT c k d 2 1 + Z4.ddgT c 1 d 2 k + Z4.ddgT c 2 d 1 k) +
      ∑ e, (Z4.gammaT c e 2 k * Z4.gammadoT c e 1 d - Z4.gammaT c e 2 1 * Z4.gammadoT c e k d)) := by
  simp only [Fin.sum_univ_three, sym6, Z4.ginvT, Z4.ddgT, Z4.gammaT, Z4.gammadoT, Z4.R23]
  ring

theorem Z4.R_eq22 : Z4.R33 c = ∑ k, ∑ d, Z4.ginvT c k d *
    (1 / 2 * (-Z4.ddgT c 2 2 k d - Z4.ddgT c k d 2 2 + Z4.ddgT c 2 d 2 k + Z4.ddgT c 2 d 2 k) +
      ∑ e, (Z4.gammaT c e 2 k * Z4.gammadoT c e 2 d - Z4.gammaT c e 2 2 * Z4.gammadoT c e k d)) := by
  simp only [Fin.sum_univ_three, sym6, Z4.ginvT, Z4.ddgT, Z4.gammaT, Z4.gammadoT, Z4.R33]
  ring

theorem Z4.R_eq : ∀ a b : Fin 3, Z4.RT c a b = ∑ k, ∑ d, Z4.ginvT c k d *
    (1 / 2 * (-Z4.ddgT c a b k d - Z4.ddgT c k d a b + Z4.ddgT c b d a k + Z4.ddgT c a d b k) +
      ∑ e, (Z4.gammaT c e a k * Z4.gammadoT c e b d - Z4.gammaT c e a b * Z4.gammadoT c e k d)) ∨
    Z4.RT c b a = ∑ k, ∑ d, Z4.ginvT c k d *
    (1 / 2 * (-Z4.ddgT c b a k d - Z4.ddgT c k d b a + Z4.ddgT c a d b k + Z4.ddgT c b d a k) +
      ∑ e, (Z4.gammaT c e b k * Z4.gammadoT c e a d - Z4.gammaT c e b a * Z4.gammadoT c e k d)) := by
  refine fin3₂ ⟨?_, ?_, ?_, ?_, ?_, ?_, ?_, ?_, ?_⟩
  · exact Or.inl (Z4.R_eq00 c)
  · exact Or.inl (Z4.R_eq01 c)
  · exact Or.inr (Z4.R_eq20 c)
  · exact Or.inr (Z4.R_eq01 c)
  · exact Or.inl (Z4.R_eq11 c)
  · exact Or.inr (Z4.R_eq21 c)
  · exact Or.inl (Z4.R_eq20 c)
  · exact Or.inl (Z4.R_eq21 c)
  · exact Or.inl (Z4.R_eq22 c)

theorem Z4.R_symm : ∀ a b, Z4.RT c a b = Z4.RT c b a := by
  refine fin3₂ ⟨?_, ?_, ?_, ?_, ?_, ?_, ?_, ?_, ?_⟩ <;> rfl

theorem Z4.R_0_eq : Z4.R_0 c = ∑ a, ∑ b, Z4.ginvT c a b * Z4.RT c a b := by
  simp only [Fin.sum_univ_three, sym6, Z4.ginvT, Z4.RT, Z4.R_0]
  try ring

theorem Z4.KK_eq : ∀ a b, Z4.KKT c a b = ∑ k, ∑ d, Z4.ginvT c k d * (Z4.KT c a k * Z4.KT c d b) := by
  refine fin3₂ ⟨?_, ?_, ?_, ?_, ?_, ?_, ?_, ?_, ?_⟩ <;>
    · simp only [Fin.sum_univ_three, sym6, Z4.KKT, Z4.ginvT, Z4.KT, Z4.KK11, Z4.KK12, Z4.KK13, Z4.KK22, Z4.KK23, Z4.KK33]
      try ring

theorem Z4.trK_eq : Z4.trK c = ∑ a, ∑ b, Z4.ginvT c a b * Z4.KT c a b := by
  simp only [Fin.sum_univ_three, sym6, Z4.ginvT, Z4.KT, Z4.trK]
  try ring

theorem Z4.trKK_eq : Z4.trKK c = ∑ a, ∑ b, Z4.ginvT c a b * Z4.KKT c a b := by
  simp only [Fin.sum_univ_three, sym6, Z4.ginvT, Z4.KKT, Z4.trKK]
  try ring

theorem Z4.dginv_eq : ∀ p q a, Z4.dginvT c p q a = -∑ k, ∑ d, Z4.ginvT c p k * Z4.dgT c k d a * Z4.ginvT c d q := by
  refine fin3 ?_ ?_ ?_ <;> refine fin3₂ ⟨?_, ?_, ?_, ?_, ?_, ?_, ?_, ?_, ?_⟩ <;>
    · simp only [Fin.sum_univ_three, sym6, Z4.dginvT, Z4.ginvT, Z4.dgT, Z4.dginv111, Z4.dginv112, Z4.dginv113,
      Z4.dginv121, Z4.dginv122, Z4.dginv123, Z4.dginv131, Z4.dginv132, Z4.dginv133, Z4.dginv221, Z4.dginv222, Z4.dginv223,
      Z4.dginv231, Z4.dginv232, Z4.dginv233, Z4.dginv331, Z4.dginv332, Z4.dginv333]
      try ring

theorem Z4.dtrK_eq : ∀ a, Z4.dtrKT c a = ∑ p, ∑ q, (Z4.dginvT c p q a * Z4.KT c p q + Z4.ginvT c p q * Z4.dKT c p q a) := by
  refine fin3 ?_ ?_ ?_ <;>
    · simp only [Fin.sum_univ_three, sym6, Z4.dtrKT, Z4.dginvT, Z4.ginvT, Z4.KT, Z4.dKT, Z4.dtrK1, Z4.dtrK2, Z4.dtrK3]
      try ring

theorem Z4.cddalp_eq : ∀ a b, Z4.cddalpT c a b = Z4.ddalpT c a b - ∑ k, Z4.gammaT c k a b * Z4.dalpT c k := by
  refine fin3₂ ⟨?_, ?_, ?_, ?_, ?_, ?_, ?_, ?_, ?_⟩ <;>
    · simp only [Fin.sum_univ_three, sym6, Z4.cddalpT, Z4.ddalpT, Z4.gammaT, Z4.dalpT, Z4.cddalp11, Z4.cddalp12,
      Z4.cddalp13, Z4.cddalp22, Z4.cddalp23, Z4.cddalp33]
      try ring

theorem Z4.cdZ_eq : ∀ a b, Z4.cdZT c a b = Z4.dZT c a b - ∑ k, Z4.gammaT c k a b * Z4.ZT c k := by
  refine fin3₂ ⟨?_, ?_, ?_, ?_, ?_, ?_, ?_, ?_, ?_⟩ <;>
    · simp only [Fin.sum_univ_three, sym6, Z4.cdZT, Z4.dZT, Z4.gammaT, Z4.ZT, Z4.cdZ11, Z4.cdZ12, Z4.cdZ13, Z4.cdZ21,
      Z4.cdZ22, Z4.cdZ23, Z4.cdZ31, Z4.cdZ32, Z4.cdZ33]
      try ring

theorem Z4.cdK_eq : ∀ a b k, Z4.cdKT c a b k = Z4.dKT c a b k - ∑ d, (Z4.gammaT c d a b * Z4.KT c d k + Z4.gammaT c d a k * Z4.KT c b d) := by
  refine fin3 ?_ ?_ ?_ <;> refine fin3₂ ⟨?_, ?_, ?_, ?_, ?_, ?_, ?_, ?_, ?_⟩ <;>
    · simp only [Fin.sum_univ_three, sym6, Z4.cdKT, Z4.dKT, Z4.gammaT, Z4.KT, Z4.cdK111, Z4.cdK112, Z4.cdK113, Z4.cdK121,
      Z4.cdK122, Z4.cdK123, Z4.cdK131, Z4.cdK132, Z4.cdK133, Z4.cdK211, Z4.cdK212, Z4.cdK213, Z4.cdK221, Z4.cdK222,
      Z4.cdK223, Z4.cdK231, Z4.cdK232, Z4.cdK233, Z4.cdK311, Z4.cdK312, Z4.cdK313, Z4.cdK321, Z4.cdK322, Z4.cdK323,
      Z4.cdK331, Z4.cdK332, Z4.cdK333]
      try ring

theorem Z4.betadg_symm10 : Z4.betadg21 c = Z4.betadg12 c := by
  rfl

theorem Z4.betadg_symm20 : Z4.betadg31 c = Z4.betadg13 c := by
  rfl

theorem Z4.betadg_symm21 : Z4.betadg32 c = Z4.betadg23 c := by
  rfl

theorem Z4.betadK_symm10 : Z4.betadK21 c = Z4.betadK12 c := by
  rfl

theorem Z4.betadK_symm20 : Z4.betadK31 c = Z4.betadK13 c := by
  rfl

theorem Z4.betadK_symm21 : Z4.betadK32 c = Z4.betadK23 c := by
  rfl

theorem Z4.lieg_eq : ∀ a b, Z4.liegT c a b = Z4.betadgT c a b + ∑ k, (Z4.dbetaT c k a * Z4.gT c b k + Z4.dbetaT c k b * Z4.gT c a k) := by
  refine fin3₂ ⟨?_, ?_, ?_, ?_, ?_, ?_, ?_, ?_, ?_⟩ <;>
    · simp only [Fin.sum_univ_three, sym6, Z4.liegT, Z4.betadgT, Z4.dbetaT, Z4.gT, Z4.lieg11, Z4.lieg12, Z4.lieg13,
      Z4.lieg22, Z4.lieg23, Z4.lieg33, Z4.betadg_symm10, Z4.betadg_symm20, Z4.betadg_symm21]
      try ring

theorem Z4.lieK_eq : ∀ a b, Z4.lieKT c a b = Z4.betadKT c a b + ∑ k, (Z4.dbetaT c k a * Z4.KT c b k + Z4.dbetaT c k b * Z4.KT c a k) := by
  refine fin3₂ ⟨?_, ?_, ?_, ?_, ?_, ?_, ?_, ?_, ?_⟩ <;>
    · simp only [Fin.sum_univ_three, sym6, Z4.lieKT, Z4.betadKT, Z4.dbetaT, Z4.KT, Z4.lieK11, Z4.lieK12, Z4.lieK13,
      Z4.lieK22, Z4.lieK23, Z4.lieK33, Z4.betadK_symm10, Z4.betadK_symm20, Z4.betadK_symm21]
      try ring

theorem Z4.lieZ_eq : ∀ a, Z4.lieZT c a = Z4.betadZT c a + ∑ k, Z4.dbetaT c k a * Z4.ZT c k := by
  refine fin3 ?_ ?_ ?_ <;>
    · simp only [Fin.sum_univ_three, sym6, Z4.lieZT, Z4.betadZT, Z4.dbetaT, Z4.ZT, Z4.lieZ1, Z4.lieZ2, Z4.lieZ3]
      try ring

theorem Z4.rg_eq : ∀ a b, Z4.rgT c a b = -2 * Z4.alpha c * Z4.KT c a b + Z4.liegT c a b := by
  refine fin3₂ ⟨?_, ?_, ?_, ?_, ?_, ?_, ?_, ?_, ?_⟩ <;>
    · simp only [Fin.sum_univ_three, sym6, Z4.rgT, Z4.KT, Z4.liegT, Z4.rg11, Z4.rg12, Z4.rg13, Z4.rg22, Z4.rg23, Z4.rg33]
      try ring

theorem Z4.rK_eq : ∀ a b, Z4.rKT c a b = -Z4.cddalpT c a b + Z4.alpha c * (Z4.RT c a b + Z4.cdZT c a b + Z4.cdZT c b a - 2 * Z4.KKT c a b +
    Z4.KT c a b * (Z4.trK c - 2 * Z4.Theta c)) + Z4.lieKT c a b := by
  refine fin3₂ ⟨?_, ?_, ?_, ?_, ?_, ?_, ?_, ?_, ?_⟩ <;>
    · simp only [Fin.sum_univ_three, sym6, Z4.rKT, Z4.cddalpT, Z4.RT, Z4.cdZT, Z4.KKT, Z4.KT, Z4.lieKT, Z4.rK11, Z4.rK12,
      Z4.rK13, Z4.rK22, Z4.rK23, Z4.rK33]
      try ring

theorem Z4.rTheta_eq : Z4.rTheta c = Z4.alpha c / 2 * (Z4.R c + 2 * (∑ a, ∑ b, Z4.cdZT c a b * Z4.ginvT c a b) + Z4.trK c * (Z4.trK c - 2 * Z4.Theta c) - Z4.trKK c) -
    (∑ a, ∑ b, Z4.ginvT c a b * Z4.ZT c a * Z4.dalpT c b) + Z4.betadTheta c - c.kappa1 * Z4.Theta c := by
  simp only [Fin.sum_univ_three, sym6, Z4.cdZT, Z4.ginvT, Z4.ZT, Z4.dalpT, Z4.rTheta, Z4.lieTheta]
  try ring

theorem Z4.rZ_eq : ∀ a, Z4.rZT c a = Z4.alpha c * ((∑ p, ∑ q, Z4.cdKT c p a q * Z4.ginvT c p q) - Z4.dtrKT c a + Z4.dThetaT c a -
    2 * ∑ p, ∑ q, Z4.KT c a p * Z4.ZT c q * Z4.ginvT c p q) - Z4.Theta c * Z4.dalpT c a + Z4.lieZT c a - c.kappa2 * Z4.ZT c a := by
  refine fin3 ?_ ?_ ?_ <;>
    · simp only [Fin.sum_univ_three, sym6, Z4.rZT, Z4.cdKT, Z4.ginvT, Z4.dtrKT, Z4.dThetaT, Z4.KT, Z4.ZT, Z4.dalpT,
      Z4.lieZT, Z4.rZ1, Z4.rZ2, Z4.rZ3]
      try ring

/-- The inverse metric of the code is the inverse. -/
theorem Z4.ginv_eq (I : Fin 3 → Fin 3 → 𝔽) (h : ∀ a b, ∑ k, Z4.gT c a k * I k b = if a = b then 1 else 0) :
    ∀ a b, Z4.ginvT c a b = I a b := by
  have hd : 2 * Z4.g12 c * Z4.g13 c * Z4.g23 c + Z4.g11 c * Z4.g22 c * Z4.g33 c - Z4.g33 c * Z4.g12 c ^ 2 -
      Z4.g22 c * Z4.g13 c ^ 2 - Z4.g11 c * Z4.g23 c ^ 2 ≠ 0 := by
    intro h0
    have hm : Matrix.of (fun a b => Z4.gT c a b) * Matrix.of I = 1 := by
      ext a b
      rw [Matrix.mul_apply, Matrix.one_apply]
      exact h a b
    have hm' := congrArg Matrix.det hm
    rw [Matrix.det_mul, Matrix.det_one, Matrix.det_fin_three] at hm'
    simp only [Matrix.of_apply, Z4.gT] at hm'
    rw [show Z4.g11 c * Z4.g22 c * Z4.g33 c - Z4.g11 c * Z4.g23 c * Z4.g23 c - Z4.g12 c * Z4.g12 c * Z4.g33 c +
      Z4.g12 c * Z4.g23 c * Z4.g13 c + Z4.g13 c * Z4.g12 c * Z4.g23 c - Z4.g13 c * Z4.g22 c * Z4.g13 c =
      2 * Z4.g12 c * Z4.g13 c * Z4.g23 c + Z4.g11 c * Z4.g22 c * Z4.g33 c - Z4.g33 c * Z4.g12 c ^ 2 -
      Z4.g22 c * Z4.g13 c ^ 2 - Z4.g11 c * Z4.g23 c ^ 2 by ring, h0] at hm'
    simp at hm'
  have hinv : Z4.detginv c * (2 * Z4.g12 c * Z4.g13 c * Z4.g23 c + Z4.g11 c * Z4.g22 c * Z4.g33 c - Z4.g33 c * Z4.g12 c ^ 2 -
      Z4.g22 c * Z4.g13 c ^ 2 - Z4.g11 c * Z4.g23 c ^ 2) = 1 := by
    unfold Z4.detginv
    exact one_div_mul_cancel hd
  have H : ∀ b, (Z4.g11 c * I 0 b + Z4.g12 c * I 1 b + Z4.g13 c * I 2 b = if (0 : Fin 3) = b then 1 else 0) ∧
      (Z4.g12 c * I 0 b + Z4.g22 c * I 1 b + Z4.g23 c * I 2 b = if (1 : Fin 3) = b then 1 else 0) ∧
      (Z4.g13 c * I 0 b + Z4.g23 c * I 1 b + Z4.g33 c * I 2 b = if (2 : Fin 3) = b then 1 else 0) := by
    intro b
    have h0 := h 0 b
    have h1 := h 1 b
    have h2 := h 2 b
    simp only [Fin.sum_univ_three, sym6, Z4.gT] at h0 h1 h2
    exact ⟨h0, h1, h2⟩
  obtain ⟨a0, a1, a2⟩ := H 0
  obtain ⟨b0, b1, b2⟩ := H 1
  obtain ⟨c0, c1, c2⟩ := H 2
  rw [if_pos rfl] at a0 b1 c2
  rw [if_neg (by decide)] at a1 a2 b0 b2 c0 c1
  refine fin3₂ ⟨?_, ?_, ?_, ?_, ?_, ?_, ?_, ?_, ?_⟩ <;> simp only [Z4.ginvT, Z4.ginv11, Z4.ginv12, Z4.ginv13, Z4.ginv22,
    Z4.ginv23, Z4.ginv33]
  · linear_combination I 0 0 * hinv - Z4.detginv c * ((Z4.g22 c * Z4.g33 c - Z4.g23 c ^ 2) * a0 + (Z4.g13 c * Z4.g23 c - Z4.g12 c * Z4.g33 c) * a1 + (Z4.g12 c * Z4.g23 c - Z4.g13 c * Z4.g22 c) * a2)
  · linear_combination I 0 1 * hinv - Z4.detginv c * ((Z4.g22 c * Z4.g33 c - Z4.g23 c ^ 2) * b0 + (Z4.g13 c * Z4.g23 c - Z4.g12 c * Z4.g33 c) * b1 + (Z4.g12 c * Z4.g23 c - Z4.g13 c * Z4.g22 c) * b2)
  · linear_combination I 0 2 * hinv - Z4.detginv c * ((Z4.g22 c * Z4.g33 c - Z4.g23 c ^ 2) * c0 + (Z4.g13 c * Z4.g23 c - Z4.g12 c * Z4.g33 c) * c1 + (Z4.g12 c * Z4.g23 c - Z4.g13 c * Z4.g22 c) * c2)
  · linear_combination I 1 0 * hinv - Z4.detginv c * ((Z4.g13 c * Z4.g23 c - Z4.g12 c * Z4.g33 c) * a0 + (Z4.g11 c * Z4.g33 c - Z4.g13 c ^ 2) * a1 + (Z4.g12 c * Z4.g13 c - Z4.g11 c * Z4.g23 c) * a2)
  · linear_combination I 1 1 * hinv - Z4.detginv c * ((Z4.g13 c * Z4.g23 c - Z4.g12 c * Z4.g33 c) * b0 + (Z4.g11 c * Z4.g33 c - Z4.g13 c ^ 2) * b1 + (Z4.g12 c * Z4.g13 c - Z4.g11 c * Z4.g23 c) * b2)
  · linear_combination I 1 2 * hinv - Z4.detginv c * ((Z4.g13 c * Z4.g23 c - Z4.g12 c * Z4.g33 c) * c0 + (Z4.g11 c * Z4.g33 c - Z4.g13 c ^ 2) * c1 + (Z4.g12 c * Z4.g13 c - Z4.g11 c * Z4.g23 c) * c2)
  · linear_combination I 2 0 * hinv - Z4.detginv c * ((Z4.g12 c * Z4.g23 c - Z4.g13 c * Z4.g22 c) * a0 + (Z4.g12 c * Z4.g13 c - Z4.g11 c * Z4.g23 c) * a1 + (Z4.g11 c * Z4.g22 c - Z4.g12 c ^ 2) * a2)
  · linear_combination I 2 1 * hinv - Z4.detginv c * ((Z4.g12 c * Z4.g23 c - Z4.g13 c * Z4.g22 c) * b0 + (Z4.g12 c * Z4.g13 c - Z4.g11 c * Z4.g23 c) * b1 + (Z4.g11 c * Z4.g22 c - Z4.g12 c ^ 2) * b2)
  · linear_combination I 2 2 * hinv - Z4.detginv c * ((Z4.g12 c * Z4.g23 c - Z4.g13 c * Z4.g22 c) * c0 + (Z4.g12 c * Z4.g13 c - Z4.g11 c * Z4.g23 c) * c1 + (Z4.g11 c * Z4.g22 c - Z4.g12 c ^ 2) * c2)


end

end Sgrid
