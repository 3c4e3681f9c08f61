import Verif.Model.AdmConstraints
import Verif.Props.Geometry
import Mathlib.LinearAlgebra.Matrix.Determinant.Basic
import Mathlib.Tactic.FieldSimp
import Mathlib.Tactic.Linarith
import Mathlib.Tactic.NormNum

/-!
# C112: the components computed by ADMconstraints as sums over indices
-/

namespace Sgrid
open Finset

/-- The number of a component of a symmetric tensor in the order 11, 12, 13, 22, 23, 33. -/
def Spec.sym2 : Fin 3 → Fin 3 → Nat
  | 0, 0 => 0
  | 0, 1 => 1
  | 0, 2 => 2
  | 1, 0 => 1
  | 1, 1 => 3
  | 1, 2 => 4
  | 2, 0 => 2
  | 2, 1 => 4
  | 2, 2 => 5

section
set_option linter.unusedSectionVars false
set_option linter.unusedSimpArgs false
set_option linter.unreachableTactic false
set_option linter.unusedTactic false
variable {𝔽 : Type} [Field 𝔽] [CharZero 𝔽]

/-- The components of `g`. -/
def Adm.gT (c : AdmConPt 𝔽) : Fin 3 → Fin 3 → 𝔽
  | 0, 0 => Adm.g11 c
  | 0, 1 => Adm.g12 c
  | 0, 2 => Adm.g13 c
  | 1, 0 => Adm.g12 c
  | 1, 1 => Adm.g22 c
  | 1, 2 => Adm.g23 c
  | 2, 0 => Adm.g13 c
  | 2, 1 => Adm.g23 c
  | 2, 2 => Adm.g33 c

/-- The components of `K`. -/
def Adm.KT (c : AdmConPt 𝔽) : Fin 3 → Fin 3 → 𝔽
  | 0, 0 => Adm.K11 c
  | 0, 1 => Adm.K12 c
  | 0, 2 => Adm.K13 c
  | 1, 0 => Adm.K12 c
  | 1, 1 => Adm.K22 c
  | 1, 2 => Adm.K23 c
  | 2, 0 => Adm.K13 c
  | 2, 1 => Adm.K23 c
  | 2, 2 => Adm.K33 c

/-- The components of `S`. -/
def Adm.ST (c : AdmConPt 𝔽) : Fin 3 → Fin 3 → 𝔽
  | 0, 0 => Adm.S11 c
  | 0, 1 => Adm.S12 c
  | 0, 2 => Adm.S13 c
  | 1, 0 => Adm.S12 c
  | 1, 1 => Adm.S22 c
  | 1, 2 => Adm.S23 c
  | 2, 0 => Adm.S13 c
  | 2, 1 => Adm.S23 c
  | 2, 2 => Adm.S33 c

/-- The components of `delg`. -/
def Adm.delgT (c : AdmConPt 𝔽) : Fin 3 → Fin 3 → Fin 3 → 𝔽
  | 0, 0, 0 => Adm.delg111 c
  | 0, 0, 1 => Adm.delg112 c
  | 0, 0, 2 => Adm.delg113 c
  | 0, 1, 0 => Adm.delg112 c
  | 0, 1, 1 => Adm.delg122 c
  | 0, 1, 2 => Adm.delg123 c
  | 0, 2, 0 => Adm.delg113 c
  | 0, 2, 1 => Adm.delg123 c
  | 0, 2, 2 => Adm.delg133 c
  | 1, 0, 0 => Adm.delg211 c
  | 1, 0, 1 => Adm.delg212 c
  | 1, 0, 2 => Adm.delg213 c
  | 1, 1, 0 => Adm.delg212 c
  | 1, 1, 1 => Adm.delg222 c
  | 1, 1, 2 => Adm.delg223 c
  | 1, 2, 0 => Adm.delg213 c
  | 1, 2, 1 => Adm.delg223 c
  | 1, 2, 2 => Adm.delg233 c
  | 2, 0, 0 => Adm.delg311 c
  | 2, 0, 1 => Adm.delg312 c
  | 2, 0, 2 => Adm.delg313 c
  | 2, 1, 0 => Adm.delg312 c
  | 2, 1, 1 => Adm.delg322 c
  | 2, 1, 2 => Adm.delg323 c
  | 2, 2, 0 => Adm.delg313 c
  | 2, 2, 1 => Adm.delg323 c
  | 2, 2, 2 => Adm.delg333 c

/-- The components of `deldelg`. -/
def Adm.deldelgT (c : AdmConPt 𝔽) : Fin 3 → Fin 3 → Fin 3 → Fin 3 → 𝔽
  | 0, 0, 0, 0 => Adm.deldelg1111 c
  | 0, 0, 0, 1 => Adm.deldelg1112 c
  | 0, 0, 0, 2 => Adm.deldelg1113 c
  | 0, 0, 1, 0 => Adm.deldelg1112 c
  | 0, 0, 1, 1 => Adm.deldelg1122 c
  | 0, 0, 1, 2 => Adm.deldelg1123 c
  | 0, 0, 2, 0 => Adm.deldelg1113 c
  | 0, 0, 2, 1 => Adm.deldelg1123 c
  | 0, 0, 2, 2 => Adm.deldelg1133 c
  | 0, 1, 0, 0 => Adm.deldelg1211 c
  | 0, 1, 0, 1 => Adm.deldelg1212 c
  | 0, 1, 0, 2 => Adm.deldelg1213 c
  | 0, 1, 1, 0 => Adm.deldelg1212 c
  | 0, 1, 1, 1 => Adm.deldelg1222 c
  | 0, 1, 1, 2 => Adm.deldelg1223 c
  | 0, 1, 2, 0 => Adm.deldelg1213 c
  | 0, 1, 2, 1 => Adm.deldelg1223 c
  | 0, 1, 2, 2 => Adm.deldelg1233 c
  | 0, 2, 0, 0 => Adm.deldelg1311 c
  | 0, 2, 0, 1 => Adm.deldelg1312 c
  | 0, 2, 0, 2 => Adm.deldelg1313 c
  | 0, 2, 1, 0 => Adm.deldelg1312 c
  | 0, 2, 1, 1 => Adm.deldelg1322 c
  | 0, 2, 1, 2 => Adm.deldelg1323 c
  | 0, 2, 2, 0 => Adm.deldelg1313 c
  | 0, 2, 2, 1 => Adm.deldelg1323 c
  | 0, 2, 2, 2 => Adm.deldelg1333 c
  | 1, 0, 0, 0 => Adm.deldelg1211 c
  | 1, 0, 0, 1 => Adm.deldelg1212 c
  | 1, 0, 0, 2 => Adm.deldelg1213 c
  | 1, 0, 1, 0 => Adm.deldelg1212 c
  | 1, 0, 1, 1 => Adm.deldelg1222 c
  | 1, 0, 1, 2 => Adm.deldelg1223 c
  | 1, 0, 2, 0 => Adm.deldelg1213 c
  | 1, 0, 2, 1 => Adm.deldelg1223 c
  | 1, 0, 2, 2 => Adm.deldelg1233 c
  | 1, 1, 0, 0 => Adm.deldelg2211 c
  | 1, 1, 0, 1 => Adm.deldelg2212 c
  | 1, 1, 0, 2 => Adm.deldelg2213 c
  | 1, 1, 1, 0 => Adm.deldelg2212 c
  | 1, 1, 1, 1 => Adm.deldelg2222 c
  | 1, 1, 1, 2 => Adm.deldelg2223 c
  | 1, 1, 2, 0 => Adm.deldelg2213 c
  | 1, 1, 2, 1 => Adm.deldelg2223 c
  | 1, 1, 2, 2 => Adm.deldelg2233 c
  | 1, 2, 0, 0 => Adm.deldelg2311 c
  | 1, 2, 0, 1 => Adm.deldelg2312 c
  | 1, 2, 0, 2 => Adm.deldelg2313 c
  | 1, 2, 1, 0 => Adm.deldelg2312 c
  | 1, 2, 1, 1 => Adm.deldelg2322 c
  | 1, 2, 1, 2 => Adm.deldelg2323 c
  | 1, 2, 2, 0 => Adm.deldelg2313 c
  | 1, 2, 2, 1 => Adm.deldelg2323 c
  | 1, 2, 2, 2 => Adm.deldelg2333 c
  | 2, 0, 0, 0 => Adm.deldelg1311 c
  | 2, 0, 0, 1 => Adm.deldelg1312 c
  | 2, 0, 0, 2 => Adm.deldelg1313 c
  | 2, 0, 1, 0 => Adm.deldelg1312 c
  | 2, 0, 1, 1 => Adm.deldelg1322 c
  | 2, 0, 1, 2 => Adm.deldelg1323 c
  | 2, 0, 2, 0 => Adm.deldelg1313 c
  | 2, 0, 2, 1 => Adm.deldelg1323 c
  | 2, 0, 2, 2 => Adm.deldelg1333 c
  | 2, 1, 0, 0 => Adm.deldelg2311 c
  | 2, 1, 0, 1 => Adm.deldelg2312 c
  | 2, 1, 0, 2 => Adm.deldelg2313 c
  | 2, 1, 1, 0 => Adm.deldelg2312 c
  | 2, 1, 1, 1 => Adm.deldelg2322 c
  | 2, 1, 1, 2 => Adm.deldelg2323 c
  | 2, 1, 2, 0 => Adm.deldelg2313 c
  | 2, 1, 2, 1 => Adm.deldelg2323 c
  | 2, 1, 2, 2 => Adm.deldelg2333 c
  | 2, 2, 0, 0 => Adm.deldelg3311 c
  | 2, 2, 0, 1 => Adm.deldelg3312 c
  | 2, 2, 0, 2 => Adm.deldelg3313 c
  | 2, 2, 1, 0 => Adm.deldelg3312 c
  | 2, 2, 1, 1 => Adm.deldelg3322 c
  | 2, 2, 1, 2 => Adm.deldelg3323 c
  | 2, 2, 2, 0 => Adm.deldelg3313 c
  | 2, 2, 2, 1 => Adm.deldelg3323 c
  | 2, 2, 2, 2 => Adm.deldelg3333 c

/-- The components of `delK`. -/
def Adm.delKT (c : AdmConPt 𝔽) : Fin 3 → Fin 3 → Fin 3 → 𝔽
  | 0, 0, 0 => Adm.delK111 c
  | 0, 0, 1 => Adm.delK112 c
  | 0, 0, 2 => Adm.delK113 c
  | 0, 1, 0 => Adm.delK112 c
  | 0, 1, 1 => Adm.delK122 c
  | 0, 1, 2 => Adm.delK123 c
  | 0, 2, 0 => Adm.delK113 c
  | 0, 2, 1 => Adm.delK123 c
  | 0, 2, 2 => Adm.delK133 c
  | 1, 0, 0 => Adm.delK211 c
  | 1, 0, 1 => Adm.delK212 c
  | 1, 0, 2 => Adm.delK213 c
  | 1, 1, 0 => Adm.delK212 c
  | 1, 1, 1 => Adm.delK222 c
  | 1, 1, 2 => Adm.delK223 c
  | 1, 2, 0 => Adm.delK213 c
  | 1, 2, 1 => Adm.delK223 c
  | 1, 2, 2 => Adm.delK233 c
  | 2, 0, 0 => Adm.delK311 c
  | 2, 0, 1 => Adm.delK312 c
  | 2, 0, 2 => Adm.delK313 c
  | 2, 1, 0 => Adm.delK312 c
  | 2, 1, 1 => Adm.delK322 c
  | 2, 1, 2 => Adm.delK323 c
  | 2, 2, 0 => Adm.delK313 c
  | 2, 2, 1 => Adm.delK323 c
  | 2, 2, 2 => Adm.delK333 c

/-- The components of `ginv`. -/
def Adm.ginvT (c : AdmConPt 𝔽) : Fin 3 → Fin 3 → 𝔽
  | 0, 0 => Adm.ginv11 c
  | 0, 1 => Adm.ginv12 c
  | 0, 2 => Adm.ginv13 c
  | 1, 0 => Adm.ginv12 c
  | 1, 1 => Adm.ginv22 c
  | 1, 2 => Adm.ginv23 c
  | 2, 0 => Adm.ginv13 c
  | 2, 1 => Adm.ginv23 c
  | 2, 2 => Adm.ginv33 c

/-- The components of `gammado`. -/
def Adm.gammadoT (c : AdmConPt 𝔽) : Fin 3 → Fin 3 → Fin 3 → 𝔽
  | 0, 0, 0 => Adm.gammado111 c
  | 0, 0, 1 => Adm.gammado112 c
  | 0, 0, 2 => Adm.gammado113 c
  | 0, 1, 0 => Adm.gammado121 c
  | 0, 1, 1 => Adm.gammado122 c
  | 0, 1, 2 => Adm.gammado123 c
  | 0, 2, 0 => Adm.gammado131 c
  | 0, 2, 1 => Adm.gammado132 c
  | 0, 2, 2 => Adm.gammado133 c
  | 1, 0, 0 => Adm.gammado211 c
  | 1, 0, 1 => Adm.gammado212 c
  | 1, 0, 2 => Adm.gammado213 c
  | 1, 1, 0 => Adm.gammado221 c
  | 1, 1, 1 => Adm.gammado222 c
  | 1, 1, 2 => Adm.gammado223 c
  | 1, 2, 0 => Adm.gammado231 c
  | 1, 2, 1 => Adm.gammado232 c
  | 1, 2, 2 => Adm.gammado233 c
  | 2, 0, 0 => Adm.gammado311 c
  | 2, 0, 1 => Adm.gammado312 c
  | 2, 0, 2 => Adm.gammado313 c
  | 2, 1, 0 => Adm.gammado321 c
  | 2, 1, 1 => Adm.gammado322 c
  | 2, 1, 2 => Adm.gammado323 c
  | 2, 2, 0 => Adm.gammado331 c
  | 2, 2, 1 => Adm.gammado332 c
  | 2, 2, 2 => Adm.gammado333 c

/-- The components of `gamma`. -/
def Adm.gammaT (c : AdmConPt 𝔽) : Fin 3 → Fin 3 → Fin 3 → 𝔽
  | 0, 0, 0 => Adm.gamma111 c
  | 0, 0, 1 => Adm.gamma112 c
  | 0, 0, 2 => Adm.gamma113 c
  | 0, 1, 0 => Adm.gamma121 c
  | 0, 1, 1 => Adm.gamma122 c
  | 0, 1, 2 => Adm.gamma123 c
  | 0, 2, 0 => Adm.gamma131 c
  | 0, 2, 1 => Adm.gamma132 c
  | 0, 2, 2 => Adm.gamma133 c
  | 1, 0, 0 => Adm.gamma211 c
  | 1, 0, 1 => Adm.gamma212 c
  | 1, 0, 2 => Adm.gamma213 c
  | 1, 1, 0 => Adm.gamma221 c
  | 1, 1, 1 => Adm.gamma222 c
  | 1, 1, 2 => Adm.gamma223 c
  | 1, 2, 0 => Adm.gamma231 c
  | 1, 2, 1 => Adm.gamma232 c
  | 1, 2, 2 => Adm.gamma233 c
  | 2, 0, 0 => Adm.gamma311 c
  | 2, 0, 1 => Adm.gamma312 c
  | 2, 0, 2 => Adm.gamma313 c
  | 2, 1, 0 => Adm.gamma321 c
  | 2, 1, 1 => Adm.gamma322 c
  | 2, 1, 2 => Adm.gamma323 c
  | 2, 2, 0 => Adm.gamma331 c
  | 2, 2, 1 => Adm.gamma332 c
  | 2, 2, 2 => Adm.gamma333 c

/-- The components of `R`. -/
def Adm.RT (c : AdmConPt 𝔽) : Fin 3 → Fin 3 → 𝔽
  | 0, 0 => Adm.R11 c
  | 0, 1 => Adm.R12 c
  | 0, 2 => Adm.R13 c
  | 1, 0 => Adm.R12 c
  | 1, 1 => Adm.R22 c
  | 1, 2 => Adm.R23 c
  | 2, 0 => Adm.R13 c
  | 2, 1 => Adm.R23 c
  | 2, 2 => Adm.R33 c

/-- The components of `Kud`. -/
def Adm.KudT (c : AdmConPt 𝔽) : Fin 3 → Fin 3 → 𝔽
  | 0, 0 => Adm.Kud11 c
  | 0, 1 => Adm.Kud12 c
  | 0, 2 => Adm.Kud13 c
  | 1, 0 => Adm.Kud21 c
  | 1, 1 => Adm.Kud22 c
  | 1, 2 => Adm.Kud23 c
  | 2, 0 => Adm.Kud31 c
  | 2, 1 => Adm.Kud32 c
  | 2, 2 => Adm.Kud33 c

/-- The components of `codelK`. -/
def Adm.codelKT (c : AdmConPt 𝔽) : Fin 3 → Fin 3 → Fin 3 → 𝔽
  | 0, 0, 0 => Adm.codelK111 c
  | 0, 0, 1 => Adm.codelK112 c
  | 0, 0, 2 => Adm.codelK113 c
  | 0, 1, 0 => Adm.codelK112 c
  | 0, 1, 1 => Adm.codelK122 c
  | 0, 1, 2 => Adm.codelK123 c
  | 0, 2, 0 => Adm.codelK113 c
  | 0, 2, 1 => Adm.codelK123 c
  | 0, 2, 2 => Adm.codelK133 c
  | 1, 0, 0 => Adm.codelK211 c
  | 1, 0, 1 => Adm.codelK212 c
  | 1, 0, 2 => Adm.codelK213 c
  | 1, 1, 0 => Adm.codelK212 c
  | 1, 1, 1 => Adm.codelK222 c
  | 1, 1, 2 => Adm.codelK223 c
  | 1, 2, 0 => Adm.codelK213 c
  | 1, 2, 1 => Adm.codelK223 c
  | 1, 2, 2 => Adm.codelK233 c
  | 2, 0, 0 => Adm.codelK311 c
  | 2, 0, 1 => Adm.codelK312 c
  | 2, 0, 2 => Adm.codelK313 c
  | 2, 1, 0 => Adm.codelK312 c
  | 2, 1, 1 => Adm.codelK322 c
  | 2, 1, 2 => Adm.codelK323 c
  | 2, 2, 0 => Adm.codelK313 c
  | 2, 2, 1 => Adm.codelK323 c
  | 2, 2, 2 => Adm.codelK333 c

/-- The components of `cdKudd`. -/
def Adm.cdKuddT (c : AdmConPt 𝔽) : Fin 3 → Fin 3 → Fin 3 → 𝔽
  | 0, 0, 0 => Adm.cdKudd111 c
  | 0, 0, 1 => Adm.cdKudd112 c
  | 0, 0, 2 => Adm.cdKudd113 c
  | 0, 1, 0 => Adm.cdKudd112 c
  | 0, 1, 1 => Adm.cdKudd122 c
  | 0, 1, 2 => Adm.cdKudd123 c
  | 0, 2, 0 => Adm.cdKudd113 c
  | 0, 2, 1 => Adm.cdKudd123 c
  | 0, 2, 2 => Adm.cdKudd133 c
  | 1, 0, 0 => Adm.cdKudd211 c
  | 1, 0, 1 => Adm.cdKudd212 c
  | 1, 0, 2 => Adm.cdKudd213 c
  | 1, 1, 0 => Adm.cdKudd212 c
  | 1, 1, 1 => Adm.cdKudd222 c
  | 1, 1, 2 => Adm.cdKudd223 c
  | 1, 2, 0 => Adm.cdKudd213 c
  | 1, 2, 1 => Adm.cdKudd223 c
  | 1, 2, 2 => Adm.cdKudd233 c
  | 2, 0, 0 => Adm.cdKudd311 c
  | 2, 0, 1 => Adm.cdKudd312 c
  | 2, 0, 2 => Adm.cdKudd313 c
  | 2, 1, 0 => Adm.cdKudd312 c
  | 2, 1, 1 => Adm.cdKudd322 c
  | 2, 1, 2 => Adm.cdKudd323 c
  | 2, 2, 0 => Adm.cdKudd313 c
  | 2, 2, 1 => Adm.cdKudd323 c
  | 2, 2, 2 => Adm.cdKudd333 c

/-- The components of `momu`. -/
def Adm.momuT (c : AdmConPt 𝔽) : Fin 3 → 𝔽
  | 0 => Adm.momu1 c
  | 1 => Adm.momu2 c
  | 2 => Adm.momu3 c

/-- The components of `mom`. -/
def Adm.momT (c : AdmConPt 𝔽) : Fin 3 → 𝔽
  | 0 => Adm.mom1 c
  | 1 => Adm.mom2 c
  | 2 => Adm.mom3 c

/-- The components of `momrhs`. -/
def Adm.momrhsT (c : AdmConPt 𝔽) : Fin 3 → 𝔽
  | 0 => Adm.momrhs1 c
  | 1 => Adm.momrhs2 c
  | 2 => Adm.momrhs3 c

/-- The components of `cdda`. -/
def Adm.cddaT (c : AdmConPt 𝔽) : Fin 3 → Fin 3 → 𝔽
  | 0, 0 => Adm.cdda11 c
  | 0, 1 => Adm.cdda12 c
  | 0, 2 => Adm.cdda13 c
  | 1, 0 => Adm.cdda21 c
  | 1, 1 => Adm.cdda22 c
  | 1, 2 => Adm.cdda23 c
  | 2, 0 => Adm.cdda31 c
  | 2, 1 => Adm.cdda32 c
  | 2, 2 => Adm.cdda33 c

/-- The components of `dtrK`. -/
def Adm.dtrKT (c : AdmConPt 𝔽) : Fin 3 → 𝔽
  | 0 => Adm.dtrK1 c
  | 1 => Adm.dtrK2 c
  | 2 => Adm.dtrK3 c

/-- The components of `beta`. -/
def Adm.betaT (c : AdmConPt 𝔽) : Fin 3 → 𝔽
  | 0 => Adm.beta1 c
  | 1 => Adm.beta2 c
  | 2 => Adm.beta3 c

/-- The components of `dalp`. -/
def Adm.dalpT (c : AdmConPt 𝔽) : Fin 3 → 𝔽
  | 0 => Adm.dalp1 c
  | 1 => Adm.dalp2 c
  | 2 => Adm.dalp3 c

/-- The components of `ddalp`. -/
def Adm.ddalpT (c : AdmConPt 𝔽) : Fin 3 → Fin 3 → 𝔽
  | 0, 0 => Adm.ddalp11 c
  | 0, 1 => Adm.ddalp12 c
  | 0, 2 => Adm.ddalp13 c
  | 1, 0 => Adm.ddalp12 c
  | 1, 1 => Adm.ddalp22 c
  | 1, 2 => Adm.ddalp23 c
  | 2, 0 => Adm.ddalp13 c
  | 2, 1 => Adm.ddalp23 c
  | 2, 2 => Adm.ddalp33 c


/-- A statement for each of the three directions. -/
theorem fin3 {P : Fin 3 → Prop} (h0 : P 0) (h1 : P 1) (h2 : P 2) : ∀ a, P a := by
  intro a
  fin_cases a
  · exact h0
  · exact h1
  · exact h2

theorem fin3₂ {P : Fin 3 → Fin 3 → Prop} (h : P 0 0 ∧ P 0 1 ∧ P 0 2 ∧ P 1 0 ∧ P 1 1 ∧ P 1 2 ∧ P 2 0 ∧ P 2 1 ∧ P 2 2) : ∀ a b, P a b := by
  obtain ⟨h1, h2, h3, h4, h5, h6, h7, h8, h9⟩ := h
  exact fin3 (fin3 h1 h2 h3) (fin3 h4 h5 h6) (fin3 h7 h8 h9)


variable (c : AdmConPt 𝔽)

theorem Adm.gamma_eq : ∀ k a b, Adm.gammaT c k a b = ∑ d, Adm.ginvT c k d * Adm.gammadoT c d a b := by
  refine fin3 ?_ ?_ ?_ <;> refine fin3₂ ⟨?_, ?_, ?_, ?_, ?_, ?_, ?_, ?_, ?_⟩ <;>
    · simp only [Fin.sum_univ_three, Adm.gammaT, Adm.gammadoT, Adm.ginvT, Adm.gamma111, Adm.gamma112, Adm.gamma113,
      Adm.gamma121, Adm.gamma122, Adm.gamma123, Adm.gamma131, Adm.gamma132, Adm.gamma133, Adm.gamma211, Adm.gamma212,
      Adm.gamma213, Adm.gamma221, Adm.gamma222, Adm.gamma223, Adm.gamma231, Adm.gamma232, Adm.gamma233, Adm.gamma311,
      Adm.gamma312, Adm.gamma313, Adm.gamma321, Adm.gamma322, Adm.gamma323, Adm.gamma331, Adm.gamma332, Adm.gamma333]
      try ring

theorem Adm.gammado_eq : ∀ k a b, Adm.gammadoT c k a b =
    1 / 2 * (Adm.delgT c a b k + Adm.delgT c b a k - Adm.delgT c k a b) := by
  refine fin3 ?_ ?_ ?_ <;> refine fin3₂ ⟨?_, ?_, ?_, ?_, ?_, ?_, ?_, ?_, ?_⟩ <;>
    · simp only [Adm.gammadoT, Adm.delgT, Adm.gammado111, Adm.gammado112, Adm.gammado113, Adm.gammado121, Adm.gammado122,
      Adm.gammado123, Adm.gammado131, Adm.gammado132, Adm.gammado133, Adm.gammado211, Adm.gammado212, Adm.gammado213,
      Adm.gammado221, Adm.gammado222, Adm.gammado223, Adm.gammado231, Adm.gammado232, Adm.gammado233, Adm.gammado311,
      Adm.gammado312, Adm.gammado313, Adm.gammado321, Adm.gammado322, Adm.gammado323, Adm.gammado331, Adm.gammado332,
      Adm.gammado333]
      try ring

theorem Adm.R_eq00 : Adm.R11 c = ∑ k, ∑ d, Adm.ginvT c k d *
    (1 / 2 * (-Adm.deldelgT c k d 0 0 - Adm.deldelgT c 0 0 k d + Adm.deldelgT c 0 k 0 d + Adm.deldelgT c 0 k 0 d) +
      ∑ e, (Adm.gammaT c e 0 k * Adm.gammadoT c e 0 d - Adm.gammaT c e 0 0 * Adm.gammadoT c e k d)) := by
  simp only [Fin.sum_univ_three, Adm.ginvT, Adm.deldelgT, Adm.gammaT, Adm.gammadoT, Adm.R11]
  ring

theorem Adm.R_eq10 : Adm.R12 c = ∑ k, ∑ d, Adm.ginvT c k d *
    (1 / 2 * (-Adm.deldelgT c k d 1 0 - Adm.deldelgT c 1 0 k d + Adm.deldelgT c 1 k 0 d + Adm.deldelgT c 0 k 1 d) +
      ∑ e, (Adm.gammaT c e 1 k * Adm.gammadoT c e 0 d - Adm.gammaT c e 1 0 * Adm.gammadoT c e k d)) := by
  simp only [Fin.sum_univ_three, Adm.ginvT, Adm.deldelgT, Adm.gammaT, Adm.gammadoT, Adm.R12]
  ring

theorem Adm.R_eq20 : Adm.R13 c = ∑ k, ∑ d, Adm.ginvT c k d *
    (1 / 2 * (-Adm.deldelgT c k d 2 0 - Adm.deldelgT c 2 0 k d + Adm.deldelgT c 2 k 0 d + Adm.deldelgT c 0 k 2 d) +
      ∑ e, (Adm.gammaT c e 2 k * Adm.gammadoT c e 0 d - Adm.gammaT c e 2 0 * Adm.gammadoT c e k d)) := by
  simp only [Fin.sum_univ_three, Adm.ginvT, Adm.deldelgT, Adm.gammaT, Adm.gammadoT, Adm.R13]
  ring

theorem Adm.R_eq11 : Adm.R22 c = ∑ k, ∑ d, Adm.ginvT c k d *
    (1 / 2 * (-Adm.deldelgT c k d 1 1 - Adm.deldelgT c 1 1 k d + Adm.deldelgT c 1 k 1 d + Adm.deldelgT c 1 k 1 d) +
      ∑ e, (Adm.gammaT c e 1 k * Adm.gammadoT c e 1 d - Adm.gammaT c e 1 1 * Adm.gammadoT c e k d)) := by
  simp only [Fin.sum_univ_three, Adm.ginvT, Adm.deldelgT, Adm.gammaT, Adm.gammadoT, Adm.R22]
  ring

theorem Adm.R_eq21 : Adm.R23 c = ∑ k, ∑ d, Adm.ginvT c k d *
    (1 / 2 * (-Adm.deldelgT c k d 2 1 - Adm.deldelgT c 2 1 k d + Adm.deldelgT c 2 k 1 d + Adm.deldelgT c 1 k 2 d) +
      ∑ e, (Adm.gammaT c e 2 k * Adm.gammadoT c e 1 d - Adm.gammaT c e 2 1 * Adm.gammadoT c e k d)) := by
  simp only [Fin.sum_univ_three, Adm.ginvT, Adm.deldelgT, Adm.gammaT, Adm.gammadoT, Adm.R23]
  ring

theorem Adm.R_eq22 : Adm.R33 c = ∑ k, ∑ d, Adm.ginvT c k d *
    (1 / 2 * (-Adm.deldelgT c k d 2 2 - Adm.deldelgT c 2 2 k d + Adm.deldelgT c 2 k 2 d + Adm.deldelgT c 2 k 2 d) +
      ∑ e, (Adm.gammaT c e 2 k * Adm.gammadoT c e 2 d - Adm.gammaT c e 2 2 * Adm.gammadoT c e k d)) := by
  simp only [Fin.sum_univ_three, Adm.ginvT, Adm.deldelgT, Adm.gammaT, Adm.gammadoT, Adm.R33]
  ring

theorem Adm.R_eq : ∀ a b : Fin 3, b ≤ a → Adm.RT c a b = ∑ k, ∑ d, Adm.ginvT c k d *
    (1 / 2 * (-Adm.deldelgT c k d a b - Adm.deldelgT c a b k d + Adm.deldelgT c a k b d + Adm.deldelgT c b k a d) +
      ∑ e, (Adm.gammaT c e a k * Adm.gammadoT c e b d - Adm.gammaT c e a b * Adm.gammadoT c e k d)) := by
  refine fin3₂ ⟨?_, ?_, ?_, ?_, ?_, ?_, ?_, ?_, ?_⟩
  · exact fun _ => Adm.R_eq00 c
  · exact fun h => absurd h (by decide)
  · exact fun h => absurd h (by decide)
  · exact fun _ => Adm.R_eq10 c
  · exact fun _ => Adm.R_eq11 c
  · exact fun h => absurd h (by decide)
  · exact fun _ => Adm.R_eq20 c
  · exact fun _ => Adm.R_eq21 c
  · exact fun _ => Adm.R_eq22 c

theorem Adm.R_symm : ∀ a b, Adm.RT c a b = Adm.RT c b a := by
  refine fin3₂ ⟨?_, ?_, ?_, ?_, ?_, ?_, ?_, ?_, ?_⟩ <;> rfl

theorem Adm.scalar_eq : Adm.R c = ∑ a, ∑ b, Adm.ginvT c a b * Adm.RT c a b := by
  simp only [Fin.sum_univ_three, Adm.RT, Adm.ginvT, Adm.R]
  ring

theorem Adm.Kud_eq : ∀ a b, Adm.KudT c a b = ∑ d, Adm.ginvT c a d * Adm.KT c d b := by
  refine fin3₂ ⟨?_, ?_, ?_, ?_, ?_, ?_, ?_, ?_, ?_⟩ <;>
    · simp only [Fin.sum_univ_three, Adm.KudT, Adm.ginvT, Adm.KT, Adm.Kud11, Adm.Kud12, Adm.Kud13, Adm.Kud21, Adm.Kud22,
      Adm.Kud23, Adm.Kud31, Adm.Kud32, Adm.Kud33]
      try ring

theorem Adm.K_eq : Adm.K c = ∑ a, Adm.KudT c a a := by
  simp only [Fin.sum_univ_three, Adm.KudT, Adm.K]

theorem Adm.KudKud_eq : Adm.KudKud c = ∑ a, ∑ b, Adm.KudT c a b * Adm.KudT c b a := by
  simp only [Fin.sum_univ_three, Adm.KudT, Adm.KudKud]
  ring

theorem Adm.codelK_eq : ∀ k a b, Adm.codelKT c k a b =
    Adm.delKT c k a b - ∑ d, (Adm.gammaT c d k a * Adm.KT c d b + Adm.gammaT c d k b * Adm.KT c a d) := by
  refine fin3 ?_ ?_ ?_ <;> refine fin3₂ ⟨?_, ?_, ?_, ?_, ?_, ?_, ?_, ?_, ?_⟩ <;>
    · simp only [Fin.sum_univ_three, Adm.codelKT, Adm.delKT, Adm.gammaT, Adm.KT, Adm.codelK111, Adm.codelK112,
      Adm.codelK113, Adm.codelK122, Adm.codelK123, Adm.codelK133, Adm.codelK211, Adm.codelK212, Adm.codelK213,
      Adm.codelK222, Adm.codelK223, Adm.codelK233, Adm.codelK311, Adm.codelK312, Adm.codelK313, Adm.codelK322,
      Adm.codelK323, Adm.codelK333]
      ring

theorem Adm.cdKudd_eq : ∀ k a b, Adm.cdKuddT c k a b = ∑ d, Adm.ginvT c k d * Adm.codelKT c d a b := by
  refine fin3 ?_ ?_ ?_ <;> refine fin3₂ ⟨?_, ?_, ?_, ?_, ?_, ?_, ?_, ?_, ?_⟩ <;>
    · simp only [Fin.sum_univ_three, Adm.cdKuddT, Adm.codelKT, Adm.ginvT, Adm.cdKudd111, Adm.cdKudd112, Adm.cdKudd113,
      Adm.cdKudd122, Adm.cdKudd123, Adm.cdKudd133, Adm.cdKudd211, Adm.cdKudd212, Adm.cdKudd213, Adm.cdKudd222,
      Adm.cdKudd223, Adm.cdKudd233, Adm.cdKudd311, Adm.cdKudd312, Adm.cdKudd313, Adm.cdKudd322, Adm.cdKudd323,
      Adm.cdKudd333]
      try ring

theorem Adm.momu_eq : ∀ a, Adm.momuT c a = ∑ b, ∑ d, (Adm.ginvT c a b * Adm.cdKuddT c d b d - Adm.ginvT c b d * Adm.cdKuddT c a b d) := by
  refine fin3 ?_ ?_ ?_ <;>
    · simp only [Fin.sum_univ_three, Adm.momuT, Adm.cdKuddT, Adm.ginvT, Adm.momu1, Adm.momu2, Adm.momu3]
      ring

theorem Adm.mom_eq : ∀ a, Adm.momT c a = Adm.f c * (∑ b, Adm.gT c a b * Adm.momuT c b) - Adm.momrhsT c a := by
  refine fin3 ?_ ?_ ?_ <;>
    · simp only [Fin.sum_univ_three, Adm.momT, Adm.momuT, Adm.gT, Adm.momrhsT, Adm.mom1, Adm.mom2, Adm.mom3]
      ring

theorem Adm.cdda_eq : ∀ a b, Adm.cddaT c a b = Adm.ddalpT c a b - ∑ d, Adm.gammaT c d a b * Adm.dalpT c d := by
  refine fin3₂ ⟨?_, ?_, ?_, ?_, ?_, ?_, ?_, ?_, ?_⟩ <;>
    · simp only [Fin.sum_univ_three, Adm.cddaT, Adm.ddalpT, Adm.gammaT, Adm.dalpT, Adm.cdda11, Adm.cdda12, Adm.cdda13,
      Adm.cdda21, Adm.cdda22, Adm.cdda23, Adm.cdda31, Adm.cdda32, Adm.cdda33]
      ring

theorem Adm.trcdda_eq : Adm.trcdda c = ∑ a, ∑ b, Adm.ginvT c a b * Adm.cddaT c a b := by
  simp only [Fin.sum_univ_three, Adm.cddaT, Adm.ginvT, Adm.trcdda]
  ring

theorem Adm.dtrK_eq : ∀ a, Adm.dtrKT c a = ∑ b, ∑ d, Adm.ginvT c b d * Adm.codelKT c a b d := by
  refine fin3 ?_ ?_ ?_ <;>
    · simp only [Fin.sum_univ_three, Adm.dtrKT, Adm.codelKT, Adm.ginvT, Adm.dtrK1, Adm.dtrK2, Adm.dtrK3]
      ring

theorem Adm.betadtrK_eq : Adm.betadtrK c = ∑ a, Adm.betaT c a * Adm.dtrKT c a := by
  simp only [Fin.sum_univ_three, Adm.betaT, Adm.dtrKT, Adm.betadtrK]
  ring

/-- The derivatives of the physical metric. -/
theorem Adm.delg_eq : ∀ k a b, Adm.delgT c k a b =
    Adm.f c * c.dg (3 * Spec.sym2 a b + k) + 4 * Adm.f c * c.ps (1 + k) * Adm.gT c a b := by
  refine fin3 ?_ ?_ ?_ <;> refine fin3₂ ⟨?_, ?_, ?_, ?_, ?_, ?_, ?_, ?_, ?_⟩ <;>
    · simp only [Adm.delgT, Adm.gT, Adm.delg111, Adm.delg112, Adm.delg113, Adm.delg122, Adm.delg123, Adm.delg133,
      Adm.delg211, Adm.delg212, Adm.delg213, Adm.delg222, Adm.delg223, Adm.delg233, Adm.delg311, Adm.delg312, Adm.delg313,
      Adm.delg322, Adm.delg323, Adm.delg333, Adm.delg111_0, Adm.delg112_0, Adm.delg113_0, Adm.delg122_0, Adm.delg123_0,
      Adm.delg133_0, Adm.delg211_0, Adm.delg212_0, Adm.delg213_0, Adm.delg222_0, Adm.delg223_0, Adm.delg233_0,
      Adm.delg311_0, Adm.delg312_0, Adm.delg313_0, Adm.delg322_0, Adm.delg323_0, Adm.delg333_0, Adm.delf1, Adm.delf2,
      Adm.delf3, Adm.dg111, Adm.dg112, Adm.dg113, Adm.dg121, Adm.dg122, Adm.dg123, Adm.dg131, Adm.dg132, Adm.dg133,
      Adm.dg221, Adm.dg222, Adm.dg223, Adm.dg231, Adm.dg232, Adm.dg233, Adm.dg331, Adm.dg332, Adm.dg333, Adm.dpop1,
      Adm.dpop2, Adm.dpop3, Spec.sym2, Fin.val_zero, Fin.val_one, Fin.val_two]
      try ring

theorem Adm.deldelg_eq : ∀ k l a b, Adm.deldelgT c k l a b =
    Adm.f c * c.ddg (6 * Spec.sym2 a b + Spec.sym2 k l) +
    4 * Adm.f c * (c.ps (4 + Spec.sym2 k l) + 3 * (c.ps (1 + k) * c.ps (1 + l))) * Adm.gT c a b +
    4 * Adm.f c * c.ps (1 + k) * c.dg (3 * Spec.sym2 a b + l) + 4 * Adm.f c * c.ps (1 + l) * c.dg (3 * Spec.sym2 a b + k) := by
  refine fin3₂ ⟨?_, ?_, ?_, ?_, ?_, ?_, ?_, ?_, ?_⟩ <;> refine fin3₂ ⟨?_, ?_, ?_, ?_, ?_, ?_, ?_, ?_, ?_⟩ <;>
    · simp only [Adm.deldelgT, Adm.gT, Adm.deldelg1111, Adm.deldelg1112, Adm.deldelg1113, Adm.deldelg1122,
      Adm.deldelg1123, Adm.deldelg1133, Adm.deldelg1211, Adm.deldelg1212, Adm.deldelg1213, Adm.deldelg1222, Adm.deldelg1223,
      Adm.deldelg1233, Adm.deldelg1311, Adm.deldelg1312, Adm.deldelg1313, Adm.deldelg1322, Adm.deldelg1323, Adm.deldelg1333,
      Adm.deldelg2211, Adm.deldelg2212, Adm.deldelg2213, Adm.deldelg2222, Adm.deldelg2223, Adm.deldelg2233, Adm.deldelg2311,
      Adm.deldelg2312, Adm.deldelg2313, Adm.deldelg2322, Adm.deldelg2323, Adm.deldelg2333, Adm.deldelg3311, Adm.deldelg3312,
      Adm.deldelg3313, Adm.deldelg3322, Adm.deldelg3323, Adm.deldelg3333, Adm.deldelg1111_0, Adm.deldelg1112_0,
      Adm.deldelg1113_0, Adm.deldelg1122_0, Adm.deldelg1123_0, Adm.deldelg1133_0, Adm.deldelg1211_0, Adm.deldelg1212_0,
      Adm.deldelg1213_0, Adm.deldelg1222_0, Adm.deldelg1223_0, Adm.deldelg1233_0, Adm.deldelg1311_0, Adm.deldelg1312_0,
      Adm.deldelg1313_0, Adm.deldelg1322_0, Adm.deldelg1323_0, Adm.deldelg1333_0, Adm.deldelg2211_0, Adm.deldelg2212_0,
      Adm.deldelg2213_0, Adm.deldelg2222_0, Adm.deldelg2223_0, Adm.deldelg2233_0, Adm.deldelg2311_0, Adm.deldelg2312_0,
      Adm.deldelg2313_0, Adm.deldelg2322_0, Adm.deldelg2323_0, Adm.deldelg2333_0, Adm.deldelg3311_0, Adm.deldelg3312_0,
      Adm.deldelg3313_0, Adm.deldelg3322_0, Adm.deldelg3323_0, Adm.deldelg3333_0, Adm.delg111_0, Adm.delg112_0,
      Adm.delg113_0, Adm.delg122_0, Adm.delg123_0, Adm.delg133_0, Adm.delg211_0, Adm.delg212_0, Adm.delg213_0,
      Adm.delg222_0, Adm.delg223_0, Adm.delg233_0, Adm.delg311_0, Adm.delg312_0, Adm.delg313_0, Adm.delg322_0,
      Adm.delg323_0, Adm.delg333_0, Adm.delf1, Adm.delf2, Adm.delf3, Adm.deldelf11, Adm.deldelf12, Adm.deldelf13,
      Adm.deldelf22, Adm.deldelf23, Adm.deldelf33, Adm.ddg1111, Adm.ddg1112, Adm.ddg1113, Adm.ddg1122, Adm.ddg1123,
      Adm.ddg1133, Adm.ddg1211, Adm.ddg1212, Adm.ddg1213, Adm.ddg1222, Adm.ddg1223, Adm.ddg1233, Adm.ddg1311, Adm.ddg1312,
      Adm.ddg1313, Adm.ddg1322, Adm.ddg1323, Adm.ddg1333, Adm.ddg2211, Adm.ddg2212, Adm.ddg2213, Adm.ddg2222, Adm.ddg2223,
      Adm.ddg2233, Adm.ddg2311, Adm.ddg2312, Adm.ddg2313, Adm.ddg2322, Adm.ddg2323, Adm.ddg2333, Adm.ddg3311, Adm.ddg3312,
      Adm.ddg3313, Adm.ddg3322, Adm.ddg3323, Adm.ddg3333, Adm.dg111, Adm.dg112, Adm.dg113, Adm.dg121, Adm.dg122, Adm.dg123,
      Adm.dg131, Adm.dg132, Adm.dg133, Adm.dg221, Adm.dg222, Adm.dg223, Adm.dg231, Adm.dg232, Adm.dg233, Adm.dg331,
      Adm.dg332, Adm.dg333, Adm.dpop1, Adm.dpop2, Adm.dpop3, Adm.ddpop11, Adm.ddpop12, Adm.ddpop13, Adm.ddpop22,
      Adm.ddpop23, Adm.ddpop33, Spec.sym2, Fin.val_zero, Fin.val_one, Fin.val_two]
      ring

theorem Adm.delK_eq : ∀ k a b, Adm.delKT c k a b = c.dK (3 * Spec.sym2 a b + k) := by
  refine fin3 ?_ ?_ ?_ <;> refine fin3₂ ⟨?_, ?_, ?_, ?_, ?_, ?_, ?_, ?_, ?_⟩ <;> rfl

theorem Adm.g_eq : ∀ a b, Adm.gT c a b = c.u (Spec.sym2 a b) := by
  refine fin3₂ ⟨?_, ?_, ?_, ?_, ?_, ?_, ?_, ?_, ?_⟩ <;> rfl

theorem Adm.KT_eq : ∀ a b, Adm.KT c a b = c.u (6 + Spec.sym2 a b) := by
  refine fin3₂ ⟨?_, ?_, ?_, ?_, ?_, ?_, ?_, ?_, ?_⟩ <;> rfl

theorem Adm.ST_eq : ∀ a b, Adm.ST c a b = c.u (20 + Spec.sym2 a b) := by
  refine fin3₂ ⟨?_, ?_, ?_, ?_, ?_, ?_, ?_, ?_, ?_⟩ <;> rfl

theorem Adm.beta_eq : ∀ a : Fin 3, Adm.betaT c a = c.u (13 + a) := by
  refine fin3 ?_ ?_ ?_ <;> rfl

theorem Adm.dalp_eq : ∀ a : Fin 3, Adm.dalpT c a = c.dalp a := by
  refine fin3 ?_ ?_ ?_ <;> rfl

theorem Adm.ddalp_eq : ∀ a b : Fin 3, Adm.ddalpT c a b = c.ddalp (Spec.sym2 a b) := by
  refine fin3₂ ⟨?_, ?_, ?_, ?_, ?_, ?_, ?_, ?_, ?_⟩ <;> rfl

theorem Adm.momrhs_eq : ∀ a : Fin 3, Adm.momrhsT c a = if c.jNull then 0 else 8 * c.pi * c.u (17 + a) := by
  refine fin3 ?_ ?_ ?_ <;> rfl

/-- The inverse metric of the code is the inverse. -/
theorem Adm.ginv_eq (I : Fin 3 → Fin 3 → 𝔽) (h : ∀ a b, ∑ k, Adm.f c * Adm.gT c a k * I k b = if a = b then 1 else 0) :
    ∀ a b, Adm.ginvT c a b = I a b := by
  have hd : Adm.f c * (2 * Adm.g12 c * Adm.g13 c * Adm.g23 c + Adm.g11 c * Adm.g22 c * Adm.g33 c - Adm.g33 c * Adm.g12 c ^ 2 -
      Adm.g22 c * Adm.g13 c ^ 2 - Adm.g11 c * Adm.g23 c ^ 2) ≠ 0 := by
    intro h0
    have hm : Matrix.of (fun a b => Adm.f c * Adm.gT c a b) * Matrix.of I = 1 := by
      ext a b
      rw [Matrix.mul_apply, Matrix.one_apply]
      exact h a b
    have hm' := congrArg Matrix.det hm
    rw [Matrix.det_mul, Matrix.det_one, Matrix.det_fin_three] at hm'
    simp only [Matrix.of_apply, Adm.gT] at hm'
    rw [show Adm.f c * Adm.g11 c * (Adm.f c * Adm.g22 c) * (Adm.f c * Adm.g33 c) - Adm.f c * Adm.g11 c * (Adm.f c * Adm.g23 c) * (Adm.f c * Adm.g23 c) -
      Adm.f c * Adm.g12 c * (Adm.f c * Adm.g12 c) * (Adm.f c * Adm.g33 c) + Adm.f c * Adm.g12 c * (Adm.f c * Adm.g23 c) * (Adm.f c * Adm.g13 c) +
      Adm.f c * Adm.g13 c * (Adm.f c * Adm.g12 c) * (Adm.f c * Adm.g23 c) - Adm.f c * Adm.g13 c * (Adm.f c * Adm.g22 c) * (Adm.f c * Adm.g13 c) =
      Adm.f c ^ 2 * (Adm.f c * (2 * Adm.g12 c * Adm.g13 c * Adm.g23 c + Adm.g11 c * Adm.g22 c * Adm.g33 c - Adm.g33 c * Adm.g12 c ^ 2 -
      Adm.g22 c * Adm.g13 c ^ 2 - Adm.g11 c * Adm.g23 c ^ 2)) by ring, h0] at hm'
    simp at hm'
  have hinv : Adm.detginvf c * (Adm.f c * (2 * Adm.g12 c * Adm.g13 c * Adm.g23 c + Adm.g11 c * Adm.g22 c * Adm.g33 c - Adm.g33 c * Adm.g12 c ^ 2 -
      Adm.g22 c * Adm.g13 c ^ 2 - Adm.g11 c * Adm.g23 c ^ 2)) = 1 := by
    unfold Adm.detginvf
    exact one_div_mul_cancel hd
  have H : ∀ b, (Adm.f c * Adm.g11 c * I 0 b + Adm.f c * Adm.g12 c * I 1 b + Adm.f c * Adm.g13 c * I 2 b = if (0 : Fin 3) = b then 1 else 0) ∧
      (Adm.f c * Adm.g12 c * I 0 b + Adm.f c * Adm.g22 c * I 1 b + Adm.f c * Adm.g23 c * I 2 b = if (1 : Fin 3) = b then 1 else 0) ∧
      (Adm.f c * Adm.g13 c * I 0 b + Adm.f c * Adm.g23 c * I 1 b + Adm.f c * Adm.g33 c * I 2 b = if (2 : Fin 3) = b then 1 else 0) := by
    intro b
    have h0 := h 0 b
    have h1 := h 1 b
    have h2 := h 2 b
    simp only [Fin.sum_univ_three, Adm.gT] at h0 h1 h2
    exact ⟨h0, h1, h2⟩
  obtain ⟨a0, a1, a2⟩ := H 0
  obtain ⟨b0, b1, b2⟩ := H 1
  obtain ⟨c0, c1, c2⟩ := H 2
  rw [if_pos rfl] at a0 b1 c2
  rw [if_neg (by decide)] at a1 a2 b0 b2 c0 c1
  refine fin3₂ ⟨?_, ?_, ?_, ?_, ?_, ?_, ?_, ?_, ?_⟩ <;> simp only [Adm.ginvT, Adm.ginv11, Adm.ginv12, Adm.ginv13,
    Adm.ginv22, Adm.ginv23, Adm.ginv33]
  · linear_combination I 0 0 * hinv - Adm.detginvf c * ((Adm.g22 c * Adm.g33 c - Adm.g23 c ^ 2) * a0 + (Adm.g13 c * Adm.g23 c - Adm.g12 c * Adm.g33 c) * a1 + (Adm.g12 c * Adm.g23 c - Adm.g13 c * Adm.g22 c) * a2)
  · linear_combination I 0 1 * hinv - Adm.detginvf c * ((Adm.g22 c * Adm.g33 c - Adm.g23 c ^ 2) * b0 + (Adm.g13 c * Adm.g23 c - Adm.g12 c * Adm.g33 c) * b1 + (Adm.g12 c * Adm.g23 c - Adm.g13 c * Adm.g22 c) * b2)
  · linear_combination I 0 2 * hinv - Adm.detginvf c * ((Adm.g22 c * Adm.g33 c - Adm.g23 c ^ 2) * c0 + (Adm.g13 c * Adm.g23 c - Adm.g12 c * Adm.g33 c) * c1 + (Adm.g12 c * Adm.g23 c - Adm.g13 c * Adm.g22 c) * c2)
  · linear_combination I 1 0 * hinv - Adm.detginvf c * ((Adm.g13 c * Adm.g23 c - Adm.g12 c * Adm.g33 c) * a0 + (Adm.g11 c * Adm.g33 c - Adm.g13 c ^ 2) * a1 + (Adm.g12 c * Adm.g13 c - Adm.g11 c * Adm.g23 c) * a2)
  · linear_combination I 1 1 * hinv - Adm.detginvf c * ((Adm.g13 c * Adm.g23 c - Adm.g12 c * Adm.g33 c) * b0 + (Adm.g11 c * Adm.g33 c - Adm.g13 c ^ 2) * b1 + (Adm.g12 c * Adm.g13 c - Adm.g11 c * Adm.g23 c) * b2)
  · linear_combination I 1 2 * hinv - Adm.detginvf c * ((Adm.g13 c * Adm.g23 c - Adm.g12 c * Adm.g33 c) * c0 + (Adm.g11 c * Adm.g33 c - Adm.g13 c ^ 2) * c1 + (Adm.g12 c * Adm.g13 c - Adm.g11 c * Adm.g23 c) * c2)
  · linear_combination I 2 0 * hinv - Adm.detginvf c * ((Adm.g12 c * Adm.g23 c - Adm.g13 c * Adm.g22 c) * a0 + (Adm.g12 c * Adm.g13 c - Adm.g11 c * Adm.g23 c) * a1 + (Adm.g11 c * Adm.g22 c - Adm.g12 c ^ 2) * a2)
  · linear_combination I 2 1 * hinv - Adm.detginvf c * ((Adm.g12 c * Adm.g23 c - Adm.g13 c * Adm.g22 c) * b0 + (Adm.g12 c * Adm.g13 c - Adm.g11 c * Adm.g23 c) * b1 + (Adm.g11 c * Adm.g22 c - Adm.g12 c ^ 2) * b2)
  · linear_combination I 2 2 * hinv - Adm.detginvf c * ((Adm.g12 c * Adm.g23 c - Adm.g13 c * Adm.g22 c) * c0 + (Adm.g12 c * Adm.g13 c - Adm.g11 c * Adm.g23 c) * c1 + (Adm.g11 c * Adm.g22 c - Adm.g12 c ^ 2) * c2)

end

end Sgrid
