import Verif.Model.Basic
import Mathlib.Algebra.Order.Field.Basic

/-!
# The ADM energy and the helpers of ADMvars

`ADMenergy_spheric_intergrand` (src/physics/ADMvars/ADMenergy_spheric_intergrand.c:17-427) at one point of one box, and
src/physics/ADMvars/utility.c. The loops over boxes and points do the same everywhere, no point uses values of another point. In the
namespace `Eadm` the lines in the comments are lines of the first file, and each definition is one assignment; a name with `_0` is the
first of two assignments to the same variable. Numbers are in a field; `pi` and `sqrt` are what the C names stand for.
-/

namespace Sgrid

/-- What the code reads at one point: the variables of the list `u` by their number in the list, the components of the derivatives of the
metric by their number (lines 31-63). -/
structure EadmPt (K : Type) where
  u : Nat → K
  dg : Nat → K
  pi : K
  sqrt : K → K

namespace Eadm
variable {𝔽 : Type} [Field 𝔽]

/-- Line 32. -/
def gb11 (c : EadmPt 𝔽) : 𝔽 := c.u 1

/-- Line 33. -/
def gb12 (c : EadmPt 𝔽) : 𝔽 := c.u 2

/-- Line 34. -/
def gb13 (c : EadmPt 𝔽) : 𝔽 := c.u 3

/-- Line 35. -/
def gb22 (c : EadmPt 𝔽) : 𝔽 := c.u 4

/-- Line 36. -/
def gb23 (c : EadmPt 𝔽) : 𝔽 := c.u 5

/-- Line 37. -/
def gb33 (c : EadmPt 𝔽) : 𝔽 := c.u 6

/-- Line 38. -/
def x1 (c : EadmPt 𝔽) : 𝔽 := c.u 7

/-- Line 39. -/
def x2 (c : EadmPt 𝔽) : 𝔽 := c.u 8

/-- Line 40. -/
def x3 (c : EadmPt 𝔽) : 𝔽 := c.u 9

/-- Line 41. -/
def psi (c : EadmPt 𝔽) : 𝔽 := c.u 10

/-- Line 42. -/
def dpop1 (c : EadmPt 𝔽) : 𝔽 := c.u 11

/-- Line 43. -/
def dpop2 (c : EadmPt 𝔽) : 𝔽 := c.u 12

/-- Line 44. -/
def dpop3 (c : EadmPt 𝔽) : 𝔽 := c.u 13

/-- Line 46. -/
def dgb111 (c : EadmPt 𝔽) : 𝔽 := c.dg 0

/-- Line 47. -/
def dgb112 (c : EadmPt 𝔽) : 𝔽 := c.dg 1

/-- Line 48. -/
def dgb113 (c : EadmPt 𝔽) : 𝔽 := c.dg 2

/-- Line 49. -/
def dgb121 (c : EadmPt 𝔽) : 𝔽 := c.dg 3

/-- Line 50. -/
def dgb122 (c : EadmPt 𝔽) : 𝔽 := c.dg 4

/-- Line 51. -/
def dgb123 (c : EadmPt 𝔽) : 𝔽 := c.dg 5

/-- Line 52. -/
def dgb131 (c : EadmPt 𝔽) : 𝔽 := c.dg 6

/-- Line 53. -/
def dgb132 (c : EadmPt 𝔽) : 𝔽 := c.dg 7

/-- Line 54. -/
def dgb133 (c : EadmPt 𝔽) : 𝔽 := c.dg 8

/-- Line 55. -/
def dgb221 (c : EadmPt 𝔽) : 𝔽 := c.dg 9

/-- Line 56. -/
def dgb222 (c : EadmPt 𝔽) : 𝔽 := c.dg 10

/-- Line 57. -/
def dgb223 (c : EadmPt 𝔽) : 𝔽 := c.dg 11

/-- Line 58. -/
def dgb231 (c : EadmPt 𝔽) : 𝔽 := c.dg 12

/-- Line 59. -/
def dgb232 (c : EadmPt 𝔽) : 𝔽 := c.dg 13

/-- Line 60. -/
def dgb233 (c : EadmPt 𝔽) : 𝔽 := c.dg 14

/-- Line 61. -/
def dgb331 (c : EadmPt 𝔽) : 𝔽 := c.dg 15

/-- Line 62. -/
def dgb332 (c : EadmPt 𝔽) : 𝔽 := c.dg 16

/-- Line 63. -/
def dgb333 (c : EadmPt 𝔽) : 𝔽 := c.dg 17

/-- Lines 104-107. -/
def delg111_0 (c : EadmPt 𝔽) : 𝔽 := dgb111 c

/-- Lines 109-112. -/
def delg112_0 (c : EadmPt 𝔽) : 𝔽 := dgb121 c

/-- Lines 114-117. -/
def delg113_0 (c : EadmPt 𝔽) : 𝔽 := dgb131 c

/-- Lines 119-122. -/
def delg122_0 (c : EadmPt 𝔽) : 𝔽 := dgb221 c

/-- Lines 124-127. -/
def delg123_0 (c : EadmPt 𝔽) : 𝔽 := dgb231 c

/-- Lines 129-132. -/
def delg133_0 (c : EadmPt 𝔽) : 𝔽 := dgb331 c

/-- Lines 134-137. -/
def delg211_0 (c : EadmPt 𝔽) : 𝔽 := dgb112 c

/-- Lines 139-142. -/
def delg212_0 (c : EadmPt 𝔽) : 𝔽 := dgb122 c

/-- Lines 144-147. -/
def delg213_0 (c : EadmPt 𝔽) : 𝔽 := dgb132 c

/-- Lines 149-152. -/
def delg222_0 (c : EadmPt 𝔽) : 𝔽 := dgb222 c

/-- Lines 154-157. -/
def delg223_0 (c : EadmPt 𝔽) : 𝔽 := dgb232 c

/-- Lines 159-162. -/
def delg233_0 (c : EadmPt 𝔽) : 𝔽 := dgb332 c

/-- Lines 164-167. -/
def delg311_0 (c : EadmPt 𝔽) : 𝔽 := dgb113 c

/-- Lines 169-172. -/
def delg312_0 (c : EadmPt 𝔽) : 𝔽 := dgb123 c

/-- Lines 174-177. -/
def delg313_0 (c : EadmPt 𝔽) : 𝔽 := dgb133 c

/-- Lines 179-182. -/
def delg322_0 (c : EadmPt 𝔽) : 𝔽 := dgb223 c

/-- Lines 184-187. -/
def delg323_0 (c : EadmPt 𝔽) : 𝔽 := dgb233 c

/-- Lines 189-192. -/
def delg333_0 (c : EadmPt 𝔽) : 𝔽 := dgb333 c

/-- Lines 194-197. -/
def f (c : EadmPt 𝔽) : 𝔽 := psi c ^ 4

/-- Lines 199-202. -/
def delf1 (c : EadmPt 𝔽) : 𝔽 := 4 * f c * dpop1 c

/-- Lines 204-207. -/
def delf2 (c : EadmPt 𝔽) : 𝔽 := 4 * f c * dpop2 c

/-- Lines 209-212. -/
def delf3 (c : EadmPt 𝔽) : 𝔽 := 4 * f c * dpop3 c

/-- Lines 214-217. -/
def delg111 (c : EadmPt 𝔽) : 𝔽 := delg111_0 c * f c + delf1 c * gb11 c

/-- Lines 219-222. -/
def delg112 (c : EadmPt 𝔽) : 𝔽 := delg112_0 c * f c + delf1 c * gb12 c

/-- Lines 224-227. -/
def delg113 (c : EadmPt 𝔽) : 𝔽 := delg113_0 c * f c + delf1 c * gb13 c

/-- Lines 229-232. -/
def delg122 (c : EadmPt 𝔽) : 𝔽 := delg122_0 c * f c + delf1 c * gb22 c

/-- Lines 234-237. -/
def delg123 (c : EadmPt 𝔽) : 𝔽 := delg123_0 c * f c + delf1 c * gb23 c

/-- Lines 239-242. -/
def delg133 (c : EadmPt 𝔽) : 𝔽 := delg133_0 c * f c + delf1 c * gb33 c

/-- Lines 244-247. -/
def delg211 (c : EadmPt 𝔽) : 𝔽 := delg211_0 c * f c + delf2 c * gb11 c

/-- Lines 249-252. -/
def delg212 (c : EadmPt 𝔽) : 𝔽 := delg212_0 c * f c + delf2 c * gb12 c

/-- Lines 254-257. -/
def delg213 (c : EadmPt 𝔽) : 𝔽 := delg213_0 c * f c + delf2 c * gb13 c

/-- Lines 259-262. -/
def delg222 (c : EadmPt 𝔽) : 𝔽 := delg222_0 c * f c + delf2 c * gb22 c

/-- Lines 264-267. -/
def delg223 (c : EadmPt 𝔽) : 𝔽 := delg223_0 c * f c + delf2 c * gb23 c

/-- Lines 269-272. -/
def delg233 (c : EadmPt 𝔽) : 𝔽 := delg233_0 c * f c + delf2 c * gb33 c

/-- Lines 274-277. -/
def delg311 (c : EadmPt 𝔽) : 𝔽 := delg311_0 c * f c + delf3 c * gb11 c

/-- Lines 279-282. -/
def delg312 (c : EadmPt 𝔽) : 𝔽 := delg312_0 c * f c + delf3 c * gb12 c

/-- Lines 284-287. -/
def delg313 (c : EadmPt 𝔽) : 𝔽 := delg313_0 c * f c + delf3 c * gb13 c

/-- Lines 289-292. -/
def delg322 (c : EadmPt 𝔽) : 𝔽 := delg322_0 c * f c + delf3 c * gb22 c

/-- Lines 294-297. -/
def delg323 (c : EadmPt 𝔽) : 𝔽 := delg323_0 c * f c + delf3 c * gb23 c

/-- Lines 299-302. -/
def delg333 (c : EadmPt 𝔽) : 𝔽 := delg333_0 c * f c + delf3 c * gb33 c

/-- Lines 304-309. -/
def detgb (c : EadmPt 𝔽) : 𝔽 :=
  2 * gb12 c * gb13 c * gb23 c + gb11 c * gb22 c * gb33 c - gb33 c * gb12 c ^ 2 - gb22 c * gb13 c ^ 2 - gb11 c *
    gb23 c ^ 2

/-- Lines 311-314. -/
def detg (c : EadmPt 𝔽) : 𝔽 := detgb c * f c ^ 3

/-- Lines 316-319. -/
def ginv11 (c : EadmPt 𝔽) : 𝔽 := (gb22 c * gb33 c - gb23 c ^ 2) / (detgb c * f c)

/-- Lines 321-324. -/
def ginv12 (c : EadmPt 𝔽) : 𝔽 := (gb13 c * gb23 c - gb12 c * gb33 c) / (detgb c * f c)

/-- Lines 326-329. -/
def ginv13 (c : EadmPt 𝔽) : 𝔽 := (-(gb13 c * gb22 c) + gb12 c * gb23 c) / (detgb c * f c)

/-- Lines 331-334. -/
def ginv22 (c : EadmPt 𝔽) : 𝔽 := (gb11 c * gb33 c - gb13 c ^ 2) / (detgb c * f c)

/-- Lines 336-339. -/
def ginv23 (c : EadmPt 𝔽) : 𝔽 := (gb12 c * gb13 c - gb11 c * gb23 c) / (detgb c * f c)

/-- Lines 341-344. -/
def ginv33 (c : EadmPt 𝔽) : 𝔽 := (gb11 c * gb22 c - gb12 c ^ 2) / (detgb c * f c)

/-- Lines 346-349. -/
def r2 (c : EadmPt 𝔽) : 𝔽 := x1 c ^ 2 + x2 c ^ 2 + x3 c ^ 2

/-- Lines 356-359. -/
def n1 (c : EadmPt 𝔽) : 𝔽 := x1 c / c.sqrt (r2 c)

/-- Lines 361-364. -/
def n2 (c : EadmPt 𝔽) : 𝔽 := x2 c / c.sqrt (r2 c)

/-- Lines 366-369. -/
def n3 (c : EadmPt 𝔽) : 𝔽 := x3 c / c.sqrt (r2 c)

/-- Lines 371-403. -/
def integrand_0 (c : EadmPt 𝔽) : 𝔽 :=
  detg c * (ginv22 c * (0 * ginv23 c * ((delg223 c + delg322 c) * n2 c + delg222 c * n3 c) + 1 / 16 * ginv33 c *
    ((-delg233 c + delg323 c) * n2 c + (delg223 c - delg322 c) * n3 c)) + ginv12 c * (0 * ginv22 c * (delg222 c *
    n1 c + (delg122 c + delg212 c) * n2 c) + ginv33 c * (1 / 16 * ((-delg233 c + delg323 c) * n1 c + (-delg133 c +
    delg313 c) * n2 c) + (1 / 16 * (delg123 c + delg213 c) - 1 / 8 * delg312 c) * n3 c) + ginv13 c * ((1 / 8 *
    delg123 c - 1 / 16 * (delg213 c + delg312 c)) * n1 c + 1 / 16 * ((-delg113 c + delg311 c) * n2 c + (-delg112 c +
    delg211 c) * n3 c)) + ginv23 c * ((1 / 8 * delg213 c - 1 / 16 * (delg123 c + delg312 c)) * n2 c + 1 / 16 *
    ((-delg223 c + delg322 c) * n1 c + (delg122 c - delg212 c) * n3 c))) + ginv13 c * (ginv23 c * (1 / 16 *
    ((delg233 c - delg323 c) * n1 c + (delg133 c - delg313 c) * n2 c) + ((-(1 / 16)) * (delg123 c + delg213 c) + 1 /
    8 * delg312 c) * n3 c) + 0 * ginv33 c * (delg333 c * n1 c + (delg133 c + delg313 c) * n3 c) + ginv22 c * (((-(1
    / 8)) * delg213 c + 1 / 16 * (delg123 c + delg312 c)) * n2 c + 1 / 16 * ((delg223 c - delg322 c) * n1 c +
    (-delg122 c + delg212 c) * n3 c))) + ginv11 c * (0 * (ginv12 c * ((delg112 c + delg211 c) * n1 c + delg111 c *
    n2 c) + ginv13 c * ((delg113 c + delg311 c) * n1 c + delg111 c * n3 c)) + ginv23 c * (((-(1 / 8)) * delg123 c +
    1 / 16 * (delg213 c + delg312 c)) * n1 c + 1 / 16 * ((delg113 c - delg311 c) * n2 c + (delg112 c - delg211 c) *
    n3 c)) + 1 / 16 * (ginv22 c * ((-delg122 c + delg212 c) * n1 c + (delg112 c - delg211 c) * n2 c) + ginv33 c *
    ((-delg133 c + delg313 c) * n1 c + (delg113 c - delg311 c) * n3 c))) + 1 / 16 * (((delg122 c - delg212 c) * n1 c
    + (-delg112 c + delg211 c) * n2 c) * ginv12 c ^ 2 + ((delg133 c - delg313 c) * n1 c + (-delg113 c + delg311 c) *
    n3 c) * ginv13 c ^ 2 + ((delg233 c - delg323 c) * n2 c + (-delg223 c + delg322 c) * n3 c) * ginv23 c ^ 2) + 0 *
    (ginv23 c * ginv33 c * (delg333 c * n2 c + (delg233 c + delg323 c) * n3 c) + delg111 c * n1 c * ginv11 c ^ 2 +
    delg222 c * n2 c * ginv22 c ^ 2 + delg333 c * n3 c * ginv33 c ^ 2)) / c.pi

/-- What is written to `Eadm` (lines 353-420). -/
def point [DecidableEq 𝔽] (c : EadmPt 𝔽) : 𝔽 := if r2 c ≠ 0 then integrand_0 c else 0

end Eadm

namespace Adm
variable {𝔽 : Type} [Field 𝔽]

/-- `ADMvars_detg` (utility.c:9-18). -/
def detgFun (g11 g12 g13 g22 g23 g33 : 𝔽) : 𝔽 :=
  let gginv11 := g22 * g33 - g23 * g23
  let gginv12 := g13 * g23 - g12 * g33
  let gginv13 := g12 * g23 - g13 * g22
  g11 * gginv11 + g12 * gginv12 + g13 * gginv13

/-- `ADMvars_invg` (utility.c:22-43): the components `i11, i12, i13, i22, i23, i33` and the value that is returned. -/
def invgFun (g11 g12 g13 g22 g23 g33 : 𝔽) : List 𝔽 × 𝔽 :=
  let gginv11 := g22 * g33 - g23 * g23
  let gginv12 := g13 * g23 - g12 * g33
  let gginv13 := g12 * g23 - g13 * g22
  let gginv22 := g11 * g33 - g13 * g13
  let gginv23 := g12 * g13 - g11 * g23
  let gginv33 := g11 * g22 - g12 * g12
  let detg := g11 * gginv11 + g12 * gginv12 + g13 * gginv13
  ([gginv11 / detg, gginv12 / detg, gginv13 / detg, gginv22 / detg, gginv23 / detg, gginv33 / detg], detg)

/-- `set_K_initial` at one point (utility.c:78-83): `g` and `K` are the six components. -/
def kInitial (g K : Nat → 𝔽) (psi : 𝔽) : 𝔽 :=
  let i := (invgFun (g 0) (g 1) (g 2) (g 3) (g 4) (g 5)).1
  (psi ^ 4)⁻¹ * (i.getD 0 0 * K 0 + i.getD 3 0 * K 3 + i.getD 5 0 * K 5 + 2 * (i.getD 1 0 * K 1 + i.getD 2 0 * K 2 + i.getD 4 0 * K 4))

/-- The variables that `ADMvars_undo_conformal_split` works on, at one point; `none`: no memory for `dpsiopsix`. -/
structure Split (K : Type) where
  g : Nat → K
  psi : K
  dpop : Option ((Nat → K) × (Nat → K))

/-- `ADMvars_undo_conformal_split` at one point (utility.c:105-122); the loop over `n` writes the components below 6, and below 3 and 6
of the derivatives. -/
def undoSplit (s : Split 𝔽) : Split 𝔽 where
  g := fun n => if n < 6 then s.g n * s.psi ^ 4 else s.g n
  psi := 1
  dpop := s.dpop.map fun d => (fun n => if n < 3 then 0 else d.1 n, fun n => if n < 6 then 0 else d.2 n)

end Adm
end Sgrid
