import Verif.Model.Basic
import Mathlib.Algebra.Order.Field.Basic

/-!
# The right hand sides of the Z4 equations

`Z4secondO_rhs` (src/physics/Z4secondO/Z4secondO_rhs.c:17-2043) at one point of one box, after the derivatives have been computed
(lines 479-521). The loops over boxes and points do the same everywhere, no point uses values of another point. The lines in the comments
are lines of this file. Each definition is one assignment of the C code; a name with `_0` is the first of two assignments to the same
variable, the second is the one that is used later; `_n` is the assignment without `addlinear`. Numbers are in a field. What is read
but not used (the derivatives of `psi`, the variables `B` of `ucur`, the second derivatives of `beta`, the parameters of the shift) is
left out.
-/

namespace Sgrid

/-- What the code reads at one point: the variables of the lists `ucur` and `upre` by their number, `psi` and the initial trace of
the extrinsic curvature, the components of the derivatives by their number (lines 53-283), and the parameters (lines 22-43). -/
structure Z4Args (K : Type) where
  cur : Nat → K
  pre : Nat → K
  psi : K
  K0 : K
  dg : Nat → K
  ddg : Nat → K
  dK : Nat → K
  dTheta : Nat → K
  dZ : Nat → K
  dalp : Nat → K
  ddalp : Nat → K
  dbeta : Nat → K
  dt : K
  (nonconstantlapse oploglapse withshift harmoniclapse subtractK0 : Bool)
  (RtoRminusHfactor kappa1 kappa2 lapsepsipower lapseharmonicf lapseharmonicm : K)
  pow : K → K → K

namespace Z4
variable {𝔽 : Type} [Field 𝔽]

/-- A flag in a product. -/
def b2 (b : Bool) : 𝔽 := if b then 1 else 0

/-- Line 52. -/
def K0 (c : Z4Args 𝔽) : 𝔽 := c.K0

/-- Line 53. -/
def psi (c : Z4Args 𝔽) : 𝔽 := c.psi

/-- Line 63. -/
def g11 (c : Z4Args 𝔽) : 𝔽 := c.cur 0

/-- Line 64. -/
def g12 (c : Z4Args 𝔽) : 𝔽 := c.cur 1

/-- Line 65. -/
def g13 (c : Z4Args 𝔽) : 𝔽 := c.cur 2

/-- Line 66. -/
def g22 (c : Z4Args 𝔽) : 𝔽 := c.cur 3

/-- Line 67. -/
def g23 (c : Z4Args 𝔽) : 𝔽 := c.cur 4

/-- Line 68. -/
def g33 (c : Z4Args 𝔽) : 𝔽 := c.cur 5

/-- Line 69. -/
def K11 (c : Z4Args 𝔽) : 𝔽 := c.cur 6

/-- Line 70. -/
def K12 (c : Z4Args 𝔽) : 𝔽 := c.cur 7

/-- Line 71. -/
def K13 (c : Z4Args 𝔽) : 𝔽 := c.cur 8

/-- Line 72. -/
def K22 (c : Z4Args 𝔽) : 𝔽 := c.cur 9

/-- Line 73. -/
def K23 (c : Z4Args 𝔽) : 𝔽 := c.cur 10

/-- Line 74. -/
def K33 (c : Z4Args 𝔽) : 𝔽 := c.cur 11

/-- Line 75. -/
def Theta (c : Z4Args 𝔽) : 𝔽 := c.cur 12

/-- Line 76. -/
def Z1 (c : Z4Args 𝔽) : 𝔽 := c.cur 13

/-- Line 77. -/
def Z2 (c : Z4Args 𝔽) : 𝔽 := c.cur 14

/-- Line 78. -/
def Z3 (c : Z4Args 𝔽) : 𝔽 := c.cur 15

/-- Line 79. -/
def alpha (c : Z4Args 𝔽) : 𝔽 := c.cur 16

/-- Line 80. -/
def beta1 (c : Z4Args 𝔽) : 𝔽 := c.cur 17

/-- Line 81. -/
def beta2 (c : Z4Args 𝔽) : 𝔽 := c.cur 18

/-- Line 82. -/
def beta3 (c : Z4Args 𝔽) : 𝔽 := c.cur 19

/-- Line 109. -/
def pg11 (c : Z4Args 𝔽) : 𝔽 := c.pre 0

/-- Line 110. -/
def pg12 (c : Z4Args 𝔽) : 𝔽 := c.pre 1

/-- Line 111. -/
def pg13 (c : Z4Args 𝔽) : 𝔽 := c.pre 2

/-- Line 112. -/
def pg22 (c : Z4Args 𝔽) : 𝔽 := c.pre 3

/-- Line 113. -/
def pg23 (c : Z4Args 𝔽) : 𝔽 := c.pre 4

/-- Line 114. -/
def pg33 (c : Z4Args 𝔽) : 𝔽 := c.pre 5

/-- Line 115. -/
def pK11 (c : Z4Args 𝔽) : 𝔽 := c.pre 6

/-- Line 116. -/
def pK12 (c : Z4Args 𝔽) : 𝔽 := c.pre 7

/-- Line 117. -/
def pK13 (c : Z4Args 𝔽) : 𝔽 := c.pre 8

/-- Line 118. -/
def pK22 (c : Z4Args 𝔽) : 𝔽 := c.pre 9

/-- Line 119. -/
def pK23 (c : Z4Args 𝔽) : 𝔽 := c.pre 10

/-- Line 120. -/
def pK33 (c : Z4Args 𝔽) : 𝔽 := c.pre 11

/-- Line 121. -/
def pTheta (c : Z4Args 𝔽) : 𝔽 := c.pre 12

/-- Line 122. -/
def pZ1 (c : Z4Args 𝔽) : 𝔽 := c.pre 13

/-- Line 123. -/
def pZ2 (c : Z4Args 𝔽) : 𝔽 := c.pre 14

/-- Line 124. -/
def pZ3 (c : Z4Args 𝔽) : 𝔽 := c.pre 15

/-- Line 125. -/
def palpha (c : Z4Args 𝔽) : 𝔽 := c.pre 16

/-- Line 126. -/
def pbeta1 (c : Z4Args 𝔽) : 𝔽 := c.pre 17

/-- Line 127. -/
def pbeta2 (c : Z4Args 𝔽) : 𝔽 := c.pre 18

/-- Line 128. -/
def pbeta3 (c : Z4Args 𝔽) : 𝔽 := c.pre 19

/-- Line 129. -/
def pB1 (c : Z4Args 𝔽) : 𝔽 := c.pre 20

/-- Line 130. -/
def pB2 (c : Z4Args 𝔽) : 𝔽 := c.pre 21

/-- Line 131. -/
def pB3 (c : Z4Args 𝔽) : 𝔽 := c.pre 22

/-- Line 156. -/
def dg111 (c : Z4Args 𝔽) : 𝔽 := c.dg 0

/-- Line 157. -/
def dg112 (c : Z4Args 𝔽) : 𝔽 := c.dg 1

/-- Line 158. -/
def dg113 (c : Z4Args 𝔽) : 𝔽 := c.dg 2

/-- Line 159. -/
def dg121 (c : Z4Args 𝔽) : 𝔽 := c.dg 3

/-- Line 160. -/
def dg122 (c : Z4Args 𝔽) : 𝔽 := c.dg 4

/-- Line 161. -/
def dg123 (c : Z4Args 𝔽) : 𝔽 := c.dg 5

/-- Line 162. -/
def dg131 (c : Z4Args 𝔽) : 𝔽 := c.dg 6

/-- Line 163. -/
def dg132 (c : Z4Args 𝔽) : 𝔽 := c.dg 7

/-- Line 164. -/
def dg133 (c : Z4Args 𝔽) : 𝔽 := c.dg 8

/-- Line 165. -/
def dg221 (c : Z4Args 𝔽) : 𝔽 := c.dg 9

/-- Line 166. -/
def dg222 (c : Z4Args 𝔽) : 𝔽 := c.dg 10

/-- Line 167. -/
def dg223 (c : Z4Args 𝔽) : 𝔽 := c.dg 11

/-- Line 168. -/
def dg231 (c : Z4Args 𝔽) : 𝔽 := c.dg 12

/-- Line 169. -/
def dg232 (c : Z4Args 𝔽) : 𝔽 := c.dg 13

/-- Line 170. -/
def dg233 (c : Z4Args 𝔽) : 𝔽 := c.dg 14

/-- Line 171. -/
def dg331 (c : Z4Args 𝔽) : 𝔽 := c.dg 15

/-- Line 172. -/
def dg332 (c : Z4Args 𝔽) : 𝔽 := c.dg 16

/-- Line 173. -/
def dg333 (c : Z4Args 𝔽) : 𝔽 := c.dg 17

/-- Line 175. -/
def ddg1111 (c : Z4Args 𝔽) : 𝔽 := c.ddg 0

/-- Line 176. -/
def ddg1112 (c : Z4Args 𝔽) : 𝔽 := c.ddg 1

/-- Line 177. -/
def ddg1113 (c : Z4Args 𝔽) : 𝔽 := c.ddg 2

/-- Line 178. -/
def ddg1122 (c : Z4Args 𝔽) : 𝔽 := c.ddg 3

/-- Line 179. -/
def ddg1123 (c : Z4Args 𝔽) : 𝔽 := c.ddg 4

/-- Line 180. -/
def ddg1133 (c : Z4Args 𝔽) : 𝔽 := c.ddg 5

/-- Line 181. -/
def ddg1211 (c : Z4Args 𝔽) : 𝔽 := c.ddg 6

/-- Line 182. -/
def ddg1212 (c : Z4Args 𝔽) : 𝔽 := c.ddg 7

/-- Line 183. -/
def ddg1213 (c : Z4Args 𝔽) : 𝔽 := c.ddg 8

/-- Line 184. -/
def ddg1222 (c : Z4Args 𝔽) : 𝔽 := c.ddg 9

/-- Line 185. -/
def ddg1223 (c : Z4Args 𝔽) : 𝔽 := c.ddg 10

/-- Line 186. -/
def ddg1233 (c : Z4Args 𝔽) : 𝔽 := c.ddg 11

/-- Line 187. -/
def ddg1311 (c : Z4Args 𝔽) : 𝔽 := c.ddg 12

/-- Line 188. -/
def ddg1312 (c : Z4Args 𝔽) : 𝔽 := c.ddg 13

/-- Line 189. -/
def ddg1313 (c : Z4Args 𝔽) : 𝔽 := c.ddg 14

/-- Line 190. -/
def ddg1322 (c : Z4Args 𝔽) : 𝔽 := c.ddg 15

/-- Line 191. -/
def ddg1323 (c : Z4Args 𝔽) : 𝔽 := c.ddg 16

/-- Line 192. -/
def ddg1333 (c : Z4Args 𝔽) : 𝔽 := c.ddg 17

/-- Line 193. -/
def ddg2211 (c : Z4Args 𝔽) : 𝔽 := c.ddg 18

/-- Line 194. -/
def ddg2212 (c : Z4Args 𝔽) : 𝔽 := c.ddg 19

/-- Line 195. -/
def ddg2213 (c : Z4Args 𝔽) : 𝔽 := c.ddg 20

/-- Line 196. -/
def ddg2222 (c : Z4Args 𝔽) : 𝔽 := c.ddg 21

/-- Line 197. -/
def ddg2223 (c : Z4Args 𝔽) : 𝔽 := c.ddg 22

/-- Line 198. -/
def ddg2233 (c : Z4Args 𝔽) : 𝔽 := c.ddg 23

/-- Line 199. -/
def ddg2311 (c : Z4Args 𝔽) : 𝔽 := c.ddg 24

/-- Line 200. -/
def ddg2312 (c : Z4Args 𝔽) : 𝔽 := c.ddg 25

/-- Line 201. -/
def ddg2313 (c : Z4Args 𝔽) : 𝔽 := c.ddg 26

/-- Line 202. -/
def ddg2322 (c : Z4Args 𝔽) : 𝔽 := c.ddg 27

/-- Line 203. -/
def ddg2323 (c : Z4Args 𝔽) : 𝔽 := c.ddg 28

/-- Line 204. -/
def ddg2333 (c : Z4Args 𝔽) : 𝔽 := c.ddg 29

/-- Line 205. -/
def ddg3311 (c : Z4Args 𝔽) : 𝔽 := c.ddg 30

/-- Line 206. -/
def ddg3312 (c : Z4Args 𝔽) : 𝔽 := c.ddg 31

/-- Line 207. -/
def ddg3313 (c : Z4Args 𝔽) : 𝔽 := c.ddg 32

/-- Line 208. -/
def ddg3322 (c : Z4Args 𝔽) : 𝔽 := c.ddg 33

/-- Line 209. -/
def ddg3323 (c : Z4Args 𝔽) : 𝔽 := c.ddg 34

/-- Line 210. -/
def ddg3333 (c : Z4Args 𝔽) : 𝔽 := c.ddg 35

/-- Line 212. -/
def dK111 (c : Z4Args 𝔽) : 𝔽 := c.dK 0

/-- Line 213. -/
def dK112 (c : Z4Args 𝔽) : 𝔽 := c.dK 1

/-- Line 214. -/
def dK113 (c : Z4Args 𝔽) : 𝔽 := c.dK 2

/-- Line 215. -/
def dK121 (c : Z4Args 𝔽) : 𝔽 := c.dK 3

/-- Line 216. -/
def dK122 (c : Z4Args 𝔽) : 𝔽 := c.dK 4

/-- Line 217. -/
def dK123 (c : Z4Args 𝔽) : 𝔽 := c.dK 5

/-- Line 218. -/
def dK131 (c : Z4Args 𝔽) : 𝔽 := c.dK 6

/-- Line 219. -/
def dK132 (c : Z4Args 𝔽) : 𝔽 := c.dK 7

/-- Line 220. -/
def dK133 (c : Z4Args 𝔽) : 𝔽 := c.dK 8

/-- Line 221. -/
def dK221 (c : Z4Args 𝔽) : 𝔽 := c.dK 9

/-- Line 222. -/
def dK222 (c : Z4Args 𝔽) : 𝔽 := c.dK 10

/-- Line 223. -/
def dK223 (c : Z4Args 𝔽) : 𝔽 := c.dK 11

/-- Line 224. -/
def dK231 (c : Z4Args 𝔽) : 𝔽 := c.dK 12

/-- Line 225. -/
def dK232 (c : Z4Args 𝔽) : 𝔽 := c.dK 13

/-- Line 226. -/
def dK233 (c : Z4Args 𝔽) : 𝔽 := c.dK 14

/-- Line 227. -/
def dK331 (c : Z4Args 𝔽) : 𝔽 := c.dK 15

/-- Line 228. -/
def dK332 (c : Z4Args 𝔽) : 𝔽 := c.dK 16

/-- Line 229. -/
def dK333 (c : Z4Args 𝔽) : 𝔽 := c.dK 17

/-- Line 231. -/
def dTheta1 (c : Z4Args 𝔽) : 𝔽 := c.dTheta 0

/-- Line 232. -/
def dTheta2 (c : Z4Args 𝔽) : 𝔽 := c.dTheta 1

/-- Line 233. -/
def dTheta3 (c : Z4Args 𝔽) : 𝔽 := c.dTheta 2

/-- Line 235. -/
def dZ11 (c : Z4Args 𝔽) : 𝔽 := c.dZ 0

/-- Line 236. -/
def dZ12 (c : Z4Args 𝔽) : 𝔽 := c.dZ 1

/-- Line 237. -/
def dZ13 (c : Z4Args 𝔽) : 𝔽 := c.dZ 2

/-- Line 238. -/
def dZ21 (c : Z4Args 𝔽) : 𝔽 := c.dZ 3

/-- Line 239. -/
def dZ22 (c : Z4Args 𝔽) : 𝔽 := c.dZ 4

/-- Line 240. -/
def dZ23 (c : Z4Args 𝔽) : 𝔽 := c.dZ 5

/-- Line 241. -/
def dZ31 (c : Z4Args 𝔽) : 𝔽 := c.dZ 6

/-- Line 242. -/
def dZ32 (c : Z4Args 𝔽) : 𝔽 := c.dZ 7

/-- Line 243. -/
def dZ33 (c : Z4Args 𝔽) : 𝔽 := c.dZ 8

/-- Line 245. -/
def dalp1 (c : Z4Args 𝔽) : 𝔽 := c.dalp 0

/-- Line 246. -/
def dalp2 (c : Z4Args 𝔽) : 𝔽 := c.dalp 1

/-- Line 247. -/
def dalp3 (c : Z4Args 𝔽) : 𝔽 := c.dalp 2

/-- Line 249. -/
def ddalp11 (c : Z4Args 𝔽) : 𝔽 := c.ddalp 0

/-- Line 250. -/
def ddalp12 (c : Z4Args 𝔽) : 𝔽 := c.ddalp 1

/-- Line 251. -/
def ddalp13 (c : Z4Args 𝔽) : 𝔽 := c.ddalp 2

/-- Line 252. -/
def ddalp22 (c : Z4Args 𝔽) : 𝔽 := c.ddalp 3

/-- Line 253. -/
def ddalp23 (c : Z4Args 𝔽) : 𝔽 := c.ddalp 4

/-- Line 254. -/
def ddalp33 (c : Z4Args 𝔽) : 𝔽 := c.ddalp 5

/-- Line 256. -/
def dbeta11 (c : Z4Args 𝔽) : 𝔽 := c.dbeta 0

/-- Line 257. -/
def dbeta12 (c : Z4Args 𝔽) : 𝔽 := c.dbeta 1

/-- Line 258. -/
def dbeta13 (c : Z4Args 𝔽) : 𝔽 := c.dbeta 2

/-- Line 259. -/
def dbeta21 (c : Z4Args 𝔽) : 𝔽 := c.dbeta 3

/-- Line 260. -/
def dbeta22 (c : Z4Args 𝔽) : 𝔽 := c.dbeta 4

/-- Line 261. -/
def dbeta23 (c : Z4Args 𝔽) : 𝔽 := c.dbeta 5

/-- Line 262. -/
def dbeta31 (c : Z4Args 𝔽) : 𝔽 := c.dbeta 6

/-- Line 263. -/
def dbeta32 (c : Z4Args 𝔽) : 𝔽 := c.dbeta 7

/-- Line 264. -/
def dbeta33 (c : Z4Args 𝔽) : 𝔽 := c.dbeta 8

/-- Lines 527-530. -/
def betadg11 (c : Z4Args 𝔽) : 𝔽 := beta1 c * dg111 c + beta2 c * dg112 c + beta3 c * dg113 c

/-- Lines 532-535. -/
def betadg12 (c : Z4Args 𝔽) : 𝔽 := beta1 c * dg121 c + beta2 c * dg122 c + beta3 c * dg123 c

/-- Lines 537-540. -/
def betadg13 (c : Z4Args 𝔽) : 𝔽 := beta1 c * dg131 c + beta2 c * dg132 c + beta3 c * dg133 c

/-- Lines 542-545. -/
def betadg21 (c : Z4Args 𝔽) : 𝔽 := beta1 c * dg121 c + beta2 c * dg122 c + beta3 c * dg123 c

/-- Lines 547-550. -/
def betadg22 (c : Z4Args 𝔽) : 𝔽 := beta1 c * dg221 c + beta2 c * dg222 c + beta3 c * dg223 c

/-- Lines 552-555. -/
def betadg23 (c : Z4Args 𝔽) : 𝔽 := beta1 c * dg231 c + beta2 c * dg232 c + beta3 c * dg233 c

/-- Lines 557-560. -/
def betadg31 (c : Z4Args 𝔽) : 𝔽 := beta1 c * dg131 c + beta2 c * dg132 c + beta3 c * dg133 c

/-- Lines 562-565. -/
def betadg32 (c : Z4Args 𝔽) : 𝔽 := beta1 c * dg231 c + beta2 c * dg232 c + beta3 c * dg233 c

/-- Lines 567-570. -/
def betadg33 (c : Z4Args 𝔽) : 𝔽 := beta1 c * dg331 c + beta2 c * dg332 c + beta3 c * dg333 c

/-- Lines 572-575. -/
def betadK11 (c : Z4Args 𝔽) : 𝔽 := beta1 c * dK111 c + beta2 c * dK112 c + beta3 c * dK113 c

/-- Lines 577-580. -/
def betadK12 (c : Z4Args 𝔽) : 𝔽 := beta1 c * dK121 c + beta2 c * dK122 c + beta3 c * dK123 c

/-- Lines 582-585. -/
def betadK13 (c : Z4Args 𝔽) : 𝔽 := beta1 c * dK131 c + beta2 c * dK132 c + beta3 c * dK133 c

/-- Lines 587-590. -/
def betadK21 (c : Z4Args 𝔽) : 𝔽 := beta1 c * dK121 c + beta2 c * dK122 c + beta3 c * dK123 c

/-- Lines 592-595. -/
def betadK22 (c : Z4Args 𝔽) : 𝔽 := beta1 c * dK221 c + beta2 c * dK222 c + beta3 c * dK223 c

/-- Lines 597-600. -/
def betadK23 (c : Z4Args 𝔽) : 𝔽 := beta1 c * dK231 c + beta2 c * dK232 c + beta3 c * dK233 c

/-- Lines 602-605. -/
def betadK31 (c : Z4Args 𝔽) : 𝔽 := beta1 c * dK131 c + beta2 c * dK132 c + beta3 c * dK133 c

/-- Lines 607-610. -/
def betadK32 (c : Z4Args 𝔽) : 𝔽 := beta1 c * dK231 c + beta2 c * dK232 c + beta3 c * dK233 c

/-- Lines 612-615. -/
def betadK33 (c : Z4Args 𝔽) : 𝔽 := beta1 c * dK331 c + beta2 c * dK332 c + beta3 c * dK333 c

/-- Lines 617-620. -/
def betadTheta (c : Z4Args 𝔽) : 𝔽 := beta1 c * dTheta1 c + beta2 c * dTheta2 c + beta3 c * dTheta3 c

/-- Lines 622-625. -/
def betadZ1 (c : Z4Args 𝔽) : 𝔽 := beta1 c * dZ11 c + beta2 c * dZ12 c + beta3 c * dZ13 c

/-- Lines 627-630. -/
def betadZ2 (c : Z4Args 𝔽) : 𝔽 := beta1 c * dZ21 c + beta2 c * dZ22 c + beta3 c * dZ23 c

/-- Lines 632-635. -/
def betadZ3 (c : Z4Args 𝔽) : 𝔽 := beta1 c * dZ31 c + beta2 c * dZ32 c + beta3 c * dZ33 c

/-- Lines 637-640. -/
def betadalp (c : Z4Args 𝔽) : 𝔽 := beta1 c * dalp1 c + beta2 c * dalp2 c + beta3 c * dalp3 c

/-- Lines 642-647. -/
def detginv (c : Z4Args 𝔽) : 𝔽 :=
  1 / (2 * g12 c * g13 c * g23 c + g11 c * g22 c * g33 c - g33 c * g12 c ^ 2 - g22 c * g13 c ^ 2 - g11 c * g23 c ^
    2)

/-- Lines 649-652. -/
def ginv11 (c : Z4Args 𝔽) : 𝔽 := detginv c * (g22 c * g33 c - g23 c ^ 2)

/-- Lines 654-657. -/
def ginv12 (c : Z4Args 𝔽) : 𝔽 := detginv c * (g13 c * g23 c - g12 c * g33 c)

/-- Lines 659-662. -/
def ginv13 (c : Z4Args 𝔽) : 𝔽 := detginv c * (-(g13 c * g22 c) + g12 c * g23 c)

/-- Lines 664-667. -/
def ginv22 (c : Z4Args 𝔽) : 𝔽 := detginv c * (g11 c * g33 c - g13 c ^ 2)

/-- Lines 669-672. -/
def ginv23 (c : Z4Args 𝔽) : 𝔽 := detginv c * (g12 c * g13 c - g11 c * g23 c)

/-- Lines 674-677. -/
def ginv33 (c : Z4Args 𝔽) : 𝔽 := detginv c * (g11 c * g22 c - g12 c ^ 2)

/-- Lines 679-682. -/
def gammado111 (c : Z4Args 𝔽) : 𝔽 := 1 / 2 * dg111 c

/-- Lines 684-687. -/
def gammado112 (c : Z4Args 𝔽) : 𝔽 := 1 / 2 * dg112 c

/-- Lines 689-692. -/
def gammado113 (c : Z4Args 𝔽) : 𝔽 := 1 / 2 * dg113 c

/-- Lines 694-697. -/
def gammado122 (c : Z4Args 𝔽) : 𝔽 := dg122 c - 1 / 2 * dg221 c

/-- Lines 699-702. -/
def gammado123 (c : Z4Args 𝔽) : 𝔽 := 1 / 2 * (dg123 c + dg132 c - dg231 c)

/-- Lines 704-707. -/
def gammado133 (c : Z4Args 𝔽) : 𝔽 := dg133 c - 1 / 2 * dg331 c

/-- Lines 709-712. -/
def gammado211 (c : Z4Args 𝔽) : 𝔽 := (-(1 / 2)) * dg112 c + dg121 c

/-- Lines 714-717. -/
def gammado212 (c : Z4Args 𝔽) : 𝔽 := 1 / 2 * dg221 c

/-- Lines 719-722. -/
def gammado213 (c : Z4Args 𝔽) : 𝔽 := 1 / 2 * (dg123 c - dg132 c + dg231 c)

/-- Lines 724-727. -/
def gammado222 (c : Z4Args 𝔽) : 𝔽 := 1 / 2 * dg222 c

/-- Lines 729-732. -/
def gammado223 (c : Z4Args 𝔽) : 𝔽 := 1 / 2 * dg223 c

/-- Lines 734-737. -/
def gammado233 (c : Z4Args 𝔽) : 𝔽 := dg233 c - 1 / 2 * dg332 c

/-- Lines 739-742. -/
def gammado311 (c : Z4Args 𝔽) : 𝔽 := (-(1 / 2)) * dg113 c + dg131 c

/-- Lines 744-747. -/
def gammado312 (c : Z4Args 𝔽) : 𝔽 := 1 / 2 * (-dg123 c + dg132 c + dg231 c)

/-- Lines 749-752. -/
def gammado313 (c : Z4Args 𝔽) : 𝔽 := 1 / 2 * dg331 c

/-- Lines 754-757. -/
def gammado322 (c : Z4Args 𝔽) : 𝔽 := (-(1 / 2)) * dg223 c + dg232 c

/-- Lines 759-762. -/
def gammado323 (c : Z4Args 𝔽) : 𝔽 := 1 / 2 * dg332 c

/-- Lines 764-767. -/
def gammado333 (c : Z4Args 𝔽) : 𝔽 := 1 / 2 * dg333 c

/-- Lines 769-772. -/
def gamma111 (c : Z4Args 𝔽) : 𝔽 := gammado111 c * ginv11 c + gammado211 c * ginv12 c + gammado311 c * ginv13 c

/-- Lines 774-777. -/
def gamma112 (c : Z4Args 𝔽) : 𝔽 := gammado112 c * ginv11 c + gammado212 c * ginv12 c + gammado312 c * ginv13 c

/-- Lines 779-782. -/
def gamma113 (c : Z4Args 𝔽) : 𝔽 := gammado113 c * ginv11 c + gammado213 c * ginv12 c + gammado313 c * ginv13 c

/-- Lines 784-787. -/
def gamma122 (c : Z4Args 𝔽) : 𝔽 := gammado122 c * ginv11 c + gammado222 c * ginv12 c + gammado322 c * ginv13 c

/-- Lines 789-792. -/
def gamma123 (c : Z4Args 𝔽) : 𝔽 := gammado123 c * ginv11 c + gammado223 c * ginv12 c + gammado323 c * ginv13 c

/-- Lines 794-797. -/
def gamma133 (c : Z4Args 𝔽) : 𝔽 := gammado133 c * ginv11 c + gammado233 c * ginv12 c + gammado333 c * ginv13 c

/-- Lines 799-802. -/
def gamma211 (c : Z4Args 𝔽) : 𝔽 := gammado111 c * ginv12 c + gammado211 c * ginv22 c + gammado311 c * ginv23 c

/-- Lines 804-807. -/
def gamma212 (c : Z4Args 𝔽) : 𝔽 := gammado112 c * ginv12 c + gammado212 c * ginv22 c + gammado312 c * ginv23 c

/-- Lines 809-812. -/
def gamma213 (c : Z4Args 𝔽) : 𝔽 := gammado113 c * ginv12 c + gammado213 c * ginv22 c + gammado313 c * ginv23 c

/-- Lines 814-817. -/
def gamma222 (c : Z4Args 𝔽) : 𝔽 := gammado122 c * ginv12 c + gammado222 c * ginv22 c + gammado322 c * ginv23 c

/-- Lines 819-822. -/
def gamma223 (c : Z4Args 𝔽) : 𝔽 := gammado123 c * ginv12 c + gammado223 c * ginv22 c + gammado323 c * ginv23 c

/-- Lines 824-827. -/
def gamma233 (c : Z4Args 𝔽) : 𝔽 := gammado133 c * ginv12 c + gammado233 c * ginv22 c + gammado333 c * ginv23 c

/-- Lines 829-832. -/
def gamma311 (c : Z4Args 𝔽) : 𝔽 := gammado111 c * ginv13 c + gammado211 c * ginv23 c + gammado311 c * ginv33 c

/-- Lines 834-837. -/
def gamma312 (c : Z4Args 𝔽) : 𝔽 := gammado112 c * ginv13 c + gammado212 c * ginv23 c + gammado312 c * ginv33 c

/-- Lines 839-842. -/
def gamma313 (c : Z4Args 𝔽) : 𝔽 := gammado113 c * ginv13 c + gammado213 c * ginv23 c + gammado313 c * ginv33 c

/-- Lines 844-847. -/
def gamma322 (c : Z4Args 𝔽) : 𝔽 := gammado122 c * ginv13 c + gammado222 c * ginv23 c + gammado322 c * ginv33 c

/-- Lines 849-852. -/
def gamma323 (c : Z4Args 𝔽) : 𝔽 := gammado123 c * ginv13 c + gammado223 c * ginv23 c + gammado323 c * ginv33 c

/-- Lines 854-857. -/
def gamma333 (c : Z4Args 𝔽) : 𝔽 := gammado133 c * ginv13 c + gammado233 c * ginv23 c + gammado333 c * ginv33 c

/-- Lines 859-875. -/
def R11 (c : Z4Args 𝔽) : 𝔽 :=
  (gamma112 c * gammado111 c - gamma111 c * gammado112 c + gamma212 c * gammado211 c - gamma211 c * gammado212 c +
    gamma312 c * gammado311 c - gamma311 c * gammado312 c) * ginv12 c + (gamma113 c * gammado111 c - gamma111 c *
    gammado113 c + gamma213 c * gammado211 c - gamma211 c * gammado213 c + gamma313 c * gammado311 c - gamma311 c *
    gammado313 c) * ginv13 c + ginv22 c * (gamma112 c * gammado112 c - gamma111 c * gammado122 c + gamma212 c *
    gammado212 c - gamma211 c * gammado222 c + gamma312 c * gammado312 c - gamma311 c * gammado322 c + ddg1212 c + 1
    / 2 * (-ddg1122 c - ddg2211 c)) + ginv23 c * (gamma113 c * gammado112 c + gamma112 c * gammado113 c + gamma213 c
    * gammado212 c + gamma212 c * gammado213 c + gamma313 c * gammado312 c + gamma312 c * gammado313 c - 2 *
    (gamma111 c * gammado123 c + gamma211 c * gammado223 c + gamma311 c * gammado323 c) - ddg1123 c + ddg1213 c +
    ddg1312 c - ddg2311 c) + ginv33 c * (gamma113 c * gammado113 c - gamma111 c * gammado133 c + gamma213 c *
    gammado213 c - gamma211 c * gammado233 c + gamma313 c * gammado313 c - gamma311 c * gammado333 c + ddg1313 c + 1
    / 2 * (-ddg1133 c - ddg3311 c))

/-- Lines 877-894. -/
def R12_0 (c : Z4Args 𝔽) : 𝔽 :=
  (gamma122 c * gammado112 c - gamma112 c * gammado122 c + gamma222 c * gammado212 c - gamma212 c * gammado222 c +
    gamma322 c * gammado312 c - gamma312 c * gammado322 c) * ginv22 c + ginv12 c * (gamma122 c * gammado111 c -
    gamma112 c * gammado112 c + gamma222 c * gammado211 c - gamma212 c * gammado212 c + gamma322 c * gammado311 c -
    gamma312 c * gammado312 c - ddg1212 c + 1 / 2 * (ddg1122 c + ddg2211 c)) + ginv13 c * (gamma123 c * gammado111 c
    - gamma112 c * gammado113 c + gamma223 c * gammado211 c - gamma212 c * gammado213 c + gamma323 c * gammado311 c
    - gamma312 c * gammado313 c - 1 / 2 * ddg1213 c + 1 / 2 * (ddg1123 c - ddg1312 c + ddg2311 c)) + ginv23 c *
    (gamma123 c * gammado112 c + gamma122 c * gammado113 c + gamma223 c * gammado212 c + gamma222 c * gammado213 c +
    gamma323 c * gammado312 c + gamma322 c * gammado313 c - 2 * (gamma112 c * gammado123 c + gamma212 c *
    gammado223 c + gamma312 c * gammado323 c) + 1 / 2 * (-ddg1223 c + ddg1322 c + ddg2213 c - ddg2312 c)) + ginv33 c
    * (gamma123 c * gammado113 c - gamma112 c * gammado133 c + gamma223 c * gammado213 c - gamma212 c * gammado233 c
    + gamma323 c * gammado313 c - gamma312 c * gammado333 c + 1 / 2 * (ddg1323 c + ddg2313 c) + 1 / 2 * (-ddg1233 c
    - ddg3312 c))

/-- Lines 896-914. -/
def R12 (c : Z4Args 𝔽) : 𝔽 :=
  (-(gamma112 c * gammado111 c) + gamma111 c * gammado112 c - gamma212 c * gammado211 c + gamma211 c *
    gammado212 c - gamma312 c * gammado311 c + gamma311 c * gammado312 c) * ginv11 c + ginv12 c * (-(gamma112 c *
    gammado112 c) + gamma111 c * gammado122 c - gamma212 c * gammado212 c + gamma211 c * gammado222 c - gamma312 c *
    gammado312 c + gamma311 c * gammado322 c - ddg1212 c + 1 / 2 * (ddg1122 c + ddg2211 c)) + ginv13 c * (gamma113 c
    * gammado112 c + gamma111 c * gammado123 c + gamma213 c * gammado212 c + gamma211 c * gammado223 c + gamma313 c
    * gammado312 c - 2 * (gamma112 c * gammado113 c + gamma212 c * gammado213 c + gamma312 c * gammado313 c) +
    gamma311 c * gammado323 c + 1 / 2 * (ddg1123 c - ddg1213 c - ddg1312 c + ddg2311 c)) + ginv23 c * (gamma113 c *
    gammado122 c - gamma112 c * gammado123 c + gamma213 c * gammado222 c - gamma212 c * gammado223 c + gamma313 c *
    gammado322 c - gamma312 c * gammado323 c + 1 / 2 * (ddg1322 c + ddg2213 c) + 1 / 2 * (-ddg1223 c - ddg2312 c)) +
    ginv33 c * (gamma113 c * gammado123 c - gamma112 c * gammado133 c + gamma213 c * gammado223 c - gamma212 c *
    gammado233 c + gamma313 c * gammado323 c - gamma312 c * gammado333 c + 1 / 2 * (ddg1323 c + ddg2313 c) + 1 / 2 *
    (-ddg1233 c - ddg3312 c))

/-- Lines 916-935. -/
def R13_0 (c : Z4Args 𝔽) : 𝔽 :=
  (-(gamma113 c * gammado111 c) + gamma111 c * gammado113 c - gamma213 c * gammado211 c + gamma211 c *
    gammado213 c - gamma313 c * gammado311 c + gamma311 c * gammado313 c) * ginv11 c + ginv12 c * (gamma112 c *
    gammado113 c + gamma111 c * gammado123 c + gamma212 c * gammado213 c + gamma211 c * gammado223 c - 2 *
    (gamma113 c * gammado112 c + gamma213 c * gammado212 c + gamma313 c * gammado312 c) + gamma312 c * gammado313 c
    + gamma311 c * gammado323 c + 1 / 2 * (ddg1123 c - ddg1213 c - ddg1312 c + ddg2311 c)) + ginv22 c *
    (-(gamma113 c * gammado122 c) + gamma112 c * gammado123 c - gamma213 c * gammado222 c + gamma212 c *
    gammado223 c - gamma313 c * gammado322 c + gamma312 c * gammado323 c - 1 / 2 * ddg1322 c + 1 / 2 * (ddg1223 c -
    ddg2213 c + ddg2312 c)) + ginv13 c * (-(gamma113 c * gammado113 c) + gamma111 c * gammado133 c - gamma213 c *
    gammado213 c + gamma211 c * gammado233 c - gamma313 c * gammado313 c + gamma311 c * gammado333 c - ddg1313 c + 1
    / 2 * (ddg1133 c + ddg3311 c)) + ginv23 c * (-(gamma113 c * gammado123 c) + gamma112 c * gammado133 c -
    gamma213 c * gammado223 c + gamma212 c * gammado233 c - gamma313 c * gammado323 c + gamma312 c * gammado333 c -
    1 / 2 * ddg1323 c + 1 / 2 * (ddg1233 c - ddg2313 c + ddg3312 c))

/-- Lines 937-954. -/
def R13 (c : Z4Args 𝔽) : 𝔽 :=
  (gamma133 c * gammado113 c - gamma113 c * gammado133 c + gamma233 c * gammado213 c - gamma213 c * gammado233 c +
    gamma333 c * gammado313 c - gamma313 c * gammado333 c) * ginv33 c + ginv12 c * (gamma123 c * gammado111 c -
    gamma113 c * gammado112 c + gamma223 c * gammado211 c - gamma213 c * gammado212 c + gamma323 c * gammado311 c -
    gamma313 c * gammado312 c - 1 / 2 * ddg1213 c + 1 / 2 * (ddg1123 c - ddg1312 c + ddg2311 c)) + ginv22 c *
    (gamma123 c * gammado112 c - gamma113 c * gammado122 c + gamma223 c * gammado212 c - gamma213 c * gammado222 c +
    gamma323 c * gammado312 c - gamma313 c * gammado322 c - 1 / 2 * ddg1322 c + 1 / 2 * (ddg1223 c - ddg2213 c +
    ddg2312 c)) + ginv13 c * (gamma133 c * gammado111 c - gamma113 c * gammado113 c + gamma233 c * gammado211 c -
    gamma213 c * gammado213 c + gamma333 c * gammado311 c - gamma313 c * gammado313 c - ddg1313 c + 1 / 2 *
    (ddg1133 c + ddg3311 c)) + ginv23 c * (gamma133 c * gammado112 c + gamma123 c * gammado113 c + gamma233 c *
    gammado212 c + gamma223 c * gammado213 c + gamma333 c * gammado312 c + gamma323 c * gammado313 c - 2 *
    (gamma113 c * gammado123 c + gamma213 c * gammado223 c + gamma313 c * gammado323 c) + 1 / 2 * (ddg1233 c -
    ddg1323 c - ddg2313 c + ddg3312 c))

/-- Lines 956-972. -/
def R22 (c : Z4Args 𝔽) : 𝔽 :=
  (-(gamma122 c * gammado112 c) + gamma112 c * gammado122 c - gamma222 c * gammado212 c + gamma212 c *
    gammado222 c - gamma322 c * gammado312 c + gamma312 c * gammado322 c) * ginv12 c + (gamma123 c * gammado122 c -
    gamma122 c * gammado123 c + gamma223 c * gammado222 c - gamma222 c * gammado223 c + gamma323 c * gammado322 c -
    gamma322 c * gammado323 c) * ginv23 c + ginv11 c * (-(gamma122 c * gammado111 c) + gamma112 c * gammado112 c -
    gamma222 c * gammado211 c + gamma212 c * gammado212 c - gamma322 c * gammado311 c + gamma312 c * gammado312 c +
    ddg1212 c + 1 / 2 * (-ddg1122 c - ddg2211 c)) + ginv13 c * (gamma123 c * gammado112 c + gamma112 c *
    gammado123 c + gamma223 c * gammado212 c + gamma212 c * gammado223 c + gamma323 c * gammado312 c - 2 *
    (gamma122 c * gammado113 c + gamma222 c * gammado213 c + gamma322 c * gammado313 c) + gamma312 c * gammado323 c
    + ddg1223 c - ddg1322 c - ddg2213 c + ddg2312 c) + ginv33 c * (gamma123 c * gammado123 c - gamma122 c *
    gammado133 c + gamma223 c * gammado223 c - gamma222 c * gammado233 c + gamma323 c * gammado323 c - gamma322 c *
    gammado333 c + ddg2323 c + 1 / 2 * (-ddg2233 c - ddg3322 c))

/-- Lines 974-993. -/
def R23_0 (c : Z4Args 𝔽) : 𝔽 :=
  (-(gamma123 c * gammado122 c) + gamma122 c * gammado123 c - gamma223 c * gammado222 c + gamma222 c *
    gammado223 c - gamma323 c * gammado322 c + gamma322 c * gammado323 c) * ginv22 c + ginv11 c * (-(gamma123 c *
    gammado111 c) + gamma112 c * gammado113 c - gamma223 c * gammado211 c + gamma212 c * gammado213 c - gamma323 c *
    gammado311 c + gamma312 c * gammado313 c + 1 / 2 * (ddg1213 c + ddg1312 c) + 1 / 2 * (-ddg1123 c - ddg2311 c)) +
    ginv12 c * (gamma122 c * gammado113 c + gamma112 c * gammado123 c + gamma222 c * gammado213 c + gamma212 c *
    gammado223 c - 2 * (gamma123 c * gammado112 c + gamma223 c * gammado212 c + gamma323 c * gammado312 c) +
    gamma322 c * gammado313 c + gamma312 c * gammado323 c + 1 / 2 * (-ddg1223 c + ddg1322 c + ddg2213 c -
    ddg2312 c)) + ginv13 c * (-(gamma123 c * gammado113 c) + gamma112 c * gammado133 c - gamma223 c * gammado213 c +
    gamma212 c * gammado233 c - gamma323 c * gammado313 c + gamma312 c * gammado333 c - 1 / 2 * ddg1323 c + 1 / 2 *
    (ddg1233 c - ddg2313 c + ddg3312 c)) + ginv23 c * (-(gamma123 c * gammado123 c) + gamma122 c * gammado133 c -
    gamma223 c * gammado223 c + gamma222 c * gammado233 c - gamma323 c * gammado323 c + gamma322 c * gammado333 c -
    ddg2323 c + 1 / 2 * (ddg2233 c + ddg3322 c))

/-- Lines 995-1015. -/
def R23 (c : Z4Args 𝔽) : 𝔽 :=
  (gamma133 c * gammado123 c - gamma123 c * gammado133 c + gamma233 c * gammado223 c - gamma223 c * gammado233 c +
    gamma333 c * gammado323 c - gamma323 c * gammado333 c) * ginv33 c + ginv11 c * (-(gamma123 c * gammado111 c) +
    gamma113 c * gammado112 c - gamma223 c * gammado211 c + gamma213 c * gammado212 c - gamma323 c * gammado311 c +
    gamma313 c * gammado312 c + 1 / 2 * (ddg1213 c + ddg1312 c) + 1 / 2 * (-ddg1123 c - ddg2311 c)) + ginv12 c *
    (-(gamma123 c * gammado112 c) + gamma113 c * gammado122 c - gamma223 c * gammado212 c + gamma213 c *
    gammado222 c - gamma323 c * gammado312 c + gamma313 c * gammado322 c + 1 / 2 * (ddg1322 c + ddg2213 c) + 1 / 2 *
    (-ddg1223 c - ddg2312 c)) + ginv13 c * (gamma133 c * gammado112 c + gamma113 c * gammado123 c + gamma233 c *
    gammado212 c + gamma213 c * gammado223 c + gamma333 c * gammado312 c - 2 * (gamma123 c * gammado113 c +
    gamma223 c * gammado213 c + gamma323 c * gammado313 c) + gamma313 c * gammado323 c + 1 / 2 * (ddg1233 c -
    ddg1323 c - ddg2313 c + ddg3312 c)) + ginv23 c * (gamma133 c * gammado122 c - gamma123 c * gammado123 c +
    gamma233 c * gammado222 c - gamma223 c * gammado223 c + gamma333 c * gammado322 c - gamma323 c * gammado323 c -
    ddg2323 c + 1 / 2 * (ddg2233 c + ddg3322 c))

/-- Lines 1017-1034. -/
def R33 (c : Z4Args 𝔽) : 𝔽 :=
  (-(gamma133 c * gammado113 c) + gamma113 c * gammado133 c - gamma233 c * gammado213 c + gamma213 c *
    gammado233 c - gamma333 c * gammado313 c + gamma313 c * gammado333 c) * ginv13 c + (-(gamma133 c * gammado123 c)
    + gamma123 c * gammado133 c - gamma233 c * gammado223 c + gamma223 c * gammado233 c - gamma333 c * gammado323 c
    + gamma323 c * gammado333 c) * ginv23 c + ginv11 c * (-(gamma133 c * gammado111 c) + gamma113 c * gammado113 c -
    gamma233 c * gammado211 c + gamma213 c * gammado213 c - gamma333 c * gammado311 c + gamma313 c * gammado313 c +
    ddg1313 c + 1 / 2 * (-ddg1133 c - ddg3311 c)) + ginv12 c * (gamma123 c * gammado113 c + gamma113 c *
    gammado123 c + gamma223 c * gammado213 c + gamma213 c * gammado223 c - 2 * (gamma133 c * gammado112 c +
    gamma233 c * gammado212 c + gamma333 c * gammado312 c) + gamma323 c * gammado313 c + gamma313 c * gammado323 c -
    ddg1233 c + ddg1323 c + ddg2313 c - ddg3312 c) + ginv22 c * (-(gamma133 c * gammado122 c) + gamma123 c *
    gammado123 c - gamma233 c * gammado222 c + gamma223 c * gammado223 c - gamma333 c * gammado322 c + gamma323 c *
    gammado323 c + ddg2323 c + 1 / 2 * (-ddg2233 c - ddg3322 c))

/-- Lines 1036-1040. -/
def R_0 (c : Z4Args 𝔽) : 𝔽 :=
  ginv11 c * R11 c + ginv22 c * R22 c + 2 * (ginv12 c * R12 c + ginv13 c * R13 c + ginv23 c * R23 c) + ginv33 c *
    R33 c

/-- Lines 1042-1047. -/
def KK11 (c : Z4Args 𝔽) : 𝔽 :=
  2 * (ginv23 c * K12 c * K13 c + K11 c * (ginv12 c * K12 c + ginv13 c * K13 c)) + ginv11 c * K11 c ^ 2 + ginv22 c
    * K12 c ^ 2 + ginv33 c * K13 c ^ 2

/-- Lines 1049-1055. -/
def KK12 (c : Z4Args 𝔽) : 𝔽 :=
  K12 c * (ginv11 c * K11 c + ginv22 c * K22 c) + ginv33 c * K13 c * K23 c + ginv13 c * (K12 c * K13 c + K11 c *
    K23 c) + ginv23 c * (K13 c * K22 c + K12 c * K23 c) + ginv12 c * (K11 c * K22 c + K12 c ^ 2)

/-- Lines 1057-1063. -/
def KK13 (c : Z4Args 𝔽) : 𝔽 :=
  ginv22 c * K12 c * K23 c + ginv12 c * (K12 c * K13 c + K11 c * K23 c) + K13 c * (ginv11 c * K11 c + ginv33 c *
    K33 c) + ginv23 c * (K13 c * K23 c + K12 c * K33 c) + ginv13 c * (K11 c * K33 c + K13 c ^ 2)

/-- Lines 1065-1070. -/
def KK22 (c : Z4Args 𝔽) : 𝔽 :=
  2 * (ginv23 c * K22 c * K23 c + K12 c * (ginv12 c * K22 c + ginv13 c * K23 c)) + ginv11 c * K12 c ^ 2 + ginv22 c
    * K22 c ^ 2 + ginv33 c * K23 c ^ 2

/-- Lines 1072-1078. -/
def KK23 (c : Z4Args 𝔽) : 𝔽 :=
  ginv11 c * K12 c * K13 c + ginv12 c * (K13 c * K22 c + K12 c * K23 c) + K23 c * (ginv22 c * K22 c + ginv33 c *
    K33 c) + ginv13 c * (K13 c * K23 c + K12 c * K33 c) + ginv23 c * (K22 c * K33 c + K23 c ^ 2)

/-- Lines 1080-1085. -/
def KK33 (c : Z4Args 𝔽) : 𝔽 :=
  2 * (ginv23 c * K23 c * K33 c + K13 c * (ginv12 c * K23 c + ginv13 c * K33 c)) + ginv11 c * K13 c ^ 2 + ginv22 c
    * K23 c ^ 2 + ginv33 c * K33 c ^ 2

/-- Lines 1087-1091. -/
def trK (c : Z4Args 𝔽) : 𝔽 :=
  ginv11 c * K11 c + ginv22 c * K22 c + 2 * (ginv12 c * K12 c + ginv13 c * K13 c + ginv23 c * K23 c) + ginv33 c *
    K33 c

/-- Lines 1093-1097. -/
def trKK (c : Z4Args 𝔽) : 𝔽 :=
  ginv11 c * KK11 c + ginv22 c * KK22 c + 2 * (ginv12 c * KK12 c + ginv13 c * KK13 c + ginv23 c * KK23 c) +
    ginv33 c * KK33 c

/-- Lines 1099-1102. -/
def hamil (c : Z4Args 𝔽) : 𝔽 := R_0 c - trKK c + trK c ^ 2

/-- Lines 1104-1107. -/
def R (c : Z4Args 𝔽) : 𝔽 := R_0 c - hamil c * c.RtoRminusHfactor

/-- Lines 1109-1114. -/
def dginv111 (c : Z4Args 𝔽) : 𝔽 :=
  (-2) * (ginv11 c * (ginv12 c * dg121 c + ginv13 c * dg131 c) + ginv12 c * ginv13 c * dg231 c) - dg111 c *
    ginv11 c ^ 2 - dg221 c * ginv12 c ^ 2 - dg331 c * ginv13 c ^ 2

/-- Lines 1116-1121. -/
def dginv112 (c : Z4Args 𝔽) : 𝔽 :=
  (-2) * (ginv11 c * (ginv12 c * dg122 c + ginv13 c * dg132 c) + ginv12 c * ginv13 c * dg232 c) - dg112 c *
    ginv11 c ^ 2 - dg222 c * ginv12 c ^ 2 - dg332 c * ginv13 c ^ 2

/-- Lines 1123-1128. -/
def dginv113 (c : Z4Args 𝔽) : 𝔽 :=
  (-2) * (ginv11 c * (ginv12 c * dg123 c + ginv13 c * dg133 c) + ginv12 c * ginv13 c * dg233 c) - dg113 c *
    ginv11 c ^ 2 - dg223 c * ginv12 c ^ 2 - dg333 c * ginv13 c ^ 2

/-- Lines 1130-1135. -/
def dginv121 (c : Z4Args 𝔽) : 𝔽 :=
  -(ginv11 c * (ginv12 c * dg111 c + ginv22 c * dg121 c + ginv23 c * dg131 c)) - ginv12 c * (ginv13 c * dg131 c +
    ginv22 c * dg221 c + ginv23 c * dg231 c) - ginv13 c * (ginv22 c * dg231 c + ginv23 c * dg331 c) - dg121 c *
    ginv12 c ^ 2

/-- Lines 1137-1142. -/
def dginv122 (c : Z4Args 𝔽) : 𝔽 :=
  -(ginv11 c * (ginv12 c * dg112 c + ginv22 c * dg122 c + ginv23 c * dg132 c)) - ginv12 c * (ginv13 c * dg132 c +
    ginv22 c * dg222 c + ginv23 c * dg232 c) - ginv13 c * (ginv22 c * dg232 c + ginv23 c * dg332 c) - dg122 c *
    ginv12 c ^ 2

/-- Lines 1144-1149. -/
def dginv123 (c : Z4Args 𝔽) : 𝔽 :=
  -(ginv11 c * (ginv12 c * dg113 c + ginv22 c * dg123 c + ginv23 c * dg133 c)) - ginv12 c * (ginv13 c * dg133 c +
    ginv22 c * dg223 c + ginv23 c * dg233 c) - ginv13 c * (ginv22 c * dg233 c + ginv23 c * dg333 c) - dg123 c *
    ginv12 c ^ 2

/-- Lines 1151-1156. -/
def dginv131 (c : Z4Args 𝔽) : 𝔽 :=
  -(ginv11 c * (ginv13 c * dg111 c + ginv23 c * dg121 c + ginv33 c * dg131 c)) - ginv12 c * (ginv13 c * dg121 c +
    ginv23 c * dg221 c + ginv33 c * dg231 c) - ginv13 c * (ginv23 c * dg231 c + ginv33 c * dg331 c) - dg131 c *
    ginv13 c ^ 2

/-- Lines 1158-1163. -/
def dginv132 (c : Z4Args 𝔽) : 𝔽 :=
  -(ginv11 c * (ginv13 c * dg112 c + ginv23 c * dg122 c + ginv33 c * dg132 c)) - ginv12 c * (ginv13 c * dg122 c +
    ginv23 c * dg222 c + ginv33 c * dg232 c) - ginv13 c * (ginv23 c * dg232 c + ginv33 c * dg332 c) - dg132 c *
    ginv13 c ^ 2

/-- Lines 1165-1170. -/
def dginv133 (c : Z4Args 𝔽) : 𝔽 :=
  -(ginv11 c * (ginv13 c * dg113 c + ginv23 c * dg123 c + ginv33 c * dg133 c)) - ginv12 c * (ginv13 c * dg123 c +
    ginv23 c * dg223 c + ginv33 c * dg233 c) - ginv13 c * (ginv23 c * dg233 c + ginv33 c * dg333 c) - dg133 c *
    ginv13 c ^ 2

/-- Lines 1172-1177. -/
def dginv221 (c : Z4Args 𝔽) : 𝔽 :=
  (-2) * (ginv12 c * (ginv22 c * dg121 c + ginv23 c * dg131 c) + ginv22 c * ginv23 c * dg231 c) - dg111 c *
    ginv12 c ^ 2 - dg221 c * ginv22 c ^ 2 - dg331 c * ginv23 c ^ 2

/-- Lines 1179-1184. -/
def dginv222 (c : Z4Args 𝔽) : 𝔽 :=
  (-2) * (ginv12 c * (ginv22 c * dg122 c + ginv23 c * dg132 c) + ginv22 c * ginv23 c * dg232 c) - dg112 c *
    ginv12 c ^ 2 - dg222 c * ginv22 c ^ 2 - dg332 c * ginv23 c ^ 2

/-- Lines 1186-1191. -/
def dginv223 (c : Z4Args 𝔽) : 𝔽 :=
  (-2) * (ginv12 c * (ginv22 c * dg123 c + ginv23 c * dg133 c) + ginv22 c * ginv23 c * dg233 c) - dg113 c *
    ginv12 c ^ 2 - dg223 c * ginv22 c ^ 2 - dg333 c * ginv23 c ^ 2

/-- Lines 1193-1199. -/
def dginv231 (c : Z4Args 𝔽) : 𝔽 :=
  -(ginv13 c * (ginv22 c * dg121 c + ginv23 c * dg131 c)) - ginv12 c * (ginv13 c * dg111 c + ginv23 c * dg121 c +
    ginv33 c * dg131 c) - ginv22 c * (ginv23 c * dg221 c + ginv33 c * dg231 c) - ginv23 c * ginv33 c * dg331 c -
    dg231 c * ginv23 c ^ 2

/-- Lines 1201-1207. -/
def dginv232 (c : Z4Args 𝔽) : 𝔽 :=
  -(ginv13 c * (ginv22 c * dg122 c + ginv23 c * dg132 c)) - ginv12 c * (ginv13 c * dg112 c + ginv23 c * dg122 c +
    ginv33 c * dg132 c) - ginv22 c * (ginv23 c * dg222 c + ginv33 c * dg232 c) - ginv23 c * ginv33 c * dg332 c -
    dg232 c * ginv23 c ^ 2

/-- Lines 1209-1215. -/
def dginv233 (c : Z4Args 𝔽) : 𝔽 :=
  -(ginv13 c * (ginv22 c * dg123 c + ginv23 c * dg133 c)) - ginv12 c * (ginv13 c * dg113 c + ginv23 c * dg123 c +
    ginv33 c * dg133 c) - ginv22 c * (ginv23 c * dg223 c + ginv33 c * dg233 c) - ginv23 c * ginv33 c * dg333 c -
    dg233 c * ginv23 c ^ 2

/-- Lines 1217-1222. -/
def dginv331 (c : Z4Args 𝔽) : 𝔽 :=
  (-2) * (ginv13 c * (ginv23 c * dg121 c + ginv33 c * dg131 c) + ginv23 c * ginv33 c * dg231 c) - dg111 c *
    ginv13 c ^ 2 - dg221 c * ginv23 c ^ 2 - dg331 c * ginv33 c ^ 2

/-- Lines 1224-1229. -/
def dginv332 (c : Z4Args 𝔽) : 𝔽 :=
  (-2) * (ginv13 c * (ginv23 c * dg122 c + ginv33 c * dg132 c) + ginv23 c * ginv33 c * dg232 c) - dg112 c *
    ginv13 c ^ 2 - dg222 c * ginv23 c ^ 2 - dg332 c * ginv33 c ^ 2

/-- Lines 1231-1236. -/
def dginv333 (c : Z4Args 𝔽) : 𝔽 :=
  (-2) * (ginv13 c * (ginv23 c * dg123 c + ginv33 c * dg133 c) + ginv23 c * ginv33 c * dg233 c) - dg113 c *
    ginv13 c ^ 2 - dg223 c * ginv23 c ^ 2 - dg333 c * ginv33 c ^ 2

/-- Lines 1238-1245. -/
def dtrK1 (c : Z4Args 𝔽) : 𝔽 :=
  ginv11 c * dK111 c + ginv22 c * dK221 c + ginv33 c * dK331 c + dginv111 c * K11 c + dginv221 c * K22 c + 2 *
    (ginv12 c * dK121 c + ginv13 c * dK131 c + ginv23 c * dK231 c + dginv121 c * K12 c + dginv131 c * K13 c +
    dginv231 c * K23 c) + dginv331 c * K33 c

/-- Lines 1247-1254. -/
def dtrK2 (c : Z4Args 𝔽) : 𝔽 :=
  ginv11 c * dK112 c + ginv22 c * dK222 c + ginv33 c * dK332 c + dginv112 c * K11 c + dginv222 c * K22 c + 2 *
    (ginv12 c * dK122 c + ginv13 c * dK132 c + ginv23 c * dK232 c + dginv122 c * K12 c + dginv132 c * K13 c +
    dginv232 c * K23 c) + dginv332 c * K33 c

/-- Lines 1256-1263. -/
def dtrK3 (c : Z4Args 𝔽) : 𝔽 :=
  ginv11 c * dK113 c + ginv22 c * dK223 c + ginv33 c * dK333 c + dginv113 c * K11 c + dginv223 c * K22 c + 2 *
    (ginv12 c * dK123 c + ginv13 c * dK133 c + ginv23 c * dK233 c + dginv123 c * K12 c + dginv133 c * K13 c +
    dginv233 c * K23 c) + dginv333 c * K33 c

/-- Lines 1265-1269. -/
def cddalp11 (c : Z4Args 𝔽) : 𝔽 :=
  -(gamma111 c * dalp1 c) - gamma211 c * dalp2 c - gamma311 c * dalp3 c + ddalp11 c

/-- Lines 1271-1275. -/
def cddalp12 (c : Z4Args 𝔽) : 𝔽 :=
  -(gamma112 c * dalp1 c) - gamma212 c * dalp2 c - gamma312 c * dalp3 c + ddalp12 c

/-- Lines 1277-1281. -/
def cddalp13 (c : Z4Args 𝔽) : 𝔽 :=
  -(gamma113 c * dalp1 c) - gamma213 c * dalp2 c - gamma313 c * dalp3 c + ddalp13 c

/-- Lines 1283-1287. -/
def cddalp22 (c : Z4Args 𝔽) : 𝔽 :=
  -(gamma122 c * dalp1 c) - gamma222 c * dalp2 c - gamma322 c * dalp3 c + ddalp22 c

/-- Lines 1289-1293. -/
def cddalp23 (c : Z4Args 𝔽) : 𝔽 :=
  -(gamma123 c * dalp1 c) - gamma223 c * dalp2 c - gamma323 c * dalp3 c + ddalp23 c

/-- Lines 1295-1299. -/
def cddalp33 (c : Z4Args 𝔽) : 𝔽 :=
  -(gamma133 c * dalp1 c) - gamma233 c * dalp2 c - gamma333 c * dalp3 c + ddalp33 c

/-- Lines 1301-1304. -/
def cdZ11 (c : Z4Args 𝔽) : 𝔽 := dZ11 c - gamma111 c * Z1 c - gamma211 c * Z2 c - gamma311 c * Z3 c

/-- Lines 1306-1309. -/
def cdZ12 (c : Z4Args 𝔽) : 𝔽 := dZ12 c - gamma112 c * Z1 c - gamma212 c * Z2 c - gamma312 c * Z3 c

/-- Lines 1311-1314. -/
def cdZ13 (c : Z4Args 𝔽) : 𝔽 := dZ13 c - gamma113 c * Z1 c - gamma213 c * Z2 c - gamma313 c * Z3 c

/-- Lines 1316-1319. -/
def cdZ21 (c : Z4Args 𝔽) : 𝔽 := dZ21 c - gamma112 c * Z1 c - gamma212 c * Z2 c - gamma312 c * Z3 c

/-- Lines 1321-1324. -/
def cdZ22 (c : Z4Args 𝔽) : 𝔽 := dZ22 c - gamma122 c * Z1 c - gamma222 c * Z2 c - gamma322 c * Z3 c

/-- Lines 1326-1329. -/
def cdZ23 (c : Z4Args 𝔽) : 𝔽 := dZ23 c - gamma123 c * Z1 c - gamma223 c * Z2 c - gamma323 c * Z3 c

/-- Lines 1331-1334. -/
def cdZ31 (c : Z4Args 𝔽) : 𝔽 := dZ31 c - gamma113 c * Z1 c - gamma213 c * Z2 c - gamma313 c * Z3 c

/-- Lines 1336-1339. -/
def cdZ32 (c : Z4Args 𝔽) : 𝔽 := dZ32 c - gamma123 c * Z1 c - gamma223 c * Z2 c - gamma323 c * Z3 c

/-- Lines 1341-1344. -/
def cdZ33 (c : Z4Args 𝔽) : 𝔽 := dZ33 c - gamma133 c * Z1 c - gamma233 c * Z2 c - gamma333 c * Z3 c

/-- Lines 1346-1349. -/
def cdK111 (c : Z4Args 𝔽) : 𝔽 := dK111 c - 2 * (gamma111 c * K11 c + gamma211 c * K12 c + gamma311 c * K13 c)

/-- Lines 1351-1355. -/
def cdK112 (c : Z4Args 𝔽) : 𝔽 :=
  dK112 c - gamma112 c * K11 c - (gamma111 c + gamma212 c) * K12 c - gamma312 c * K13 c - gamma211 c * K22 c -
    gamma311 c * K23 c

/-- Lines 1357-1361. -/
def cdK113 (c : Z4Args 𝔽) : 𝔽 :=
  dK113 c - gamma113 c * K11 c - gamma213 c * K12 c - (gamma111 c + gamma313 c) * K13 c - gamma211 c * K23 c -
    gamma311 c * K33 c

/-- Lines 1363-1367. -/
def cdK121 (c : Z4Args 𝔽) : 𝔽 :=
  dK121 c - gamma112 c * K11 c - (gamma111 c + gamma212 c) * K12 c - gamma312 c * K13 c - gamma211 c * K22 c -
    gamma311 c * K23 c

/-- Lines 1369-1372. -/
def cdK122 (c : Z4Args 𝔽) : 𝔽 := dK122 c - 2 * (gamma112 c * K12 c + gamma212 c * K22 c + gamma312 c * K23 c)

/-- Lines 1374-1378. -/
def cdK123 (c : Z4Args 𝔽) : 𝔽 :=
  dK123 c - gamma113 c * K12 c - gamma112 c * K13 c - gamma213 c * K22 c - (gamma212 c + gamma313 c) * K23 c -
    gamma312 c * K33 c

/-- Lines 1380-1384. -/
def cdK131 (c : Z4Args 𝔽) : 𝔽 :=
  dK131 c - gamma113 c * K11 c - gamma213 c * K12 c - (gamma111 c + gamma313 c) * K13 c - gamma211 c * K23 c -
    gamma311 c * K33 c

/-- Lines 1386-1390. -/
def cdK132 (c : Z4Args 𝔽) : 𝔽 :=
  dK132 c - gamma113 c * K12 c - gamma112 c * K13 c - gamma213 c * K22 c - (gamma212 c + gamma313 c) * K23 c -
    gamma312 c * K33 c

/-- Lines 1392-1395. -/
def cdK133 (c : Z4Args 𝔽) : 𝔽 := dK133 c - 2 * (gamma113 c * K13 c + gamma213 c * K23 c + gamma313 c * K33 c)

/-- Lines 1397-1400. -/
def cdK211 (c : Z4Args 𝔽) : 𝔽 := dK121 c - 2 * (gamma112 c * K11 c + gamma212 c * K12 c + gamma312 c * K13 c)

/-- Lines 1402-1406. -/
def cdK212 (c : Z4Args 𝔽) : 𝔽 :=
  dK122 c - gamma122 c * K11 c - (gamma112 c + gamma222 c) * K12 c - gamma322 c * K13 c - gamma212 c * K22 c -
    gamma312 c * K23 c

/-- Lines 1408-1412. -/
def cdK213 (c : Z4Args 𝔽) : 𝔽 :=
  dK123 c - gamma123 c * K11 c - gamma223 c * K12 c - (gamma112 c + gamma323 c) * K13 c - gamma212 c * K23 c -
    gamma312 c * K33 c

/-- Lines 1414-1418. -/
def cdK221 (c : Z4Args 𝔽) : 𝔽 :=
  dK221 c - gamma122 c * K11 c - (gamma112 c + gamma222 c) * K12 c - gamma322 c * K13 c - gamma212 c * K22 c -
    gamma312 c * K23 c

/-- Lines 1420-1423. -/
def cdK222 (c : Z4Args 𝔽) : 𝔽 := dK222 c - 2 * (gamma122 c * K12 c + gamma222 c * K22 c + gamma322 c * K23 c)

/-- Lines 1425-1429. -/
def cdK223 (c : Z4Args 𝔽) : 𝔽 :=
  dK223 c - gamma123 c * K12 c - gamma122 c * K13 c - gamma223 c * K22 c - (gamma222 c + gamma323 c) * K23 c -
    gamma322 c * K33 c

/-- Lines 1431-1435. -/
def cdK231 (c : Z4Args 𝔽) : 𝔽 :=
  dK231 c - gamma123 c * K11 c - gamma223 c * K12 c - (gamma112 c + gamma323 c) * K13 c - gamma212 c * K23 c -
    gamma312 c * K33 c

/-- Lines 1437-1441. -/
def cdK232 (c : Z4Args 𝔽) : 𝔽 :=
  dK232 c - gamma123 c * K12 c - gamma122 c * K13 c - gamma223 c * K22 c - (gamma222 c + gamma323 c) * K23 c -
    gamma322 c * K33 c

/-- Lines 1443-1446. -/
def cdK233 (c : Z4Args 𝔽) : 𝔽 := dK233 c - 2 * (gamma123 c * K13 c + gamma223 c * K23 c + gamma323 c * K33 c)

/-- Lines 1448-1451. -/
def cdK311 (c : Z4Args 𝔽) : 𝔽 := dK131 c - 2 * (gamma113 c * K11 c + gamma213 c * K12 c + gamma313 c * K13 c)

/-- Lines 1453-1457. -/
def cdK312 (c : Z4Args 𝔽) : 𝔽 :=
  dK132 c - gamma123 c * K11 c - (gamma113 c + gamma223 c) * K12 c - gamma323 c * K13 c - gamma213 c * K22 c -
    gamma313 c * K23 c

/-- Lines 1459-1463. -/
def cdK313 (c : Z4Args 𝔽) : 𝔽 :=
  dK133 c - gamma133 c * K11 c - gamma233 c * K12 c - (gamma113 c + gamma333 c) * K13 c - gamma213 c * K23 c -
    gamma313 c * K33 c

/-- Lines 1465-1469. -/
def cdK321 (c : Z4Args 𝔽) : 𝔽 :=
  dK231 c - gamma123 c * K11 c - (gamma113 c + gamma223 c) * K12 c - gamma323 c * K13 c - gamma213 c * K22 c -
    gamma313 c * K23 c

/-- Lines 1471-1474. -/
def cdK322 (c : Z4Args 𝔽) : 𝔽 := dK232 c - 2 * (gamma123 c * K12 c + gamma223 c * K22 c + gamma323 c * K23 c)

/-- Lines 1476-1480. -/
def cdK323 (c : Z4Args 𝔽) : 𝔽 :=
  dK233 c - gamma133 c * K12 c - gamma123 c * K13 c - gamma233 c * K22 c - (gamma223 c + gamma333 c) * K23 c -
    gamma323 c * K33 c

/-- Lines 1482-1486. -/
def cdK331 (c : Z4Args 𝔽) : 𝔽 :=
  dK331 c - gamma133 c * K11 c - gamma233 c * K12 c - (gamma113 c + gamma333 c) * K13 c - gamma213 c * K23 c -
    gamma313 c * K33 c

/-- Lines 1488-1492. -/
def cdK332 (c : Z4Args 𝔽) : 𝔽 :=
  dK332 c - gamma133 c * K12 c - gamma123 c * K13 c - gamma233 c * K22 c - (gamma223 c + gamma333 c) * K23 c -
    gamma323 c * K33 c

/-- Lines 1494-1497. -/
def cdK333 (c : Z4Args 𝔽) : 𝔽 := dK333 c - 2 * (gamma133 c * K13 c + gamma233 c * K23 c + gamma333 c * K33 c)

/-- Lines 1499-1503. -/
def lieg11 (c : Z4Args 𝔽) : 𝔽 := betadg11 c + 2 * (dbeta11 c * g11 c + dbeta21 c * g12 c + dbeta31 c * g13 c)

/-- Lines 1505-1509. -/
def lieg12_0 (c : Z4Args 𝔽) : 𝔽 :=
  betadg12 c + dbeta12 c * g11 c + (dbeta11 c + dbeta22 c) * g12 c + dbeta32 c * g13 c + dbeta21 c * g22 c +
    dbeta31 c * g23 c

/-- Lines 1511-1515. -/
def lieg12 (c : Z4Args 𝔽) : 𝔽 :=
  betadg21 c + dbeta12 c * g11 c + (dbeta11 c + dbeta22 c) * g12 c + dbeta32 c * g13 c + dbeta21 c * g22 c +
    dbeta31 c * g23 c

/-- Lines 1517-1522. -/
def lieg13_0 (c : Z4Args 𝔽) : 𝔽 :=
  betadg13 c + dbeta13 c * g11 c + dbeta23 c * g12 c + (dbeta11 c + dbeta33 c) * g13 c + dbeta21 c * g23 c +
    dbeta31 c * g33 c

/-- Lines 1524-1529. -/
def lieg13 (c : Z4Args 𝔽) : 𝔽 :=
  betadg31 c + dbeta13 c * g11 c + dbeta23 c * g12 c + (dbeta11 c + dbeta33 c) * g13 c + dbeta21 c * g23 c +
    dbeta31 c * g33 c

/-- Lines 1531-1535. -/
def lieg22 (c : Z4Args 𝔽) : 𝔽 := betadg22 c + 2 * (dbeta12 c * g12 c + dbeta22 c * g22 c + dbeta32 c * g23 c)

/-- Lines 1537-1542. -/
def lieg23_0 (c : Z4Args 𝔽) : 𝔽 :=
  betadg23 c + dbeta13 c * g12 c + dbeta12 c * g13 c + dbeta23 c * g22 c + (dbeta22 c + dbeta33 c) * g23 c +
    dbeta32 c * g33 c

/-- Lines 1544-1549. -/
def lieg23 (c : Z4Args 𝔽) : 𝔽 :=
  betadg32 c + dbeta13 c * g12 c + dbeta12 c * g13 c + dbeta23 c * g22 c + (dbeta22 c + dbeta33 c) * g23 c +
    dbeta32 c * g33 c

/-- Lines 1551-1555. -/
def lieg33 (c : Z4Args 𝔽) : 𝔽 := betadg33 c + 2 * (dbeta13 c * g13 c + dbeta23 c * g23 c + dbeta33 c * g33 c)

/-- Lines 1557-1561. -/
def lieK11 (c : Z4Args 𝔽) : 𝔽 := betadK11 c + 2 * (dbeta11 c * K11 c + dbeta21 c * K12 c + dbeta31 c * K13 c)

/-- Lines 1563-1567. -/
def lieK12_0 (c : Z4Args 𝔽) : 𝔽 :=
  betadK12 c + dbeta12 c * K11 c + (dbeta11 c + dbeta22 c) * K12 c + dbeta32 c * K13 c + dbeta21 c * K22 c +
    dbeta31 c * K23 c

/-- Lines 1569-1573. -/
def lieK12 (c : Z4Args 𝔽) : 𝔽 :=
  betadK21 c + dbeta12 c * K11 c + (dbeta11 c + dbeta22 c) * K12 c + dbeta32 c * K13 c + dbeta21 c * K22 c +
    dbeta31 c * K23 c

/-- Lines 1575-1580. -/
def lieK13_0 (c : Z4Args 𝔽) : 𝔽 :=
  betadK13 c + dbeta13 c * K11 c + dbeta23 c * K12 c + (dbeta11 c + dbeta33 c) * K13 c + dbeta21 c * K23 c +
    dbeta31 c * K33 c

/-- Lines 1582-1587. -/
def lieK13 (c : Z4Args 𝔽) : 𝔽 :=
  betadK31 c + dbeta13 c * K11 c + dbeta23 c * K12 c + (dbeta11 c + dbeta33 c) * K13 c + dbeta21 c * K23 c +
    dbeta31 c * K33 c

/-- Lines 1589-1593. -/
def lieK22 (c : Z4Args 𝔽) : 𝔽 := betadK22 c + 2 * (dbeta12 c * K12 c + dbeta22 c * K22 c + dbeta32 c * K23 c)

/-- Lines 1595-1600. -/
def lieK23_0 (c : Z4Args 𝔽) : 𝔽 :=
  betadK23 c + dbeta13 c * K12 c + dbeta12 c * K13 c + dbeta23 c * K22 c + (dbeta22 c + dbeta33 c) * K23 c +
    dbeta32 c * K33 c

/-- Lines 1602-1607. -/
def lieK23 (c : Z4Args 𝔽) : 𝔽 :=
  betadK32 c + dbeta13 c * K12 c + dbeta12 c * K13 c + dbeta23 c * K22 c + (dbeta22 c + dbeta33 c) * K23 c +
    dbeta32 c * K33 c

/-- Lines 1609-1613. -/
def lieK33 (c : Z4Args 𝔽) : 𝔽 := betadK33 c + 2 * (dbeta13 c * K13 c + dbeta23 c * K23 c + dbeta33 c * K33 c)

/-- Lines 1615-1618. -/
def lieTheta (c : Z4Args 𝔽) : 𝔽 := betadTheta c

/-- Lines 1620-1623. -/
def lieZ1 (c : Z4Args 𝔽) : 𝔽 := betadZ1 c + dbeta11 c * Z1 c + dbeta21 c * Z2 c + dbeta31 c * Z3 c

/-- Lines 1625-1628. -/
def lieZ2 (c : Z4Args 𝔽) : 𝔽 := betadZ2 c + dbeta12 c * Z1 c + dbeta22 c * Z2 c + dbeta32 c * Z3 c

/-- Lines 1630-1633. -/
def lieZ3 (c : Z4Args 𝔽) : 𝔽 := betadZ3 c + dbeta13 c * Z1 c + dbeta23 c * Z2 c + dbeta33 c * Z3 c

/-- Lines 1635-1638. -/
def rg11 (c : Z4Args 𝔽) : 𝔽 := lieg11 c - 2 * alpha c * K11 c

/-- Lines 1640-1643. -/
def rg12 (c : Z4Args 𝔽) : 𝔽 := lieg12 c - 2 * alpha c * K12 c

/-- Lines 1645-1648. -/
def rg13 (c : Z4Args 𝔽) : 𝔽 := lieg13 c - 2 * alpha c * K13 c

/-- Lines 1650-1653. -/
def rg22 (c : Z4Args 𝔽) : 𝔽 := lieg22 c - 2 * alpha c * K22 c

/-- Lines 1655-1658. -/
def rg23 (c : Z4Args 𝔽) : 𝔽 := lieg23 c - 2 * alpha c * K23 c

/-- Lines 1660-1663. -/
def rg33 (c : Z4Args 𝔽) : 𝔽 := lieg33 c - 2 * alpha c * K33 c

/-- Lines 1665-1669. -/
def rK11 (c : Z4Args 𝔽) : 𝔽 :=
  -cddalp11 c + lieK11 c + alpha c * (R11 c + trK c * K11 c + 2 * (cdZ11 c - KK11 c - K11 c * Theta c))

/-- Lines 1671-1675. -/
def rK12 (c : Z4Args 𝔽) : 𝔽 :=
  -cddalp12 c + lieK12 c + alpha c * (cdZ12 c + cdZ21 c + R12 c + trK c * K12 c - 2 * (KK12 c + K12 c * Theta c))

/-- Lines 1677-1681. -/
def rK13 (c : Z4Args 𝔽) : 𝔽 :=
  -cddalp13 c + lieK13 c + alpha c * (cdZ13 c + cdZ31 c + R13 c + trK c * K13 c - 2 * (KK13 c + K13 c * Theta c))

/-- Lines 1683-1687. -/
def rK22 (c : Z4Args 𝔽) : 𝔽 :=
  -cddalp22 c + lieK22 c + alpha c * (R22 c + trK c * K22 c + 2 * (cdZ22 c - KK22 c - K22 c * Theta c))

/-- Lines 1689-1693. -/
def rK23 (c : Z4Args 𝔽) : 𝔽 :=
  -cddalp23 c + lieK23 c + alpha c * (cdZ23 c + cdZ32 c + R23 c + trK c * K23 c - 2 * (KK23 c + K23 c * Theta c))

/-- Lines 1695-1699. -/
def rK33 (c : Z4Args 𝔽) : 𝔽 :=
  -cddalp33 c + lieK33 c + alpha c * (R33 c + trK c * K33 c + 2 * (cdZ33 c - KK33 c - K33 c * Theta c))

/-- Lines 1701-1712. -/
def rTheta (c : Z4Args 𝔽) : 𝔽 :=
  lieTheta c - c.kappa1 * Theta c + ginv11 c * (cdZ11 c * alpha c - dalp1 c * Z1 c) + ginv12 c * ((cdZ12 c +
    cdZ21 c) * alpha c - dalp2 c * Z1 c - dalp1 c * Z2 c) + ginv22 c * (cdZ22 c * alpha c - dalp2 c * Z2 c) +
    ginv13 c * ((cdZ13 c + cdZ31 c) * alpha c - dalp3 c * Z1 c - dalp1 c * Z3 c) + ginv23 c * ((cdZ23 c + cdZ32 c) *
    alpha c - dalp3 c * Z2 c - dalp2 c * Z3 c) + ginv33 c * (cdZ33 c * alpha c - dalp3 c * Z3 c) + alpha c *
    (-(trK c * Theta c) + 1 / 2 * (R c - trKK c + trK c ^ 2))

/-- Lines 1714-1724. -/
def rZ1 (c : Z4Args 𝔽) : 𝔽 :=
  lieZ1 c - dalp1 c * Theta c - c.kappa2 * Z1 c + alpha c * (-dtrK1 c + dTheta1 c + ginv11 c * (cdK111 c - 2 *
    K11 c * Z1 c) + ginv22 c * (cdK212 c - 2 * K12 c * Z2 c) + ginv12 c * (cdK112 c + cdK211 c - 2 * (K12 c * Z1 c +
    K11 c * Z2 c)) + ginv33 c * (cdK313 c - 2 * K13 c * Z3 c) + ginv13 c * (cdK113 c + cdK311 c - 2 * (K13 c * Z1 c
    + K11 c * Z3 c)) + ginv23 c * (cdK213 c + cdK312 c - 2 * (K13 c * Z2 c + K12 c * Z3 c)))

/-- Lines 1726-1736. -/
def rZ2 (c : Z4Args 𝔽) : 𝔽 :=
  lieZ2 c - dalp2 c * Theta c - c.kappa2 * Z2 c + alpha c * (-dtrK2 c + dTheta2 c + ginv11 c * (cdK121 c - 2 *
    K12 c * Z1 c) + ginv22 c * (cdK222 c - 2 * K22 c * Z2 c) + ginv12 c * (cdK122 c + cdK221 c - 2 * (K22 c * Z1 c +
    K12 c * Z2 c)) + ginv33 c * (cdK323 c - 2 * K23 c * Z3 c) + ginv13 c * (cdK123 c + cdK321 c - 2 * (K23 c * Z1 c
    + K12 c * Z3 c)) + ginv23 c * (cdK223 c + cdK322 c - 2 * (K23 c * Z2 c + K22 c * Z3 c)))

/-- Lines 1738-1748. -/
def rZ3 (c : Z4Args 𝔽) : 𝔽 :=
  lieZ3 c - dalp3 c * Theta c - c.kappa2 * Z3 c + alpha c * (-dtrK3 c + dTheta3 c + ginv11 c * (cdK131 c - 2 *
    K13 c * Z1 c) + ginv22 c * (cdK232 c - 2 * K23 c * Z2 c) + ginv12 c * (cdK132 c + cdK231 c - 2 * (K23 c * Z1 c +
    K13 c * Z2 c)) + ginv33 c * (cdK333 c - 2 * K33 c * Z3 c) + ginv13 c * (cdK133 c + cdK331 c - 2 * (K33 c * Z1 c
    + K13 c * Z3 c)) + ginv23 c * (cdK233 c + cdK332 c - 2 * (K33 c * Z2 c + K23 c * Z3 c)))

/-- Lines 1750-1753. -/
def liealpha (c : Z4Args 𝔽) : 𝔽 := betadalp c

/-- Lines 1755-1759. -/
def ralpha0 (c : Z4Args 𝔽) : 𝔽 :=
  alpha c * c.pow (psi c) c.lapsepsipower * (-trK c + (b2 c.subtractK0) * K0 c + c.lapseharmonicm * Theta c)

/-- Lines 1761-1765. -/
def ralpha (c : Z4Args 𝔽) : 𝔽 :=
  (b2 c.nonconstantlapse) * (liealpha c * (b2 c.withshift) + ralpha0 c * (c.lapseharmonicf * (b2 c.oploglapse) +
    (b2 c.harmoniclapse) * alpha c))

/-- Lines 1767-1770. -/
def rbeta1 (_c : Z4Args 𝔽) : 𝔽 := 0

/-- Lines 1772-1775. -/
def rbeta2 (_c : Z4Args 𝔽) : 𝔽 := 0

/-- Lines 1777-1780. -/
def rbeta3 (_c : Z4Args 𝔽) : 𝔽 := 0

/-- Lines 1782-1785. -/
def rB1 (_c : Z4Args 𝔽) : 𝔽 := 0

/-- Lines 1787-1790. -/
def rB2 (_c : Z4Args 𝔽) : 𝔽 := 0

/-- Lines 1792-1795. -/
def rB3 (_c : Z4Args 𝔽) : 𝔽 := 0

/-- Lines 1802-1805. -/
def ng11 (c : Z4Args 𝔽) : 𝔽 := c.dt * rg11 c + pg11 c

/-- Lines 1807-1810. -/
def ng12 (c : Z4Args 𝔽) : 𝔽 := c.dt * rg12 c + pg12 c

/-- Lines 1812-1815. -/
def ng13 (c : Z4Args 𝔽) : 𝔽 := c.dt * rg13 c + pg13 c

/-- Lines 1817-1820. -/
def ng22 (c : Z4Args 𝔽) : 𝔽 := c.dt * rg22 c + pg22 c

/-- Lines 1822-1825. -/
def ng23 (c : Z4Args 𝔽) : 𝔽 := c.dt * rg23 c + pg23 c

/-- Lines 1827-1830. -/
def ng33 (c : Z4Args 𝔽) : 𝔽 := c.dt * rg33 c + pg33 c

/-- Lines 1832-1835. -/
def nK11 (c : Z4Args 𝔽) : 𝔽 := c.dt * rK11 c + pK11 c

/-- Lines 1837-1840. -/
def nK12 (c : Z4Args 𝔽) : 𝔽 := c.dt * rK12 c + pK12 c

/-- Lines 1842-1845. -/
def nK13 (c : Z4Args 𝔽) : 𝔽 := c.dt * rK13 c + pK13 c

/-- Lines 1847-1850. -/
def nK22 (c : Z4Args 𝔽) : 𝔽 := c.dt * rK22 c + pK22 c

/-- Lines 1852-1855. -/
def nK23 (c : Z4Args 𝔽) : 𝔽 := c.dt * rK23 c + pK23 c

/-- Lines 1857-1860. -/
def nK33 (c : Z4Args 𝔽) : 𝔽 := c.dt * rK33 c + pK33 c

/-- Lines 1862-1865. -/
def nZ1 (c : Z4Args 𝔽) : 𝔽 := c.dt * rZ1 c + pZ1 c

/-- Lines 1867-1870. -/
def nZ2 (c : Z4Args 𝔽) : 𝔽 := c.dt * rZ2 c + pZ2 c

/-- Lines 1872-1875. -/
def nZ3 (c : Z4Args 𝔽) : 𝔽 := c.dt * rZ3 c + pZ3 c

/-- Lines 1877-1880. -/
def nTheta (c : Z4Args 𝔽) : 𝔽 := c.dt * rTheta c + pTheta c

/-- Lines 1882-1885. -/
def nalpha (c : Z4Args 𝔽) : 𝔽 := c.dt * ralpha c + palpha c

/-- Lines 1887-1890. -/
def nbeta1 (c : Z4Args 𝔽) : 𝔽 := c.dt * rbeta1 c + pbeta1 c

/-- Lines 1892-1895. -/
def nbeta2 (c : Z4Args 𝔽) : 𝔽 := c.dt * rbeta2 c + pbeta2 c

/-- Lines 1897-1900. -/
def nbeta3 (c : Z4Args 𝔽) : 𝔽 := c.dt * rbeta3 c + pbeta3 c

/-- Lines 1902-1905. -/
def nB1 (c : Z4Args 𝔽) : 𝔽 := c.dt * rB1 c + pB1 c

/-- Lines 1907-1910. -/
def nB2 (c : Z4Args 𝔽) : 𝔽 := c.dt * rB2 c + pB2 c

/-- Lines 1912-1915. -/
def nB3 (c : Z4Args 𝔽) : 𝔽 := c.dt * rB3 c + pB3 c

/-- Lines 1920-1923. -/
def ng11_n (c : Z4Args 𝔽) : 𝔽 := rg11 c

/-- Lines 1925-1928. -/
def ng12_n (c : Z4Args 𝔽) : 𝔽 := rg12 c

/-- Lines 1930-1933. -/
def ng13_n (c : Z4Args 𝔽) : 𝔽 := rg13 c

/-- Lines 1935-1938. -/
def ng22_n (c : Z4Args 𝔽) : 𝔽 := rg22 c

/-- Lines 1940-1943. -/
def ng23_n (c : Z4Args 𝔽) : 𝔽 := rg23 c

/-- Lines 1945-1948. -/
def ng33_n (c : Z4Args 𝔽) : 𝔽 := rg33 c

/-- Lines 1950-1953. -/
def nK11_n (c : Z4Args 𝔽) : 𝔽 := rK11 c

/-- Lines 1955-1958. -/
def nK12_n (c : Z4Args 𝔽) : 𝔽 := rK12 c

/-- Lines 1960-1963. -/
def nK13_n (c : Z4Args 𝔽) : 𝔽 := rK13 c

/-- Lines 1965-1968. -/
def nK22_n (c : Z4Args 𝔽) : 𝔽 := rK22 c

/-- Lines 1970-1973. -/
def nK23_n (c : Z4Args 𝔽) : 𝔽 := rK23 c

/-- Lines 1975-1978. -/
def nK33_n (c : Z4Args 𝔽) : 𝔽 := rK33 c

/-- Lines 1980-1983. -/
def nZ1_n (c : Z4Args 𝔽) : 𝔽 := rZ1 c

/-- Lines 1985-1988. -/
def nZ2_n (c : Z4Args 𝔽) : 𝔽 := rZ2 c

/-- Lines 1990-1993. -/
def nZ3_n (c : Z4Args 𝔽) : 𝔽 := rZ3 c

/-- Lines 1995-1998. -/
def nTheta_n (c : Z4Args 𝔽) : 𝔽 := rTheta c

/-- Lines 2000-2003. -/
def nalpha_n (c : Z4Args 𝔽) : 𝔽 := ralpha c

/-- Lines 2005-2008. -/
def nbeta1_n (c : Z4Args 𝔽) : 𝔽 := rbeta1 c

/-- Lines 2010-2013. -/
def nbeta2_n (c : Z4Args 𝔽) : 𝔽 := rbeta2 c

/-- Lines 2015-2018. -/
def nbeta3_n (c : Z4Args 𝔽) : 𝔽 := rbeta3 c

/-- Lines 2020-2023. -/
def nB1_n (c : Z4Args 𝔽) : 𝔽 := rB1 c

/-- Lines 2025-2028. -/
def nB2_n (c : Z4Args 𝔽) : 𝔽 := rB2 c

/-- Lines 2030-2033. -/
def nB3_n (c : Z4Args 𝔽) : 𝔽 := rB3 c

end Z4

open Z4 in
/-- The loop body (lines 525-2039): the 23 variables of `unew`. -/
def z4Rhs {𝔽 : Type} [Field 𝔽] [DecidableEq 𝔽] (c : Z4Args 𝔽) (n : Nat) : 𝔽 :=
  if c.dt ≠ 0 then
    [ng11 c, ng12 c, ng13 c, ng22 c, ng23 c, ng33 c, nK11 c, nK12 c, nK13 c, nK22 c, nK23 c, nK33 c, nTheta c,
    nZ1 c, nZ2 c, nZ3 c, nalpha c, nbeta1 c, nbeta2 c, nbeta3 c, nB1 c, nB2 c, nB3 c].getD n 0
  else
    [ng11_n c, ng12_n c, ng13_n c, ng22_n c, ng23_n c, ng33_n c, nK11_n c, nK12_n c, nK13_n c, nK22_n c, nK23_n c,
    nK33_n c, nTheta_n c, nZ1_n c, nZ2_n c, nZ3_n c, nalpha_n c, nbeta1_n c, nbeta2_n c, nbeta3_n c, nB1_n c,
    nB2_n c, nB3_n c].getD n 0

end Sgrid
