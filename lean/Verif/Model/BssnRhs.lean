import Verif.Model.Basic
import Mathlib.Algebra.Order.Field.Basic
import Mathlib.Algebra.Order.Ring.Abs

/-!
# The right hand sides of the BSSN equations

`BSSN_rhs` (src/physics/BSSN/BSSN_rhs.c:17-3418) at one point of one box, after the derivatives have been computed (lines 656-703).
The loops over boxes and points do the same everywhere, no point uses values of another point. The lines in the comments are lines
of this file. Each definition is one assignment of the C code or one conditional; a name with `_0`, `_1`, ... is one of several
assignments to the same variable, `_n` is the assignment without `addlinear`. Numbers are in a field, 0.333..., 0.1666... and 0.666...
are 1/3, 1/6 and 2/3. All values of `ucur` and `upre` are read at the same point before `unew` is written there.
-/

namespace Sgrid

/-- What the code reads at one point: the variables of the lists `ucur`, `upre` and `psiandderivs` by their number, the components of
the derivatives by their number (lines 64-311), the old value of the last variable of `unew`, and the parameters (lines 22-53). -/
structure BssnArgs (K : Type) where
  cur : Nat → K
  pre : Nat → K
  ps : Nat → K
  K0 : K
  dg : Nat → K
  ddg : Nat → K
  dA : Nat → K
  dphi : Nat → K
  ddphi : Nat → K
  dG : Nat → K
  dK : Nat → K
  dalp : Nat → K
  ddalp : Nat → K
  dbeta : Nat → K
  ddbeta : Nat → K
  alphaRHS : K
  oldDens : K
  dt : K
  time : K
  (noForceK evolveGamma nonconstantlapse oploglapse oploglapse2 oplogwithshift harmoniclapse subtractK0 addliealpha
    addalphaRHSterm gamma0 gamma2 : Bool)
  (recomputeAzz recomputegzz subtractA normalizedetg gReplaced gentlePhi densitized densWithoutShift : Bool)
  (YoTermFactor RtoRminusHfactor alphaDensityWeight lapsepsipower lapseharmonicf shiftpsipower shiftalphapower shiftgammacoeff
    shiftdriver shiftStop : K)
  exp : K → K
  log : K → K
  pow : K → K → K

namespace Bs
variable {𝔽 : Type} [Field 𝔽]

/-- A flag in a product. -/
def b2 (b : Bool) : 𝔽 := if b then 1 else 0

/-- Line 64. -/
def K0 (c : BssnArgs 𝔽) : 𝔽 := c.K0

/-- Line 65. -/
def psi (c : BssnArgs 𝔽) : 𝔽 := c.ps 0

/-- Line 66. -/
def dpop1 (c : BssnArgs 𝔽) : 𝔽 := c.ps 1

/-- Line 67. -/
def dpop2 (c : BssnArgs 𝔽) : 𝔽 := c.ps 2

/-- Line 68. -/
def dpop3 (c : BssnArgs 𝔽) : 𝔽 := c.ps 3

/-- Line 69. -/
def ddpop11 (c : BssnArgs 𝔽) : 𝔽 := c.ps 4

/-- Line 70. -/
def ddpop12 (c : BssnArgs 𝔽) : 𝔽 := c.ps 5

/-- Line 71. -/
def ddpop13 (c : BssnArgs 𝔽) : 𝔽 := c.ps 6

/-- Line 72. -/
def ddpop22 (c : BssnArgs 𝔽) : 𝔽 := c.ps 7

/-- Line 73. -/
def ddpop23 (c : BssnArgs 𝔽) : 𝔽 := c.ps 8

/-- Line 74. -/
def ddpop33 (c : BssnArgs 𝔽) : 𝔽 := c.ps 9

/-- Line 75. -/
def g11 (c : BssnArgs 𝔽) : 𝔽 := c.cur 0

/-- Line 76. -/
def g12 (c : BssnArgs 𝔽) : 𝔽 := c.cur 1

/-- Line 77. -/
def g13 (c : BssnArgs 𝔽) : 𝔽 := c.cur 2

/-- Line 78. -/
def g22 (c : BssnArgs 𝔽) : 𝔽 := c.cur 3

/-- Line 79. -/
def g23 (c : BssnArgs 𝔽) : 𝔽 := c.cur 4

/-- Line 80. -/
def g33 (c : BssnArgs 𝔽) : 𝔽 := c.cur 5

/-- Line 81. -/
def phi (c : BssnArgs 𝔽) : 𝔽 := c.cur 6

/-- Line 82. -/
def A11 (c : BssnArgs 𝔽) : 𝔽 := c.cur 7

/-- Line 83. -/
def A12 (c : BssnArgs 𝔽) : 𝔽 := c.cur 8

/-- Line 84. -/
def A13 (c : BssnArgs 𝔽) : 𝔽 := c.cur 9

/-- Line 85. -/
def A22 (c : BssnArgs 𝔽) : 𝔽 := c.cur 10

/-- Line 86. -/
def A23 (c : BssnArgs 𝔽) : 𝔽 := c.cur 11

/-- Line 87. -/
def A33 (c : BssnArgs 𝔽) : 𝔽 := c.cur 12

/-- Line 88. -/
def K_0 (c : BssnArgs 𝔽) : 𝔽 := c.cur 13

/-- Line 89. -/
def G1 (c : BssnArgs 𝔽) : 𝔽 := c.cur 14

/-- Line 90. -/
def G2 (c : BssnArgs 𝔽) : 𝔽 := c.cur 15

/-- Line 91. -/
def G3 (c : BssnArgs 𝔽) : 𝔽 := c.cur 16

/-- Line 92. -/
def alpha (c : BssnArgs 𝔽) : 𝔽 := c.cur 17

/-- Line 93. -/
def beta1 (c : BssnArgs 𝔽) : 𝔽 := c.cur 18

/-- Line 94. -/
def beta2 (c : BssnArgs 𝔽) : 𝔽 := c.cur 19

/-- Line 95. -/
def beta3 (c : BssnArgs 𝔽) : 𝔽 := c.cur 20

/-- Line 96. -/
def B1 (c : BssnArgs 𝔽) : 𝔽 := c.cur 21

/-- Line 97. -/
def B2 (c : BssnArgs 𝔽) : 𝔽 := c.cur 22

/-- Line 98. -/
def B3 (c : BssnArgs 𝔽) : 𝔽 := c.cur 23

/-- Line 99. -/
def alphaDensity (c : BssnArgs 𝔽) : 𝔽 := c.cur 24

/-- Line 125. -/
def pg11 (c : BssnArgs 𝔽) : 𝔽 := c.pre 0

/-- Line 126. -/
def pg12 (c : BssnArgs 𝔽) : 𝔽 := c.pre 1

/-- Line 127. -/
def pg13 (c : BssnArgs 𝔽) : 𝔽 := c.pre 2

/-- Line 128. -/
def pg22 (c : BssnArgs 𝔽) : 𝔽 := c.pre 3

/-- Line 129. -/
def pg23 (c : BssnArgs 𝔽) : 𝔽 := c.pre 4

/-- Line 130. -/
def pg33 (c : BssnArgs 𝔽) : 𝔽 := c.pre 5

/-- Line 131. -/
def pphi (c : BssnArgs 𝔽) : 𝔽 := c.pre 6

/-- Line 132. -/
def pA11 (c : BssnArgs 𝔽) : 𝔽 := c.pre 7

/-- Line 133. -/
def pA12 (c : BssnArgs 𝔽) : 𝔽 := c.pre 8

/-- Line 134. -/
def pA13 (c : BssnArgs 𝔽) : 𝔽 := c.pre 9

/-- Line 135. -/
def pA22 (c : BssnArgs 𝔽) : 𝔽 := c.pre 10

/-- Line 136. -/
def pA23 (c : BssnArgs 𝔽) : 𝔽 := c.pre 11

/-- Line 137. -/
def pA33 (c : BssnArgs 𝔽) : 𝔽 := c.pre 12

/-- Line 138. -/
def pK (c : BssnArgs 𝔽) : 𝔽 := c.pre 13

/-- Line 139. -/
def pG1 (c : BssnArgs 𝔽) : 𝔽 := c.pre 14

/-- Line 140. -/
def pG2 (c : BssnArgs 𝔽) : 𝔽 := c.pre 15

/-- Line 141. -/
def pG3 (c : BssnArgs 𝔽) : 𝔽 := c.pre 16

/-- Line 142. -/
def palpha (c : BssnArgs 𝔽) : 𝔽 := c.pre 17

/-- Line 143. -/
def pbeta1 (c : BssnArgs 𝔽) : 𝔽 := c.pre 18

/-- Line 144. -/
def pbeta2 (c : BssnArgs 𝔽) : 𝔽 := c.pre 19

/-- Line 145. -/
def pbeta3 (c : BssnArgs 𝔽) : 𝔽 := c.pre 20

/-- Line 146. -/
def pB1 (c : BssnArgs 𝔽) : 𝔽 := c.pre 21

/-- Line 147. -/
def pB2 (c : BssnArgs 𝔽) : 𝔽 := c.pre 22

/-- Line 148. -/
def pB3 (c : BssnArgs 𝔽) : 𝔽 := c.pre 23

/-- Line 149. -/
def palphaDensity (c : BssnArgs 𝔽) : 𝔽 := c.pre 24

/-- Line 176. -/
def dgt111 (c : BssnArgs 𝔽) : 𝔽 := c.dg 0

/-- Line 177. -/
def dgt112 (c : BssnArgs 𝔽) : 𝔽 := c.dg 1

/-- Line 178. -/
def dgt113 (c : BssnArgs 𝔽) : 𝔽 := c.dg 2

/-- Line 179. -/
def dgt121 (c : BssnArgs 𝔽) : 𝔽 := c.dg 3

/-- Line 180. -/
def dgt122 (c : BssnArgs 𝔽) : 𝔽 := c.dg 4

/-- Line 181. -/
def dgt123 (c : BssnArgs 𝔽) : 𝔽 := c.dg 5

/-- Line 182. -/
def dgt131 (c : BssnArgs 𝔽) : 𝔽 := c.dg 6

/-- Line 183. -/
def dgt132 (c : BssnArgs 𝔽) : 𝔽 := c.dg 7

/-- Line 184. -/
def dgt133 (c : BssnArgs 𝔽) : 𝔽 := c.dg 8

/-- Line 185. -/
def dgt221 (c : BssnArgs 𝔽) : 𝔽 := c.dg 9

/-- Line 186. -/
def dgt222 (c : BssnArgs 𝔽) : 𝔽 := c.dg 10

/-- Line 187. -/
def dgt223 (c : BssnArgs 𝔽) : 𝔽 := c.dg 11

/-- Line 188. -/
def dgt231 (c : BssnArgs 𝔽) : 𝔽 := c.dg 12

/-- Line 189. -/
def dgt232 (c : BssnArgs 𝔽) : 𝔽 := c.dg 13

/-- Line 190. -/
def dgt233 (c : BssnArgs 𝔽) : 𝔽 := c.dg 14

/-- Line 191. -/
def dgt331 (c : BssnArgs 𝔽) : 𝔽 := c.dg 15

/-- Line 192. -/
def dgt332 (c : BssnArgs 𝔽) : 𝔽 := c.dg 16

/-- Line 193. -/
def dgt333 (c : BssnArgs 𝔽) : 𝔽 := c.dg 17

/-- Line 195. -/
def ddgt1111 (c : BssnArgs 𝔽) : 𝔽 := c.ddg 0

/-- Line 196. -/
def ddgt1112 (c : BssnArgs 𝔽) : 𝔽 := c.ddg 1

/-- Line 197. -/
def ddgt1113 (c : BssnArgs 𝔽) : 𝔽 := c.ddg 2

/-- Line 198. -/
def ddgt1122 (c : BssnArgs 𝔽) : 𝔽 := c.ddg 3

/-- Line 199. -/
def ddgt1123 (c : BssnArgs 𝔽) : 𝔽 := c.ddg 4

/-- Line 200. -/
def ddgt1133 (c : BssnArgs 𝔽) : 𝔽 := c.ddg 5

/-- Line 201. -/
def ddgt1211 (c : BssnArgs 𝔽) : 𝔽 := c.ddg 6

/-- Line 202. -/
def ddgt1212 (c : BssnArgs 𝔽) : 𝔽 := c.ddg 7

/-- Line 203. -/
def ddgt1213 (c : BssnArgs 𝔽) : 𝔽 := c.ddg 8

/-- Line 204. -/
def ddgt1222 (c : BssnArgs 𝔽) : 𝔽 := c.ddg 9

/-- Line 205. -/
def ddgt1223 (c : BssnArgs 𝔽) : 𝔽 := c.ddg 10

/-- Line 206. -/
def ddgt1233 (c : BssnArgs 𝔽) : 𝔽 := c.ddg 11

/-- Line 207. -/
def ddgt1311 (c : BssnArgs 𝔽) : 𝔽 := c.ddg 12

/-- Line 208. -/
def ddgt1312 (c : BssnArgs 𝔽) : 𝔽 := c.ddg 13

/-- Line 209. -/
def ddgt1313 (c : BssnArgs 𝔽) : 𝔽 := c.ddg 14

/-- Line 210. -/
def ddgt1322 (c : BssnArgs 𝔽) : 𝔽 := c.ddg 15

/-- Line 211. -/
def ddgt1323 (c : BssnArgs 𝔽) : 𝔽 := c.ddg 16

/-- Line 212. -/
def ddgt1333 (c : BssnArgs 𝔽) : 𝔽 := c.ddg 17

/-- Line 213. -/
def ddgt2211 (c : BssnArgs 𝔽) : 𝔽 := c.ddg 18

/-- Line 214. -/
def ddgt2212 (c : BssnArgs 𝔽) : 𝔽 := c.ddg 19

/-- Line 215. -/
def ddgt2213 (c : BssnArgs 𝔽) : 𝔽 := c.ddg 20

/-- Line 216. -/
def ddgt2222 (c : BssnArgs 𝔽) : 𝔽 := c.ddg 21

/-- Line 217. -/
def ddgt2223 (c : BssnArgs 𝔽) : 𝔽 := c.ddg 22

/-- Line 218. -/
def ddgt2233 (c : BssnArgs 𝔽) : 𝔽 := c.ddg 23

/-- Line 219. -/
def ddgt2311 (c : BssnArgs 𝔽) : 𝔽 := c.ddg 24

/-- Line 220. -/
def ddgt2312 (c : BssnArgs 𝔽) : 𝔽 := c.ddg 25

/-- Line 221. -/
def ddgt2313 (c : BssnArgs 𝔽) : 𝔽 := c.ddg 26

/-- Line 222. -/
def ddgt2322 (c : BssnArgs 𝔽) : 𝔽 := c.ddg 27

/-- Line 223. -/
def ddgt2323 (c : BssnArgs 𝔽) : 𝔽 := c.ddg 28

/-- Line 224. -/
def ddgt2333 (c : BssnArgs 𝔽) : 𝔽 := c.ddg 29

/-- Line 225. -/
def ddgt3311 (c : BssnArgs 𝔽) : 𝔽 := c.ddg 30

/-- Line 226. -/
def ddgt3312 (c : BssnArgs 𝔽) : 𝔽 := c.ddg 31

/-- Line 227. -/
def ddgt3313 (c : BssnArgs 𝔽) : 𝔽 := c.ddg 32

/-- Line 228. -/
def ddgt3322 (c : BssnArgs 𝔽) : 𝔽 := c.ddg 33

/-- Line 229. -/
def ddgt3323 (c : BssnArgs 𝔽) : 𝔽 := c.ddg 34

/-- Line 230. -/
def ddgt3333 (c : BssnArgs 𝔽) : 𝔽 := c.ddg 35

/-- Line 232. -/
def dAt111 (c : BssnArgs 𝔽) : 𝔽 := c.dA 0

/-- Line 233. -/
def dAt112 (c : BssnArgs 𝔽) : 𝔽 := c.dA 1

/-- Line 234. -/
def dAt113 (c : BssnArgs 𝔽) : 𝔽 := c.dA 2

/-- Line 235. -/
def dAt121 (c : BssnArgs 𝔽) : 𝔽 := c.dA 3

/-- Line 236. -/
def dAt122 (c : BssnArgs 𝔽) : 𝔽 := c.dA 4

/-- Line 237. -/
def dAt123 (c : BssnArgs 𝔽) : 𝔽 := c.dA 5

/-- Line 238. -/
def dAt131 (c : BssnArgs 𝔽) : 𝔽 := c.dA 6

/-- Line 239. -/
def dAt132 (c : BssnArgs 𝔽) : 𝔽 := c.dA 7

/-- Line 240. -/
def dAt133 (c : BssnArgs 𝔽) : 𝔽 := c.dA 8

/-- Line 241. -/
def dAt221 (c : BssnArgs 𝔽) : 𝔽 := c.dA 9

/-- Line 242. -/
def dAt222 (c : BssnArgs 𝔽) : 𝔽 := c.dA 10

/-- Line 243. -/
def dAt223 (c : BssnArgs 𝔽) : 𝔽 := c.dA 11

/-- Line 244. -/
def dAt231 (c : BssnArgs 𝔽) : 𝔽 := c.dA 12

/-- Line 245. -/
def dAt232 (c : BssnArgs 𝔽) : 𝔽 := c.dA 13

/-- Line 246. -/
def dAt233 (c : BssnArgs 𝔽) : 𝔽 := c.dA 14

/-- Line 247. -/
def dAt331 (c : BssnArgs 𝔽) : 𝔽 := c.dA 15

/-- Line 248. -/
def dAt332 (c : BssnArgs 𝔽) : 𝔽 := c.dA 16

/-- Line 249. -/
def dAt333 (c : BssnArgs 𝔽) : 𝔽 := c.dA 17

/-- Line 251. -/
def dphi1 (c : BssnArgs 𝔽) : 𝔽 := c.dphi 0

/-- Line 252. -/
def dphi2 (c : BssnArgs 𝔽) : 𝔽 := c.dphi 1

/-- Line 253. -/
def dphi3 (c : BssnArgs 𝔽) : 𝔽 := c.dphi 2

/-- Line 255. -/
def ddphi11 (c : BssnArgs 𝔽) : 𝔽 := c.ddphi 0

/-- Line 256. -/
def ddphi12 (c : BssnArgs 𝔽) : 𝔽 := c.ddphi 1

/-- Line 257. -/
def ddphi13 (c : BssnArgs 𝔽) : 𝔽 := c.ddphi 2

/-- Line 258. -/
def ddphi22 (c : BssnArgs 𝔽) : 𝔽 := c.ddphi 3

/-- Line 259. -/
def ddphi23 (c : BssnArgs 𝔽) : 𝔽 := c.ddphi 4

/-- Line 260. -/
def ddphi33 (c : BssnArgs 𝔽) : 𝔽 := c.ddphi 5

/-- Line 262. -/
def dGt11 (c : BssnArgs 𝔽) : 𝔽 := c.dG 0

/-- Line 263. -/
def dGt12 (c : BssnArgs 𝔽) : 𝔽 := c.dG 1

/-- Line 264. -/
def dGt13 (c : BssnArgs 𝔽) : 𝔽 := c.dG 2

/-- Line 265. -/
def dGt21 (c : BssnArgs 𝔽) : 𝔽 := c.dG 3

/-- Line 266. -/
def dGt22 (c : BssnArgs 𝔽) : 𝔽 := c.dG 4

/-- Line 267. -/
def dGt23 (c : BssnArgs 𝔽) : 𝔽 := c.dG 5

/-- Line 268. -/
def dGt31 (c : BssnArgs 𝔽) : 𝔽 := c.dG 6

/-- Line 269. -/
def dGt32 (c : BssnArgs 𝔽) : 𝔽 := c.dG 7

/-- Line 270. -/
def dGt33 (c : BssnArgs 𝔽) : 𝔽 := c.dG 8

/-- Line 272. -/
def dK1_0 (c : BssnArgs 𝔽) : 𝔽 := c.dK 0

/-- Line 273. -/
def dK2_0 (c : BssnArgs 𝔽) : 𝔽 := c.dK 1

/-- Line 274. -/
def dK3_0 (c : BssnArgs 𝔽) : 𝔽 := c.dK 2

/-- Line 276. -/
def dalp1 (c : BssnArgs 𝔽) : 𝔽 := c.dalp 0

/-- Line 277. -/
def dalp2 (c : BssnArgs 𝔽) : 𝔽 := c.dalp 1

/-- Line 278. -/
def dalp3 (c : BssnArgs 𝔽) : 𝔽 := c.dalp 2

/-- Line 280. -/
def ddalp11 (c : BssnArgs 𝔽) : 𝔽 := c.ddalp 0

/-- Line 281. -/
def ddalp12 (c : BssnArgs 𝔽) : 𝔽 := c.ddalp 1

/-- Line 282. -/
def ddalp13 (c : BssnArgs 𝔽) : 𝔽 := c.ddalp 2

/-- Line 283. -/
def ddalp22 (c : BssnArgs 𝔽) : 𝔽 := c.ddalp 3

/-- Line 284. -/
def ddalp23 (c : BssnArgs 𝔽) : 𝔽 := c.ddalp 4

/-- Line 285. -/
def ddalp33 (c : BssnArgs 𝔽) : 𝔽 := c.ddalp 5

/-- Line 287. -/
def dbeta11 (c : BssnArgs 𝔽) : 𝔽 := c.dbeta 0

/-- Line 288. -/
def dbeta12 (c : BssnArgs 𝔽) : 𝔽 := c.dbeta 1

/-- Line 289. -/
def dbeta13 (c : BssnArgs 𝔽) : 𝔽 := c.dbeta 2

/-- Line 290. -/
def dbeta21 (c : BssnArgs 𝔽) : 𝔽 := c.dbeta 3

/-- Line 291. -/
def dbeta22 (c : BssnArgs 𝔽) : 𝔽 := c.dbeta 4

/-- Line 292. -/
def dbeta23 (c : BssnArgs 𝔽) : 𝔽 := c.dbeta 5

/-- Line 293. -/
def dbeta31 (c : BssnArgs 𝔽) : 𝔽 := c.dbeta 6

/-- Line 294. -/
def dbeta32 (c : BssnArgs 𝔽) : 𝔽 := c.dbeta 7

/-- Line 295. -/
def dbeta33 (c : BssnArgs 𝔽) : 𝔽 := c.dbeta 8

/-- Line 297. -/
def ddbeta111 (c : BssnArgs 𝔽) : 𝔽 := c.ddbeta 0

/-- Line 298. -/
def ddbeta112 (c : BssnArgs 𝔽) : 𝔽 := c.ddbeta 1

/-- Line 299. -/
def ddbeta113 (c : BssnArgs 𝔽) : 𝔽 := c.ddbeta 2

/-- Line 300. -/
def ddbeta122 (c : BssnArgs 𝔽) : 𝔽 := c.ddbeta 3

/-- Line 301. -/
def ddbeta123 (c : BssnArgs 𝔽) : 𝔽 := c.ddbeta 4

/-- Line 302. -/
def ddbeta133 (c : BssnArgs 𝔽) : 𝔽 := c.ddbeta 5

/-- Line 303. -/
def ddbeta211 (c : BssnArgs 𝔽) : 𝔽 := c.ddbeta 6

/-- Line 304. -/
def ddbeta212 (c : BssnArgs 𝔽) : 𝔽 := c.ddbeta 7

/-- Line 305. -/
def ddbeta213 (c : BssnArgs 𝔽) : 𝔽 := c.ddbeta 8

/-- Line 306. -/
def ddbeta222 (c : BssnArgs 𝔽) : 𝔽 := c.ddbeta 9

/-- Line 307. -/
def ddbeta223 (c : BssnArgs 𝔽) : 𝔽 := c.ddbeta 10

/-- Line 308. -/
def ddbeta233 (c : BssnArgs 𝔽) : 𝔽 := c.ddbeta 11

/-- Line 309. -/
def ddbeta311 (c : BssnArgs 𝔽) : 𝔽 := c.ddbeta 12

/-- Line 310. -/
def ddbeta312 (c : BssnArgs 𝔽) : 𝔽 := c.ddbeta 13

/-- Line 311. -/
def ddbeta313 (c : BssnArgs 𝔽) : 𝔽 := c.ddbeta 14

/-- Line 312. -/
def ddbeta322 (c : BssnArgs 𝔽) : 𝔽 := c.ddbeta 15

/-- Line 313. -/
def ddbeta323 (c : BssnArgs 𝔽) : 𝔽 := c.ddbeta 16

/-- Line 314. -/
def ddbeta333 (c : BssnArgs 𝔽) : 𝔽 := c.ddbeta 17

/-- Line 316. -/
def alphaRHS (c : BssnArgs 𝔽) : 𝔽 := c.alphaRHS

/-- Line 47. -/
def evolveshift [LinearOrder 𝔽] (c : BssnArgs 𝔽) : 𝔽 := if c.shiftStop ≤ c.time ∧ 0 ≤ c.shiftStop then 0 else 1

/-- Lines 710-713. -/
def df1_0 (c : BssnArgs 𝔽) : 𝔽 := dphi1 c

/-- Lines 715-718. -/
def df2_0 (c : BssnArgs 𝔽) : 𝔽 := dphi2 c

/-- Lines 720-723. -/
def df3_0 (c : BssnArgs 𝔽) : 𝔽 := dphi3 c

/-- Lines 725-728. -/
def ddf11_0 (c : BssnArgs 𝔽) : 𝔽 := ddphi11 c

/-- Lines 730-733. -/
def ddf12_0 (c : BssnArgs 𝔽) : 𝔽 := ddphi12 c

/-- Lines 735-738. -/
def ddf13_0 (c : BssnArgs 𝔽) : 𝔽 := ddphi13 c

/-- Lines 740-743. -/
def ddf22_0 (c : BssnArgs 𝔽) : 𝔽 := ddphi22 c

/-- Lines 745-748. -/
def ddf23_0 (c : BssnArgs 𝔽) : 𝔽 := ddphi23 c

/-- Lines 750-753. -/
def ddf33_0 (c : BssnArgs 𝔽) : 𝔽 := ddphi33 c

/-- Lines 755-758. -/
def da1 (c : BssnArgs 𝔽) : 𝔽 := dalp1 c

/-- Lines 760-763. -/
def da2 (c : BssnArgs 𝔽) : 𝔽 := dalp2 c

/-- Lines 765-768. -/
def da3 (c : BssnArgs 𝔽) : 𝔽 := dalp3 c

/-- Lines 770-773. -/
def dda11 (c : BssnArgs 𝔽) : 𝔽 := ddalp11 c

/-- Lines 775-778. -/
def dda12 (c : BssnArgs 𝔽) : 𝔽 := ddalp12 c

/-- Lines 780-783. -/
def dda13 (c : BssnArgs 𝔽) : 𝔽 := ddalp13 c

/-- Lines 785-788. -/
def dda22 (c : BssnArgs 𝔽) : 𝔽 := ddalp22 c

/-- Lines 790-793. -/
def dda23 (c : BssnArgs 𝔽) : 𝔽 := ddalp23 c

/-- Lines 795-798. -/
def dda33 (c : BssnArgs 𝔽) : 𝔽 := ddalp33 c

/-- Lines 800-803. -/
def db11 (c : BssnArgs 𝔽) : 𝔽 := dbeta11 c

/-- Lines 805-808. -/
def db12 (c : BssnArgs 𝔽) : 𝔽 := dbeta21 c

/-- Lines 810-813. -/
def db13 (c : BssnArgs 𝔽) : 𝔽 := dbeta31 c

/-- Lines 815-818. -/
def db21 (c : BssnArgs 𝔽) : 𝔽 := dbeta12 c

/-- Lines 820-823. -/
def db22 (c : BssnArgs 𝔽) : 𝔽 := dbeta22 c

/-- Lines 825-828. -/
def db23 (c : BssnArgs 𝔽) : 𝔽 := dbeta32 c

/-- Lines 830-833. -/
def db31 (c : BssnArgs 𝔽) : 𝔽 := dbeta13 c

/-- Lines 835-838. -/
def db32 (c : BssnArgs 𝔽) : 𝔽 := dbeta23 c

/-- Lines 840-843. -/
def db33 (c : BssnArgs 𝔽) : 𝔽 := dbeta33 c

/-- Lines 845-848. -/
def ddb111 (c : BssnArgs 𝔽) : 𝔽 := ddbeta111 c

/-- Lines 850-853. -/
def ddb112 (c : BssnArgs 𝔽) : 𝔽 := ddbeta211 c

/-- Lines 855-858. -/
def ddb113 (c : BssnArgs 𝔽) : 𝔽 := ddbeta311 c

/-- Lines 860-863. -/
def ddb121 (c : BssnArgs 𝔽) : 𝔽 := ddbeta112 c

/-- Lines 865-868. -/
def ddb122 (c : BssnArgs 𝔽) : 𝔽 := ddbeta212 c

/-- Lines 870-873. -/
def ddb123 (c : BssnArgs 𝔽) : 𝔽 := ddbeta312 c

/-- Lines 875-878. -/
def ddb131 (c : BssnArgs 𝔽) : 𝔽 := ddbeta113 c

/-- Lines 880-883. -/
def ddb132 (c : BssnArgs 𝔽) : 𝔽 := ddbeta213 c

/-- Lines 885-888. -/
def ddb133 (c : BssnArgs 𝔽) : 𝔽 := ddbeta313 c

/-- Lines 890-893. -/
def ddb221 (c : BssnArgs 𝔽) : 𝔽 := ddbeta122 c

/-- Lines 895-898. -/
def ddb222 (c : BssnArgs 𝔽) : 𝔽 := ddbeta222 c

/-- Lines 900-903. -/
def ddb223 (c : BssnArgs 𝔽) : 𝔽 := ddbeta322 c

/-- Lines 905-908. -/
def ddb231 (c : BssnArgs 𝔽) : 𝔽 := ddbeta123 c

/-- Lines 910-913. -/
def ddb232 (c : BssnArgs 𝔽) : 𝔽 := ddbeta223 c

/-- Lines 915-918. -/
def ddb233 (c : BssnArgs 𝔽) : 𝔽 := ddbeta323 c

/-- Lines 920-923. -/
def ddb331 (c : BssnArgs 𝔽) : 𝔽 := ddbeta133 c

/-- Lines 925-928. -/
def ddb332 (c : BssnArgs 𝔽) : 𝔽 := ddbeta233 c

/-- Lines 930-933. -/
def ddb333 (c : BssnArgs 𝔽) : 𝔽 := ddbeta333 c

/-- Lines 935-938. -/
def delg111 (c : BssnArgs 𝔽) : 𝔽 := dgt111 c

/-- Lines 940-943. -/
def delg112 (c : BssnArgs 𝔽) : 𝔽 := dgt121 c

/-- Lines 945-948. -/
def delg113 (c : BssnArgs 𝔽) : 𝔽 := dgt131 c

/-- Lines 950-953. -/
def delg122 (c : BssnArgs 𝔽) : 𝔽 := dgt221 c

/-- Lines 955-958. -/
def delg123 (c : BssnArgs 𝔽) : 𝔽 := dgt231 c

/-- Lines 960-963. -/
def delg133 (c : BssnArgs 𝔽) : 𝔽 := dgt331 c

/-- Lines 965-968. -/
def delg211 (c : BssnArgs 𝔽) : 𝔽 := dgt112 c

/-- Lines 970-973. -/
def delg212 (c : BssnArgs 𝔽) : 𝔽 := dgt122 c

/-- Lines 975-978. -/
def delg213 (c : BssnArgs 𝔽) : 𝔽 := dgt132 c

/-- Lines 980-983. -/
def delg222 (c : BssnArgs 𝔽) : 𝔽 := dgt222 c

/-- Lines 985-988. -/
def delg223 (c : BssnArgs 𝔽) : 𝔽 := dgt232 c

/-- Lines 990-993. -/
def delg233 (c : BssnArgs 𝔽) : 𝔽 := dgt332 c

/-- Lines 995-998. -/
def delg311 (c : BssnArgs 𝔽) : 𝔽 := dgt113 c

/-- Lines 1000-1003. -/
def delg312 (c : BssnArgs 𝔽) : 𝔽 := dgt123 c

/-- Lines 1005-1008. -/
def delg313 (c : BssnArgs 𝔽) : 𝔽 := dgt133 c

/-- Lines 1010-1013. -/
def delg322 (c : BssnArgs 𝔽) : 𝔽 := dgt223 c

/-- Lines 1015-1018. -/
def delg323 (c : BssnArgs 𝔽) : 𝔽 := dgt233 c

/-- Lines 1020-1023. -/
def delg333 (c : BssnArgs 𝔽) : 𝔽 := dgt333 c

/-- Lines 1025-1028. -/
def deldelg1111 (c : BssnArgs 𝔽) : 𝔽 := ddgt1111 c

/-- Lines 1030-1033. -/
def deldelg1112 (c : BssnArgs 𝔽) : 𝔽 := ddgt1211 c

/-- Lines 1035-1038. -/
def deldelg1113 (c : BssnArgs 𝔽) : 𝔽 := ddgt1311 c

/-- Lines 1040-1043. -/
def deldelg1122 (c : BssnArgs 𝔽) : 𝔽 := ddgt2211 c

/-- Lines 1045-1048. -/
def deldelg1123 (c : BssnArgs 𝔽) : 𝔽 := ddgt2311 c

/-- Lines 1050-1053. -/
def deldelg1133 (c : BssnArgs 𝔽) : 𝔽 := ddgt3311 c

/-- Lines 1055-1058. -/
def deldelg1211 (c : BssnArgs 𝔽) : 𝔽 := ddgt1112 c

/-- Lines 1060-1063. -/
def deldelg1212 (c : BssnArgs 𝔽) : 𝔽 := ddgt1212 c

/-- Lines 1065-1068. -/
def deldelg1213 (c : BssnArgs 𝔽) : 𝔽 := ddgt1312 c

/-- Lines 1070-1073. -/
def deldelg1222 (c : BssnArgs 𝔽) : 𝔽 := ddgt2212 c

/-- Lines 1075-1078. -/
def deldelg1223 (c : BssnArgs 𝔽) : 𝔽 := ddgt2312 c

/-- Lines 1080-1083. -/
def deldelg1233 (c : BssnArgs 𝔽) : 𝔽 := ddgt3312 c

/-- Lines 1085-1088. -/
def deldelg1311 (c : BssnArgs 𝔽) : 𝔽 := ddgt1113 c

/-- Lines 1090-1093. -/
def deldelg1312 (c : BssnArgs 𝔽) : 𝔽 := ddgt1213 c

/-- Lines 1095-1098. -/
def deldelg1313 (c : BssnArgs 𝔽) : 𝔽 := ddgt1313 c

/-- Lines 1100-1103. -/
def deldelg1322 (c : BssnArgs 𝔽) : 𝔽 := ddgt2213 c

/-- Lines 1105-1108. -/
def deldelg1323 (c : BssnArgs 𝔽) : 𝔽 := ddgt2313 c

/-- Lines 1110-1113. -/
def deldelg1333 (c : BssnArgs 𝔽) : 𝔽 := ddgt3313 c

/-- Lines 1115-1118. -/
def deldelg2211 (c : BssnArgs 𝔽) : 𝔽 := ddgt1122 c

/-- Lines 1120-1123. -/
def deldelg2212 (c : BssnArgs 𝔽) : 𝔽 := ddgt1222 c

/-- Lines 1125-1128. -/
def deldelg2213 (c : BssnArgs 𝔽) : 𝔽 := ddgt1322 c

/-- Lines 1130-1133. -/
def deldelg2222 (c : BssnArgs 𝔽) : 𝔽 := ddgt2222 c

/-- Lines 1135-1138. -/
def deldelg2223 (c : BssnArgs 𝔽) : 𝔽 := ddgt2322 c

/-- Lines 1140-1143. -/
def deldelg2233 (c : BssnArgs 𝔽) : 𝔽 := ddgt3322 c

/-- Lines 1145-1148. -/
def deldelg2311 (c : BssnArgs 𝔽) : 𝔽 := ddgt1123 c

/-- Lines 1150-1153. -/
def deldelg2312 (c : BssnArgs 𝔽) : 𝔽 := ddgt1223 c

/-- Lines 1155-1158. -/
def deldelg2313 (c : BssnArgs 𝔽) : 𝔽 := ddgt1323 c

/-- Lines 1160-1163. -/
def deldelg2322 (c : BssnArgs 𝔽) : 𝔽 := ddgt2223 c

/-- Lines 1165-1168. -/
def deldelg2323 (c : BssnArgs 𝔽) : 𝔽 := ddgt2323 c

/-- Lines 1170-1173. -/
def deldelg2333 (c : BssnArgs 𝔽) : 𝔽 := ddgt3323 c

/-- Lines 1175-1178. -/
def deldelg3311 (c : BssnArgs 𝔽) : 𝔽 := ddgt1133 c

/-- Lines 1180-1183. -/
def deldelg3312 (c : BssnArgs 𝔽) : 𝔽 := ddgt1233 c

/-- Lines 1185-1188. -/
def deldelg3313 (c : BssnArgs 𝔽) : 𝔽 := ddgt1333 c

/-- Lines 1190-1193. -/
def deldelg3322 (c : BssnArgs 𝔽) : 𝔽 := ddgt2233 c

/-- Lines 1195-1198. -/
def deldelg3323 (c : BssnArgs 𝔽) : 𝔽 := ddgt2333 c

/-- Lines 1200-1203. -/
def deldelg3333 (c : BssnArgs 𝔽) : 𝔽 := ddgt3333 c

/-- Lines 1205-1208. -/
def delG11 (c : BssnArgs 𝔽) : 𝔽 := dGt11 c

/-- Lines 1210-1213. -/
def delG12 (c : BssnArgs 𝔽) : 𝔽 := dGt21 c

/-- Lines 1215-1218. -/
def delG13 (c : BssnArgs 𝔽) : 𝔽 := dGt31 c

/-- Lines 1220-1223. -/
def delG21 (c : BssnArgs 𝔽) : 𝔽 := dGt12 c

/-- Lines 1225-1228. -/
def delG22 (c : BssnArgs 𝔽) : 𝔽 := dGt22 c

/-- Lines 1230-1233. -/
def delG23 (c : BssnArgs 𝔽) : 𝔽 := dGt32 c

/-- Lines 1235-1238. -/
def delG31 (c : BssnArgs 𝔽) : 𝔽 := dGt13 c

/-- Lines 1240-1243. -/
def delG32 (c : BssnArgs 𝔽) : 𝔽 := dGt23 c

/-- Lines 1245-1248. -/
def delG33 (c : BssnArgs 𝔽) : 𝔽 := dGt33 c

/-- Lines 1250-1253. -/
def dA111 (c : BssnArgs 𝔽) : 𝔽 := dAt111 c

/-- Lines 1255-1258. -/
def dA112 (c : BssnArgs 𝔽) : 𝔽 := dAt121 c

/-- Lines 1260-1263. -/
def dA113 (c : BssnArgs 𝔽) : 𝔽 := dAt131 c

/-- Lines 1265-1268. -/
def dA122 (c : BssnArgs 𝔽) : 𝔽 := dAt221 c

/-- Lines 1270-1273. -/
def dA123 (c : BssnArgs 𝔽) : 𝔽 := dAt231 c

/-- Lines 1275-1278. -/
def dA133 (c : BssnArgs 𝔽) : 𝔽 := dAt331 c

/-- Lines 1280-1283. -/
def dA211 (c : BssnArgs 𝔽) : 𝔽 := dAt112 c

/-- Lines 1285-1288. -/
def dA212 (c : BssnArgs 𝔽) : 𝔽 := dAt122 c

/-- Lines 1290-1293. -/
def dA213 (c : BssnArgs 𝔽) : 𝔽 := dAt132 c

/-- Lines 1295-1298. -/
def dA222 (c : BssnArgs 𝔽) : 𝔽 := dAt222 c

/-- Lines 1300-1303. -/
def dA223 (c : BssnArgs 𝔽) : 𝔽 := dAt232 c

/-- Lines 1305-1308. -/
def dA233 (c : BssnArgs 𝔽) : 𝔽 := dAt332 c

/-- Lines 1310-1313. -/
def dA311 (c : BssnArgs 𝔽) : 𝔽 := dAt113 c

/-- Lines 1315-1318. -/
def dA312 (c : BssnArgs 𝔽) : 𝔽 := dAt123 c

/-- Lines 1320-1323. -/
def dA313 (c : BssnArgs 𝔽) : 𝔽 := dAt133 c

/-- Lines 1325-1328. -/
def dA322 (c : BssnArgs 𝔽) : 𝔽 := dAt223 c

/-- Lines 1330-1333. -/
def dA323 (c : BssnArgs 𝔽) : 𝔽 := dAt233 c

/-- Lines 1335-1338. -/
def dA333 (c : BssnArgs 𝔽) : 𝔽 := dAt333 c

/-- Lines 1340-1343. -/
def betadf_0 (c : BssnArgs 𝔽) : 𝔽 := beta1 c * dphi1 c + beta2 c * dphi2 c + beta3 c * dphi3 c

/-- Lines 1345-1348. -/
def betadg11 (c : BssnArgs 𝔽) : 𝔽 := beta1 c * dgt111 c + beta2 c * dgt112 c + beta3 c * dgt113 c

/-- Lines 1350-1353. -/
def betadg12 (c : BssnArgs 𝔽) : 𝔽 := beta1 c * dgt121 c + beta2 c * dgt122 c + beta3 c * dgt123 c

/-- Lines 1355-1358. -/
def betadg13 (c : BssnArgs 𝔽) : 𝔽 := beta1 c * dgt131 c + beta2 c * dgt132 c + beta3 c * dgt133 c

/-- Lines 1360-1363. -/
def betadg21 (c : BssnArgs 𝔽) : 𝔽 := beta1 c * dgt121 c + beta2 c * dgt122 c + beta3 c * dgt123 c

/-- Lines 1365-1368. -/
def betadg22 (c : BssnArgs 𝔽) : 𝔽 := beta1 c * dgt221 c + beta2 c * dgt222 c + beta3 c * dgt223 c

/-- Lines 1370-1373. -/
def betadg23 (c : BssnArgs 𝔽) : 𝔽 := beta1 c * dgt231 c + beta2 c * dgt232 c + beta3 c * dgt233 c

/-- Lines 1375-1378. -/
def betadg31 (c : BssnArgs 𝔽) : 𝔽 := beta1 c * dgt131 c + beta2 c * dgt132 c + beta3 c * dgt133 c

/-- Lines 1380-1383. -/
def betadg32 (c : BssnArgs 𝔽) : 𝔽 := beta1 c * dgt231 c + beta2 c * dgt232 c + beta3 c * dgt233 c

/-- Lines 1385-1388. -/
def betadg33 (c : BssnArgs 𝔽) : 𝔽 := beta1 c * dgt331 c + beta2 c * dgt332 c + beta3 c * dgt333 c

/-- Lines 1390-1393. -/
def betadA11 (c : BssnArgs 𝔽) : 𝔽 := beta1 c * dAt111 c + beta2 c * dAt112 c + beta3 c * dAt113 c

/-- Lines 1395-1398. -/
def betadA12 (c : BssnArgs 𝔽) : 𝔽 := beta1 c * dAt121 c + beta2 c * dAt122 c + beta3 c * dAt123 c

/-- Lines 1400-1403. -/
def betadA13 (c : BssnArgs 𝔽) : 𝔽 := beta1 c * dAt131 c + beta2 c * dAt132 c + beta3 c * dAt133 c

/-- Lines 1405-1408. -/
def betadA21 (c : BssnArgs 𝔽) : 𝔽 := beta1 c * dAt121 c + beta2 c * dAt122 c + beta3 c * dAt123 c

/-- Lines 1410-1413. -/
def betadA22 (c : BssnArgs 𝔽) : 𝔽 := beta1 c * dAt221 c + beta2 c * dAt222 c + beta3 c * dAt223 c

/-- Lines 1415-1418. -/
def betadA23 (c : BssnArgs 𝔽) : 𝔽 := beta1 c * dAt231 c + beta2 c * dAt232 c + beta3 c * dAt233 c

/-- Lines 1420-1423. -/
def betadA31 (c : BssnArgs 𝔽) : 𝔽 := beta1 c * dAt131 c + beta2 c * dAt132 c + beta3 c * dAt133 c

/-- Lines 1425-1428. -/
def betadA32 (c : BssnArgs 𝔽) : 𝔽 := beta1 c * dAt231 c + beta2 c * dAt232 c + beta3 c * dAt233 c

/-- Lines 1430-1433. -/
def betadA33 (c : BssnArgs 𝔽) : 𝔽 := beta1 c * dAt331 c + beta2 c * dAt332 c + beta3 c * dAt333 c

/-- Lines 1435-1438. -/
def betadK (c : BssnArgs 𝔽) : 𝔽 := beta1 c * dK1_0 c + beta2 c * dK2_0 c + beta3 c * dK3_0 c

/-- Lines 1440-1443. -/
def betadG1 (c : BssnArgs 𝔽) : 𝔽 := beta1 c * dGt11 c + beta2 c * dGt12 c + beta3 c * dGt13 c

/-- Lines 1445-1448. -/
def betadG2 (c : BssnArgs 𝔽) : 𝔽 := beta1 c * dGt21 c + beta2 c * dGt22 c + beta3 c * dGt23 c

/-- Lines 1450-1453. -/
def betadG3 (c : BssnArgs 𝔽) : 𝔽 := beta1 c * dGt31 c + beta2 c * dGt32 c + beta3 c * dGt33 c

/-- Lines 1455-1458. -/
def betadalp (c : BssnArgs 𝔽) : 𝔽 := beta1 c * dalp1 c + beta2 c * dalp2 c + beta3 c * dalp3 c

/-- Lines 1460-1465. -/
def detginv (c : BssnArgs 𝔽) : 𝔽 :=
  1 / (2 * g12 c * g13 c * g23 c + g11 c * g22 c * g33 c - g33 c * g12 c ^ 2 - g22 c * g13 c ^ 2 - g11 c * g23 c ^
    2)

/-- Lines 1467-1470. -/
def ginv11 (c : BssnArgs 𝔽) : 𝔽 := detginv c * (g22 c * g33 c - g23 c ^ 2)

/-- Lines 1472-1475. -/
def ginv12 (c : BssnArgs 𝔽) : 𝔽 := detginv c * (g13 c * g23 c - g12 c * g33 c)

/-- Lines 1477-1480. -/
def ginv13 (c : BssnArgs 𝔽) : 𝔽 := detginv c * (-(g13 c * g22 c) + g12 c * g23 c)

/-- Lines 1482-1485. -/
def ginv22 (c : BssnArgs 𝔽) : 𝔽 := detginv c * (g11 c * g33 c - g13 c ^ 2)

/-- Lines 1487-1490. -/
def ginv23 (c : BssnArgs 𝔽) : 𝔽 := detginv c * (g12 c * g13 c - g11 c * g23 c)

/-- Lines 1492-1495. -/
def ginv33 (c : BssnArgs 𝔽) : 𝔽 := detginv c * (g11 c * g22 c - g12 c ^ 2)

/-- Lines 1497-1501. -/
def dginv111 (c : BssnArgs 𝔽) : 𝔽 :=
  (-2) * (delg123 c * ginv12 c * ginv13 c + ginv11 c * (delg112 c * ginv12 c + delg113 c * ginv13 c)) - delg111 c
    * ginv11 c ^ 2 - delg122 c * ginv12 c ^ 2 - delg133 c * ginv13 c ^ 2

/-- Lines 1503-1508. -/
def dginv112 (c : BssnArgs 𝔽) : 𝔽 :=
  -(ginv11 c * (delg111 c * ginv12 c + delg112 c * ginv22 c + delg113 c * ginv23 c)) - ginv12 c * (delg113 c *
    ginv13 c + delg122 c * ginv22 c + delg123 c * ginv23 c) - ginv13 c * (delg123 c * ginv22 c + delg133 c *
    ginv23 c) - delg112 c * ginv12 c ^ 2

/-- Lines 1510-1515. -/
def dginv113 (c : BssnArgs 𝔽) : 𝔽 :=
  -(ginv11 c * (delg111 c * ginv13 c + delg112 c * ginv23 c + delg113 c * ginv33 c)) - ginv12 c * (delg112 c *
    ginv13 c + delg122 c * ginv23 c + delg123 c * ginv33 c) - ginv13 c * (delg123 c * ginv23 c + delg133 c *
    ginv33 c) - delg113 c * ginv13 c ^ 2

/-- Lines 1517-1521. -/
def dginv122 (c : BssnArgs 𝔽) : 𝔽 :=
  (-2) * (delg123 c * ginv22 c * ginv23 c + ginv12 c * (delg112 c * ginv22 c + delg113 c * ginv23 c)) - delg111 c
    * ginv12 c ^ 2 - delg122 c * ginv22 c ^ 2 - delg133 c * ginv23 c ^ 2

/-- Lines 1523-1528. -/
def dginv123 (c : BssnArgs 𝔽) : 𝔽 :=
  -(ginv13 c * (delg112 c * ginv22 c + delg113 c * ginv23 c)) - delg133 c * ginv23 c * ginv33 c - ginv12 c *
    (delg111 c * ginv13 c + delg112 c * ginv23 c + delg113 c * ginv33 c) - ginv22 c * (delg122 c * ginv23 c +
    delg123 c * ginv33 c) - delg123 c * ginv23 c ^ 2

/-- Lines 1530-1534. -/
def dginv133 (c : BssnArgs 𝔽) : 𝔽 :=
  (-2) * (delg123 c * ginv23 c * ginv33 c + ginv13 c * (delg112 c * ginv23 c + delg113 c * ginv33 c)) - delg111 c
    * ginv13 c ^ 2 - delg122 c * ginv23 c ^ 2 - delg133 c * ginv33 c ^ 2

/-- Lines 1536-1540. -/
def dginv211 (c : BssnArgs 𝔽) : 𝔽 :=
  (-2) * (delg223 c * ginv12 c * ginv13 c + ginv11 c * (delg212 c * ginv12 c + delg213 c * ginv13 c)) - delg211 c
    * ginv11 c ^ 2 - delg222 c * ginv12 c ^ 2 - delg233 c * ginv13 c ^ 2

/-- Lines 1542-1547. -/
def dginv212 (c : BssnArgs 𝔽) : 𝔽 :=
  -(ginv11 c * (delg211 c * ginv12 c + delg212 c * ginv22 c + delg213 c * ginv23 c)) - ginv12 c * (delg213 c *
    ginv13 c + delg222 c * ginv22 c + delg223 c * ginv23 c) - ginv13 c * (delg223 c * ginv22 c + delg233 c *
    ginv23 c) - delg212 c * ginv12 c ^ 2

/-- Lines 1549-1554. -/
def dginv213 (c : BssnArgs 𝔽) : 𝔽 :=
  -(ginv11 c * (delg211 c * ginv13 c + delg212 c * ginv23 c + delg213 c * ginv33 c)) - ginv12 c * (delg212 c *
    ginv13 c + delg222 c * ginv23 c + delg223 c * ginv33 c) - ginv13 c * (delg223 c * ginv23 c + delg233 c *
    ginv33 c) - delg213 c * ginv13 c ^ 2

/-- Lines 1556-1560. -/
def dginv222 (c : BssnArgs 𝔽) : 𝔽 :=
  (-2) * (delg223 c * ginv22 c * ginv23 c + ginv12 c * (delg212 c * ginv22 c + delg213 c * ginv23 c)) - delg211 c
    * ginv12 c ^ 2 - delg222 c * ginv22 c ^ 2 - delg233 c * ginv23 c ^ 2

/-- Lines 1562-1567. -/
def dginv223 (c : BssnArgs 𝔽) : 𝔽 :=
  -(ginv13 c * (delg212 c * ginv22 c + delg213 c * ginv23 c)) - delg233 c * ginv23 c * ginv33 c - ginv12 c *
    (delg211 c * ginv13 c + delg212 c * ginv23 c + delg213 c * ginv33 c) - ginv22 c * (delg222 c * ginv23 c +
    delg223 c * ginv33 c) - delg223 c * ginv23 c ^ 2

/-- Lines 1569-1573. -/
def dginv233 (c : BssnArgs 𝔽) : 𝔽 :=
  (-2) * (delg223 c * ginv23 c * ginv33 c + ginv13 c * (delg212 c * ginv23 c + delg213 c * ginv33 c)) - delg211 c
    * ginv13 c ^ 2 - delg222 c * ginv23 c ^ 2 - delg233 c * ginv33 c ^ 2

/-- Lines 1575-1579. -/
def dginv311 (c : BssnArgs 𝔽) : 𝔽 :=
  (-2) * (delg323 c * ginv12 c * ginv13 c + ginv11 c * (delg312 c * ginv12 c + delg313 c * ginv13 c)) - delg311 c
    * ginv11 c ^ 2 - delg322 c * ginv12 c ^ 2 - delg333 c * ginv13 c ^ 2

/-- Lines 1581-1586. -/
def dginv312 (c : BssnArgs 𝔽) : 𝔽 :=
  -(ginv11 c * (delg311 c * ginv12 c + delg312 c * ginv22 c + delg313 c * ginv23 c)) - ginv12 c * (delg313 c *
    ginv13 c + delg322 c * ginv22 c + delg323 c * ginv23 c) - ginv13 c * (delg323 c * ginv22 c + delg333 c *
    ginv23 c) - delg312 c * ginv12 c ^ 2

/-- Lines 1588-1593. -/
def dginv313 (c : BssnArgs 𝔽) : 𝔽 :=
  -(ginv11 c * (delg311 c * ginv13 c + delg312 c * ginv23 c + delg313 c * ginv33 c)) - ginv12 c * (delg312 c *
    ginv13 c + delg322 c * ginv23 c + delg323 c * ginv33 c) - ginv13 c * (delg323 c * ginv23 c + delg333 c *
    ginv33 c) - delg313 c * ginv13 c ^ 2

/-- Lines 1595-1599. -/
def dginv322 (c : BssnArgs 𝔽) : 𝔽 :=
  (-2) * (delg323 c * ginv22 c * ginv23 c + ginv12 c * (delg312 c * ginv22 c + delg313 c * ginv23 c)) - delg311 c
    * ginv12 c ^ 2 - delg322 c * ginv22 c ^ 2 - delg333 c * ginv23 c ^ 2

/-- Lines 1601-1606. -/
def dginv323 (c : BssnArgs 𝔽) : 𝔽 :=
  -(ginv13 c * (delg312 c * ginv22 c + delg313 c * ginv23 c)) - delg333 c * ginv23 c * ginv33 c - ginv12 c *
    (delg311 c * ginv13 c + delg312 c * ginv23 c + delg313 c * ginv33 c) - ginv22 c * (delg322 c * ginv23 c +
    delg323 c * ginv33 c) - delg323 c * ginv23 c ^ 2

/-- Lines 1608-1612. -/
def dginv333 (c : BssnArgs 𝔽) : 𝔽 :=
  (-2) * (delg323 c * ginv23 c * ginv33 c + ginv13 c * (delg312 c * ginv23 c + delg313 c * ginv33 c)) - delg311 c
    * ginv13 c ^ 2 - delg322 c * ginv23 c ^ 2 - delg333 c * ginv33 c ^ 2

/-- Lines 1614-1617. -/
def gammado111 (c : BssnArgs 𝔽) : 𝔽 := 1 / 2 * delg111 c

/-- Lines 1619-1622. -/
def gammado112 (c : BssnArgs 𝔽) : 𝔽 := 1 / 2 * delg211 c

/-- Lines 1624-1627. -/
def gammado113 (c : BssnArgs 𝔽) : 𝔽 := 1 / 2 * delg311 c

/-- Lines 1629-1632. -/
def gammado122 (c : BssnArgs 𝔽) : 𝔽 := (-(1 / 2)) * delg122 c + delg212 c

/-- Lines 1634-1637. -/
def gammado123 (c : BssnArgs 𝔽) : 𝔽 := 1 / 2 * (-delg123 c + delg213 c + delg312 c)

/-- Lines 1639-1642. -/
def gammado133 (c : BssnArgs 𝔽) : 𝔽 := (-(1 / 2)) * delg133 c + delg313 c

/-- Lines 1644-1647. -/
def gammado211 (c : BssnArgs 𝔽) : 𝔽 := delg112 c - 1 / 2 * delg211 c

/-- Lines 1649-1652. -/
def gammado212 (c : BssnArgs 𝔽) : 𝔽 := 1 / 2 * delg122 c

/-- Lines 1654-1657. -/
def gammado213 (c : BssnArgs 𝔽) : 𝔽 := 1 / 2 * (delg123 c - delg213 c + delg312 c)

/-- Lines 1659-1662. -/
def gammado222 (c : BssnArgs 𝔽) : 𝔽 := 1 / 2 * delg222 c

/-- Lines 1664-1667. -/
def gammado223 (c : BssnArgs 𝔽) : 𝔽 := 1 / 2 * delg322 c

/-- Lines 1669-1672. -/
def gammado233 (c : BssnArgs 𝔽) : 𝔽 := (-(1 / 2)) * delg233 c + delg323 c

/-- Lines 1674-1677. -/
def gammado311 (c : BssnArgs 𝔽) : 𝔽 := delg113 c - 1 / 2 * delg311 c

/-- Lines 1679-1682. -/
def gammado312 (c : BssnArgs 𝔽) : 𝔽 := 1 / 2 * (delg123 c + delg213 c - delg312 c)

/-- Lines 1684-1687. -/
def gammado313 (c : BssnArgs 𝔽) : 𝔽 := 1 / 2 * delg133 c

/-- Lines 1689-1692. -/
def gammado322 (c : BssnArgs 𝔽) : 𝔽 := delg223 c - 1 / 2 * delg322 c

/-- Lines 1694-1697. -/
def gammado323 (c : BssnArgs 𝔽) : 𝔽 := 1 / 2 * delg233 c

/-- Lines 1699-1702. -/
def gammado333 (c : BssnArgs 𝔽) : 𝔽 := 1 / 2 * delg333 c

/-- Lines 1704-1707. -/
def gamma111 (c : BssnArgs 𝔽) : 𝔽 := gammado111 c * ginv11 c + gammado211 c * ginv12 c + gammado311 c * ginv13 c

/-- Lines 1709-1712. -/
def gamma112 (c : BssnArgs 𝔽) : 𝔽 := gammado112 c * ginv11 c + gammado212 c * ginv12 c + gammado312 c * ginv13 c

/-- Lines 1714-1717. -/
def gamma113 (c : BssnArgs 𝔽) : 𝔽 := gammado113 c * ginv11 c + gammado213 c * ginv12 c + gammado313 c * ginv13 c

/-- Lines 1719-1722. -/
def gamma122 (c : BssnArgs 𝔽) : 𝔽 := gammado122 c * ginv11 c + gammado222 c * ginv12 c + gammado322 c * ginv13 c

/-- Lines 1724-1727. -/
def gamma123 (c : BssnArgs 𝔽) : 𝔽 := gammado123 c * ginv11 c + gammado223 c * ginv12 c + gammado323 c * ginv13 c

/-- Lines 1729-1732. -/
def gamma133 (c : BssnArgs 𝔽) : 𝔽 := gammado133 c * ginv11 c + gammado233 c * ginv12 c + gammado333 c * ginv13 c

/-- Lines 1734-1737. -/
def gamma211 (c : BssnArgs 𝔽) : 𝔽 := gammado111 c * ginv12 c + gammado211 c * ginv22 c + gammado311 c * ginv23 c

/-- Lines 1739-1742. -/
def gamma212 (c : BssnArgs 𝔽) : 𝔽 := gammado112 c * ginv12 c + gammado212 c * ginv22 c + gammado312 c * ginv23 c

/-- Lines 1744-1747. -/
def gamma213 (c : BssnArgs 𝔽) : 𝔽 := gammado113 c * ginv12 c + gammado213 c * ginv22 c + gammado313 c * ginv23 c

/-- Lines 1749-1752. -/
def gamma222 (c : BssnArgs 𝔽) : 𝔽 := gammado122 c * ginv12 c + gammado222 c * ginv22 c + gammado322 c * ginv23 c

/-- Lines 1754-1757. -/
def gamma223 (c : BssnArgs 𝔽) : 𝔽 := gammado123 c * ginv12 c + gammado223 c * ginv22 c + gammado323 c * ginv23 c

/-- Lines 1759-1762. -/
def gamma233 (c : BssnArgs 𝔽) : 𝔽 := gammado133 c * ginv12 c + gammado233 c * ginv22 c + gammado333 c * ginv23 c

/-- Lines 1764-1767. -/
def gamma311 (c : BssnArgs 𝔽) : 𝔽 := gammado111 c * ginv13 c + gammado211 c * ginv23 c + gammado311 c * ginv33 c

/-- Lines 1769-1772. -/
def gamma312 (c : BssnArgs 𝔽) : 𝔽 := gammado112 c * ginv13 c + gammado212 c * ginv23 c + gammado312 c * ginv33 c

/-- Lines 1774-1777. -/
def gamma313 (c : BssnArgs 𝔽) : 𝔽 := gammado113 c * ginv13 c + gammado213 c * ginv23 c + gammado313 c * ginv33 c

/-- Lines 1779-1782. -/
def gamma322 (c : BssnArgs 𝔽) : 𝔽 := gammado122 c * ginv13 c + gammado222 c * ginv23 c + gammado322 c * ginv33 c

/-- Lines 1784-1787. -/
def gamma323 (c : BssnArgs 𝔽) : 𝔽 := gammado123 c * ginv13 c + gammado223 c * ginv23 c + gammado323 c * ginv33 c

/-- Lines 1789-1792. -/
def gamma333 (c : BssnArgs 𝔽) : 𝔽 := gammado133 c * ginv13 c + gammado233 c * ginv23 c + gammado333 c * ginv33 c

/-- Lines 1794-1798. -/
def Gfromg1 (c : BssnArgs 𝔽) : 𝔽 :=
  gamma111 c * ginv11 c + gamma122 c * ginv22 c + 2 * (gamma112 c * ginv12 c + gamma113 c * ginv13 c + gamma123 c
    * ginv23 c) + gamma133 c * ginv33 c

/-- Lines 1800-1804. -/
def Gfromg2 (c : BssnArgs 𝔽) : 𝔽 :=
  gamma211 c * ginv11 c + gamma222 c * ginv22 c + 2 * (gamma212 c * ginv12 c + gamma213 c * ginv13 c + gamma223 c
    * ginv23 c) + gamma233 c * ginv33 c

/-- Lines 1806-1810. -/
def Gfromg3 (c : BssnArgs 𝔽) : 𝔽 :=
  gamma311 c * ginv11 c + gamma322 c * ginv22 c + 2 * (gamma312 c * ginv12 c + gamma313 c * ginv13 c + gamma323 c
    * ginv23 c) + gamma333 c * ginv33 c

/-- Lines 1817-1820. -/
def undiffdG1_0 (c : BssnArgs 𝔽) : 𝔽 := Gfromg1 c

/-- Lines 1822-1825. -/
def undiffdG2_0 (c : BssnArgs 𝔽) : 𝔽 := Gfromg2 c

/-- Lines 1827-1830. -/
def undiffdG3_0 (c : BssnArgs 𝔽) : 𝔽 := Gfromg3 c

/-- Lines 1835-1838. -/
def undiffdG1_1 (c : BssnArgs 𝔽) : 𝔽 := G1 c

/-- Lines 1815-1851. -/
def undiffdG1 (c : BssnArgs 𝔽) : 𝔽 := if c.gReplaced then undiffdG1_0 c else undiffdG1_1 c

/-- Lines 1840-1843. -/
def undiffdG2_1 (c : BssnArgs 𝔽) : 𝔽 := G2 c

/-- Lines 1815-1851. -/
def undiffdG2 (c : BssnArgs 𝔽) : 𝔽 := if c.gReplaced then undiffdG2_0 c else undiffdG2_1 c

/-- Lines 1845-1848. -/
def undiffdG3_1 (c : BssnArgs 𝔽) : 𝔽 := G3 c

/-- Lines 1815-1851. -/
def undiffdG3 (c : BssnArgs 𝔽) : 𝔽 := if c.gReplaced then undiffdG3_0 c else undiffdG3_1 c

/-- Lines 1854-1879. -/
def R11 (c : BssnArgs 𝔽) : 𝔽 :=
  ((-(1 / 2)) * deldelg1111 c + 3 * gamma111 c * gammado111 c + 2 * (gamma211 c * gammado112 c + gamma311 c *
    gammado113 c) + gamma211 c * gammado211 c + gamma311 c * gammado311 c) * ginv11 c + (-deldelg1211 c + 3 *
    (gamma112 c * gammado111 c + gamma111 c * gammado112 c) + 2 * (gamma212 c * gammado112 c + gamma312 c *
    gammado113 c + gamma211 c * gammado122 c + gamma311 c * gammado123 c) + gamma212 c * gammado211 c + gamma211 c *
    gammado212 c + gamma312 c * gammado311 c + gamma311 c * gammado312 c) * ginv12 c + (-deldelg1311 c + 3 *
    (gamma113 c * gammado111 c + gamma111 c * gammado113 c) + 2 * (gamma213 c * gammado112 c + gamma313 c *
    gammado113 c + gamma211 c * gammado123 c + gamma311 c * gammado133 c) + gamma213 c * gammado211 c + gamma211 c *
    gammado213 c + gamma313 c * gammado311 c + gamma311 c * gammado313 c) * ginv13 c + ((-(1 / 2)) * deldelg2211 c +
    3 * gamma112 c * gammado112 c + 2 * (gamma212 c * gammado122 c + gamma312 c * gammado123 c) + gamma212 c *
    gammado212 c + gamma312 c * gammado312 c) * ginv22 c + (-deldelg2311 c + 3 * (gamma113 c * gammado112 c +
    gamma112 c * gammado113 c) + 2 * (gamma213 c * gammado122 c + (gamma212 c + gamma313 c) * gammado123 c +
    gamma312 c * gammado133 c) + gamma213 c * gammado212 c + gamma212 c * gammado213 c + gamma313 c * gammado312 c +
    gamma312 c * gammado313 c) * ginv23 c + ((-(1 / 2)) * deldelg3311 c + 3 * gamma113 c * gammado113 c + 2 *
    (gamma213 c * gammado123 c + gamma313 c * gammado133 c) + gamma213 c * gammado213 c + gamma313 c * gammado313 c)
    * ginv33 c + gammado111 c * undiffdG1 c + gammado112 c * undiffdG2 c + gammado113 c * undiffdG3 c + delG11 c *
    g11 c + delG12 c * g12 c + delG13 c * g13 c

/-- Lines 1881-1915. -/
def R12_0 (c : BssnArgs 𝔽) : 𝔽 :=
  ((-(1 / 2)) * deldelg1112 c + 2 * gamma112 c * gammado111 c + gamma111 c * gammado211 c + gamma212 c *
    (gammado112 c + gammado211 c) + gamma211 c * gammado212 c + gamma311 c * gammado213 c + gamma312 c *
    (gammado113 c + gammado311 c)) * ginv11 c + (-deldelg1212 c + gamma212 c * gammado122 c + gamma112 c *
    gammado211 c + gamma222 c * (gammado112 c + gammado211 c) + gamma111 c * gammado212 c + 2 * (gamma122 c *
    gammado111 c + gamma112 c * gammado112 c + gamma212 c * gammado212 c) + gamma211 c * gammado222 c + gamma311 c *
    gammado223 c + gamma322 c * (gammado113 c + gammado311 c) + gamma312 c * (gammado123 c + gammado213 c +
    gammado312 c)) * ginv12 c + (-deldelg1312 c + 2 * (gamma123 c * gammado111 c + gamma112 c * gammado113 c) +
    gamma113 c * gammado211 c + gamma223 c * (gammado112 c + gammado211 c) + gamma213 c * gammado212 c + (gamma111 c
    + gamma313 c) * gammado213 c + gamma212 c * (gammado123 c + gammado213 c) + gamma211 c * gammado223 c +
    gamma311 c * gammado233 c + gamma323 c * (gammado113 c + gammado311 c) + gamma312 c * (gammado133 c +
    gammado313 c)) * ginv13 c + ((-(1 / 2)) * deldelg2212 c + 2 * gamma122 c * gammado112 c + gamma112 c *
    gammado212 c + gamma222 c * (gammado122 c + gammado212 c) + gamma212 c * gammado222 c + gamma312 c *
    gammado223 c + gamma322 c * (gammado123 c + gammado312 c)) * ginv22 c + (-deldelg2312 c + 2 * (gamma123 c *
    gammado112 c + gamma122 c * gammado113 c) + (gamma222 c + gamma323 c) * gammado123 c + gamma113 c * gammado212 c
    + gamma223 c * (gammado122 c + gammado212 c) + (gamma112 c + gamma222 c) * gammado213 c + gamma213 c *
    gammado222 c + (gamma212 c + gamma313 c) * gammado223 c + gamma312 c * gammado233 c + gamma323 c * gammado312 c
    + gamma322 c * (gammado133 c + gammado313 c)) * ginv23 c + ((-(1 / 2)) * deldelg3312 c + 2 * gamma123 c *
    gammado113 c + gamma113 c * gammado213 c + gamma223 c * (gammado123 c + gammado213 c) + gamma213 c *
    gammado223 c + gamma313 c * gammado233 c + gamma323 c * (gammado133 c + gammado313 c)) * ginv33 c + 1 / 2 *
    ((gammado112 c + gammado211 c) * undiffdG1 c + (gammado122 c + gammado212 c) * undiffdG2 c + (gammado123 c +
    gammado213 c) * undiffdG3 c + delG21 c * g11 c + (delG11 c + delG22 c) * g12 c + delG23 c * g13 c + delG12 c *
    g22 c + delG13 c * g23 c)

/-- Lines 1917-1955. -/
def R12 (c : BssnArgs 𝔽) : 𝔽 :=
  ((-(1 / 2)) * deldelg1112 c + gamma112 c * gammado111 c + (gamma111 c + gamma212 c) * gammado112 c + gamma312 c
    * gammado113 c + gamma111 c * gammado211 c + 2 * gamma211 c * gammado212 c + gamma311 c * (gammado213 c +
    gammado312 c)) * ginv11 c + (-deldelg1212 c + gamma122 c * gammado111 c + (2 * gamma112 c + gamma222 c) *
    gammado112 c + gamma322 c * gammado113 c + (gamma111 c + gamma212 c) * gammado122 c + gamma112 c * gammado211 c
    + (gamma111 c + 2 * gamma212 c) * gammado212 c + 2 * gamma211 c * gammado222 c + gamma312 c * (gammado123 c +
    gammado213 c + gammado312 c) + gamma311 c * (gammado223 c + gammado322 c)) * ginv12 c + (-deldelg1312 c +
    gamma123 c * gammado111 c + (gamma113 c + gamma223 c) * gammado112 c + (gamma112 c + gamma323 c) * gammado113 c
    + (gamma111 c + gamma212 c) * gammado123 c + gamma312 c * gammado133 c + gamma113 c * gammado211 c + (gamma111 c
    + gamma313 c) * gammado213 c + 2 * (gamma213 c * gammado212 c + gamma211 c * gammado223 c) + gamma313 c *
    gammado312 c + gamma311 c * (gammado233 c + gammado323 c)) * ginv13 c + ((-(1 / 2)) * deldelg2212 c + gamma122 c
    * gammado112 c + (gamma112 c + gamma222 c) * gammado122 c + gamma322 c * gammado123 c + gamma112 c *
    gammado212 c + 2 * gamma212 c * gammado222 c + gamma312 c * (gammado223 c + gammado322 c)) * ginv22 c +
    (-deldelg2312 c + gamma123 c * gammado112 c + gamma122 c * gammado113 c + (gamma113 c + gamma223 c) *
    gammado122 c + (gamma112 c + gamma222 c + gamma323 c) * gammado123 c + gamma322 c * gammado133 c + gamma113 c *
    gammado212 c + gamma112 c * gammado213 c + 2 * (gamma213 c * gammado222 c + gamma212 c * gammado223 c) +
    gamma313 c * (gammado223 c + gammado322 c) + gamma312 c * (gammado233 c + gammado323 c)) * ginv23 c + ((-(1 /
    2)) * deldelg3312 c + gamma123 c * gammado113 c + (gamma113 c + gamma223 c) * gammado123 c + gamma323 c *
    gammado133 c + gamma113 c * gammado213 c + 2 * gamma213 c * gammado223 c + gamma313 c * (gammado233 c +
    gammado323 c)) * ginv33 c + 1 / 2 * ((gammado112 c + gammado211 c) * undiffdG1 c + (gammado122 c + gammado212 c)
    * undiffdG2 c + (gammado123 c + gammado213 c) * undiffdG3 c + delG21 c * g11 c + (delG11 c + delG22 c) * g12 c +
    delG23 c * g13 c + delG12 c * g22 c + delG13 c * g23 c)

/-- Lines 1957-1996. -/
def R13_0 (c : BssnArgs 𝔽) : 𝔽 :=
  ((-(1 / 2)) * deldelg1113 c + 2 * gamma113 c * gammado111 c + gamma213 c * (gammado112 c + gammado211 c) +
    gamma111 c * gammado311 c + gamma313 c * (gammado113 c + gammado311 c) + gamma211 c * gammado312 c + gamma311 c
    * gammado313 c) * ginv11 c + (-deldelg1213 c + 2 * (gamma123 c * gammado111 c + gamma113 c * gammado112 c) +
    gamma223 c * (gammado112 c + gammado211 c) + gamma213 c * (gammado122 c + gammado212 c) + gamma112 c *
    gammado311 c + gamma323 c * (gammado113 c + gammado311 c) + (gamma111 c + gamma212 c) * gammado312 c +
    gamma313 c * (gammado123 c + gammado312 c) + gamma312 c * gammado313 c + gamma211 c * gammado322 c + gamma311 c
    * gammado323 c) * ginv12 c + (-deldelg1313 c + gamma313 c * gammado133 c + gamma233 c * (gammado112 c +
    gammado211 c) + gamma113 c * gammado311 c + gamma333 c * (gammado113 c + gammado311 c) + gamma213 c *
    (gammado123 c + gammado213 c + gammado312 c) + gamma111 c * gammado313 c + 2 * (gamma133 c * gammado111 c +
    gamma113 c * gammado113 c + gamma313 c * gammado313 c) + gamma211 c * gammado323 c + gamma311 c * gammado333 c)
    * ginv13 c + ((-(1 / 2)) * deldelg2213 c + 2 * gamma123 c * gammado112 c + gamma223 c * (gammado122 c +
    gammado212 c) + gamma112 c * gammado312 c + gamma323 c * (gammado123 c + gammado312 c) + gamma212 c *
    gammado322 c + gamma312 c * gammado323 c) * ginv22 c + (-deldelg2313 c + 2 * (gamma133 c * gammado112 c +
    gamma123 c * gammado113 c) + (gamma223 c + gamma333 c) * gammado123 c + gamma233 c * (gammado122 c +
    gammado212 c) + gamma223 c * gammado213 c + (gamma113 c + gamma333 c) * gammado312 c + gamma112 c * gammado313 c
    + gamma323 c * (gammado133 c + gammado313 c) + gamma213 c * gammado322 c + (gamma212 c + gamma313 c) *
    gammado323 c + gamma312 c * gammado333 c) * ginv23 c + ((-(1 / 2)) * deldelg3313 c + 2 * gamma133 c *
    gammado113 c + gamma233 c * (gammado123 c + gammado213 c) + gamma113 c * gammado313 c + gamma333 c *
    (gammado133 c + gammado313 c) + gamma213 c * gammado323 c + gamma313 c * gammado333 c) * ginv33 c + 1 / 2 *
    ((gammado113 c + gammado311 c) * undiffdG1 c + (gammado123 c + gammado312 c) * undiffdG2 c + (gammado133 c +
    gammado313 c) * undiffdG3 c + delG31 c * g11 c + delG32 c * g12 c + (delG11 c + delG33 c) * g13 c + delG12 c *
    g23 c + delG13 c * g33 c)

/-- Lines 1998-2032. -/
def R13 (c : BssnArgs 𝔽) : 𝔽 :=
  ((-(1 / 2)) * deldelg1113 c + gamma113 c * gammado111 c + gamma213 c * gammado112 c + (gamma111 c + gamma313 c)
    * gammado113 c + gamma111 c * gammado311 c + gamma211 c * (gammado213 c + gammado312 c) + 2 * gamma311 c *
    gammado313 c) * ginv11 c + (-deldelg1213 c + gamma123 c * gammado111 c + (gamma113 c + gamma223 c) *
    gammado112 c + (gamma112 c + gamma323 c) * gammado113 c + gamma213 c * gammado122 c + (gamma111 c + gamma313 c)
    * gammado123 c + gamma112 c * gammado311 c + gamma111 c * gammado312 c + gamma212 c * (gammado213 c +
    gammado312 c) + gamma211 c * (gammado223 c + gammado322 c) + 2 * (gamma312 c * gammado313 c + gamma311 c *
    gammado323 c)) * ginv12 c + (-deldelg1313 c + gamma133 c * gammado111 c + gamma233 c * gammado112 c + (2 *
    gamma113 c + gamma333 c) * gammado113 c + (gamma111 c + gamma313 c) * gammado133 c + gamma113 c * gammado311 c +
    gamma213 c * (gammado123 c + gammado213 c + gammado312 c) + (gamma111 c + 2 * gamma313 c) * gammado313 c +
    gamma211 c * (gammado233 c + gammado323 c) + 2 * gamma311 c * gammado333 c) * ginv13 c + ((-(1 / 2)) *
    deldelg2213 c + gamma123 c * gammado112 c + gamma223 c * gammado122 c + (gamma112 c + gamma323 c) * gammado123 c
    + gamma112 c * gammado312 c + gamma212 c * (gammado223 c + gammado322 c) + 2 * gamma312 c * gammado323 c) *
    ginv22 c + (-deldelg2313 c + gamma133 c * gammado112 c + gamma123 c * gammado113 c + gamma233 c * gammado122 c +
    (gamma113 c + gamma223 c + gamma333 c) * gammado123 c + (gamma112 c + gamma323 c) * gammado133 c + gamma113 c *
    gammado312 c + gamma112 c * gammado313 c + gamma213 c * (gammado223 c + gammado322 c) + gamma212 c *
    (gammado233 c + gammado323 c) + 2 * (gamma313 c * gammado323 c + gamma312 c * gammado333 c)) * ginv23 c + ((-(1
    / 2)) * deldelg3313 c + gamma133 c * gammado113 c + gamma233 c * gammado123 c + (gamma113 c + gamma333 c) *
    gammado133 c + gamma113 c * gammado313 c + gamma213 c * (gammado233 c + gammado323 c) + 2 * gamma313 c *
    gammado333 c) * ginv33 c + 1 / 2 * ((gammado113 c + gammado311 c) * undiffdG1 c + (gammado123 c + gammado312 c)
    * undiffdG2 c + (gammado133 c + gammado313 c) * undiffdG3 c + delG31 c * g11 c + delG32 c * g12 c + (delG11 c +
    delG33 c) * g13 c + delG12 c * g23 c + delG13 c * g33 c)

/-- Lines 2034-2059. -/
def R22 (c : BssnArgs 𝔽) : 𝔽 :=
  ((-(1 / 2)) * deldelg1122 c + gamma112 c * (gammado112 c + 2 * gammado211 c) + 3 * gamma212 c * gammado212 c +
    gamma312 c * (2 * gammado213 c + gammado312 c)) * ginv11 c + (-deldelg1222 c + gamma122 c * (gammado112 c + 2 *
    gammado211 c) + gamma112 c * (gammado122 c + 2 * gammado212 c) + 3 * (gamma222 c * gammado212 c + gamma212 c *
    gammado222 c) + 2 * (gamma322 c * gammado213 c + gamma312 c * gammado223 c) + gamma322 c * gammado312 c +
    gamma312 c * gammado322 c) * ginv12 c + (-deldelg1322 c + gamma123 c * (gammado112 c + 2 * gammado211 c) +
    gamma112 c * (gammado123 c + 2 * gammado213 c) + 3 * (gamma223 c * gammado212 c + gamma212 c * gammado223 c) + 2
    * (gamma323 c * gammado213 c + gamma312 c * gammado233 c) + gamma323 c * gammado312 c + gamma312 c *
    gammado323 c) * ginv13 c + ((-(1 / 2)) * deldelg2222 c + gamma122 c * (gammado122 c + 2 * gammado212 c) + 3 *
    gamma222 c * gammado222 c + gamma322 c * (2 * gammado223 c + gammado322 c)) * ginv22 c + (-deldelg2322 c +
    gamma123 c * (gammado122 c + 2 * gammado212 c) + gamma122 c * (gammado123 c + 2 * gammado213 c) + 3 *
    (gamma223 c * gammado222 c + gamma222 c * gammado223 c) + 2 * (gamma323 c * gammado223 c + gamma322 c *
    gammado233 c) + gamma323 c * gammado322 c + gamma322 c * gammado323 c) * ginv23 c + ((-(1 / 2)) * deldelg3322 c
    + gamma123 c * (gammado123 c + 2 * gammado213 c) + 3 * gamma223 c * gammado223 c + gamma323 c * (2 *
    gammado233 c + gammado323 c)) * ginv33 c + gammado212 c * undiffdG1 c + gammado222 c * undiffdG2 c +
    gammado223 c * undiffdG3 c + delG21 c * g12 c + delG22 c * g22 c + delG23 c * g23 c

/-- Lines 2061-2098. -/
def R23_0 (c : BssnArgs 𝔽) : 𝔽 :=
  ((-(1 / 2)) * deldelg1123 c + gamma113 c * (gammado112 c + gammado211 c) + 2 * gamma213 c * gammado212 c +
    gamma112 c * gammado311 c + gamma212 c * gammado312 c + gamma313 c * (gammado213 c + gammado312 c) + gamma312 c
    * gammado313 c) * ginv11 c + (-deldelg1223 c + gamma123 c * (gammado112 c + gammado211 c) + gamma113 c *
    (gammado122 c + gammado212 c) + 2 * (gamma223 c * gammado212 c + gamma213 c * gammado222 c) + gamma122 c *
    gammado311 c + (gamma112 c + gamma222 c) * gammado312 c + gamma323 c * (gammado213 c + gammado312 c) +
    gamma322 c * gammado313 c + gamma212 c * gammado322 c + gamma313 c * (gammado223 c + gammado322 c) + gamma312 c
    * gammado323 c) * ginv12 c + (-deldelg1323 c + gamma133 c * (gammado112 c + gammado211 c) + gamma113 c *
    (gammado123 c + gammado213 c) + 2 * (gamma233 c * gammado212 c + gamma213 c * gammado223 c) + gamma123 c *
    gammado311 c + gamma223 c * gammado312 c + gamma333 c * (gammado213 c + gammado312 c) + (gamma112 c +
    gamma323 c) * gammado313 c + gamma212 c * gammado323 c + gamma313 c * (gammado233 c + gammado323 c) + gamma312 c
    * gammado333 c) * ginv13 c + ((-(1 / 2)) * deldelg2223 c + gamma123 c * (gammado122 c + gammado212 c) + 2 *
    gamma223 c * gammado222 c + gamma122 c * gammado312 c + gamma222 c * gammado322 c + gamma323 c * (gammado223 c +
    gammado322 c) + gamma322 c * gammado323 c) * ginv22 c + (-deldelg2323 c + gamma133 c * (gammado122 c +
    gammado212 c) + gamma323 c * gammado233 c + gamma123 c * (gammado123 c + gammado213 c + gammado312 c) +
    gamma122 c * gammado313 c + gamma223 c * gammado322 c + gamma333 c * (gammado223 c + gammado322 c) + gamma222 c
    * gammado323 c + 2 * (gamma233 c * gammado222 c + gamma223 c * gammado223 c + gamma323 c * gammado323 c) +
    gamma322 c * gammado333 c) * ginv23 c + ((-(1 / 2)) * deldelg3323 c + gamma133 c * (gammado123 c + gammado213 c)
    + 2 * gamma233 c * gammado223 c + gamma123 c * gammado313 c + gamma223 c * gammado323 c + gamma333 c *
    (gammado233 c + gammado323 c) + gamma323 c * gammado333 c) * ginv33 c + 1 / 2 * ((gammado213 c + gammado312 c) *
    undiffdG1 c + (gammado223 c + gammado322 c) * undiffdG2 c + (gammado233 c + gammado323 c) * undiffdG3 c +
    delG31 c * g12 c + delG21 c * g13 c + delG32 c * g22 c + (delG22 c + delG33 c) * g23 c + delG23 c * g33 c)

/-- Lines 2100-2137. -/
def R23 (c : BssnArgs 𝔽) : 𝔽 :=
  ((-(1 / 2)) * deldelg1123 c + gamma113 c * gammado211 c + gamma213 c * gammado212 c + (gamma212 c + gamma313 c)
    * gammado213 c + gamma112 c * (gammado113 c + gammado311 c) + gamma212 c * gammado312 c + 2 * gamma312 c *
    gammado313 c) * ginv11 c + (-deldelg1223 c + gamma123 c * gammado211 c + (gamma113 c + gamma223 c) *
    gammado212 c + (gamma222 c + gamma323 c) * gammado213 c + gamma213 c * gammado222 c + (gamma212 c + gamma313 c)
    * gammado223 c + gamma122 c * (gammado113 c + gammado311 c) + gamma222 c * gammado312 c + gamma112 c *
    (gammado123 c + gammado312 c) + gamma212 c * gammado322 c + 2 * (gamma322 c * gammado313 c + gamma312 c *
    gammado323 c)) * ginv12 c + (-deldelg1323 c + gamma133 c * gammado211 c + gamma233 c * gammado212 c +
    (gamma113 c + gamma223 c + gamma333 c) * gammado213 c + gamma213 c * gammado223 c + (gamma212 c + gamma313 c) *
    gammado233 c + gamma123 c * (gammado113 c + gammado311 c) + gamma223 c * gammado312 c + gamma112 c *
    (gammado133 c + gammado313 c) + gamma212 c * gammado323 c + 2 * (gamma323 c * gammado313 c + gamma312 c *
    gammado333 c)) * ginv13 c + ((-(1 / 2)) * deldelg2223 c + gamma123 c * gammado212 c + gamma223 c * gammado222 c
    + (gamma222 c + gamma323 c) * gammado223 c + gamma122 c * (gammado123 c + gammado312 c) + gamma222 c *
    gammado322 c + 2 * gamma322 c * gammado323 c) * ginv22 c + (-deldelg2323 c + gamma133 c * gammado212 c +
    gamma233 c * gammado222 c + (2 * gamma223 c + gamma333 c) * gammado223 c + (gamma222 c + gamma323 c) *
    gammado233 c + gamma123 c * (gammado123 c + gammado213 c + gammado312 c) + gamma122 c * (gammado133 c +
    gammado313 c) + gamma223 c * gammado322 c + (gamma222 c + 2 * gamma323 c) * gammado323 c + 2 * gamma322 c *
    gammado333 c) * ginv23 c + ((-(1 / 2)) * deldelg3323 c + gamma133 c * gammado213 c + gamma233 c * gammado223 c +
    (gamma223 c + gamma333 c) * gammado233 c + gamma123 c * (gammado133 c + gammado313 c) + gamma223 c *
    gammado323 c + 2 * gamma323 c * gammado333 c) * ginv33 c + 1 / 2 * ((gammado213 c + gammado312 c) * undiffdG1 c
    + (gammado223 c + gammado322 c) * undiffdG2 c + (gammado233 c + gammado323 c) * undiffdG3 c + delG31 c * g12 c +
    delG21 c * g13 c + delG32 c * g22 c + (delG22 c + delG33 c) * g23 c + delG23 c * g33 c)

/-- Lines 2139-2164. -/
def R33 (c : BssnArgs 𝔽) : 𝔽 :=
  ((-(1 / 2)) * deldelg1133 c + gamma113 c * (gammado113 c + 2 * gammado311 c) + gamma213 c * (gammado213 c + 2 *
    gammado312 c) + 3 * gamma313 c * gammado313 c) * ginv11 c + (-deldelg1233 c + gamma123 c * (gammado113 c + 2 *
    gammado311 c) + gamma113 c * (gammado123 c + 2 * gammado312 c) + gamma223 c * (gammado213 c + 2 * gammado312 c)
    + gamma213 c * (gammado223 c + 2 * gammado322 c) + 3 * (gamma323 c * gammado313 c + gamma313 c * gammado323 c))
    * ginv12 c + (-deldelg1333 c + gamma133 c * (gammado113 c + 2 * gammado311 c) + gamma233 c * (gammado213 c + 2 *
    gammado312 c) + gamma113 c * (gammado133 c + 2 * gammado313 c) + gamma213 c * (gammado233 c + 2 * gammado323 c)
    + 3 * (gamma333 c * gammado313 c + gamma313 c * gammado333 c)) * ginv13 c + ((-(1 / 2)) * deldelg2233 c +
    gamma123 c * (gammado123 c + 2 * gammado312 c) + gamma223 c * (gammado223 c + 2 * gammado322 c) + 3 * gamma323 c
    * gammado323 c) * ginv22 c + (-deldelg2333 c + gamma133 c * (gammado123 c + 2 * gammado312 c) + gamma123 c *
    (gammado133 c + 2 * gammado313 c) + gamma233 c * (gammado223 c + 2 * gammado322 c) + gamma223 c * (gammado233 c
    + 2 * gammado323 c) + 3 * (gamma333 c * gammado323 c + gamma323 c * gammado333 c)) * ginv23 c + ((-(1 / 2)) *
    deldelg3333 c + gamma133 c * (gammado133 c + 2 * gammado313 c) + gamma233 c * (gammado233 c + 2 * gammado323 c)
    + 3 * gamma333 c * gammado333 c) * ginv33 c + gammado313 c * undiffdG1 c + gammado323 c * undiffdG2 c +
    gammado333 c * undiffdG3 c + delG31 c * g13 c + delG32 c * g23 c + delG33 c * g33 c

/-- Lines 2166-2169. -/
def f_0 (c : BssnArgs 𝔽) : 𝔽 := phi c

/-- Lines 2171-2174. -/
def logpsi_0 (_c : BssnArgs 𝔽) : 𝔽 := 0

/-- Lines 2181-2184. -/
def logpsi (c : BssnArgs 𝔽) : 𝔽 := c.log (psi c)

/-- Lines 2186-2189. -/
def f (c : BssnArgs 𝔽) : 𝔽 := f_0 c + logpsi c

/-- Lines 2191-2194. -/
def df1 (c : BssnArgs 𝔽) : 𝔽 := df1_0 c + dpop1 c

/-- Lines 2196-2199. -/
def df2 (c : BssnArgs 𝔽) : 𝔽 := df2_0 c + dpop2 c

/-- Lines 2201-2204. -/
def df3 (c : BssnArgs 𝔽) : 𝔽 := df3_0 c + dpop3 c

/-- Lines 2206-2209. -/
def ddf11 (c : BssnArgs 𝔽) : 𝔽 := ddf11_0 c + ddpop11 c - dpop1 c ^ 2

/-- Lines 2211-2214. -/
def ddf12 (c : BssnArgs 𝔽) : 𝔽 := ddf12_0 c + ddpop12 c - dpop1 c * dpop2 c

/-- Lines 2216-2219. -/
def ddf13 (c : BssnArgs 𝔽) : 𝔽 := ddf13_0 c + ddpop13 c - dpop1 c * dpop3 c

/-- Lines 2221-2224. -/
def ddf22 (c : BssnArgs 𝔽) : 𝔽 := ddf22_0 c + ddpop22 c - dpop2 c ^ 2

/-- Lines 2226-2229. -/
def ddf23 (c : BssnArgs 𝔽) : 𝔽 := ddf23_0 c + ddpop23 c - dpop2 c * dpop3 c

/-- Lines 2231-2234. -/
def ddf33 (c : BssnArgs 𝔽) : 𝔽 := ddf33_0 c + ddpop33 c - dpop3 c ^ 2

/-- Lines 2236-2240. -/
def betadf (c : BssnArgs 𝔽) : 𝔽 := betadf_0 c + beta1 c * dpop1 c + beta2 c * dpop2 c + beta3 c * dpop3 c

/-- Lines 2246-2249. -/
def cddf11 (c : BssnArgs 𝔽) : 𝔽 := ddf11 c - df1 c * gamma111 c - df2 c * gamma211 c - df3 c * gamma311 c

/-- Lines 2251-2254. -/
def cddf12 (c : BssnArgs 𝔽) : 𝔽 := ddf12 c - df1 c * gamma112 c - df2 c * gamma212 c - df3 c * gamma312 c

/-- Lines 2256-2259. -/
def cddf13 (c : BssnArgs 𝔽) : 𝔽 := ddf13 c - df1 c * gamma113 c - df2 c * gamma213 c - df3 c * gamma313 c

/-- Lines 2261-2264. -/
def cddf22 (c : BssnArgs 𝔽) : 𝔽 := ddf22 c - df1 c * gamma122 c - df2 c * gamma222 c - df3 c * gamma322 c

/-- Lines 2266-2269. -/
def cddf23 (c : BssnArgs 𝔽) : 𝔽 := ddf23 c - df1 c * gamma123 c - df2 c * gamma223 c - df3 c * gamma323 c

/-- Lines 2271-2274. -/
def cddf33 (c : BssnArgs 𝔽) : 𝔽 := ddf33 c - df1 c * gamma133 c - df2 c * gamma233 c - df3 c * gamma333 c

/-- Lines 2276-2280. -/
def trcddf (c : BssnArgs 𝔽) : 𝔽 :=
  cddf11 c * ginv11 c + cddf22 c * ginv22 c + 2 * (cddf12 c * ginv12 c + cddf13 c * ginv13 c + cddf23 c *
    ginv23 c) + cddf33 c * ginv33 c

/-- Lines 2282-2285. -/
def psim4 (c : BssnArgs 𝔽) : 𝔽 := c.exp ((-4) * f c)

/-- Lines 2287-2292. -/
def Rphi11 (c : BssnArgs 𝔽) : 𝔽 :=
  (-2) * (cddf11 c + trcddf c * g11 c) + (4 - 4 * ginv11 c * g11 c) * df1 c ^ 2 - g11 c * (8 * (df1 c * (df2 c *
    ginv12 c + df3 c * ginv13 c) + df2 c * df3 c * ginv23 c) + 4 * (ginv22 c * df2 c ^ 2 + ginv33 c * df3 c ^ 2))

/-- Lines 2294-2299. -/
def Rphi12 (c : BssnArgs 𝔽) : 𝔽 :=
  df1 c * df2 c * (4 - 8 * ginv12 c * g12 c) - 2 * (cddf12 c + trcddf c * g12 c) - g12 c * (8 * df3 c * (df1 c *
    ginv13 c + df2 c * ginv23 c) + 4 * (ginv11 c * df1 c ^ 2 + ginv22 c * df2 c ^ 2 + ginv33 c * df3 c ^ 2))

/-- Lines 2301-2306. -/
def Rphi13 (c : BssnArgs 𝔽) : 𝔽 :=
  df1 c * (4 * df3 c - 8 * df2 c * ginv12 c * g13 c) - 2 * (cddf13 c + trcddf c * g13 c) - g13 c * (8 * df3 c *
    (df1 c * ginv13 c + df2 c * ginv23 c) + 4 * (ginv11 c * df1 c ^ 2 + ginv22 c * df2 c ^ 2 + ginv33 c * df3 c ^
    2))

/-- Lines 2308-2313. -/
def Rphi22 (c : BssnArgs 𝔽) : 𝔽 :=
  (-2) * (cddf22 c + trcddf c * g22 c) + (4 - 4 * ginv22 c * g22 c) * df2 c ^ 2 - g22 c * (8 * (df1 c * (df2 c *
    ginv12 c + df3 c * ginv13 c) + df2 c * df3 c * ginv23 c) + 4 * (ginv11 c * df1 c ^ 2 + ginv33 c * df3 c ^ 2))

/-- Lines 2315-2320. -/
def Rphi23 (c : BssnArgs 𝔽) : 𝔽 :=
  df2 c * (4 * df3 c - 8 * df1 c * ginv12 c * g23 c) - 2 * (cddf23 c + trcddf c * g23 c) - g23 c * (8 * df3 c *
    (df1 c * ginv13 c + df2 c * ginv23 c) + 4 * (ginv11 c * df1 c ^ 2 + ginv22 c * df2 c ^ 2 + ginv33 c * df3 c ^
    2))

/-- Lines 2322-2328. -/
def Rphi33 (c : BssnArgs 𝔽) : 𝔽 :=
  (-2) * (cddf33 c + trcddf c * g33 c) - g33 c * (8 * (df1 c * (df2 c * ginv12 c + df3 c * ginv13 c) + df2 c *
    df3 c * ginv23 c) + 4 * (ginv11 c * df1 c ^ 2 + ginv22 c * df2 c ^ 2)) + (4 - 4 * ginv33 c * g33 c) * df3 c ^ 2

/-- Lines 2330-2336. -/
def cdda11 (c : BssnArgs 𝔽) : 𝔽 :=
  dda11 c - da2 c * gamma211 c - da3 c * gamma311 c + 2 * ((da2 c * df1 c + da1 c * df2 c) * ginv12 c + (da3 c *
    df1 c + da1 c * df3 c) * ginv13 c + da2 c * df2 c * ginv22 c + (da3 c * df2 c + da2 c * df3 c) * ginv23 c +
    da3 c * df3 c * ginv33 c) * g11 c + da1 c * ((-4) * df1 c - gamma111 c + 2 * df1 c * ginv11 c * g11 c)

/-- Lines 2338-2344. -/
def cdda12 (c : BssnArgs 𝔽) : 𝔽 :=
  dda12 c - 2 * (da2 c * df1 c + da1 c * df2 c) - da1 c * gamma112 c - da2 c * gamma212 c - da3 c * gamma312 c + 2
    * (da1 c * df1 c * ginv11 c + (da2 c * df1 c + da1 c * df2 c) * ginv12 c + (da3 c * df1 c + da1 c * df3 c) *
    ginv13 c + da2 c * df2 c * ginv22 c + (da3 c * df2 c + da2 c * df3 c) * ginv23 c + da3 c * df3 c * ginv33 c) *
    g12 c

/-- Lines 2346-2352. -/
def cdda13 (c : BssnArgs 𝔽) : 𝔽 :=
  dda13 c - 2 * (da3 c * df1 c + da1 c * df3 c) - da1 c * gamma113 c - da2 c * gamma213 c - da3 c * gamma313 c + 2
    * (da1 c * df1 c * ginv11 c + (da2 c * df1 c + da1 c * df2 c) * ginv12 c + (da3 c * df1 c + da1 c * df3 c) *
    ginv13 c + da2 c * df2 c * ginv22 c + (da3 c * df2 c + da2 c * df3 c) * ginv23 c + da3 c * df3 c * ginv33 c) *
    g13 c

/-- Lines 2354-2361. -/
def cdda22 (c : BssnArgs 𝔽) : 𝔽 :=
  dda22 c - da1 c * gamma122 c - da3 c * gamma322 c + 2 * (da1 c * df1 c * ginv11 c + (da2 c * df1 c + da1 c *
    df2 c) * ginv12 c + (da3 c * df1 c + da1 c * df3 c) * ginv13 c + (da3 c * df2 c + da2 c * df3 c) * ginv23 c +
    da3 c * df3 c * ginv33 c) * g22 c + da2 c * ((-4) * df2 c - gamma222 c + 2 * df2 c * ginv22 c * g22 c)

/-- Lines 2363-2369. -/
def cdda23 (c : BssnArgs 𝔽) : 𝔽 :=
  dda23 c - 2 * (da3 c * df2 c + da2 c * df3 c) - da1 c * gamma123 c - da2 c * gamma223 c - da3 c * gamma323 c + 2
    * (da1 c * df1 c * ginv11 c + (da2 c * df1 c + da1 c * df2 c) * ginv12 c + (da3 c * df1 c + da1 c * df3 c) *
    ginv13 c + da2 c * df2 c * ginv22 c + (da3 c * df2 c + da2 c * df3 c) * ginv23 c + da3 c * df3 c * ginv33 c) *
    g23 c

/-- Lines 2371-2378. -/
def cdda33 (c : BssnArgs 𝔽) : 𝔽 :=
  dda33 c - da1 c * gamma133 c - da2 c * gamma233 c + 2 * (da1 c * df1 c * ginv11 c + (da2 c * df1 c + da1 c *
    df2 c) * ginv12 c + (da3 c * df1 c + da1 c * df3 c) * ginv13 c + da2 c * df2 c * ginv22 c + (da3 c * df2 c +
    da2 c * df3 c) * ginv23 c) * g33 c + da3 c * ((-4) * df3 c - gamma333 c + 2 * df3 c * ginv33 c * g33 c)

/-- Lines 2380-2384. -/
def trcdda (c : BssnArgs 𝔽) : 𝔽 :=
  (cdda11 c * ginv11 c + cdda22 c * ginv22 c + 2 * (cdda12 c * ginv12 c + cdda13 c * ginv13 c + cdda23 c *
    ginv23 c) + cdda33 c * ginv33 c) * psim4 c

/-- Lines 2386-2389. -/
def K (c : BssnArgs 𝔽) : 𝔽 := (b2 c.noForceK) * K_0 c

/-- Lines 2391-2394. -/
def dK1 (c : BssnArgs 𝔽) : 𝔽 := (b2 c.noForceK) * dK1_0 c

/-- Lines 2396-2399. -/
def dK2 (c : BssnArgs 𝔽) : 𝔽 := (b2 c.noForceK) * dK2_0 c

/-- Lines 2401-2404. -/
def dK3 (c : BssnArgs 𝔽) : 𝔽 := (b2 c.noForceK) * dK3_0 c

/-- Lines 2406-2411. -/
def AA11 (c : BssnArgs 𝔽) : 𝔽 :=
  2 * (ginv23 c * A12 c * A13 c + A11 c * (ginv12 c * A12 c + ginv13 c * A13 c)) + ginv11 c * A11 c ^ 2 + ginv22 c
    * A12 c ^ 2 + ginv33 c * A13 c ^ 2

/-- Lines 2413-2419. -/
def AA12 (c : BssnArgs 𝔽) : 𝔽 :=
  A12 c * (ginv11 c * A11 c + ginv22 c * A22 c) + ginv33 c * A13 c * A23 c + ginv13 c * (A12 c * A13 c + A11 c *
    A23 c) + ginv23 c * (A13 c * A22 c + A12 c * A23 c) + ginv12 c * (A11 c * A22 c + A12 c ^ 2)

/-- Lines 2421-2427. -/
def AA13 (c : BssnArgs 𝔽) : 𝔽 :=
  ginv22 c * A12 c * A23 c + ginv12 c * (A12 c * A13 c + A11 c * A23 c) + A13 c * (ginv11 c * A11 c + ginv33 c *
    A33 c) + ginv23 c * (A13 c * A23 c + A12 c * A33 c) + ginv13 c * (A11 c * A33 c + A13 c ^ 2)

/-- Lines 2429-2434. -/
def AA22 (c : BssnArgs 𝔽) : 𝔽 :=
  2 * (ginv23 c * A22 c * A23 c + A12 c * (ginv12 c * A22 c + ginv13 c * A23 c)) + ginv11 c * A12 c ^ 2 + ginv22 c
    * A22 c ^ 2 + ginv33 c * A23 c ^ 2

/-- Lines 2436-2442. -/
def AA23 (c : BssnArgs 𝔽) : 𝔽 :=
  ginv11 c * A12 c * A13 c + ginv12 c * (A13 c * A22 c + A12 c * A23 c) + A23 c * (ginv22 c * A22 c + ginv33 c *
    A33 c) + ginv13 c * (A13 c * A23 c + A12 c * A33 c) + ginv23 c * (A22 c * A33 c + A23 c ^ 2)

/-- Lines 2444-2449. -/
def AA33 (c : BssnArgs 𝔽) : 𝔽 :=
  2 * (ginv23 c * A23 c * A33 c + A13 c * (ginv12 c * A23 c + ginv13 c * A33 c)) + ginv11 c * A13 c ^ 2 + ginv22 c
    * A23 c ^ 2 + ginv33 c * A33 c ^ 2

/-- Lines 2451-2455. -/
def AA (c : BssnArgs 𝔽) : 𝔽 :=
  AA11 c * ginv11 c + AA22 c * ginv22 c + 2 * (AA12 c * ginv12 c + AA13 c * ginv13 c + AA23 c * ginv23 c) + AA33 c
    * ginv33 c

/-- Lines 2457-2461. -/
def Ainv11 (c : BssnArgs 𝔽) : 𝔽 :=
  2 * (ginv11 c * (ginv12 c * A12 c + ginv13 c * A13 c) + ginv12 c * ginv13 c * A23 c) + A11 c * ginv11 c ^ 2 +
    A22 c * ginv12 c ^ 2 + A33 c * ginv13 c ^ 2

/-- Lines 2463-2468. -/
def Ainv12 (c : BssnArgs 𝔽) : 𝔽 :=
  ginv11 c * (ginv12 c * A11 c + ginv22 c * A12 c + ginv23 c * A13 c) + ginv12 c * (ginv13 c * A13 c + ginv22 c *
    A22 c + ginv23 c * A23 c) + ginv13 c * (ginv22 c * A23 c + ginv23 c * A33 c) + A12 c * ginv12 c ^ 2

/-- Lines 2470-2475. -/
def Ainv13 (c : BssnArgs 𝔽) : 𝔽 :=
  ginv11 c * (ginv13 c * A11 c + ginv23 c * A12 c + ginv33 c * A13 c) + ginv12 c * (ginv13 c * A12 c + ginv23 c *
    A22 c + ginv33 c * A23 c) + ginv13 c * (ginv23 c * A23 c + ginv33 c * A33 c) + A13 c * ginv13 c ^ 2

/-- Lines 2477-2481. -/
def Ainv22 (c : BssnArgs 𝔽) : 𝔽 :=
  2 * (ginv12 c * (ginv22 c * A12 c + ginv23 c * A13 c) + ginv22 c * ginv23 c * A23 c) + A11 c * ginv12 c ^ 2 +
    A22 c * ginv22 c ^ 2 + A33 c * ginv23 c ^ 2

/-- Lines 2483-2489. -/
def Ainv23 (c : BssnArgs 𝔽) : 𝔽 :=
  ginv13 c * (ginv22 c * A12 c + ginv23 c * A13 c) + ginv12 c * (ginv13 c * A11 c + ginv23 c * A12 c + ginv33 c *
    A13 c) + ginv22 c * (ginv23 c * A22 c + ginv33 c * A23 c) + ginv23 c * ginv33 c * A33 c + A23 c * ginv23 c ^ 2

/-- Lines 2491-2495. -/
def Ainv33 (c : BssnArgs 𝔽) : 𝔽 :=
  2 * (ginv13 c * (ginv23 c * A12 c + ginv33 c * A13 c) + ginv23 c * ginv33 c * A23 c) + A11 c * ginv13 c ^ 2 +
    A22 c * ginv23 c ^ 2 + A33 c * ginv33 c ^ 2

/-- Lines 2497-2504. -/
def divAinv1 (c : BssnArgs 𝔽) : 𝔽 :=
  (-6) * (Ainv11 c * df1 c + Ainv12 c * df2 c + Ainv13 c * df3 c) - Ainv11 c * gamma111 c - Ainv22 c * gamma122 c
    - 2 * (Ainv12 c * gamma112 c + Ainv13 c * gamma113 c + Ainv23 c * gamma123 c) - Ainv33 c * gamma133 c + 2 / 3 *
    (ginv11 c * dK1 c + ginv12 c * dK2 c + ginv13 c * dK3 c)

/-- Lines 2506-2513. -/
def divAinv2 (c : BssnArgs 𝔽) : 𝔽 :=
  (-6) * (Ainv12 c * df1 c + Ainv22 c * df2 c + Ainv23 c * df3 c) - Ainv11 c * gamma211 c - Ainv22 c * gamma222 c
    - 2 * (Ainv12 c * gamma212 c + Ainv13 c * gamma213 c + Ainv23 c * gamma223 c) - Ainv33 c * gamma233 c + 2 / 3 *
    (ginv12 c * dK1 c + ginv22 c * dK2 c + ginv23 c * dK3 c)

/-- Lines 2515-2522. -/
def divAinv3 (c : BssnArgs 𝔽) : 𝔽 :=
  (-6) * (Ainv13 c * df1 c + Ainv23 c * df2 c + Ainv33 c * df3 c) - Ainv11 c * gamma311 c - Ainv22 c * gamma322 c
    - 2 * (Ainv12 c * gamma312 c + Ainv13 c * gamma313 c + Ainv23 c * gamma323 c) - Ainv33 c * gamma333 c + 2 / 3 *
    (ginv13 c * dK1 c + ginv23 c * dK2 c + ginv33 c * dK3 c)

/-- Lines 2524-2529. -/
def trRicci (c : BssnArgs 𝔽) : 𝔽 :=
  psim4 c * (ginv11 c * (R11 c + Rphi11 c) + ginv22 c * (R22 c + Rphi22 c) + 2 * (ginv12 c * (R12 c + Rphi12 c) +
    ginv13 c * (R13 c + Rphi13 c) + ginv23 c * (R23 c + Rphi23 c)) + ginv33 c * (R33 c + Rphi33 c))

/-- Lines 2531-2534. -/
def KK (c : BssnArgs 𝔽) : 𝔽 := K c ^ 2

/-- Lines 2536-2539. -/
def hamil (c : BssnArgs 𝔽) : 𝔽 := -AA c + 2 / 3 * KK c + trRicci c

/-- Lines 2541-2544. -/
def Abshamil [LinearOrder 𝔽] (c : BssnArgs 𝔽) : 𝔽 := abs (hamil c)

/-- Lines 2546-2549. -/
def R (c : BssnArgs 𝔽) : 𝔽 := -(hamil c * c.RtoRminusHfactor) + trRicci c

/-- Lines 2551-2554. -/
def divbeta (c : BssnArgs 𝔽) : 𝔽 := db11 c + db22 c + db33 c

/-- Lines 2556-2559. -/
def totdivbeta (c : BssnArgs 𝔽) : 𝔽 := 2 / 3 * divbeta c

/-- Lines 2561-2564. -/
def ootddivbeta1 (c : BssnArgs 𝔽) : 𝔽 := 1 / 3 * (ddb111 c + ddb122 c + ddb133 c)

/-- Lines 2566-2569. -/
def ootddivbeta2 (c : BssnArgs 𝔽) : 𝔽 := 1 / 3 * (ddb121 c + ddb222 c + ddb233 c)

/-- Lines 2571-2574. -/
def ootddivbeta3 (c : BssnArgs 𝔽) : 𝔽 := 1 / 3 * (ddb131 c + ddb232 c + ddb333 c)

/-- Lines 2576-2580. -/
def lieg11 (c : BssnArgs 𝔽) : 𝔽 :=
  betadg11 c + (2 * db11 c - totdivbeta c) * g11 c + 2 * (db12 c * g12 c + db13 c * g13 c)

/-- Lines 2582-2586. -/
def lieg12_0 (c : BssnArgs 𝔽) : 𝔽 :=
  betadg12 c + db21 c * g11 c + (db11 c + db22 c - totdivbeta c) * g12 c + db23 c * g13 c + db12 c * g22 c +
    db13 c * g23 c

/-- Lines 2588-2592. -/
def lieg12 (c : BssnArgs 𝔽) : 𝔽 :=
  betadg21 c + db21 c * g11 c + (db11 c + db22 c - totdivbeta c) * g12 c + db23 c * g13 c + db12 c * g22 c +
    db13 c * g23 c

/-- Lines 2594-2598. -/
def lieg13_0 (c : BssnArgs 𝔽) : 𝔽 :=
  betadg13 c + db31 c * g11 c + db32 c * g12 c + (db11 c + db33 c - totdivbeta c) * g13 c + db12 c * g23 c +
    db13 c * g33 c

/-- Lines 2600-2604. -/
def lieg13 (c : BssnArgs 𝔽) : 𝔽 :=
  betadg31 c + db31 c * g11 c + db32 c * g12 c + (db11 c + db33 c - totdivbeta c) * g13 c + db12 c * g23 c +
    db13 c * g33 c

/-- Lines 2606-2610. -/
def lieg22 (c : BssnArgs 𝔽) : 𝔽 :=
  betadg22 c - totdivbeta c * g22 c + 2 * (db21 c * g12 c + db22 c * g22 c + db23 c * g23 c)

/-- Lines 2612-2616. -/
def lieg23_0 (c : BssnArgs 𝔽) : 𝔽 :=
  betadg23 c + db31 c * g12 c + db21 c * g13 c + db32 c * g22 c + (db22 c + db33 c - totdivbeta c) * g23 c +
    db23 c * g33 c

/-- Lines 2618-2622. -/
def lieg23 (c : BssnArgs 𝔽) : 𝔽 :=
  betadg32 c + db31 c * g12 c + db21 c * g13 c + db32 c * g22 c + (db22 c + db33 c - totdivbeta c) * g23 c +
    db23 c * g33 c

/-- Lines 2624-2628. -/
def lieg33 (c : BssnArgs 𝔽) : 𝔽 :=
  betadg33 c - totdivbeta c * g33 c + 2 * (db31 c * g13 c + db32 c * g23 c + db33 c * g33 c)

/-- Lines 2630-2634. -/
def lieA11 (c : BssnArgs 𝔽) : 𝔽 :=
  betadA11 c + (2 * db11 c - totdivbeta c) * A11 c + 2 * (db12 c * A12 c + db13 c * A13 c)

/-- Lines 2636-2640. -/
def lieA12_0 (c : BssnArgs 𝔽) : 𝔽 :=
  betadA12 c + db21 c * A11 c + (db11 c + db22 c - totdivbeta c) * A12 c + db23 c * A13 c + db12 c * A22 c +
    db13 c * A23 c

/-- Lines 2642-2646. -/
def lieA12 (c : BssnArgs 𝔽) : 𝔽 :=
  betadA21 c + db21 c * A11 c + (db11 c + db22 c - totdivbeta c) * A12 c + db23 c * A13 c + db12 c * A22 c +
    db13 c * A23 c

/-- Lines 2648-2652. -/
def lieA13_0 (c : BssnArgs 𝔽) : 𝔽 :=
  betadA13 c + db31 c * A11 c + db32 c * A12 c + (db11 c + db33 c - totdivbeta c) * A13 c + db12 c * A23 c +
    db13 c * A33 c

/-- Lines 2654-2658. -/
def lieA13 (c : BssnArgs 𝔽) : 𝔽 :=
  betadA31 c + db31 c * A11 c + db32 c * A12 c + (db11 c + db33 c - totdivbeta c) * A13 c + db12 c * A23 c +
    db13 c * A33 c

/-- Lines 2660-2664. -/
def lieA22 (c : BssnArgs 𝔽) : 𝔽 :=
  betadA22 c - totdivbeta c * A22 c + 2 * (db21 c * A12 c + db22 c * A22 c + db23 c * A23 c)

/-- Lines 2666-2670. -/
def lieA23_0 (c : BssnArgs 𝔽) : 𝔽 :=
  betadA23 c + db31 c * A12 c + db21 c * A13 c + db32 c * A22 c + (db22 c + db33 c - totdivbeta c) * A23 c +
    db23 c * A33 c

/-- Lines 2672-2676. -/
def lieA23 (c : BssnArgs 𝔽) : 𝔽 :=
  betadA32 c + db31 c * A12 c + db21 c * A13 c + db32 c * A22 c + (db22 c + db33 c - totdivbeta c) * A23 c +
    db23 c * A33 c

/-- Lines 2678-2682. -/
def lieA33 (c : BssnArgs 𝔽) : 𝔽 :=
  betadA33 c - totdivbeta c * A33 c + 2 * (db31 c * A13 c + db32 c * A23 c + db33 c * A33 c)

/-- Lines 2684-2687. -/
def lieK (c : BssnArgs 𝔽) : 𝔽 := betadK c

/-- Lines 2689-2692. -/
def liephi (c : BssnArgs 𝔽) : 𝔽 := betadf c + 1 / 6 * divbeta c

/-- Lines 2694-2700. -/
def pseudolieG1 (c : BssnArgs 𝔽) : 𝔽 :=
  betadG1 c + ddb221 c * ginv22 c + 2 * ddb231 c * ginv23 c + ddb331 c * ginv33 c + ginv11 c * (ddb111 c +
    ootddivbeta1 c) + ginv12 c * (2 * ddb121 c + ootddivbeta2 c) + ginv13 c * (2 * ddb131 c + ootddivbeta3 c) +
    (-db11 c + totdivbeta c) * undiffdG1 c - db21 c * undiffdG2 c - db31 c * undiffdG3 c

/-- Lines 2702-2708. -/
def pseudolieG2 (c : BssnArgs 𝔽) : 𝔽 :=
  betadG2 c + ddb112 c * ginv11 c + 2 * ddb132 c * ginv13 c + ddb332 c * ginv33 c + ginv12 c * (2 * ddb122 c +
    ootddivbeta1 c) + ginv22 c * (ddb222 c + ootddivbeta2 c) + ginv23 c * (2 * ddb232 c + ootddivbeta3 c) - db12 c *
    undiffdG1 c - db22 c * undiffdG2 c + totdivbeta c * undiffdG2 c - db32 c * undiffdG3 c

/-- Lines 2710-2716. -/
def pseudolieG3 (c : BssnArgs 𝔽) : 𝔽 :=
  betadG3 c + ddb113 c * ginv11 c + 2 * ddb123 c * ginv12 c + ddb223 c * ginv22 c + ginv13 c * (2 * ddb133 c +
    ootddivbeta1 c) + ginv23 c * (2 * ddb233 c + ootddivbeta2 c) + ginv33 c * (ddb333 c + ootddivbeta3 c) - db13 c *
    undiffdG1 c - db23 c * undiffdG2 c - db33 c * undiffdG3 c + totdivbeta c * undiffdG3 c

/-- Lines 2718-2721. -/
def rg11 (c : BssnArgs 𝔽) : 𝔽 := lieg11 c - 2 * A11 c * alpha c

/-- Lines 2723-2726. -/
def rg12 (c : BssnArgs 𝔽) : 𝔽 := lieg12 c - 2 * A12 c * alpha c

/-- Lines 2728-2731. -/
def rg13 (c : BssnArgs 𝔽) : 𝔽 := lieg13 c - 2 * A13 c * alpha c

/-- Lines 2733-2736. -/
def rg22 (c : BssnArgs 𝔽) : 𝔽 := lieg22 c - 2 * A22 c * alpha c

/-- Lines 2738-2741. -/
def rg23 (c : BssnArgs 𝔽) : 𝔽 := lieg23 c - 2 * A23 c * alpha c

/-- Lines 2743-2746. -/
def rg33 (c : BssnArgs 𝔽) : 𝔽 := lieg33 c - 2 * A33 c * alpha c

/-- Lines 2748-2754. -/
def rA11 (c : BssnArgs 𝔽) : 𝔽 :=
  lieA11 c + psim4 c * (-cdda11 c + R11 c * alpha c) + 1 / 3 * trcdda c * g11 c + alpha c * ((-2) * AA11 c +
    psim4 c * Rphi11 c - 1 / 3 * R c * g11 c + A11 c * K c)

/-- Lines 2756-2762. -/
def rA12 (c : BssnArgs 𝔽) : 𝔽 :=
  lieA12 c + psim4 c * (-cdda12 c + R12 c * alpha c) + 1 / 3 * trcdda c * g12 c + alpha c * ((-2) * AA12 c +
    psim4 c * Rphi12 c - 1 / 3 * R c * g12 c + A12 c * K c)

/-- Lines 2764-2770. -/
def rA13 (c : BssnArgs 𝔽) : 𝔽 :=
  lieA13 c + psim4 c * (-cdda13 c + R13 c * alpha c) + 1 / 3 * trcdda c * g13 c + alpha c * ((-2) * AA13 c +
    psim4 c * Rphi13 c - 1 / 3 * R c * g13 c + A13 c * K c)

/-- Lines 2772-2778. -/
def rA22 (c : BssnArgs 𝔽) : 𝔽 :=
  lieA22 c + psim4 c * (-cdda22 c + R22 c * alpha c) + 1 / 3 * trcdda c * g22 c + alpha c * ((-2) * AA22 c +
    psim4 c * Rphi22 c - 1 / 3 * R c * g22 c + A22 c * K c)

/-- Lines 2780-2786. -/
def rA23 (c : BssnArgs 𝔽) : 𝔽 :=
  lieA23 c + psim4 c * (-cdda23 c + R23 c * alpha c) + 1 / 3 * trcdda c * g23 c + alpha c * ((-2) * AA23 c +
    psim4 c * Rphi23 c - 1 / 3 * R c * g23 c + A23 c * K c)

/-- Lines 2788-2794. -/
def rA33 (c : BssnArgs 𝔽) : 𝔽 :=
  lieA33 c + psim4 c * (-cdda33 c + R33 c * alpha c) + 1 / 3 * trcdda c * g33 c + alpha c * ((-2) * AA33 c +
    psim4 c * Rphi33 c - 1 / 3 * R c * g33 c + A33 c * K c)

/-- Lines 2796-2800. -/
def rG1 (c : BssnArgs 𝔽) : 𝔽 :=
  (b2 c.evolveGamma) * (pseudolieG1 c - 2 * (Ainv11 c * da1 c + Ainv12 c * da2 c + Ainv13 c * da3 c + divAinv1 c *
    alpha c) + divbeta c * c.YoTermFactor * (Gfromg1 c - G1 c))

/-- Lines 2802-2806. -/
def rG2 (c : BssnArgs 𝔽) : 𝔽 :=
  (b2 c.evolveGamma) * (pseudolieG2 c - 2 * (Ainv12 c * da1 c + Ainv22 c * da2 c + Ainv23 c * da3 c + divAinv2 c *
    alpha c) + divbeta c * c.YoTermFactor * (Gfromg2 c - G2 c))

/-- Lines 2808-2812. -/
def rG3 (c : BssnArgs 𝔽) : 𝔽 :=
  (b2 c.evolveGamma) * (pseudolieG3 c - 2 * (Ainv13 c * da1 c + Ainv23 c * da2 c + Ainv33 c * da3 c + divAinv3 c *
    alpha c) + divbeta c * c.YoTermFactor * (Gfromg3 c - G3 c))

/-- Lines 2814-2817. -/
def rK (c : BssnArgs 𝔽) : 𝔽 := lieK c - trcdda c + alpha c * (AA c + 1 / 3 * K c ^ 2)

/-- Lines 2819-2822. -/
def rphi_0 (c : BssnArgs 𝔽) : 𝔽 := liephi c - 1 / 6 * alpha c * K c

/-- Lines 2829-2832. -/
def rphi_1 (c : BssnArgs 𝔽) : 𝔽 := liephi c + 1 / 4 * (-AA c + trRicci c) * alpha c / K c

/-- Lines 2827-2835. -/
def rphi [LinearOrder 𝔽] (c : BssnArgs 𝔽) : 𝔽 := if c.gentlePhi ∧ Abshamil c < KK c then rphi_1 c else rphi_0 c

/-- Lines 2838-2842. -/
def ralpha0 (c : BssnArgs 𝔽) : 𝔽 :=
  (6 * liephi c * (b2 c.oplogwithshift) + alpha c * (-K c + (b2 c.subtractK0) * K0 c)) * c.pow (psi c)
    c.lapsepsipower

/-- Lines 2844-2849. -/
def ralpha (c : BssnArgs 𝔽) : 𝔽 :=
  (b2 c.addliealpha) * betadalp c + (b2 c.nonconstantlapse) * ralpha0 c * (c.lapseharmonicf * (b2 c.oploglapse) +
    8 * (b2 c.oploglapse2) / (9 - 3 * alpha c) + (b2 c.harmoniclapse) * alpha c) + (b2 c.addalphaRHSterm) *
    alphaRHS c

/-- Lines 2856-2859. -/
def E6alphaDensityWeightf (c : BssnArgs 𝔽) : 𝔽 := c.exp (6 * c.alphaDensityWeight * f c)

/-- Lines 2861-2864. -/
def ooE6alphaDensityWeightf (c : BssnArgs 𝔽) : 𝔽 := 1 / E6alphaDensityWeightf c

/-- Lines 2866-2869. -/
def ralphaDensity_0 [LinearOrder 𝔽] (c : BssnArgs 𝔽) : 𝔽 :=
  ooE6alphaDensityWeightf c * ralpha c - 6 * c.alphaDensityWeight * rphi c * alphaDensity c

/-- Lines 2876-2882. -/
def ralphaDensity_1 (c : BssnArgs 𝔽) : 𝔽 :=
  alphaDensity c * (c.alphaDensityWeight * alpha c * (K c - (b2 c.subtractK0) * K0 c) + c.lapseharmonicf * (-K c +
    (b2 c.subtractK0) * K0 c) * c.pow (psi c) c.lapsepsipower)

/-- Lines 2874-2885. -/
def ralphaDensity_2 [LinearOrder 𝔽] (c : BssnArgs 𝔽) : 𝔽 := if c.densWithoutShift then ralphaDensity_1 c else ralphaDensity_0 c

/-- Lines 2888-2891. -/
def ralphaDensity [LinearOrder 𝔽] (c : BssnArgs 𝔽) : 𝔽 := (b2 c.nonconstantlapse) * ralphaDensity_2 c

/-- Lines 2897-2901. -/
def betaF (c : BssnArgs 𝔽) : 𝔽 :=
  c.shiftgammacoeff * c.pow (alpha c) c.shiftalphapower / c.pow (psi c) c.shiftpsipower

/-- Lines 2903-2906. -/
def rbeta1 [LinearOrder 𝔽] (c : BssnArgs 𝔽) : 𝔽 := evolveshift c * (betaF c * (b2 c.gamma0) + (b2 c.gamma2)) * B1 c

/-- Lines 2908-2911. -/
def rbeta2 [LinearOrder 𝔽] (c : BssnArgs 𝔽) : 𝔽 := evolveshift c * (betaF c * (b2 c.gamma0) + (b2 c.gamma2)) * B2 c

/-- Lines 2913-2916. -/
def rbeta3 [LinearOrder 𝔽] (c : BssnArgs 𝔽) : 𝔽 := evolveshift c * (betaF c * (b2 c.gamma0) + (b2 c.gamma2)) * B3 c

/-- Lines 2918-2921. -/
def rB1 [LinearOrder 𝔽] (c : BssnArgs 𝔽) : 𝔽 :=
  evolveshift c * (((b2 c.gamma0) + betaF c * (b2 c.gamma2)) * rG1 c - c.shiftdriver * B1 c)

/-- Lines 2923-2926. -/
def rB2 [LinearOrder 𝔽] (c : BssnArgs 𝔽) : 𝔽 :=
  evolveshift c * (((b2 c.gamma0) + betaF c * (b2 c.gamma2)) * rG2 c - c.shiftdriver * B2 c)

/-- Lines 2928-2931. -/
def rB3 [LinearOrder 𝔽] (c : BssnArgs 𝔽) : 𝔽 :=
  evolveshift c * (((b2 c.gamma0) + betaF c * (b2 c.gamma2)) * rG3 c - c.shiftdriver * B3 c)

/-- Lines 2938-2941. -/
def ng11_0 (c : BssnArgs 𝔽) : 𝔽 := c.dt * rg11 c + pg11 c

/-- Lines 2943-2946. -/
def ng12_0 (c : BssnArgs 𝔽) : 𝔽 := c.dt * rg12 c + pg12 c

/-- Lines 2948-2951. -/
def ng13_0 (c : BssnArgs 𝔽) : 𝔽 := c.dt * rg13 c + pg13 c

/-- Lines 2953-2956. -/
def ng22_0 (c : BssnArgs 𝔽) : 𝔽 := c.dt * rg22 c + pg22 c

/-- Lines 2958-2961. -/
def ng23_0 (c : BssnArgs 𝔽) : 𝔽 := c.dt * rg23 c + pg23 c

/-- Lines 2963-2966. -/
def ng33_0 (c : BssnArgs 𝔽) : 𝔽 := c.dt * rg33 c + pg33 c

/-- Lines 2968-2971. -/
def nA11_0 (c : BssnArgs 𝔽) : 𝔽 := c.dt * rA11 c + pA11 c

/-- Lines 2973-2976. -/
def nA12_0 (c : BssnArgs 𝔽) : 𝔽 := c.dt * rA12 c + pA12 c

/-- Lines 2978-2981. -/
def nA13_0 (c : BssnArgs 𝔽) : 𝔽 := c.dt * rA13 c + pA13 c

/-- Lines 2983-2986. -/
def nA22_0 (c : BssnArgs 𝔽) : 𝔽 := c.dt * rA22 c + pA22 c

/-- Lines 2988-2991. -/
def nA23_0 (c : BssnArgs 𝔽) : 𝔽 := c.dt * rA23 c + pA23 c

/-- Lines 2993-2996. -/
def nA33_0 (c : BssnArgs 𝔽) : 𝔽 := c.dt * rA33 c + pA33 c

/-- Lines 2998-3001. -/
def nG1_0 (c : BssnArgs 𝔽) : 𝔽 := c.dt * rG1 c + pG1 c

/-- Lines 3003-3006. -/
def nG2_0 (c : BssnArgs 𝔽) : 𝔽 := c.dt * rG2 c + pG2 c

/-- Lines 3008-3011. -/
def nG3_0 (c : BssnArgs 𝔽) : 𝔽 := c.dt * rG3 c + pG3 c

/-- Lines 3013-3016. -/
def nK_0 (c : BssnArgs 𝔽) : 𝔽 := (b2 c.noForceK) * (c.dt * rK c + pK c)

/-- Lines 3018-3021. -/
def nphi_0 [LinearOrder 𝔽] (c : BssnArgs 𝔽) : 𝔽 := c.dt * rphi c + pphi c

/-- Lines 3028-3031. -/
def nalphaDensity_0 [LinearOrder 𝔽] (c : BssnArgs 𝔽) : 𝔽 := c.dt * ralphaDensity c + palphaDensity c

/-- Lines 3033-3036. -/
def nf [LinearOrder 𝔽] (c : BssnArgs 𝔽) : 𝔽 := logpsi c + nphi_0 c

/-- Lines 3038-3041. -/
def nalpha_0 [LinearOrder 𝔽] (c : BssnArgs 𝔽) : 𝔽 := c.exp (6 * c.alphaDensityWeight * nf c) * nalphaDensity_0 c

/-- Lines 3046-3049. -/
def nalpha_1 (c : BssnArgs 𝔽) : 𝔽 := c.dt * ralpha c + palpha c

/-- Lines 3055-3058. -/
def nbeta1_0 [LinearOrder 𝔽] (c : BssnArgs 𝔽) : 𝔽 := c.dt * rbeta1 c + pbeta1 c

/-- Lines 3060-3063. -/
def nbeta2_0 [LinearOrder 𝔽] (c : BssnArgs 𝔽) : 𝔽 := c.dt * rbeta2 c + pbeta2 c

/-- Lines 3065-3068. -/
def nbeta3_0 [LinearOrder 𝔽] (c : BssnArgs 𝔽) : 𝔽 := c.dt * rbeta3 c + pbeta3 c

/-- Lines 3070-3073. -/
def nB1_0 [LinearOrder 𝔽] (c : BssnArgs 𝔽) : 𝔽 := c.dt * rB1 c + pB1 c

/-- Lines 3075-3078. -/
def nB2_0 [LinearOrder 𝔽] (c : BssnArgs 𝔽) : 𝔽 := c.dt * rB2 c + pB2 c

/-- Lines 3080-3083. -/
def nB3_0 [LinearOrder 𝔽] (c : BssnArgs 𝔽) : 𝔽 := c.dt * rB3 c + pB3 c

/-- Lines 3090-3094. -/
def ng33_1 (c : BssnArgs 𝔽) : 𝔽 :=
  1 + ((-2) * ng12_0 c * ng13_0 c * ng23_0 c + ng22_0 c * ng13_0 c ^ 2 + ng11_0 c * ng23_0 c ^ 2) / (ng11_0 c *
    ng22_0 c - ng12_0 c ^ 2)

/-- Lines 3088-3097. -/
def ng33_2 (c : BssnArgs 𝔽) : 𝔽 := if c.recomputegzz then ng33_1 c else ng33_0 c

/-- Lines 3100-3105. -/
def detnginv (c : BssnArgs 𝔽) : 𝔽 :=
  1 / (2 * ng12_0 c * ng13_0 c * ng23_0 c + ng11_0 c * ng22_0 c * ng33_2 c - ng33_2 c * ng12_0 c ^ 2 - ng22_0 c *
    ng13_0 c ^ 2 - ng11_0 c * ng23_0 c ^ 2)

/-- Lines 3112-3115. -/
def nginv11 (c : BssnArgs 𝔽) : 𝔽 := detnginv c * (ng22_0 c * ng33_2 c - ng23_0 c ^ 2)

/-- Lines 3117-3120. -/
def nginv12 (c : BssnArgs 𝔽) : 𝔽 := detnginv c * (ng13_0 c * ng23_0 c - ng12_0 c * ng33_2 c)

/-- Lines 3122-3125. -/
def nginv13 (c : BssnArgs 𝔽) : 𝔽 := detnginv c * (-(ng13_0 c * ng22_0 c) + ng12_0 c * ng23_0 c)

/-- Lines 3127-3130. -/
def nginv22 (c : BssnArgs 𝔽) : 𝔽 := detnginv c * (ng11_0 c * ng33_2 c - ng13_0 c ^ 2)

/-- Lines 3132-3135. -/
def nginv23 (c : BssnArgs 𝔽) : 𝔽 := detnginv c * (ng12_0 c * ng13_0 c - ng11_0 c * ng23_0 c)

/-- Lines 3137-3140. -/
def nginv33 (c : BssnArgs 𝔽) : 𝔽 := detnginv c * (ng11_0 c * ng22_0 c - ng12_0 c ^ 2)

/-- Lines 3142-3145. -/
def nAdu11 (c : BssnArgs 𝔽) : 𝔽 := nginv11 c * nA11_0 c + nginv12 c * nA12_0 c + nginv13 c * nA13_0 c

/-- Lines 3147-3150. -/
def nAdu22 (c : BssnArgs 𝔽) : 𝔽 := nginv12 c * nA12_0 c + nginv22 c * nA22_0 c + nginv23 c * nA23_0 c

/-- Lines 3152-3155. -/
def nA33_1 (c : BssnArgs 𝔽) : 𝔽 :=
  -((nAdu11 c + nAdu22 c + nginv13 c * nA13_0 c + nginv23 c * nA23_0 c) / nginv33 c)

/-- Lines 3110-3158. -/
def nA33_2 (c : BssnArgs 𝔽) : 𝔽 := if c.recomputeAzz then nA33_1 c else nA33_0 c

/-- Lines 3166-3176. -/
def traceA (c : BssnArgs 𝔽) : 𝔽 :=
  detnginv c * ((-2) * nA23_0 c * ng11_0 c * ng23_0 c + nA11_0 c * ng22_0 c * ng33_2 c + ng11_0 c * (nA33_2 c *
    ng22_0 c + nA22_0 c * ng33_2 c) + 2 * (ng13_0 c * (nA23_0 c * ng12_0 c - nA13_0 c * ng22_0 c + nA12_0 c *
    ng23_0 c) + ng12_0 c * (nA13_0 c * ng23_0 c - nA12_0 c * ng33_2 c)) - nA33_2 c * ng12_0 c ^ 2 - nA22_0 c *
    ng13_0 c ^ 2 - nA11_0 c * ng23_0 c ^ 2)

/-- Lines 3178-3181. -/
def aux_0 (c : BssnArgs 𝔽) : 𝔽 := (-(1 / 3)) * traceA c

/-- Lines 3183-3186. -/
def nA11_3 (c : BssnArgs 𝔽) : 𝔽 := nA11_0 c + aux_0 c * ng11_0 c

/-- Lines 3164-3214. -/
def nA11_4 (c : BssnArgs 𝔽) : 𝔽 := if c.subtractA then nA11_3 c else nA11_0 c

/-- Lines 3188-3191. -/
def nA12_3 (c : BssnArgs 𝔽) : 𝔽 := nA12_0 c + aux_0 c * ng12_0 c

/-- Lines 3164-3214. -/
def nA12_4 (c : BssnArgs 𝔽) : 𝔽 := if c.subtractA then nA12_3 c else nA12_0 c

/-- Lines 3193-3196. -/
def nA13_3 (c : BssnArgs 𝔽) : 𝔽 := nA13_0 c + aux_0 c * ng13_0 c

/-- Lines 3164-3214. -/
def nA13_4 (c : BssnArgs 𝔽) : 𝔽 := if c.subtractA then nA13_3 c else nA13_0 c

/-- Lines 3198-3201. -/
def nA22_3 (c : BssnArgs 𝔽) : 𝔽 := nA22_0 c + aux_0 c * ng22_0 c

/-- Lines 3164-3214. -/
def nA22_4 (c : BssnArgs 𝔽) : 𝔽 := if c.subtractA then nA22_3 c else nA22_0 c

/-- Lines 3203-3206. -/
def nA23_3 (c : BssnArgs 𝔽) : 𝔽 := nA23_0 c + aux_0 c * ng23_0 c

/-- Lines 3164-3214. -/
def nA23_4 (c : BssnArgs 𝔽) : 𝔽 := if c.subtractA then nA23_3 c else nA23_0 c

/-- Lines 3208-3211. -/
def nA33_3 (c : BssnArgs 𝔽) : 𝔽 := nA33_2 c + aux_0 c * ng33_2 c

/-- Lines 3164-3214. -/
def nA33_4 (c : BssnArgs 𝔽) : 𝔽 := if c.subtractA then nA33_3 c else nA33_2 c

/-- Lines 3222-3225. -/
def aux_1 (c : BssnArgs 𝔽) : 𝔽 := c.pow (detnginv c) (1 / 3)

/-- Lines 3227-3230. -/
def ng11_3 (c : BssnArgs 𝔽) : 𝔽 := aux_1 c * ng11_0 c

/-- Lines 3220-3258. -/
def ng11_4 (c : BssnArgs 𝔽) : 𝔽 := if c.normalizedetg then ng11_3 c else ng11_0 c

/-- Lines 3232-3235. -/
def ng12_3 (c : BssnArgs 𝔽) : 𝔽 := aux_1 c * ng12_0 c

/-- Lines 3220-3258. -/
def ng12_4 (c : BssnArgs 𝔽) : 𝔽 := if c.normalizedetg then ng12_3 c else ng12_0 c

/-- Lines 3237-3240. -/
def ng13_3 (c : BssnArgs 𝔽) : 𝔽 := aux_1 c * ng13_0 c

/-- Lines 3220-3258. -/
def ng13_4 (c : BssnArgs 𝔽) : 𝔽 := if c.normalizedetg then ng13_3 c else ng13_0 c

/-- Lines 3242-3245. -/
def ng22_3 (c : BssnArgs 𝔽) : 𝔽 := aux_1 c * ng22_0 c

/-- Lines 3220-3258. -/
def ng22_4 (c : BssnArgs 𝔽) : 𝔽 := if c.normalizedetg then ng22_3 c else ng22_0 c

/-- Lines 3247-3250. -/
def ng23_3 (c : BssnArgs 𝔽) : 𝔽 := aux_1 c * ng23_0 c

/-- Lines 3220-3258. -/
def ng23_4 (c : BssnArgs 𝔽) : 𝔽 := if c.normalizedetg then ng23_3 c else ng23_0 c

/-- Lines 3252-3255. -/
def ng33_3 (c : BssnArgs 𝔽) : 𝔽 := aux_1 c * ng33_2 c

/-- Lines 3220-3258. -/
def ng33_4 (c : BssnArgs 𝔽) : 𝔽 := if c.normalizedetg then ng33_3 c else ng33_2 c

/-- Lines 3264-3267. -/
def ng11_n (c : BssnArgs 𝔽) : 𝔽 := rg11 c

/-- Lines 3269-3272. -/
def ng12_n (c : BssnArgs 𝔽) : 𝔽 := rg12 c

/-- Lines 3274-3277. -/
def ng13_n (c : BssnArgs 𝔽) : 𝔽 := rg13 c

/-- Lines 3279-3282. -/
def ng22_n (c : BssnArgs 𝔽) : 𝔽 := rg22 c

/-- Lines 3284-3287. -/
def ng23_n (c : BssnArgs 𝔽) : 𝔽 := rg23 c

/-- Lines 3289-3292. -/
def ng33_n (c : BssnArgs 𝔽) : 𝔽 := rg33 c

/-- Lines 3294-3297. -/
def nA11_n (c : BssnArgs 𝔽) : 𝔽 := rA11 c

/-- Lines 3299-3302. -/
def nA12_n (c : BssnArgs 𝔽) : 𝔽 := rA12 c

/-- Lines 3304-3307. -/
def nA13_n (c : BssnArgs 𝔽) : 𝔽 := rA13 c

/-- Lines 3309-3312. -/
def nA22_n (c : BssnArgs 𝔽) : 𝔽 := rA22 c

/-- Lines 3314-3317. -/
def nA23_n (c : BssnArgs 𝔽) : 𝔽 := rA23 c

/-- Lines 3319-3322. -/
def nA33_n (c : BssnArgs 𝔽) : 𝔽 := rA33 c

/-- Lines 3324-3327. -/
def nG1_n (c : BssnArgs 𝔽) : 𝔽 := rG1 c

/-- Lines 3329-3332. -/
def nG2_n (c : BssnArgs 𝔽) : 𝔽 := rG2 c

/-- Lines 3334-3337. -/
def nG3_n (c : BssnArgs 𝔽) : 𝔽 := rG3 c

/-- Lines 3339-3342. -/
def nK_n (c : BssnArgs 𝔽) : 𝔽 := (b2 c.noForceK) * rK c

/-- Lines 3344-3347. -/
def nphi_n [LinearOrder 𝔽] (c : BssnArgs 𝔽) : 𝔽 := rphi c

/-- Lines 3354-3357. -/
def nalphaDensity_n [LinearOrder 𝔽] (c : BssnArgs 𝔽) : 𝔽 := ralphaDensity c

/-- Lines 3371-3374. -/
def nalpha_n (c : BssnArgs 𝔽) : 𝔽 := ralpha c

/-- Lines 3380-3383. -/
def nbeta1_n [LinearOrder 𝔽] (c : BssnArgs 𝔽) : 𝔽 := rbeta1 c

/-- Lines 3385-3388. -/
def nbeta2_n [LinearOrder 𝔽] (c : BssnArgs 𝔽) : 𝔽 := rbeta2 c

/-- Lines 3390-3393. -/
def nbeta3_n [LinearOrder 𝔽] (c : BssnArgs 𝔽) : 𝔽 := rbeta3 c

/-- Lines 3395-3398. -/
def nB1_n [LinearOrder 𝔽] (c : BssnArgs 𝔽) : 𝔽 := rB1 c

/-- Lines 3400-3403. -/
def nB2_n [LinearOrder 𝔽] (c : BssnArgs 𝔽) : 𝔽 := rB2 c

/-- Lines 3405-3408. -/
def nB3_n [LinearOrder 𝔽] (c : BssnArgs 𝔽) : 𝔽 := rB3 c

end Bs

/-- The values that are set at the point: the 25 variables of `unew`, and `K` and its derivatives in `ucur` (lines 2386-2404). -/
structure BssnOut (K : Type) where
  new : Nat → K
  curK : K
  curdK : Nat → K

open Bs in
/-- The loop body (lines 710-3411). -/
def bssnRhs {𝔽 : Type} [Field 𝔽] [LinearOrder 𝔽] (c : BssnArgs 𝔽) : Res (BssnOut 𝔽) :=
  if c.dt ≠ 0 then .ok ⟨fun n =>
    [ng11_4 c, ng12_4 c, ng13_4 c, ng22_4 c, ng23_4 c, ng33_4 c, nphi_0 c, nA11_4 c, nA12_4 c, nA13_4 c, nA22_4 c,
      nA23_4 c, nA33_4 c, nK_0 c, nG1_0 c, nG2_0 c, nG3_0 c, (if c.densitized then nalpha_0 c else nalpha_1 c),
      nbeta1_0 c, nbeta2_0 c, nbeta3_0 c, nB1_0 c, nB2_0 c, nB3_0 c,
      if c.densitized then nalphaDensity_0 c else c.oldDens].getD n 0, Bs.K c, fun a => [dK1 c, dK2 c, dK3 c].getD a 0⟩
  else if c.densitized then .abort
  else .ok ⟨fun n =>
    [ng11_n c, ng12_n c, ng13_n c, ng22_n c, ng23_n c, ng33_n c, nphi_n c, nA11_n c, nA12_n c, nA13_n c, nA22_n c,
      nA23_n c, nA33_n c, nK_n c, nG1_n c, nG2_n c, nG3_n c, nalpha_n c, nbeta1_n c, nbeta2_n c, nbeta3_n c,
      nB1_n c, nB2_n c, nB3_n c,
      c.oldDens].getD n 0, Bs.K c, fun a => [dK1 c, dK2 c, dK3 c].getD a 0⟩

end Sgrid
