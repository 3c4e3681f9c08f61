import Mathlib.Analysis.SpecialFunctions.Log.Basic
import Mathlib.Analysis.SpecialFunctions.Pow.Real
import Mathlib.Analysis.SpecialFunctions.Trigonometric.Basic

/-!
# The post-Newtonian orbit

src/physics/PN_CircularOrbit_GWs/PN_CircOrbit.c:26-529: `PN_CircOrbit_compute_constants`, `PN_CircOrbit_derivs` and `PN_CircOrbit_compute_r`.
Numbers are real numbers. The flags (0 or 1), which the code reads from parameters, are any real numbers, and Euler's constant is any real number.
`PN_CircOrbit_xodeint`, which calls `odeintegrate`, is not in the model.
-/

namespace Sgrid

open Real

/-- `EOM_type` (lines 65-80). -/
inductive PNType | t4bug | t4 | kidder | kidderV2 | buonannoV2 | kidderV6 | buonannoV6 | buonanno
  deriving DecidableEq

/-- The masses and what comes from parameters (lines 26-107). -/
structure PNPar where
  (m1 m2 gammaE f2 f3 f4 f5 f6 f7 v2cut cutoffP v2trans v6cut OLS1 OLS2 OLS3 OSS1 : ℝ)
  typ : PNType

/-- Products with the spins over the squares of the masses: `chis` is half the sum, `chia` half the difference (lines 166-199 and 281-313),
after they were multiplied by the flags; `dm` is `deltam/m`. -/
structure ChiDots where
  (nu dm Lchis Lchia Lchis2 Lchia2 Lchis3 Lchia3 chis_chis chia_chia chis_chia : ℝ)

namespace PN

/-- The bracket of `TaylorT4_bug` (lines 200-274). -/
noncomputable def t4bug (gE v1 V2 V3 V4 V5 V6 V7 : ℝ) (d : ChiDots) : ℝ :=
  (1 + (-22113095238095237 / 10000000000000000 - (11 * d.nu) / 4) * V2 + ((48 * π - 113 * (d.dm) * d.Lchia - 113 * d.Lchis) / 12 +
    (19 * d.nu * d.Lchis) / 3) * V3 + ((59 * d.nu * d.nu) / 18 + (34103 - 44037 * d.chia_chia + 189 * (719 * (d.Lchia2 + 2 *
    (d.dm) * d.Lchia * d.Lchis + d.Lchis2) - 466 * (d.dm) * d.chis_chia) - 44037 * d.chis_chis) / 18144 + (d.nu * (13661 - 72618 *
    d.Lchia2 + 24486 * d.chia_chia + 12222 * d.Lchis2 - 4914 * d.chis_chis)) / 2016) * V4 + ((-12477 * π - 62638 * (d.dm) *
    d.Lchia - 62638 * d.Lchis) / 2016 - (79 * d.nu * d.nu * d.Lchis) / 3 + (d.nu * (-11907 * π + 24339 * (d.dm) * d.Lchia + 45950
    * d.Lchis)) / 504) * V5 + (11772574285227559 / 100000000000000 - (1712 * gE) / 105 + (16 * π * π) / 3 - (5605 * d.nu * d.nu *
    d.nu) / 2592 - (145 * d.chia_chia) / 448 + (5 * ((1035 + 50624 * (d.dm) * (d.dm)) * d.Lchia2 - 21504 * π * d.Lchis + 51659 *
    d.Lchis2 + 2 * (d.dm) * d.Lchia * (-10752 * π + 51659 * d.Lchis) - 522 * (d.dm) * d.chis_chia)) / 4032 + (d.nu * d.nu * (4869
    + 350756 * d.Lchia2 - 116732 * d.chia_chia + 178388 * d.Lchis2 - 3276 * d.chis_chis)) / 8064 - (145 * d.chis_chis) / 448 +
    (d.nu * (-56198689 + 2045736 * π * π + 1888002 * d.chia_chia + 2903040 * π * d.Lchis - 54 * (102229 * d.Lchia2 + 386526 *
    (d.dm) * d.Lchia * d.Lchis + 304997 * d.Lchis2 - 30002 * (d.dm) * d.chis_chia) + 13986 * d.chis_chis)) / 217728 - (856 * log
    16) / 105 - (1712 * log v1) / 105) * V6 + ((2045 * d.nu * d.nu * d.nu * d.Lchis) / 216 + (d.nu * d.nu * (365980 * π - 291109 *
    (d.dm) * d.Lchia - 1415652 * d.Lchia2 * d.Lchis + 3 * d.Lchis * (-398269 + 158228 * d.chia_chia + 40740 * d.Lchis2 - 16380 *
    d.chis_chis))) / 6048 + (d.nu * (3228075 * π + 10713953 * d.Lchis + 9 * (2477496 * (d.dm) * d.Lchia3 + 126 * d.Lchia2 * (-3456
    * π + 22229 * d.Lchis) + 42 * (27 * d.chia_chia * (128 * π - 827 * d.Lchis) + d.Lchis * (1879 * d.Lchis2 - 5066 * (d.dm) *
    d.chis_chia - 193 * d.chis_chis)) + (d.dm) * d.Lchia * (843811 - 831432 * d.chia_chia + 402276 * d.Lchis2 + 98280 *
    d.chis_chis)))) / 54432 + (-119205 * π - 10076804 * d.Lchis + 4 * (-2512188 * (d.dm) * d.Lchia3 + 756 * d.Lchia2 * (648 * π -
    3323 * (1 + 2 * (d.dm) * (d.dm)) * d.Lchis) + (d.dm) * d.Lchia * (-2519201 + 824796 * d.chia_chia + 2268 * (432 * π - 3323 *
    d.Lchis) * d.Lchis + 1649592 * (d.dm) * d.chis_chia + 824796 * d.chis_chis) - 756 * (d.chia_chia * (216 * π - 1091 * d.Lchis)
    - 648 * π * d.Lchis2 + 3323 * d.Lchis3 + 216 * π * (2 * (d.dm) * d.chis_chia + d.chis_chis) - 1091 * d.Lchis * (2 * (d.dm) *
    d.chis_chia + d.chis_chis)))) / 108864) * V7)

/-- The bracket of `TaylorT4` (lines 314-374). -/
noncomputable def t4 (gE v1 V2 V3 V4 V5 V6 V7 : ℝ) (d : ChiDots) : ℝ :=
  (1 + (-22113095238095237 / 10000000000000000 - (11 * d.nu) / 4) * V2 + V3 * ((48 * π - 113 * (d.dm) * d.Lchia - 113 * d.Lchis) /
    12 + (19 * d.nu * d.Lchis) / 3) + V4 * ((59 * d.nu * d.nu) / 18 + d.nu * (10 * d.chia_chia - 30 * d.Lchia2 + (13661 - 588 *
    d.chis_chis + 84 * d.Lchis2) / 2016) + (34103 - 44037 * d.chia_chia - 44037 * d.chis_chis + 189 * (-466 * (d.dm) * d.chis_chia
    + 719 * (d.Lchia2 + 2 * (d.dm) * d.Lchia * d.Lchis + d.Lchis2))) / 18144) + V5 * ((-12477 * π - 62638 * (d.dm) * d.Lchia -
    62638 * d.Lchis) / 2016 - (79 * d.nu * d.nu * d.Lchis) / 3 + (d.nu * (-11907 * π + 24339 * (d.dm) * d.Lchia + 45950 *
    d.Lchis)) / 504) + V6 * (11772574285227559 / 100000000000000 - (1712 * gE) / 105 - (5605 * d.nu * d.nu * d.nu) / 2592 + (16 *
    π * π) / 3 - (145 * d.chia_chia) / 448 - (145 * d.chis_chis) / 448 + d.nu * d.nu * (6037946428571429 / 10000000000000000 - (89
    * d.chia_chia) / 6 + (89 * d.Lchia2) / 2 - (7 * d.chis_chis) / 144 + (3041 * d.Lchis2) / 144) + (5 * ((1035 + 50624 * (d.dm) *
    (d.dm)) * d.Lchia2 - 522 * (d.dm) * d.chis_chia - 21504 * π * d.Lchis + 51659 * d.Lchis2 + 2 * (d.dm) * d.Lchia * (-10752 * π
    + 51659 * d.Lchis))) / 4032 + (d.nu * (-56198689 + 2045736 * π * π + 1187190 * d.chia_chia + 714798 * d.chis_chis + 2903040 *
    π * d.Lchis - 54 * (65815 * d.Lchia2 - 30002 * (d.dm) * d.chis_chia + 386526 * (d.dm) * d.Lchia * d.Lchis + 341411 *
    d.Lchis2))) / 217728 - (856 * log 16) / 105 - (1712 * log v1) / 105) + V7 * ((2045 * d.nu * d.nu * d.nu * d.Lchis) / 216 +
    (d.nu * d.nu * (365980 * π - 291109 * (d.dm) * d.Lchia - 1294272 * d.Lchia2 * d.Lchis + 3 * (-398269 + 143808 * d.chia_chia -
    1960 * d.chis_chis) * d.Lchis + 840 * d.Lchis3)) / 6048 + d.nu * ((739 * (d.dm) * d.Lchia3) / 2 + d.chia_chia * (24 * π -
    (20269 * d.Lchis) / 144) + d.Lchia2 * (-72 * π + (60907 * d.Lchis) / 144) + ((d.dm) * d.Lchia * (843811 - 744912 * d.chia_chia
    + 11760 * d.chis_chis + 645036 * d.Lchis2)) / 6048 + (3228075 * π + d.Lchis * (10713953 - 1914948 * (d.dm) * d.chis_chia -
    851634 * d.chis_chis + 2895102 * d.Lchis2)) / 54432) + (-119205 * π - 10076804 * d.Lchis + 4 * (-2512188 * (d.dm) * d.Lchia3 +
    756 * d.Lchia2 * (648 * π - 3323 * (1 + 2 * (d.dm) * (d.dm)) * d.Lchis) + (d.dm) * d.Lchia * (-2519201 + 824796 * d.chia_chia
    + 1649592 * (d.dm) * d.chis_chia + 824796 * d.chis_chis + 2268 * (432 * π - 3323 * d.Lchis) * d.Lchis) - 756 * (216 * π * (2 *
    (d.dm) * d.chis_chia + d.chis_chis) + d.chia_chia * (216 * π - 1091 * d.Lchis) - 1091 * (2 * (d.dm) * d.chis_chia +
    d.chis_chis) * d.Lchis - 648 * π * d.Lchis2 + 3323 * d.Lchis3))) / 108864))

variable (p : PNPar)

/-- Line 32. -/
noncomputable def theta_cap : ℝ := 1039 / 4620

/-- Line 35. -/
noncomputable def m : ℝ := p.m1 + p.m2

/-- Line 36. -/
noncomputable def mu : ℝ := p.m1 * p.m2 / m p

/-- Line 37. -/
noncomputable def nu : ℝ := mu p / m p

/-- Line 38. -/
noncomputable def deltam : ℝ := p.m1 - p.m2

/-- Line 41. -/
noncomputable def c1 : ℝ := 96 * nu p / 5

/-- Line 42. -/
noncomputable def c2 : ℝ := (743 + 924 * nu p) / 336

/-- Line 43. -/
noncomputable def c3 : ℝ := (113 * p.m1 * p.m1 / m p / m p + 75 * nu p) / 12 / p.m1 / p.m1

/-- Line 44. -/
noncomputable def c4 : ℝ := (113 * p.m2 * p.m2 / m p / m p + 75 * nu p) / 12 / p.m2 / p.m2

/-- Line 45. -/
noncomputable def c5 : ℝ := 4 * π

/-- Line 46. -/
noncomputable def c6 : ℝ := 34103 / 18144 + 13661 / 2016 * nu p + 59 / 18 * nu p * nu p

/-- Line 47. -/
noncomputable def c7 : ℝ := 247 * nu p / p.m1 / p.m1 / p.m2 / p.m2 / 48

/-- Line 48. -/
noncomputable def c8 : ℝ := 721 * nu p / p.m1 / p.m1 / p.m2 / p.m2 / 48

/-- Line 49. -/
noncomputable def c9 : ℝ := (4159 + 15876 * nu p) * π / 672

/-- Line 50. -/
noncomputable def c10 : ℝ := 16447322263 / 139708800 - 1712 / 105 * p.gammaE + 16 / 3 * π * π

/-- Line 51. -/
noncomputable def c11 : ℝ := (-273811877 / 1088640 + 451 / 48 * π * π - 88 / 3 * theta_cap) * nu p

/-- Line 52. -/
noncomputable def c12 : ℝ := 541 / 896 * nu p * nu p - 5605 / 2592 * nu p * nu p * nu p

/-- Line 53. -/
noncomputable def c13 : ℝ := 856 / 105

/-- Line 54. -/
noncomputable def c14 : ℝ := (-4415 / 4032 + 358675 / 6048 * nu p + 91495 / 1512 * nu p * nu p) * π

/-- Line 57. -/
noncomputable def c15 : ℝ := 1 / 2 / m p

/-- Line 58. -/
noncomputable def c16 : ℝ := 4 + 3 * p.m2 / p.m1

/-- Line 59. -/
noncomputable def c17 : ℝ := 1 / m p / m p

/-- Line 60. -/
noncomputable def c18 : ℝ := 4 + 3 * p.m1 / p.m2

/-- Line 61. -/
noncomputable def c19 : ℝ := 3 / nu p / m p / m p

/-- Line 62. -/
noncomputable def c20 : ℝ := 1 / 2 / m p / m p / m p

/-- The renormalisation of `Ln_cap` inside `y` (lines 150-154): `S1[i]` is `y[i+1]`, `S2[i]` is `y[i+4]`, `Ln_cap[i]` is `y[i+7]`. -/
noncomputable def renorm (y : Nat → ℝ) (n : Nat) : ℝ :=
  if 8 ≤ n ∧ n ≤ 10 then y n / √(y 8 * y 8 + y 9 * y 9 + y 10 * y 10) else y n

/-- `Ln_cap_dot_S1` (line 157). -/
noncomputable def LS1 (y : Nat → ℝ) : ℝ := y 8 * y 2 + y 9 * y 3 + y 10 * y 4

/-- `Ln_cap_dot_S2` (line 158). -/
noncomputable def LS2 (y : Nat → ℝ) : ℝ := y 8 * y 5 + y 9 * y 6 + y 10 * y 7

/-- `S1_dot_S2` (line 159). -/
noncomputable def SS (y : Nat → ℝ) : ℝ := y 2 * y 5 + y 3 * y 6 + y 4 * y 7

/-- Lines 172-199 and 287-313, which are the same. -/
noncomputable def chiDots (y : Nat → ℝ) : ChiDots :=
  let Lchis := 1 / 2 * (LS1 y / (p.m1 * p.m1) + LS2 y / (p.m2 * p.m2))
  let Lchia := 1 / 2 * (LS1 y / (p.m1 * p.m1) - LS2 y / (p.m2 * p.m2))
  let Lchis2 := Lchis * Lchis
  let Lchis3 := Lchis2 * Lchis
  let Lchia2 := Lchia * Lchia
  let Lchia3 := Lchia2 * Lchia
  let S1S1 := y 2 * y 2 + y 3 * y 3 + y 4 * y 4
  let S2S2 := y 5 * y 5 + y 6 * y 6 + y 7 * y 7
  let chi1 := S1S1 / (p.m1 * p.m1 * p.m1 * p.m1)
  let chi2 := S2S2 / (p.m2 * p.m2 * p.m2 * p.m2)
  let chis_chis := 1 / 4 * (chi1 + 2 * SS y / (p.m1 * p.m1 * p.m2 * p.m2) + chi2)
  let chia_chia := 1 / 4 * (chi1 - 2 * SS y / (p.m1 * p.m1 * p.m2 * p.m2) + chi2)
  let chis_chia := 1 / 4 * (chi1 - chi2)
  { nu := nu p, dm := deltam p / m p, Lchis := Lchis * p.OLS1, Lchia := Lchia * p.OLS1, Lchis2 := Lchis2 * p.OLS2,
    Lchia2 := Lchia2 * p.OLS2, Lchis3 := Lchis3 * p.OLS3, Lchia3 := Lchia3 * p.OLS3, chis_chis := chis_chis * p.OSS1,
    chia_chia := chia_chia * p.OSS1, chis_chia := chis_chia * p.OSS1 }

/-- What multiplies `c1*y[1]*y[1]*v5` in `dydx[1]` (lines 162-459), with the powers `v1`, `om` of lines 122-143. -/
noncomputable def bracket (v1 om : ℝ) (y : Nat → ℝ) : ℝ :=
  let v2 := v1 * v1
  let v3 := om
  let v4 := v2 * v2
  let v5 := v4 * v1
  let v6 := v3 * v3
  let v7 := v6 * v1
  let V2 := v2 * p.f2
  let V3 := v3 * p.f3
  let V4 := v4 * p.f4
  let V5 := v5 * p.f5
  let V6 := v6 * p.f6
  let V7 := v7 * p.f7
  match p.typ with
  | .t4bug => t4bug p.gammaE v1 V2 V3 V4 V5 V6 V7 (chiDots p y)
  | .t4 => t4 p.gammaE v1 V2 V3 V4 V5 V6 V7 (chiDots p y)
  | .kidder => 1 - c2 p * V2 - (c3 p * LS1 y + c4 p * LS2 y - c5) * V3 + c6 p * V4 * 0 - c7 p * SS y * V4 + c8 p * LS1 y * LS2 y * V4
  | .kidderV2 =>
    let B2 := 1 / (p.v2cut * p.v2cut)
    let a2 := -c2 p + B2
    let a3 := -(c3 p * LS1 y + c4 p * LS2 y - c5)
    let a4 := c6 p * 0 - c7 p * SS y + c8 p * LS1 y * LS2 y + a2 * B2
    (1 - B2 * V2) * (1 + a2 * V2 + a3 * V3 + a4 * V4)
  | .buonannoV2 =>
    let B2 := 1 / (p.v2cut * p.v2cut)
    let a2 := -c2 p + B2
    let a3 := -(c3 p * LS1 y + c4 p * LS2 y - c5)
    let a4 := c6 p - c7 p * SS y + c8 p * LS1 y * LS2 y + a2 * B2
    let a5 := -c9 p + a3 * B2
    let a6 := c10 p + c11 p + c12 p - c13 * log (16 * v2) + a4 * B2
    let a7 := c14 p + a5 * B2
    let e2 := a2
    let e3 := a3
    let e4 := a4
    let e5 := a5
    let e6 := a6 + e2 * e2 * e2 / 3
    let e7 := a7 + e2 * e2 * e3
    let AA := p.cutoffP
    let BB := 1 / (p.v2trans * p.v2trans)
    let CC := BB * BB * BB * BB * BB
    (1 - B2 * V2) * (1 + tanh (e2 * V2 + e3 * V3 + e4 * V4 + e5 * V5 + e6 * V6 + e7 * V7) +
      AA * (1 - BB * v2) * (1 - BB * v2) * CC * v6 * v2 * V2)
  | .kidderV6 =>
    let B6 := 1 / p.v6cut ^ 6
    let a2 := -c2 p
    let a3 := -(c3 p * LS1 y + c4 p * LS2 y - c5)
    let a4 := c6 p * 0 - c7 p * SS y + c8 p * LS1 y * LS2 y
    (1 - B6 * V6) * (1 + a2 * V2 + a3 * V3 + a4 * V4)
  | .buonannoV6 =>
    let B6 := 1 / p.v6cut ^ 6
    let a2 := -c2 p
    let a3 := -(c3 p * LS1 y + c4 p * LS2 y - c5)
    let a4 := c6 p - c7 p * SS y + c8 p * LS1 y * LS2 y
    let a5 := -c9 p
    let a6 := c10 p + c11 p + c12 p - c13 * log (16 * v2) + B6
    let a7 := c14 p
    (1 - B6 * V6) * (1 + a2 * V2 + a3 * V3 + a4 * V4 + a5 * V5 + a6 * V6 + a7 * V7)
  | .buonanno => 1 - c2 p * V2 - (c3 p * LS1 y + c4 p * LS2 y - c5) * V3 + c6 p * V4 - c7 p * SS y * V4 + c8 p * LS1 y * LS2 y * V4 -
      c9 p * V5 + (c10 p + c11 p + c12 p - c13 * log (16 * v2)) * V6 + c14 p * V7

/-- `LNS1[i]` (line 464), with `oov1 = 1.0/v1`. -/
noncomputable def LNS1 (v1 : ℝ) (y : Nat → ℝ) (i : Nat) : ℝ :=
  c15 p * (nu p * c16 p * (1 / v1) * y (i + 7) + c17 p * (y (i + 4) - 3 * LS2 y * y (i + 7)))

/-- `LNS2[i]` (line 465). -/
noncomputable def LNS2 (v1 : ℝ) (y : Nat → ℝ) (i : Nat) : ℝ :=
  c15 p * (nu p * c18 p * (1 / v1) * y (i + 7) + c17 p * (y (i + 1) - 3 * LS1 y * y (i + 7)))

/-- `LNS[i]` (line 466). -/
noncomputable def LNS (v1 : ℝ) (y : Nat → ℝ) (i : Nat) : ℝ :=
  c16 p * y (i + 1) + c18 p * y (i + 4) - c19 p * v1 * (y (i + 1) * LS2 y + y (i + 4) * LS1 y)

/-- The right hand sides, given `v1`, `om` and the `y` with renormalised `Ln_cap` (lines 162-489). -/
noncomputable def rhs (v1 om : ℝ) (y : Nat → ℝ) (n : Nat) : ℝ :=
  let v5 := v1 * v1 * (v1 * v1) * v1
  let v6 := om * om
  let A := LNS1 p v1 y
  let B := LNS2 p v1 y
  let C := LNS p v1 y
  let d8 := c20 p * v6 * (C 2 * y 10 - y 9 * C 3)
  let d9 := c20 p * v6 * (-C 1 * y 10 + y 8 * C 3)
  let d10 := c20 p * v6 * (C 1 * y 9 - y 8 * C 2)
  let d11 := if y 8 = 0 ∧ y 10 = 0 then y 1 else y 1 - y 9 * (y 10 * d8 - y 8 * d10) / (y 8 * y 8 + y 10 * y 10)
  [0, c1 p * y 1 * y 1 * v5 * bracket p v1 om y,
    v6 * (A 2 * y 4 - y 3 * A 3), v6 * (-A 1 * y 4 + y 2 * A 3), v6 * (A 1 * y 3 - y 2 * A 2),
    v6 * (B 2 * y 7 - y 6 * B 3), v6 * (-B 1 * y 7 + y 5 * B 3), v6 * (B 1 * y 6 - y 5 * B 2),
    d8, d9, d10, d11].getD n 0

/-- `dydx` of `PN_CircOrbit_derivs` (lines 110-494); entry 0 is not used by the code. -/
noncomputable def derivs (y : Nat → ℝ) (n : Nat) : ℝ :=
  let om := m p * y 1
  let v1 := om ^ ((1 : ℝ) / 3)
  rhs p v1 om (renorm y) n

/-- The time `tsdamp` after an evaluation at time `x` (line 133). -/
noncomputable def setDamp (vdamp v1 x tsdamp : ℝ) : ℝ :=
  open Classical in if v1 ≥ vdamp ∧ tsdamp ≥ 10 ^ 100 then x else tsdamp

/-- `PN_CircOrbit_compute_r` (lines 497-529), given `v2`. -/
noncomputable def radius (v2 : ℝ) (y : Nat → ℝ) : ℝ :=
  let om := m p * y 1
  let v4 := v2 * v2
  let V2 := v2 * p.f2
  let V3 := om * p.f3
  let V4 := v4 * p.f4
  m p * (1 / v2) * (1 - (3 - nu p) * V2 / 3 -
    V3 * (LS1 y * (2 * p.m1 * p.m1 / m p / m p + 3 * nu p) / p.m1 / p.m1 +
      LS2 y * (2 * p.m2 * p.m2 / m p / m p + 3 * nu p) / p.m2 / p.m2) / 3 +
    (nu p * (19 / 4 + nu p / 9) - 1 / 2 * nu p * (SS y - 3 * LS1 y * LS2 y) / p.m1 / p.m1 / p.m2 / p.m2) * V4)

/-- `PN_CircOrbit_compute_r` (lines 497-529) with `v2 = pow(om,2/3)`. -/
noncomputable def computeR (y : Nat → ℝ) : ℝ := radius p ((m p * y 1) ^ ((2 : ℝ) / 3)) y

end PN

end Sgrid
