import Mathlib.Analysis.SpecialFunctions.Trigonometric.Basic
import Mathlib.Analysis.SpecialFunctions.Pow.Real

/-!
src/physics/ScalarOnKerr/DV_CircSchwSource/THZ.c: coordinates in which a particle on a circular orbit around a
black hole is at rest, as functions of the Schwarzschild coordinates (ts, r, theta, phi), with the tables of their
first and second derivatives.

Doubles are real numbers.  A point is a function `q` on four indices: `q 0` is ts, `q 1` is r, `q 2` is theta, `q 3`
is phi.  The global variables that hold the parameters are the fields of `ThzPar`.  The function in C stores its
results in global variables; here every result is a function of the point.  The return without work when the
point is the one of the last call is not part of this file.  The coordinate t (lines 97-102), whose derivatives the
code does not compute, is left out.
-/

namespace Sgrid
open Real

/-- The parameters `ian_M`, `ian_R`, `ian_Omega`, `ian_Omegad` (THZ.c:11-14, 35-38). -/
structure ThzPar where
  /-- mass of the black hole -/
  M : ℝ
  /-- radius of the orbit -/
  R : ℝ
  /-- frequency of the orbit -/
  Omega : ℝ
  /-- frequency of the turning coordinates -/
  Omegad : ℝ

/-- `Kdelta[i][j]` (Constants.c:38-49). -/
noncomputable def kd4 (i j : Fin 4) : ℝ := if i = j then 1 else 0

/-- `X` (THZ.c:52). -/
noncomputable def thzX (P : ThzPar) (q : Fin 4 → ℝ) : ℝ := (q 1 - P.R) / √(1 - 2 * P.M / P.R)

/-- `Y` (THZ.c:53). -/
noncomputable def thzY (P : ThzPar) (q : Fin 4 → ℝ) : ℝ :=
  P.R * sin (q 2) * sin (q 3 - P.Omega * q 0) * √((P.R - 2 * P.M) / (P.R - 3 * P.M))

/-- `Z` (THZ.c:54). -/
noncomputable def thzZ (P : ThzPar) (q : Fin 4 → ℝ) : ℝ := P.R * cos (q 2)

/-- `DX` (THZ.c:56-59). -/
noncomputable def thzDX (P : ThzPar) (_q : Fin 4 → ℝ) : Fin 4 → ℝ
  | 0 => 0
  | 1 => 1 / √(1 - 2 * P.M / P.R)
  | 2 => 0
  | 3 => 0

/-- `c` (THZ.c:61). -/
noncomputable def thzC (P : ThzPar) : ℝ := P.R * √((P.R - 2 * P.M) / (P.R - 3 * P.M))

/-- `DY` (THZ.c:63-66). -/
noncomputable def thzDY (P : ThzPar) (q : Fin 4 → ℝ) : Fin 4 → ℝ
  | 0 => -(thzC P) * P.Omega * sin (q 2) * cos (q 3 - P.Omega * q 0)
  | 1 => 0
  | 2 => thzC P * cos (q 2) * sin (q 3 - P.Omega * q 0)
  | 3 => thzC P * sin (q 2) * cos (q 3 - P.Omega * q 0)

/-- `DZ` (THZ.c:68-71). -/
noncomputable def thzDZ (P : ThzPar) (q : Fin 4 → ℝ) : Fin 4 → ℝ
  | 0 => 0
  | 1 => 0
  | 2 => -P.R * sin (q 2)
  | 3 => 0

/-- `DDX` (THZ.c:77). -/
noncomputable def thzDDX (_P : ThzPar) (_q : Fin 4 → ℝ) (_i _j : Fin 4) : ℝ := 0

/-- `DDY` (THZ.c:78, 83-91). -/
noncomputable def thzDDY (P : ThzPar) (q : Fin 4 → ℝ) : Fin 4 → Fin 4 → ℝ
  | 0, 0 => -(thzC P) * P.Omega * P.Omega * sin (q 2) * sin (q 3 - P.Omega * q 0)
  | 0, 2 => -(thzC P) * P.Omega * cos (q 2) * cos (q 3 - P.Omega * q 0)
  | 2, 0 => -(thzC P) * P.Omega * cos (q 2) * cos (q 3 - P.Omega * q 0)
  | 0, 3 => thzC P * P.Omega * sin (q 2) * sin (q 3 - P.Omega * q 0)
  | 3, 0 => thzC P * P.Omega * sin (q 2) * sin (q 3 - P.Omega * q 0)
  | 2, 2 => -(thzC P) * sin (q 2) * sin (q 3 - P.Omega * q 0)
  | 2, 3 => thzC P * cos (q 2) * cos (q 3 - P.Omega * q 0)
  | 3, 2 => thzC P * cos (q 2) * cos (q 3 - P.Omega * q 0)
  | 3, 3 => -(thzC P) * sin (q 2) * sin (q 3 - P.Omega * q 0)
  | _, _ => 0

/-- `DDZ` (THZ.c:79, 93). -/
noncomputable def thzDDZ (P : ThzPar) (q : Fin 4 → ℝ) : Fin 4 → Fin 4 → ℝ
  | 2, 2 => -P.R * cos (q 2)
  | _, _ => 0

/-- `A1` in the part for z (THZ.c:108). -/
noncomputable def thzzA1 (P : ThzPar) : ℝ := P.M / (2 * P.R * P.R * P.R * (P.R - 3 * P.M))

/-- `B1` in the part for z (THZ.c:109). -/
noncomputable def thzzB1 (P : ThzPar) : ℝ := -(2 * P.R - 3 * P.M)

/-- `B2` in the part for z (THZ.c:110). -/
noncomputable def thzzB2 (P : ThzPar) : ℝ := (P.R - 3 * P.M)

/-- `B3` in the part for z (THZ.c:111). -/
noncomputable def thzzB3 (P : ThzPar) : ℝ := (P.R - 2 * P.M)

/-- `C1` in the part for z (THZ.c:112). -/
noncomputable def thzzC1 (P : ThzPar) : ℝ := P.M / (14 * P.R * P.R * P.R * P.R * P.R * √(1 - 2 * P.M / P.R) * (P.R - 3 * P.M))

/-- `D1` in the part for z (THZ.c:113). -/
noncomputable def thzzD1 (P : ThzPar) : ℝ := P.M * (13 * P.R - 19 * P.M)

/-- `D2` in the part for z (THZ.c:114). -/
noncomputable def thzzD2 (P : ThzPar) : ℝ := 14 * P.R * P.R - 36 * P.R * P.M + 9 * P.M * P.M

/-- `D3` in the part for z (THZ.c:115). -/
noncomputable def thzzD3 (P : ThzPar) : ℝ := (P.R - 2 * P.M) * (14 * P.R - 15 * P.M)

/-- `z` (THZ.c:117). -/
noncomputable def thzz (P : ThzPar) (q : Fin 4 → ℝ) : ℝ :=
  (q 1) * (cos (q 2)) + (thzzA1 P) * (thzZ P q) * ((thzzB1 P) * (thzX P q) * (thzX P q) + (thzzB2 P) * (thzY P
    q) * (thzY P q) + (thzzB3 P) * (thzZ P q) * (thzZ P q)) + (thzzC1 P) * (thzX P q) * (thzZ P q) * ((thzzD1
    P) * (thzX P q) * (thzX P q) + (thzzD2 P) * (thzY P q) * (thzY P q) + (thzzD3 P) * (thzZ P q) * (thzZ P q))

/-- `Dz` (THZ.c:121-125). -/
noncomputable def thzDz (P : ThzPar) (q : Fin 4 → ℝ) (i : Fin 4) : ℝ :=
  (cos (q 2)) * (kd4 1 i) - (q 1) * (sin (q 2)) * (kd4 2 i) + (thzzA1 P) * (thzDZ P q i) * ((thzzB1 P) * (thzX
    P q) * (thzX P q) + (thzzB2 P) * (thzY P q) * (thzY P q) + (thzzB3 P) * (thzZ P q) * (thzZ P q)) + 2 *
    (thzzA1 P) * (thzZ P q) * ((thzzB1 P) * (thzX P q) * (thzDX P q i) + (thzzB2 P) * (thzY P q) * (thzDY P q
    i) + (thzzB3 P) * (thzZ P q) * (thzDZ P q i)) + (thzzC1 P) * (thzDX P q i) * (thzZ P q) * ((thzzD1 P) *
    (thzX P q) * (thzX P q) + (thzzD2 P) * (thzY P q) * (thzY P q) + (thzzD3 P) * (thzZ P q) * (thzZ P q)) +
    (thzzC1 P) * (thzX P q) * (thzDZ P q i) * ((thzzD1 P) * (thzX P q) * (thzX P q) + (thzzD2 P) * (thzY P q) *
    (thzY P q) + (thzzD3 P) * (thzZ P q) * (thzZ P q)) + 2 * (thzzC1 P) * (thzX P q) * (thzZ P q) * ((thzzD1 P)
    * (thzX P q) * (thzDX P q i) + (thzzD2 P) * (thzY P q) * (thzDY P q i) + (thzzD3 P) * (thzZ P q) * (thzDZ P
    q i))

/-- `DDz` (THZ.c:133-150). -/
noncomputable def thzDDz (P : ThzPar) (q : Fin 4 → ℝ) (i j : Fin 4) : ℝ :=
  -(sin (q 2)) * (kd4 1 i) * (kd4 2 j) - (sin (q 2)) * (kd4 1 j) * (kd4 2 i) - (q 1) * (cos (q 2)) * (kd4 2 i)
    * (kd4 2 j) + (thzzA1 P) * (thzDDZ P q i j) * ((thzzB1 P) * (thzX P q) * (thzX P q) + (thzzB2 P) * (thzY P
    q) * (thzY P q) + (thzzB3 P) * (thzZ P q) * (thzZ P q)) + 2 * (thzzA1 P) * (thzDZ P q i) * ((thzzB1 P) *
    (thzX P q) * (thzDX P q j) + (thzzB2 P) * (thzY P q) * (thzDY P q j) + (thzzB3 P) * (thzZ P q) * (thzDZ P q
    j)) + 2 * (thzzA1 P) * (thzDZ P q j) * ((thzzB1 P) * (thzX P q) * (thzDX P q i) + (thzzB2 P) * (thzY P q) *
    (thzDY P q i) + (thzzB3 P) * (thzZ P q) * (thzDZ P q i)) + 2 * (thzzA1 P) * (thzZ P q) * ((thzzB1 P) *
    (thzDX P q i) * (thzDX P q j) + (thzzB1 P) * (thzX P q) * (thzDDX P q i j) + (thzzB2 P) * (thzDY P q i) *
    (thzDY P q j) + (thzzB2 P) * (thzY P q) * (thzDDY P q i j) + (thzzB3 P) * (thzDZ P q i) * (thzDZ P q j) +
    (thzzB3 P) * (thzZ P q) * (thzDDZ P q i j)) + (thzzC1 P) * (thzDDX P q i j) * (thzZ P q) * ((thzzD1 P) *
    (thzX P q) * (thzX P q) + (thzzD2 P) * (thzY P q) * (thzY P q) + (thzzD3 P) * (thzZ P q) * (thzZ P q)) +
    (thzzC1 P) * (thzDX P q i) * (thzDZ P q j) * ((thzzD1 P) * (thzX P q) * (thzX P q) + (thzzD2 P) * (thzY P
    q) * (thzY P q) + (thzzD3 P) * (thzZ P q) * (thzZ P q)) + 2 * (thzzC1 P) * (thzDX P q i) * (thzZ P q) *
    ((thzzD1 P) * (thzX P q) * (thzDX P q j) + (thzzD2 P) * (thzY P q) * (thzDY P q j) + (thzzD3 P) * (thzZ P
    q) * (thzDZ P q j)) + (thzzC1 P) * (thzDX P q j) * (thzDZ P q i) * ((thzzD1 P) * (thzX P q) * (thzX P q) +
    (thzzD2 P) * (thzY P q) * (thzY P q) + (thzzD3 P) * (thzZ P q) * (thzZ P q)) + (thzzC1 P) * (thzX P q) *
    (thzDDZ P q i j) * ((thzzD1 P) * (thzX P q) * (thzX P q) + (thzzD2 P) * (thzY P q) * (thzY P q) + (thzzD3
    P) * (thzZ P q) * (thzZ P q)) + 2 * (thzzC1 P) * (thzX P q) * (thzDZ P q i) * ((thzzD1 P) * (thzX P q) *
    (thzDX P q j) + (thzzD2 P) * (thzY P q) * (thzDY P q j) + (thzzD3 P) * (thzZ P q) * (thzDZ P q j)) + 2 *
    (thzzC1 P) * (thzDX P q j) * (thzZ P q) * ((thzzD1 P) * (thzX P q) * (thzDX P q i) + (thzzD2 P) * (thzY P
    q) * (thzDY P q i) + (thzzD3 P) * (thzZ P q) * (thzDZ P q i)) + 2 * (thzzC1 P) * (thzX P q) * (thzDZ P q j)
    * ((thzzD1 P) * (thzX P q) * (thzDX P q i) + (thzzD2 P) * (thzY P q) * (thzDY P q i) + (thzzD3 P) * (thzZ P
    q) * (thzDZ P q i)) + 2 * (thzzC1 P) * (thzX P q) * (thzZ P q) * ((thzzD1 P) * (thzDX P q i) * (thzDX P q
    j) + (thzzD1 P) * (thzX P q) * (thzDDX P q i j) + (thzzD2 P) * (thzDY P q i) * (thzDY P q j) + (thzzD2 P) *
    (thzY P q) * (thzDDY P q i j) + (thzzD3 P) * (thzDZ P q i) * (thzDZ P q j) + (thzzD3 P) * (thzZ P q) *
    (thzDDZ P q i j))

/-- `A1` in the part for y (THZ.c:165). -/
noncomputable def thzyA1 (P : ThzPar) : ℝ := √((P.R - 2 * P.M) / (P.R - 3 * P.M))

/-- `B1` in the part for y (THZ.c:166). -/
noncomputable def thzyB1 (P : ThzPar) : ℝ := P.M / (2 * P.R * P.R * P.R)

/-- `C1` in the part for y (THZ.c:167). -/
noncomputable def thzyC1 (P : ThzPar) : ℝ := (P.R - 3 * P.M) / (P.R - 2 * P.M)

/-- `D1` in the part for y (THZ.c:168). -/
noncomputable def thzyD1 (P : ThzPar) : ℝ := P.M / (14 * P.R * P.R * P.R * P.R * P.R * √(1 - 2 * P.M / P.R) * (P.R - 3 * P.M))

/-- `E1` in the part for y (THZ.c:169). -/
noncomputable def thzyE1 (P : ThzPar) : ℝ := 2 * P.M * (4 * P.R - 15 * P.M)

/-- `E2` in the part for y (THZ.c:170). -/
noncomputable def thzyE2 (P : ThzPar) : ℝ := 14 * P.R * P.R - 69 * P.M * P.R + 89 * P.M * P.M

/-- `E3` in the part for y (THZ.c:171). -/
noncomputable def thzyE3 (P : ThzPar) : ℝ := 2 * (P.R - 2 * P.M) * (7 * P.R - 24 * P.M)

/-- `yt` (THZ.c:173-174). -/
noncomputable def thzyt (P : ThzPar) (q : Fin 4 → ℝ) : ℝ :=
  (thzyA1 P) * (q 1) * (sin (q 2)) * (sin (q 3 - P.Omega * q 0)) + (thzyB1 P) * (thzY P q) * (-2 * (thzX P q) *
    (thzX P q) + (thzyC1 P) * (thzY P q) * (thzY P q) + (thzZ P q) * (thzZ P q)) + (thzyD1 P) * (thzX P q) *
    (thzY P q) * ((thzyE1 P) * (thzX P q) * (thzX P q) + (thzyE2 P) * (thzY P q) * (thzY P q) + (thzyE3 P) *
    (thzZ P q) * (thzZ P q))

/-- `Dyt` (THZ.c:178-185). -/
noncomputable def thzDyt (P : ThzPar) (q : Fin 4 → ℝ) (i : Fin 4) : ℝ :=
  (thzyA1 P) * (sin (q 2)) * (sin (q 3 - P.Omega * q 0)) * (kd4 1 i) + (thzyA1 P) * (q 1) * (cos (q 2)) * (sin
    (q 3 - P.Omega * q 0)) * (kd4 2 i) + (thzyA1 P) * (q 1) * (sin (q 2)) * (cos (q 3 - P.Omega * q 0)) * (kd4
    3 i) - (thzyA1 P) * P.Omega * (q 1) * (sin (q 2)) * (cos (q 3 - P.Omega * q 0)) * (kd4 0 i) + (thzyB1 P) *
    (thzDY P q i) * (-2 * (thzX P q) * (thzX P q) + (thzyC1 P) * (thzY P q) * (thzY P q) + (thzZ P q) * (thzZ P
    q)) + 2 * (thzyB1 P) * (thzY P q) * (-2 * (thzX P q) * (thzDX P q i) + (thzyC1 P) * (thzY P q) * (thzDY P q
    i) + (thzZ P q) * (thzDZ P q i)) + (thzyD1 P) * ((thzY P q) * (thzDX P q i) + (thzX P q) * (thzDY P q i)) *
    ((thzyE1 P) * (thzX P q) * (thzX P q) + (thzyE2 P) * (thzY P q) * (thzY P q) + (thzyE3 P) * (thzZ P q) *
    (thzZ P q)) + 2 * (thzyD1 P) * (thzX P q) * (thzY P q) * ((thzyE1 P) * (thzX P q) * (thzDX P q i) + (thzyE2
    P) * (thzY P q) * (thzDY P q i) + (thzyE3 P) * (thzZ P q) * (thzDZ P q i))

/-- `DDyt` (THZ.c:193-222). -/
noncomputable def thzDDyt (P : ThzPar) (q : Fin 4 → ℝ) (i j : Fin 4) : ℝ :=
  (thzyA1 P) * (cos (q 2)) * (sin (q 3 - P.Omega * q 0)) * (kd4 1 i) * (kd4 2 j) + (thzyA1 P) * (sin (q 2)) *
    (cos (q 3 - P.Omega * q 0)) * (kd4 1 i) * (kd4 3 j) - (thzyA1 P) * P.Omega * (sin (q 2)) * (cos (q 3 -
    P.Omega * q 0)) * (kd4 1 i) * (kd4 0 j) + (thzyA1 P) * (cos (q 2)) * (sin (q 3 - P.Omega * q 0)) * (kd4 2
    i) * (kd4 1 j) - (thzyA1 P) * (q 1) * (sin (q 2)) * (sin (q 3 - P.Omega * q 0)) * (kd4 2 i) * (kd4 2 j) +
    (thzyA1 P) * (q 1) * (cos (q 2)) * (cos (q 3 - P.Omega * q 0)) * (kd4 2 i) * (kd4 3 j) - (thzyA1 P) *
    P.Omega * (q 1) * (cos (q 2)) * (cos (q 3 - P.Omega * q 0)) * (kd4 2 i) * (kd4 0 j) + (thzyA1 P) * (sin (q
    2)) * (cos (q 3 - P.Omega * q 0)) * (kd4 3 i) * (kd4 1 j) + (thzyA1 P) * (q 1) * (cos (q 2)) * (cos (q 3 -
    P.Omega * q 0)) * (kd4 3 i) * (kd4 2 j) - (thzyA1 P) * (q 1) * (sin (q 2)) * (sin (q 3 - P.Omega * q 0)) *
    (kd4 3 i) * (kd4 3 j) + (thzyA1 P) * P.Omega * (q 1) * (sin (q 2)) * (sin (q 3 - P.Omega * q 0)) * (kd4 3
    i) * (kd4 0 j) - (thzyA1 P) * P.Omega * (sin (q 2)) * (cos (q 3 - P.Omega * q 0)) * (kd4 0 i) * (kd4 1 j) -
    (thzyA1 P) * P.Omega * (q 1) * (cos (q 2)) * (cos (q 3 - P.Omega * q 0)) * (kd4 0 i) * (kd4 2 j) + (thzyA1
    P) * P.Omega * (q 1) * (sin (q 2)) * (sin (q 3 - P.Omega * q 0)) * (kd4 0 i) * (kd4 3 j) - (thzyA1 P) *
    P.Omega * P.Omega * (q 1) * (sin (q 2)) * (sin (q 3 - P.Omega * q 0)) * (kd4 0 i) * (kd4 0 j) + (thzyB1 P)
    * (thzDDY P q i j) * (-2 * (thzX P q) * (thzX P q) + (thzyC1 P) * (thzY P q) * (thzY P q) + (thzZ P q) *
    (thzZ P q)) + 2 * (thzyB1 P) * (thzDY P q i) * (-2 * (thzX P q) * (thzDX P q j) + (thzyC1 P) * (thzY P q) *
    (thzDY P q j) + (thzZ P q) * (thzDZ P q j)) + 2 * (thzyB1 P) * (thzDY P q j) * (-2 * (thzX P q) * (thzDX P
    q i) + (thzyC1 P) * (thzY P q) * (thzDY P q i) + (thzZ P q) * (thzDZ P q i)) + 2 * (thzyB1 P) * (thzY P q)
    * (-2 * (thzDX P q j) * (thzDX P q i) - 2 * (thzX P q) * (thzDDX P q i j) + (thzyC1 P) * (thzDY P q i) *
    (thzDY P q j) + (thzyC1 P) * (thzY P q) * (thzDDY P q i j) + (thzDZ P q i) * (thzDZ P q j) + (thzZ P q) *
    (thzDDZ P q i j)) + (thzyD1 P) * (thzDDX P q i j) * (thzY P q) * ((thzyE1 P) * (thzX P q) * (thzX P q) +
    (thzyE2 P) * (thzY P q) * (thzY P q) + (thzyE3 P) * (thzZ P q) * (thzZ P q)) + (thzyD1 P) * (thzDX P q i) *
    (thzDY P q j) * ((thzyE1 P) * (thzX P q) * (thzX P q) + (thzyE2 P) * (thzY P q) * (thzY P q) + (thzyE3 P) *
    (thzZ P q) * (thzZ P q)) + 2 * (thzyD1 P) * (thzDX P q i) * (thzY P q) * ((thzyE1 P) * (thzX P q) * (thzDX
    P q j) + (thzyE2 P) * (thzY P q) * (thzDY P q j) + (thzyE3 P) * (thzZ P q) * (thzDZ P q j)) + (thzyD1 P) *
    (thzDX P q j) * (thzDY P q i) * ((thzyE1 P) * (thzX P q) * (thzX P q) + (thzyE2 P) * (thzY P q) * (thzY P
    q) + (thzyE3 P) * (thzZ P q) * (thzZ P q)) + (thzyD1 P) * (thzX P q) * (thzDDY P q i j) * ((thzyE1 P) *
    (thzX P q) * (thzX P q) + (thzyE2 P) * (thzY P q) * (thzY P q) + (thzyE3 P) * (thzZ P q) * (thzZ P q)) + 2
    * (thzyD1 P) * (thzX P q) * (thzDY P q i) * ((thzyE1 P) * (thzX P q) * (thzDX P q j) + (thzyE2 P) * (thzY P
    q) * (thzDY P q j) + (thzyE3 P) * (thzZ P q) * (thzDZ P q j)) + 2 * (thzyD1 P) * (thzDX P q j) * (thzY P q)
    * ((thzyE1 P) * (thzX P q) * (thzDX P q i) + (thzyE2 P) * (thzY P q) * (thzDY P q i) + (thzyE3 P) * (thzZ P
    q) * (thzDZ P q i)) + 2 * (thzyD1 P) * (thzX P q) * (thzDY P q j) * ((thzyE1 P) * (thzX P q) * (thzDX P q
    i) + (thzyE2 P) * (thzY P q) * (thzDY P q i) + (thzyE3 P) * (thzZ P q) * (thzDZ P q i)) + 2 * (thzyD1 P) *
    (thzX P q) * (thzY P q) * ((thzyE1 P) * (thzDX P q i) * (thzDX P q j) + (thzyE1 P) * (thzX P q) * (thzDDX P
    q i j) + (thzyE2 P) * (thzDY P q i) * (thzDY P q j) + (thzyE2 P) * (thzY P q) * (thzDDY P q i j) + (thzyE3
    P) * (thzDZ P q i) * (thzDZ P q j) + (thzyE3 P) * (thzZ P q) * (thzDDZ P q i j))

/-- `A1` in the part for x (THZ.c:231). -/
noncomputable def thzxA1 (P : ThzPar) : ℝ := 1 / (√(1 - 2 * P.M / P.R))

/-- `B1` in the part for x (THZ.c:232). -/
noncomputable def thzxB1 (P : ThzPar) : ℝ := P.M / (P.R * P.R * √(1 - 2 * P.M / P.R))

/-- `C1` in the part for x (THZ.c:233). -/
noncomputable def thzxC1 (P : ThzPar) : ℝ := (P.R - 3 * P.M) / (P.R - 2 * P.M)

/-- `D1` in the part for x (THZ.c:234). -/
noncomputable def thzxD1 (P : ThzPar) : ℝ := P.M / (2 * P.R * P.R * P.R * (P.R - 2 * P.M) * (P.R - 3 * P.M))

/-- `E1` in the part for x (THZ.c:235). -/
noncomputable def thzxE1 (P : ThzPar) : ℝ := -P.M * P.M

/-- `E2` in the part for x (THZ.c:236). -/
noncomputable def thzxE2 (P : ThzPar) : ℝ := (P.R - 3 * P.M) * (3 * P.R - 8 * P.M)

/-- `E3` in the part for x (THZ.c:237). -/
noncomputable def thzxE3 (P : ThzPar) : ℝ := 3 * (P.R - 2 * P.M) * (P.R - 2 * P.M)

/-- `F1` in the part for x (THZ.c:238). -/
noncomputable def thzxF1 (P : ThzPar) : ℝ := P.M / (P.R * P.R * P.R * P.R * P.R * √(1 - 2 * P.M / P.R) * (P.R - 3 * P.M))

/-- `G1` in the part for x (THZ.c:239). -/
noncomputable def thzxG1 (P : ThzPar) : ℝ := P.M * (P.R * P.R - P.R * P.M + 3 * P.M * P.M) / (8 * (P.R - 2 * P.M))

/-- `G2` in the part for x (THZ.c:240). -/
noncomputable def thzxG2 (P : ThzPar) : ℝ := (28 * P.R * P.R - 114 * P.R * P.M + 123 * P.M * P.M) / 28

/-- `G3` in the part for x (THZ.c:241). -/
noncomputable def thzxG3 (P : ThzPar) : ℝ := (14 * P.R * P.R - 48 * P.R * P.M + 33 * P.M * P.M) / 14

/-- `G4` in the part for x (THZ.c:242). -/
noncomputable def thzxG4 (P : ThzPar) : ℝ := P.M * (3 * P.R * P.R * P.R - 74 * P.R * P.R * P.M + 337 * P.R * P.M * P.M - 430 * P.M * P.M * P.M) / (56 * (P.R - 2 * P.M) * (P.R - 2 * P.M))

/-- `G5` in the part for x (THZ.c:243). -/
noncomputable def thzxG5 (P : ThzPar) : ℝ := -P.M * P.M * (7 * P.R - 18 * P.M) / (4 * (P.R - 2 * P.M))

/-- `G6` in the part for x (THZ.c:244). -/
noncomputable def thzxG6 (P : ThzPar) : ℝ := -P.M * (3 * P.R + 22 * P.M) / 56

/-- `xt` (THZ.c:246-248). -/
noncomputable def thzxt (P : ThzPar) (q : Fin 4 → ℝ) : ℝ :=
  (thzxA1 P) * ((q 1) * (sin (q 2)) * (cos (q 3 - P.Omega * q 0)) - P.R) + (thzxB1 P) * (-(1 / 2) * (thzX P q)
    * (thzX P q) + (thzxC1 P) * (thzY P q) * (thzY P q) + (thzZ P q) * (thzZ P q)) + (thzxD1 P) * (thzX P q) *
    ((thzxE1 P) * (thzX P q) * (thzX P q) + (thzxE2 P) * (thzY P q) * (thzY P q) + (thzxE3 P) * (thzZ P q) *
    (thzZ P q)) + (thzxF1 P) * ((thzxG1 P) * (thzX P q) * (thzX P q) * (thzX P q) * (thzX P q) + (thzxG2 P) *
    (thzX P q) * (thzX P q) * (thzY P q) * (thzY P q) + (thzxG3 P) * (thzX P q) * (thzX P q) * (thzZ P q) *
    (thzZ P q) + (thzxG4 P) * (thzY P q) * (thzY P q) * (thzY P q) * (thzY P q) + (thzxG5 P) * (thzY P q) *
    (thzY P q) * (thzZ P q) * (thzZ P q) + (thzxG6 P) * (thzZ P q) * (thzZ P q) * (thzZ P q) * (thzZ P q))

/-- `Dxt` (THZ.c:252-261). -/
noncomputable def thzDxt (P : ThzPar) (q : Fin 4 → ℝ) (i : Fin 4) : ℝ :=
  (thzxA1 P) * (sin (q 2)) * (cos (q 3 - P.Omega * q 0)) * (kd4 1 i) + (thzxA1 P) * (q 1) * (cos (q 2)) * (cos
    (q 3 - P.Omega * q 0)) * (kd4 2 i) - (thzxA1 P) * (q 1) * (sin (q 2)) * (sin (q 3 - P.Omega * q 0)) * (kd4
    3 i) + (thzxA1 P) * P.Omega * (q 1) * (sin (q 2)) * (sin (q 3 - P.Omega * q 0)) * (kd4 0 i) + (thzxB1 P) *
    (-(thzX P q) * (thzDX P q i) + 2 * (thzxC1 P) * (thzY P q) * (thzDY P q i) + 2 * (thzZ P q) * (thzDZ P q
    i)) + (thzxD1 P) * (thzDX P q i) * ((thzxE1 P) * (thzX P q) * (thzX P q) + (thzxE2 P) * (thzY P q) * (thzY
    P q) + (thzxE3 P) * (thzZ P q) * (thzZ P q)) + 2 * (thzxD1 P) * (thzX P q) * ((thzxE1 P) * (thzX P q) *
    (thzDX P q i) + (thzxE2 P) * (thzY P q) * (thzDY P q i) + (thzxE3 P) * (thzZ P q) * (thzDZ P q i)) +
    (thzxF1 P) * (4 * (thzxG1 P) * (thzX P q) * (thzX P q) * (thzX P q) * (thzDX P q i) + 2 * (thzxG2 P) *
    (thzX P q) * (thzDX P q i) * (thzY P q) * (thzY P q) + 2 * (thzxG2 P) * (thzX P q) * (thzX P q) * (thzY P
    q) * (thzDY P q i) + 2 * (thzxG3 P) * (thzX P q) * (thzDX P q i) * (thzZ P q) * (thzZ P q) + 2 * (thzxG3 P)
    * (thzX P q) * (thzX P q) * (thzZ P q) * (thzDZ P q i) + 4 * (thzxG4 P) * (thzY P q) * (thzY P q) * (thzY P
    q) * (thzDY P q i) + 2 * (thzxG5 P) * (thzY P q) * (thzDY P q i) * (thzZ P q) * (thzZ P q) + 2 * (thzxG5 P)
    * (thzY P q) * (thzY P q) * (thzZ P q) * (thzDZ P q i) + 4 * (thzxG6 P) * (thzZ P q) * (thzZ P q) * (thzZ P
    q) * (thzDZ P q i))

/-- `DDxt` (THZ.c:269-298). -/
noncomputable def thzDDxt (P : ThzPar) (q : Fin 4 → ℝ) (i j : Fin 4) : ℝ :=
  (thzxA1 P) * (cos (q 2)) * (cos (q 3 - P.Omega * q 0)) * (kd4 1 i) * (kd4 2 j) - (thzxA1 P) * (sin (q 2)) *
    (sin (q 3 - P.Omega * q 0)) * (kd4 1 i) * (kd4 3 j) + (thzxA1 P) * P.Omega * (sin (q 2)) * (sin (q 3 -
    P.Omega * q 0)) * (kd4 1 i) * (kd4 0 j) + (thzxA1 P) * (cos (q 2)) * (cos (q 3 - P.Omega * q 0)) * (kd4 2
    i) * (kd4 1 j) - (thzxA1 P) * (q 1) * (sin (q 2)) * (cos (q 3 - P.Omega * q 0)) * (kd4 2 i) * (kd4 2 j) -
    (thzxA1 P) * (q 1) * (cos (q 2)) * (sin (q 3 - P.Omega * q 0)) * (kd4 2 i) * (kd4 3 j) + (thzxA1 P) *
    P.Omega * (q 1) * (cos (q 2)) * (sin (q 3 - P.Omega * q 0)) * (kd4 2 i) * (kd4 0 j) - (thzxA1 P) * (sin (q
    2)) * (sin (q 3 - P.Omega * q 0)) * (kd4 3 i) * (kd4 1 j) - (thzxA1 P) * (q 1) * (cos (q 2)) * (sin (q 3 -
    P.Omega * q 0)) * (kd4 3 i) * (kd4 2 j) - (thzxA1 P) * (q 1) * (sin (q 2)) * (cos (q 3 - P.Omega * q 0)) *
    (kd4 3 i) * (kd4 3 j) + (thzxA1 P) * P.Omega * (q 1) * (sin (q 2)) * (cos (q 3 - P.Omega * q 0)) * (kd4 3
    i) * (kd4 0 j) + (thzxA1 P) * P.Omega * (sin (q 2)) * (sin (q 3 - P.Omega * q 0)) * (kd4 0 i) * (kd4 1 j) +
    (thzxA1 P) * P.Omega * (q 1) * (cos (q 2)) * (sin (q 3 - P.Omega * q 0)) * (kd4 0 i) * (kd4 2 j) + (thzxA1
    P) * P.Omega * (q 1) * (sin (q 2)) * (cos (q 3 - P.Omega * q 0)) * (kd4 0 i) * (kd4 3 j) - (thzxA1 P) *
    P.Omega * P.Omega * (q 1) * (sin (q 2)) * (cos (q 3 - P.Omega * q 0)) * (kd4 0 i) * (kd4 0 j) + (thzxB1 P)
    * (-(thzDX P q i) * (thzDX P q j) - (thzX P q) * (thzDDX P q i j) + 2 * (thzxC1 P) * (thzDY P q j) * (thzDY
    P q i) + 2 * (thzxC1 P) * (thzY P q) * (thzDDY P q i j) + 2 * (thzDZ P q i) * (thzDZ P q j) + 2 * (thzZ P
    q) * (thzDDZ P q i j)) + (thzxD1 P) * (thzDDX P q i j) * ((thzxE1 P) * (thzX P q) * (thzX P q) + (thzxE2 P)
    * (thzY P q) * (thzY P q) + (thzxE3 P) * (thzZ P q) * (thzZ P q)) + 2 * (thzxD1 P) * (thzDX P q i) *
    ((thzxE1 P) * (thzX P q) * (thzDX P q j) + (thzxE2 P) * (thzY P q) * (thzDY P q j) + (thzxE3 P) * (thzZ P
    q) * (thzDZ P q j)) + 2 * (thzxD1 P) * (thzDX P q j) * ((thzxE1 P) * (thzX P q) * (thzDX P q i) + (thzxE2
    P) * (thzY P q) * (thzDY P q i) + (thzxE3 P) * (thzZ P q) * (thzDZ P q i)) + 2 * (thzxD1 P) * (thzX P q) *
    ((thzxE1 P) * (thzDX P q i) * (thzDX P q j) + (thzxE1 P) * (thzX P q) * (thzDDX P q i j) + (thzxE2 P) *
    (thzDY P q i) * (thzDY P q j) + (thzxE2 P) * (thzY P q) * (thzDDY P q i j) + (thzxE3 P) * (thzDZ P q i) *
    (thzDZ P q j) + (thzxE3 P) * (thzZ P q) * (thzDDZ P q i j)) + (thzxF1 P) * (12 * (thzxG1 P) * (thzX P q) *
    (thzX P q) * (thzDX P q j) * (thzDX P q i) + 4 * (thzxG1 P) * (thzX P q) * (thzX P q) * (thzX P q) *
    (thzDDX P q i j) + 2 * (thzxG2 P) * (thzDX P q j) * (thzDX P q i) * (thzY P q) * (thzY P q) + 2 * (thzxG2
    P) * (thzX P q) * (thzDDX P q i j) * (thzY P q) * (thzY P q) + 4 * (thzxG2 P) * (thzX P q) * (thzDX P q i)
    * (thzY P q) * (thzDY P q j) + 4 * (thzxG2 P) * (thzX P q) * (thzDX P q j) * (thzY P q) * (thzDY P q i) + 2
    * (thzxG2 P) * (thzX P q) * (thzX P q) * (thzDY P q j) * (thzDY P q i) + 2 * (thzxG2 P) * (thzX P q) *
    (thzX P q) * (thzY P q) * (thzDDY P q i j) + 2 * (thzxG3 P) * (thzDX P q j) * (thzDX P q i) * (thzZ P q) *
    (thzZ P q) + 2 * (thzxG3 P) * (thzX P q) * (thzDDX P q i j) * (thzZ P q) * (thzZ P q) + 4 * (thzxG3 P) *
    (thzX P q) * (thzDX P q i) * (thzZ P q) * (thzDZ P q j) + 4 * (thzxG3 P) * (thzX P q) * (thzDX P q j) *
    (thzZ P q) * (thzDZ P q i) + 2 * (thzxG3 P) * (thzX P q) * (thzX P q) * (thzDZ P q j) * (thzDZ P q i) + 2 *
    (thzxG3 P) * (thzX P q) * (thzX P q) * (thzZ P q) * (thzDDZ P q i j) + 12 * (thzxG4 P) * (thzY P q) * (thzY
    P q) * (thzDY P q i) * (thzDY P q j) + 4 * (thzxG4 P) * (thzY P q) * (thzY P q) * (thzY P q) * (thzDDY P q
    i j) + 2 * (thzxG5 P) * (thzDY P q j) * (thzDY P q i) * (thzZ P q) * (thzZ P q) + 2 * (thzxG5 P) * (thzY P
    q) * (thzDDY P q i j) * (thzZ P q) * (thzZ P q) + 4 * (thzxG5 P) * (thzY P q) * (thzDY P q i) * (thzZ P q)
    * (thzDZ P q j) + 4 * (thzxG5 P) * (thzY P q) * (thzDY P q j) * (thzZ P q) * (thzDZ P q i) + 2 * (thzxG5 P)
    * (thzY P q) * (thzY P q) * (thzDZ P q j) * (thzDZ P q i) + 2 * (thzxG5 P) * (thzY P q) * (thzY P q) *
    (thzZ P q) * (thzDDZ P q i j) + 12 * (thzxG6 P) * (thzZ P q) * (thzZ P q) * (thzDZ P q j) * (thzDZ P q i) +
    4 * (thzxG6 P) * (thzZ P q) * (thzZ P q) * (thzZ P q) * (thzDDZ P q i j))

/-- `x` (THZ.c:304). -/
noncomputable def thzx (P : ThzPar) (q : Fin 4 → ℝ) : ℝ :=
  (thzxt P q) * (cos (P.Omegad * q 0)) - (thzyt P q) * (sin (P.Omegad * q 0))

/-- `Dx` (THZ.c:308-309). -/
noncomputable def thzDx (P : ThzPar) (q : Fin 4 → ℝ) (i : Fin 4) : ℝ :=
  (thzDxt P q i) * (cos (P.Omegad * q 0)) - (thzxt P q) * P.Omegad * (sin (P.Omegad * q 0)) * (kd4 0 i) -
    (thzDyt P q i) * (sin (P.Omegad * q 0)) - (thzyt P q) * P.Omegad * (cos (P.Omegad * q 0)) * (kd4 0 i)

/-- `DDx` (THZ.c:317-322). -/
noncomputable def thzDDx (P : ThzPar) (q : Fin 4 → ℝ) (i j : Fin 4) : ℝ :=
  (thzDDxt P q i j) * (cos (P.Omegad * q 0)) - ((thzDxt P q i) * (kd4 0 j) + (thzDxt P q j) * (kd4 0 i)) *
    P.Omegad * (sin (P.Omegad * q 0)) - (thzxt P q) * P.Omegad * P.Omegad * (cos (P.Omegad * q 0)) * (kd4 0 i)
    * (kd4 0 j) - (thzDDyt P q i j) * (sin (P.Omegad * q 0)) - ((thzDyt P q i) * (kd4 0 j) + (thzDyt P q j) *
    (kd4 0 i)) * P.Omegad * (cos (P.Omegad * q 0)) + (thzyt P q) * P.Omegad * P.Omegad * (sin (P.Omegad * q 0))
    * (kd4 0 i) * (kd4 0 j)

/-- `y` (THZ.c:327). -/
noncomputable def thzy (P : ThzPar) (q : Fin 4 → ℝ) : ℝ :=
  (thzxt P q) * (sin (P.Omegad * q 0)) + (thzyt P q) * (cos (P.Omegad * q 0))

/-- `Dy` (THZ.c:331-332). -/
noncomputable def thzDy (P : ThzPar) (q : Fin 4 → ℝ) (i : Fin 4) : ℝ :=
  (thzDxt P q i) * (sin (P.Omegad * q 0)) + (thzxt P q) * P.Omegad * (cos (P.Omegad * q 0)) * (kd4 0 i) +
    (thzDyt P q i) * (cos (P.Omegad * q 0)) - (thzyt P q) * P.Omegad * (sin (P.Omegad * q 0)) * (kd4 0 i)

/-- `DDy` (THZ.c:340-345). -/
noncomputable def thzDDy (P : ThzPar) (q : Fin 4 → ℝ) (i j : Fin 4) : ℝ :=
  (thzDDxt P q i j) * (sin (P.Omegad * q 0)) + ((thzDxt P q i) * (kd4 0 j) + (thzDxt P q j) * (kd4 0 i)) *
    P.Omegad * (cos (P.Omegad * q 0)) - (thzxt P q) * P.Omegad * P.Omegad * (sin (P.Omegad * q 0)) * (kd4 0 i)
    * (kd4 0 j) + (thzDDyt P q i j) * (cos (P.Omegad * q 0)) - ((thzDyt P q i) * (kd4 0 j) + (thzDyt P q j) *
    (kd4 0 i)) * P.Omegad * (sin (P.Omegad * q 0)) - (thzyt P q) * P.Omegad * P.Omegad * (cos (P.Omegad * q 0))
    * (kd4 0 i) * (kd4 0 j)

end Sgrid
