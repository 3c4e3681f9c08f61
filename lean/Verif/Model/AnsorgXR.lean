import Verif.Model.CoordTrafo

/-!
src/utility/Coordinates/coordtrans_AnsorgXRphi.c and coordtrans_Bfunc.c: the last step of the Ansorg
coordinates, from (X, R, phi) to (x, y, z), and the cubic rescaling of the coordinate B, each with the
tables of the first and second derivatives that the code returns beside the point.

Doubles are real numbers.  The parameter "Coordinates_AnsorgNS_b" is the argument `b`, and `dequaleps` is
the argument `e`.  The index 1, 2, 3 of the C arrays is 0, 1, 2 here.
-/

namespace Sgrid
open Real

/-- `XsqrPlusRsqr` with its replacement at the origin (coordtrans_AnsorgXRphi.c:26, 31). -/
noncomputable def xrQ (e X R : ℝ) : ℝ := if R * R + X * X = 0 then e * e * e else R * R + X * X

/-- `xyz` (coordtrans_AnsorgXRphi.c:32-35). -/
noncomputable def xrX (b e X R phi : ℝ) : Fin 3 → ℝ :=
  let Q := xrQ e X R
  fun i => match i with
  | 0 => 1 / 2 * b * (-(R * R) + X * X) * (1 + 1 / (Q * Q))
  | 1 => b * R * X * cos phi * (-1 + 1 / (Q * Q))
  | 2 => b * R * X * (-1 + 1 / (Q * Q)) * sin phi

/-- `dxyz` (coordtrans_AnsorgXRphi.c:27-28, 37-46). -/
noncomputable def xrDX (b e X R phi : ℝ) : Fin 3 → Fin 3 → ℝ :=
  let Q := xrQ e X R
  let DX := 2 * X
  let DR := 2 * R
  fun i k => match i, k with
  | 0, 0 => b * DX * (R * R - 1 * (X * X)) / Q ^ 3 + b * X * (1 + 1 / (Q * Q))
  | 0, 1 => b * DR * (R * R - 1 * (X * X)) / Q ^ 3 - 1 * b * R * (1 + 1 / (Q * Q))
  | 0, 2 => 0
  | 1, 0 => b * R * cos phi * (-1 - 2 * DX * X / Q ^ 3 + 1 / (Q * Q))
  | 1, 1 => b * X * cos phi * (-1 - 2 * DR * R / Q ^ 3 + 1 / (Q * Q))
  | 1, 2 => (-1) * b * R * X * (-1 + 1 / (Q * Q)) * sin phi
  | 2, 0 => b * R * (-1 - 2 * DX * X / Q ^ 3 + 1 / (Q * Q)) * sin phi
  | 2, 1 => b * X * (-1 - 2 * DR * R / Q ^ 3 + 1 / (Q * Q)) * sin phi
  | 2, 2 => b * R * X * cos phi * (-1 + 1 / (Q * Q))

/-- `ddxyz` (coordtrans_AnsorgXRphi.c:27-30, 48-66). -/
noncomputable def xrDDX (b e X R phi : ℝ) : Fin 3 → Pair → ℝ :=
  let Q := xrQ e X R
  let DX := 2 * X
  let DR := 2 * R
  let DXX := 2
  let DRR := 2
  fun i p => match i, p with
  | 0, .xx => b * ((-4) * DX * X * Q + Q ^ 4 + (DXX * Q - 3 * (DX * DX)) * (R * R) + ((-1) * DXX * Q + 3 * (DX *
      DX)) * (X * X) + Q ^ 4 * (1 / (Q * Q))) / Q ^ 4
  | 0, .xy => b * (2 * DX * R * Q - 2 * DR * X * Q - 3 * DR * DX * (R * R) + 3 * DR * DX * (X * X)) / Q ^ 4
  | 0, .xz => 0
  | 0, .yy => (-1) * b * ((-4) * DR * R * Q + Q ^ 4 + ((-1) * DRR * Q + 3 * (DR * DR)) * (R * R) + (DRR * Q - 3 *
      (DR * DR)) * (X * X) + Q ^ 4 * (1 / (Q * Q))) / Q ^ 4
  | 0, .yz => 0
  | 0, .zz => 0
  | 1, .xx => (-2) * b * R * cos phi * (2 * DX * Q + DXX * X * Q - 3 * X * (DX * DX)) / Q ^ 4
  | 1, .xy => b * cos phi * (6 * DR * DX * R * X - 2 * DR * R * Q - 2 * DX * X * Q - 1 * Q ^ 4 + Q ^ 4 * (1 / (Q *
      Q))) / Q ^ 4
  | 1, .xz => b * R * (1 + 2 * DX * X / Q ^ 3 - 1 * (1 / (Q * Q))) * sin phi
  | 1, .yy => (-2) * b * X * cos phi * (2 * DR * Q + DRR * R * Q - 3 * R * (DR * DR)) / Q ^ 4
  | 1, .yz => b * X * (1 + 2 * DR * R / Q ^ 3 - 1 * (1 / (Q * Q))) * sin phi
  | 1, .zz => (-1) * b * R * X * cos phi * (-1 + 1 / (Q * Q))
  | 2, .xx => (-2) * b * R * (2 * DX * Q + DXX * X * Q - 3 * X * (DX * DX)) * sin phi / Q ^ 4
  | 2, .xy => b * (6 * DR * DX * R * X - 2 * DR * R * Q - 2 * DX * X * Q - 1 * Q ^ 4 + Q ^ 4 * (1 / (Q * Q))) *
      sin phi / Q ^ 4
  | 2, .xz => b * R * cos phi * (-1 - 2 * DX * X / Q ^ 3 + 1 / (Q * Q))
  | 2, .yy => (-2) * b * X * (2 * DR * Q + DRR * R * Q - 3 * R * (DR * DR)) * sin phi / Q ^ 4
  | 2, .yz => b * X * cos phi * (-1 - 2 * DR * R / Q ^ 3 + 1 / (Q * Q))
  | 2, .zz => (-1) * b * R * X * (-1 + 1 / (Q * Q)) * sin phi

/-- The coefficient `ss` (coordtrans_Bfunc.c:25). -/
noncomputable def bfS : ℝ := 1 / 2

/-- The coefficient `aa` (coordtrans_Bfunc.c:26). -/
noncomputable def bfA : ℝ := 2 * bfS - 2

/-- The coefficient `bb` (coordtrans_Bfunc.c:27). -/
noncomputable def bfB : ℝ := 3 - 3 * bfS

/-- `ABphi` (coordtrans_Bfunc.c:30-33). -/
noncomputable def bfX (Af Bf Phi : ℝ) : Fin 3 → ℝ
  | 0 => Af
  | 1 => bfA * Bf ^ 3 + Bf * bfS + bfB * (Bf * Bf)
  | 2 => Phi

/-- `dABphi` (coordtrans_Bfunc.c:35-44). -/
noncomputable def bfDX (_Af Bf _Phi : ℝ) : Fin 3 → Fin 3 → ℝ
  | 0, 0 => 1
  | 0, 1 => 0
  | 0, 2 => 0
  | 1, 0 => 0
  | 1, 1 => 2 * bfB * Bf + bfS + 3 * bfA * (Bf * Bf)
  | 1, 2 => 0
  | 2, 0 => 0
  | 2, 1 => 0
  | 2, 2 => 1

/-- `ddABphi` (coordtrans_Bfunc.c:46-64). -/
noncomputable def bfDDX (_Af Bf _Phi : ℝ) : Fin 3 → Pair → ℝ
  | 0, .xx => 0
  | 0, .xy => 0
  | 0, .xz => 0
  | 0, .yy => 0
  | 0, .yz => 0
  | 0, .zz => 0
  | 1, .xx => 0
  | 1, .xy => 0
  | 1, .xz => 0
  | 1, .yy => 2 * (bfB + 3 * bfA * Bf)
  | 1, .yz => 0
  | 1, .zz => 0
  | 2, .xx => 0
  | 2, .xy => 0
  | 2, .xz => 0
  | 2, .yy => 0
  | 2, .yz => 0
  | 2, .zz => 0

end Sgrid
