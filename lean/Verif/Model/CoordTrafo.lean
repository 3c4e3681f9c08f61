import Mathlib.Analysis.SpecialFunctions.Trigonometric.Arctan
import Mathlib.Analysis.SpecialFunctions.Trigonometric.Inverse
import Mathlib.Analysis.SpecialFunctions.Pow.Real

/-!
Coordinate transformations of src/utility/Coordinates/Coordinates.c: the functions `x_of_X`, `dX_dx`
and `ddX_dxdx` that init_CoordTransform_And_Derivs (Coordinates.c:49-369) installs for the coordinates
Polar, PolarCE, SphericalDF, compactSphericalDF, Spherical, Spherical2, Spherical3 and tan_stretch.

Doubles are real numbers.  `PI` is `π`.  The decimal constants of Spherical3 (1.5707963267948966192,
0.6366197723675813431, 0.45015815807855303478, 0.20264236728467554289, 0.40528473456935108578,
3.1415926535897932385) are the numbers they stand for: `π/2`, `2/π`, `√2/π`, `2/π²`, `4/π²`, `π`.
Parameters that are read with Getd are arguments.  Indices 1,2,3 of the C arrays are 0,1,2 here.
-/

namespace Sgrid

open Real

/-- The index pairs `j ≤ k` of `ddX_dxdx[i][j][k]` (Coordinates.c:1027-1036 loops over these). -/
inductive Pair where
  | xx | xy | xz | yy | yz | zz
  deriving DecidableEq, Repr

/-! ### Polar -/

/-- x_ofPolar, y_ofPolar, z_ofPolar (Coordinates.c:1176-1187, installed at 83-85). -/
noncomputable def polarX (rho phi Z : ℝ) : Fin 3 → ℝ
  | 0 => rho * cos phi
  | 1 => rho * sin phi
  | 2 => Z

/-- drho_dx (Coordinates.c:1190-1193). -/
noncomputable def drhoDx (_rho phi _Z : ℝ) : ℝ := cos phi

/-- drho_dy (Coordinates.c:1194-1197). -/
noncomputable def drhoDy (_rho phi _Z : ℝ) : ℝ := sin phi

/-- dphi_dx (Coordinates.c:1199-1203). -/
noncomputable def dphiDx (rho phi _Z : ℝ) : ℝ := if rho > 0 then -sin phi / rho else 0

/-- dphi_dy (Coordinates.c:1204-1208). -/
noncomputable def dphiDy (rho phi _Z : ℝ) : ℝ := if rho > 0 then cos phi / rho else 0

/-- `dX_dx` for Polar (Coordinates.c:87-95). -/
noncomputable def polarDX (rho phi Z : ℝ) : Fin 3 → Fin 3 → ℝ
  | 0, 0 => drhoDx rho phi Z
  | 0, 1 => drhoDy rho phi Z
  | 0, 2 => 0
  | 1, 0 => dphiDx rho phi Z
  | 1, 1 => dphiDy rho phi Z
  | 1, 2 => 0
  | 2, 0 => 0
  | 2, 1 => 0
  | 2, 2 => 1

/-! ### PolarCE -/

/-- The angle computed in all functions of PolarCE (Coordinates.c:1287-1288 and 1295-1296, 1307-1310,
1318-1321); `N = n2 - 1` is an `int`. -/
noncomputable def polarCEPhi (n2 : Nat) (Y : ℝ) : ℝ :=
  let N : ℝ := (n2 : ℝ) - 1
  2 * N / (N - 1) * arccos (1 - Y / π)

/-- x_ofPolarCE, y_ofPolarCE, z_equals_Z (Coordinates.c:1284-1299, 1166-1169). -/
noncomputable def polarCEX (n2 : Nat) (rho Y Z : ℝ) : Fin 3 → ℝ
  | 0 => rho * cos (polarCEPhi n2 Y)
  | 1 => rho * sin (polarCEPhi n2 Y)
  | 2 => Z

/-- The local variable `dY_dphi` (Coordinates.c:1311 and 1322). -/
noncomputable def polarCEdYdphi (n2 : Nat) (Y : ℝ) : ℝ :=
  let N : ℝ := (n2 : ℝ) - 1
  π * ((N - 1) / (2 * N)) * sin ((N - 1) / (2 * N) * polarCEPhi n2 Y)

/-- `dX_dx` for PolarCE (Coordinates.c:129-137, 1304-1325).  The radius row installs the functions
drho_dx and drho_dy of Polar. -/
noncomputable def polarCEDX (n2 : Nat) (rho Y Z : ℝ) : Fin 3 → Fin 3 → ℝ
  | 0, 0 => drhoDx rho Y Z
  | 0, 1 => drhoDy rho Y Z
  | 0, 2 => 0
  | 1, 0 => polarCEdYdphi n2 Y * dphiDx rho (polarCEPhi n2 Y) Z
  | 1, 1 => polarCEdYdphi n2 Y * dphiDy rho (polarCEPhi n2 Y) Z
  | 1, 2 => 0
  | 2, 0 => 0
  | 2, 1 => 0
  | 2, 2 => 1

/-! ### Spherical -/

/-- x_ofSpherical, y_ofSpherical, z_ofSpherical (Coordinates.c:1762-1773). -/
noncomputable def sphericalX (r θ phi : ℝ) : Fin 3 → ℝ
  | 0 => r * cos phi * sin θ
  | 1 => r * sin phi * sin θ
  | 2 => r * cos θ

/-- `dX_dx` for Spherical (Coordinates.c:1776-1810, installed at 225-233). -/
noncomputable def sphericalDX (r θ phi : ℝ) : Fin 3 → Fin 3 → ℝ
  | 0, 0 => cos phi * sin θ
  | 0, 1 => sin phi * sin θ
  | 0, 2 => cos θ
  | 1, 0 => if r > 0 then cos θ * cos phi / r else 0
  | 1, 1 => if r > 0 then cos θ * sin phi / r else 0
  | 1, 2 => if r > 0 then -sin θ / r else 0
  | 2, 0 => -sin phi / (r * sin θ)
  | 2, 1 => cos phi / (r * sin θ)
  | 2, 2 => 0

/-- `ddX_dxdx` for Spherical (Coordinates.c:1813-1901). -/
noncomputable def sphericalDDX (r θ phi : ℝ) : Fin 3 → Pair → ℝ
  | 0, .xx => (cos θ ^ 2 + sin phi ^ 2 * sin θ ^ 2) / r
  | 0, .xy => (-cos phi) * sin phi * sin θ ^ 2 / r
  | 0, .xz => (-cos phi) * cos θ * sin θ / r
  | 0, .yy => (cos θ ^ 2 + cos phi ^ 2 * sin θ ^ 2) / r
  | 0, .yz => (-cos θ) * sin phi * sin θ / r
  | 0, .zz => sin θ ^ 2 / r
  | 1, .xx => (-(cos (2 * phi) - cos phi ^ 2 * cos (2 * θ))) * (1 / tan θ) / r ^ 2
  | 1, .xy => 1 / 2 * (-2 + cos (2 * θ)) * (1 / tan θ) * sin (2 * phi) / r ^ 2
  | 1, .xz => (-cos phi) * cos (2 * θ) / r ^ 2
  | 1, .yy => 1 / tan θ * (cos (2 * phi) + cos (2 * θ) * sin phi ^ 2) / r ^ 2
  | 1, .yz => (-cos (2 * θ)) * sin phi / r ^ 2
  | 1, .zz => sin (2 * θ) / r ^ 2
  | 2, .xx => (1 / sin θ) ^ 2 * sin (2 * phi) / r ^ 2
  | 2, .xy => (-cos (2 * phi)) * (1 / sin θ) ^ 2 / r ^ 2
  | 2, .xz => 0
  | 2, .yy => (-(1 / sin θ) ^ 2) * sin (2 * phi) / r ^ 2
  | 2, .yz => 0
  | 2, .zz => 0

/-! ### SphericalDF -/

/-- The local variable `theta` in all functions of SphericalDF (Coordinates.c:1341 and so on). -/
noncomputable def thetaDF (n2 : Nat) (thm : ℝ) : ℝ := thm + π / (((1 + n2 % 2) * n2 : Nat) : ℝ)

/-- x_ofSphericalDF, y_ofSphericalDF, z_ofSphericalDF (Coordinates.c:1337-1360). -/
noncomputable def sphericalDFX (n2 : Nat) (r thm phi : ℝ) : Fin 3 → ℝ
  | 0 => r * cos phi * sin (thetaDF n2 thm)
  | 1 => r * sin phi * sin (thetaDF n2 thm)
  | 2 => r * cos (thetaDF n2 thm)

/-- `dX_dx` for SphericalDF (Coordinates.c:1363-1431, installed at 149-157). -/
noncomputable def sphericalDFDX (n2 : Nat) (r thm phi : ℝ) : Fin 3 → Fin 3 → ℝ
  | 0, 0 => cos phi * sin (thetaDF n2 thm)
  | 0, 1 => sin phi * sin (thetaDF n2 thm)
  | 0, 2 => cos (thetaDF n2 thm)
  | 1, 0 => if r > 0 then cos (thetaDF n2 thm) * cos phi / r else 0
  | 1, 1 => if r > 0 then cos (thetaDF n2 thm) * sin phi / r else 0
  | 1, 2 => if r > 0 then -sin (thetaDF n2 thm) / r else 0
  | 2, 0 => -sin phi / (r * sin (thetaDF n2 thm))
  | 2, 1 => cos phi / (r * sin (thetaDF n2 thm))
  | 2, 2 => 0

/-- `ddX_dxdx` for SphericalDF (Coordinates.c:1434-1537). -/
noncomputable def sphericalDFDDX (n2 : Nat) (r thm phi : ℝ) : Fin 3 → Pair → ℝ :=
  let θ := thetaDF n2 thm
  fun
  | 0, .xx => (cos θ ^ 2 + sin phi ^ 2 * sin θ ^ 2) / r
  | 0, .xy => (-cos phi) * sin phi * sin θ ^ 2 / r
  | 0, .xz => (-cos phi) * cos θ * sin θ / r
  | 0, .yy => (cos θ ^ 2 + cos phi ^ 2 * sin θ ^ 2) / r
  | 0, .yz => (-cos θ) * sin phi * sin θ / r
  | 0, .zz => sin θ ^ 2 / r
  | 1, .xx => (-(cos (2 * phi) - cos phi ^ 2 * cos (2 * θ))) * (1 / tan θ) / r ^ 2
  | 1, .xy => 1 / 2 * (-2 + cos (2 * θ)) * (1 / tan θ) * sin (2 * phi) / r ^ 2
  | 1, .xz => (-cos phi) * cos (2 * θ) / r ^ 2
  | 1, .yy => 1 / tan θ * (cos (2 * phi) + cos (2 * θ) * sin phi ^ 2) / r ^ 2
  | 1, .yz => (-cos (2 * θ)) * sin phi / r ^ 2
  | 1, .zz => sin (2 * θ) / r ^ 2
  | 2, .xx => (1 / sin θ) ^ 2 * sin (2 * phi) / r ^ 2
  | 2, .xy => (-cos (2 * phi)) * (1 / sin θ) ^ 2 / r ^ 2
  | 2, .xz => 0
  | 2, .yy => (-(1 / sin θ) ^ 2) * sin (2 * phi) / r ^ 2
  | 2, .yz => 0
  | 2, .zz => 0

/-! ### compactSphericalDF -/

/-- r_of_xi (Coordinates.c:1546-1557), `r0` is the parameter compactSphericalDF_r0. -/
noncomputable def rOfXi (r0 xi : ℝ) : ℝ := tan (xi * π / 2) + r0

/-- dxi_dr (Coordinates.c:1558-1574). -/
noncomputable def dxiDr (r0 xi : ℝ) : ℝ :=
  if xi = 1 then 0 else
  let r := tan (xi * π / 2) + r0
  2 / π / (1 + (r - r0) * (r - r0))

/-- x_ofcompactSphericalDF, y_ofcompactSphericalDF, z_ofcompactSphericalDF (Coordinates.c:1578-1589). -/
noncomputable def compactX (n2 : Nat) (r0 xi thm phi : ℝ) : Fin 3 → ℝ :=
  sphericalDFX n2 (rOfXi r0 xi) thm phi

/-- `dX_dx` for compactSphericalDF (Coordinates.c:1593-1634, installed at 187-195). -/
noncomputable def compactDX (n2 : Nat) (r0 xi thm phi : ℝ) : Fin 3 → Fin 3 → ℝ
  | 0, i => if xi = 1 then 0 else dxiDr r0 xi * sphericalDFDX n2 (rOfXi r0 xi) thm phi 0 i
  | 1, i => if xi = 1 then 0 else sphericalDFDX n2 (rOfXi r0 xi) thm phi 1 i
  | 2, 0 => if xi = 1 then 0 else sphericalDFDX n2 (rOfXi r0 xi) thm phi 2 0
  | 2, 1 => if xi = 1 then 0 else sphericalDFDX n2 (rOfXi r0 xi) thm phi 2 1
  | 2, 2 => 0

/-- `ddX_dxdx` for compactSphericalDF (Coordinates.c:1637-1755). -/
noncomputable def compactDDX (n2 : Nat) (r0 xi thm phi : ℝ) : Fin 3 → Pair → ℝ :=
  let θ := thetaDF n2 thm
  fun
  | 0, .xx => 2 * cos (1 / 2 * π * xi) ^ 4 * (cos θ ^ 4 * (r0 + tan (1 / 2 * π * xi)) ^ 2 +
      cos θ ^ 2 * (1 + r0 ^ 2 - 2 * r0 * (r0 + tan (1 / 2 * π * xi)) - cos phi ^ 2 * sin θ ^
      2 * (r0 + tan (1 / 2 * π * xi)) ^ 2 + 2 * sin phi ^ 2 * sin θ ^ 2 * (r0 + tan (1 / 2 *
      π * xi)) ^ 2) + sin θ ^ 2 * (2 * r0 * cos phi ^ 2 * (r0 + tan (1 / 2 * π * xi)) - 2 *
      cos phi ^ 4 * sin θ ^ 2 * (r0 + tan (1 / 2 * π * xi)) ^ 2 + sin phi ^ 4 * sin θ ^ 2 *
      (r0 + tan (1 / 2 * π * xi)) ^ 2 - sin phi ^ 2 * (-1 + r0 ^ 2 + 2 * r0 * tan (1 / 2 * π
      * xi) + cos phi ^ 2 * sin θ ^ 2 * (r0 + tan (1 / 2 * π * xi)) ^ 2))) / (π * (r0 + tan
      (1 / 2 * π * xi)))
  | 0, .xy => cos (1 / 2 * π * xi) ^ 2 * sin (2 * phi) * sin θ ^ 2 * (-2 + cos (π * xi) - r0 *
      sin (π * xi)) / (π * (r0 + tan (1 / 2 * π * xi)))
  | 0, .xz => cos phi * cos (1 / 2 * π * xi) ^ 2 * sin (2 * θ) * (-2 + cos (π * xi) - r0 * sin
      (π * xi)) / (π * (r0 + tan (1 / 2 * π * xi)))
  | 0, .yy => 2 * cos (1 / 2 * π * xi) ^ 4 * (cos θ ^ 4 * (r0 + tan (1 / 2 * π * xi)) ^ 2 +
      cos θ ^ 2 * (1 + r0 ^ 2 - 2 * r0 * (r0 + tan (1 / 2 * π * xi)) + 2 * cos phi ^ 2 * sin
      θ ^ 2 * (r0 + tan (1 / 2 * π * xi)) ^ 2 - sin phi ^ 2 * sin θ ^ 2 * (r0 + tan (1 / 2 *
      π * xi)) ^ 2) + sin θ ^ 2 * (2 * r0 * sin phi ^ 2 * (r0 + tan (1 / 2 * π * xi)) + cos
      phi ^ 4 * sin θ ^ 2 * (r0 + tan (1 / 2 * π * xi)) ^ 2 - 2 * sin phi ^ 4 * sin θ ^ 2 *
      (r0 + tan (1 / 2 * π * xi)) ^ 2 - cos phi ^ 2 * (-1 + r0 ^ 2 + 2 * r0 * tan (1 / 2 * π
      * xi) + sin phi ^ 2 * sin θ ^ 2 * (r0 + tan (1 / 2 * π * xi)) ^ 2))) / (π * (r0 + tan
      (1 / 2 * π * xi)))
  | 0, .yz => cos (1 / 2 * π * xi) ^ 2 * sin phi * sin (2 * θ) * (-2 + cos (π * xi) - r0 * sin
      (π * xi)) / (π * (r0 + tan (1 / 2 * π * xi)))
  | 0, .zz => (-2) * cos (1 / 2 * π * xi) ^ 2 * (cos (2 * θ) + cos θ ^ 2 * (-cos (π * xi) + r0
      * sin (π * xi))) / (π * (r0 + tan (1 / 2 * π * xi)))
  | 1, .xx => -((cos (2 * phi) - cos phi ^ 2 * cos (2 * θ)) * cos (1 / 2 * π * xi) ^ 2 * (1 /
      tan θ) / (r0 * cos (1 / 2 * π * xi) + sin (1 / 2 * π * xi)) ^ 2)
  | 1, .xy => 1 / 2 * (-2 + cos (2 * θ)) * cos (1 / 2 * π * xi) ^ 2 * (1 / tan θ) * sin (2 *
      phi) / (r0 * cos (1 / 2 * π * xi) + sin (1 / 2 * π * xi)) ^ 2
  | 1, .xz => -(cos phi * cos (2 * θ) * cos (1 / 2 * π * xi) ^ 2 / (r0 * cos (1 / 2 * π * xi)
      + sin (1 / 2 * π * xi)) ^ 2)
  | 1, .yy => cos (1 / 2 * π * xi) ^ 2 * (1 / tan θ) * (cos (2 * phi) + cos (2 * θ) * sin phi
      ^ 2) / (r0 * cos (1 / 2 * π * xi) + sin (1 / 2 * π * xi)) ^ 2
  | 1, .yz => -(cos (2 * θ) * cos (1 / 2 * π * xi) ^ 2 * sin phi / (r0 * cos (1 / 2 * π * xi)
      + sin (1 / 2 * π * xi)) ^ 2)
  | 1, .zz => cos (1 / 2 * π * xi) ^ 2 * sin (2 * θ) / (r0 * cos (1 / 2 * π * xi) + sin (1 / 2
      * π * xi)) ^ 2
  | 2, .xx => (1 / sin θ) ^ 2 * sin (2 * phi) / (r0 + tan (1 / 2 * π * xi)) ^ 2
  | 2, .xy => -(cos (2 * phi) * (1 / sin θ) ^ 2 / (r0 + tan (1 / 2 * π * xi)) ^ 2)
  | 2, .xz => 0
  | 2, .yy => (-2) * cos phi * (1 / sin θ) ^ 2 * sin phi / (r0 + tan (1 / 2 * π * xi)) ^ 2
  | 2, .yz => 0
  | 2, .zz => 0

/-! ### Spherical2 -/

/-- x_ofSpherical2, y_ofSpherical2, z_ofSpherical2 (Coordinates.c:1908-1919). -/
noncomputable def spherical2X (r U phi : ℝ) : Fin 3 → ℝ
  | 0 => r * √(1 - U * U) * cos phi
  | 1 => r * √(1 - U * U) * sin phi
  | 2 => r * U

/-- `dX_dx` for Spherical2 (Coordinates.c:1921-1952, installed at 264-272). -/
noncomputable def spherical2DX (r U phi : ℝ) : Fin 3 → Fin 3 → ℝ
  | 0, 0 => √(1 - U * U) * cos phi
  | 0, 1 => √(1 - U * U) * sin phi
  | 0, 2 => U
  | 1, 0 => -(U * √(1 - U * U) * cos phi / r)
  | 1, 1 => -(U * √(1 - U * U) * sin phi / r)
  | 1, 2 => (1 - U * U) / r
  | 2, 0 => -(sin phi / (r * √(1 - U * U)))
  | 2, 1 => cos phi / (r * √(1 - U * U))
  | 2, 2 => 0

/-- `ddX_dxdx` for Spherical2 (Coordinates.c:1954-2025). -/
noncomputable def spherical2DDX (r U phi : ℝ) : Fin 3 → Pair → ℝ
  | 0, .xx => (U * U - (-1 + U * U) * (sin phi * sin phi)) / r
  | 0, .xy => (-1 + U * U) * cos phi * sin phi / r
  | 0, .xz => -(U * √(1 - U * U) * cos phi / r)
  | 0, .yy => (U * U - (-1 + U * U) * (cos phi * cos phi)) / r
  | 0, .yz => -(U * √(1 - U * U) * sin phi / r)
  | 0, .zz => (1 - U * U) / r
  | 1, .xx => (-(1 / 2)) * U * (-1 + 3 * (U * U) + 3 * (-1 + U * U) * cos (2 * phi)) / (r * r)
  | 1, .xy => (-3) * U * (-1 + U * U) * cos phi * sin phi / (r * r)
  | 1, .xz => √(1 - U * U) * (-1 + 3 * (U * U)) * cos phi / (r * r)
  | 1, .yy => 1 / 2 * U * (1 - 3 * (U * U) + 3 * (-1 + U * U) * cos (2 * phi)) / (r * r)
  | 1, .yz => √(1 - U * U) * (-1 + 3 * (U * U)) * sin phi / (r * r)
  | 1, .zz => 3 * U * (-1 + U * U) / (r * r)
  | 2, .xx => -(sin (2 * phi) / (r * r * (-1 + U * U)))
  | 2, .xy => cos (2 * phi) / (r * r * (-1 + U * U))
  | 2, .xz => 0
  | 2, .yy => sin (2 * phi) / (r * r * (-1 + U * U))
  | 2, .yz => 0
  | 2, .zz => 0

/-! ### Spherical3 -/

/-- x_ofSpherical3, y_ofSpherical3, z_ofSpherical3 (Coordinates.c:2032-2046), `c` is the parameter
Coordinates_Spherical3_c. -/
noncomputable def spherical3X (c r U phi : ℝ) : Fin 3 → ℝ
  | 0 => r * cos phi * cos (π * (1 / sinh c) * sinh (c * U) / 2)
  | 1 => r * cos (π * (1 / sinh c) * sinh (c * U) / 2) * sin phi
  | 2 => r * sin (π * (1 / sinh c) * sinh (c * U) / 2)

/-- `dX_dx` for Spherical3 (Coordinates.c:2048-2087, installed at 302-310). -/
noncomputable def spherical3DX (c r U phi : ℝ) : Fin 3 → Fin 3 → ℝ
  | 0, 0 => cos phi * cos (π / 2 * (1 / sinh c) * sinh (c * U))
  | 0, 1 => cos (π / 2 * (1 / sinh c) * sinh (c * U)) * sin phi
  | 0, 2 => sin (π / 2 * (1 / sinh c) * sinh (c * U))
  | 1, 0 => (-(2 / π)) * cos phi * sin (π / 2 * (1 / sinh c) * sinh (c * U)) * sinh c / (c * r
      * √(cosh (c * U) ^ 2))
  | 1, 1 => (-(2 / π)) * sin phi * sin (π / 2 * (1 / sinh c) * sinh (c * U)) * sinh c / (c * r
      * √(cosh (c * U) ^ 2))
  | 1, 2 => √2 / π * √(1 + cos (π / 2 * (1 / sinh c) * sinh (c * U)) ^ 2 - sin (π / 2 * (1 /
      sinh c) * sinh (c * U)) ^ 2) * sinh c / (c * r * √(cosh (c * U) ^ 2))
  | 2, 0 => -(1 / cos (π / 2 * (1 / sinh c) * sinh (c * U)) * sin phi / r)
  | 2, 1 => cos phi * (1 / cos (π / 2 * (1 / sinh c) * sinh (c * U))) / r
  | 2, 2 => 0

/-- `ddX_dxdx` for Spherical3 (Coordinates.c:2089-2175). -/
noncomputable def spherical3DDX (c r U phi : ℝ) : Fin 3 → Pair → ℝ
  | 0, .xx => (cos (π / 2 * (1 / sinh c) * sinh (c * U)) ^ 2 * sin phi ^ 2 + sin (π / 2 * (1 /
      sinh c) * sinh (c * U)) ^ 2) / r
  | 0, .xy => -(cos phi * cos (π / 2 * (1 / sinh c) * sinh (c * U)) ^ 2 * sin phi / r)
  | 0, .xz => -(cos phi * cos (π / 2 * (1 / sinh c) * sinh (c * U)) * sin (π / 2 * (1 / sinh
      c) * sinh (c * U)) / r)
  | 0, .yy => (cos phi ^ 2 * cos (π / 2 * (1 / sinh c) * sinh (c * U)) ^ 2 + sin (π / 2 * (1 /
      sinh c) * sinh (c * U)) ^ 2) / r
  | 0, .yz => -(cos (π / 2 * (1 / sinh c) * sinh (c * U)) * sin phi * sin (π / 2 * (1 / sinh
      c) * sinh (c * U)) / r)
  | 0, .zz => cos (π / 2 * (1 / sinh c) * sinh (c * U)) ^ 2 / r
  | 1, .xx => (-(2 / π ^ 2)) * sinh c * (π * cosh (c * U) ^ 2 * ((-2) * cos phi ^ 4 * cos (π /
      2 * (1 / sinh c) * sinh (c * U)) ^ 2 - cos phi ^ 2 * cos (π / 2 * (1 / sinh c) * sinh
      (c * U)) ^ 2 * sin phi ^ 2 + cos (π / 2 * (1 / sinh c) * sinh (c * U)) ^ 2 * sin phi ^
      4 + sin phi ^ 2 * sin (π / 2 * (1 / sinh c) * sinh (c * U)) ^ 2) + 2 * cos phi ^ 2 *
      cos (π / 2 * (1 / sinh c) * sinh (c * U)) * sin (π / 2 * (1 / sinh c) * sinh (c * U))
      * sinh c * sinh (c * U)) * tan (π / 2 * (1 / sinh c) * sinh (c * U)) / (c * r ^ 2 *
      (cosh (c * U) ^ 2) ^ (3 / 2 : ℝ))
  | 1, .xy => 2 / π ^ 2 * cos phi * sin phi * sinh c * (π * cosh (c * U) ^ 2 * (2 + cos (π / 2
      * (1 / sinh c) * sinh (c * U)) ^ 2 - sin (π / 2 * (1 / sinh c) * sinh (c * U)) ^ 2) -
      2 * cos (π / 2 * (1 / sinh c) * sinh (c * U)) * sin (π / 2 * (1 / sinh c) * sinh (c *
      U)) * sinh c * sinh (c * U)) * tan (π / 2 * (1 / sinh c) * sinh (c * U)) / (c * r ^ 2
      * (cosh (c * U) ^ 2) ^ (3 / 2 : ℝ))
  | 1, .xz => 2 / π ^ 2 * cos phi * sinh c * (π * (-cos (π / 2 * (1 / sinh c) * sinh (c * U))
      ^ 2 + sin (π / 2 * (1 / sinh c) * sinh (c * U)) ^ 2) + 2 * cos (π / 2 * (1 / sinh c) *
      sinh (c * U)) * (1 / cosh (c * U)) * sin (π / 2 * (1 / sinh c) * sinh (c * U)) * sinh
      c * tanh (c * U)) / (c * r ^ 2 * √(cosh (c * U) ^ 2))
  | 1, .yy => (-(2 / π ^ 2)) * sinh c * (π * cosh (c * U) ^ 2 * (cos phi ^ 4 * cos (π / 2 * (1
      / sinh c) * sinh (c * U)) ^ 2 - 2 * cos (π / 2 * (1 / sinh c) * sinh (c * U)) ^ 2 *
      sin phi ^ 4 + cos phi ^ 2 * (-(cos (π / 2 * (1 / sinh c) * sinh (c * U)) ^ 2 * sin phi
      ^ 2) + sin (π / 2 * (1 / sinh c) * sinh (c * U)) ^ 2)) + 2 * cos (π / 2 * (1 / sinh c)
      * sinh (c * U)) * sin phi ^ 2 * sin (π / 2 * (1 / sinh c) * sinh (c * U)) * sinh c *
      sinh (c * U)) * tan (π / 2 * (1 / sinh c) * sinh (c * U)) / (c * r ^ 2 * (cosh (c * U)
      ^ 2) ^ (3 / 2 : ℝ))
  | 1, .yz => 2 / π ^ 2 * sin phi * sinh c * (π * (-cos (π / 2 * (1 / sinh c) * sinh (c * U))
      ^ 2 + sin (π / 2 * (1 / sinh c) * sinh (c * U)) ^ 2) + 2 * cos (π / 2 * (1 / sinh c) *
      sinh (c * U)) * (1 / cosh (c * U)) * sin (π / 2 * (1 / sinh c) * sinh (c * U)) * sinh
      c * tanh (c * U)) / (c * r ^ 2 * √(cosh (c * U) ^ 2))
  | 1, .zz => (-(4 / π ^ 2)) * cos (π / 2 * (1 / sinh c) * sinh (c * U)) * sinh c * (π * sin
      (π / 2 * (1 / sinh c) * sinh (c * U)) + cos (π / 2 * (1 / sinh c) * sinh (c * U)) * (1
      / cosh (c * U)) * sinh c * tanh (c * U)) / (c * r ^ 2 * √(cosh (c * U) ^ 2))
  | 2, .xx => 2 * cos phi * (1 / cos (π / 2 * (1 / sinh c) * sinh (c * U))) ^ 2 * sin phi / r
      ^ 2
  | 2, .xy => cos phi ^ 2 * (1 / cos (π / 2 * (1 / sinh c) * sinh (c * U))) ^ 2 * (-1 + tan
      phi ^ 2) / r ^ 2
  | 2, .xz => 0
  | 2, .yy => (-2) * cos phi * (1 / cos (π / 2 * (1 / sinh c) * sinh (c * U))) ^ 2 * sin phi /
      r ^ 2
  | 2, .yz => 0
  | 2, .zz => 0

/-! ### tan_stretch -/

/-- x_of_xs (Coordinates.c:2185-2197), `s` is the parameter tan_stretch_s. -/
noncomputable def xOfXs (s xs : ℝ) : ℝ :=
  if s = 0 then xs else tan (xs * s * π / 2) * 2 / (π * s)

/-- dxs_dx (Coordinates.c:2198-2215). -/
noncomputable def dxsDx (s xs : ℝ) : ℝ :=
  let arg := xs * s
  if |arg| ≥ 1 then 0 else
  let u := tan (arg * π / 2)
  1 / (1 + u * u)

/-- ddxs_dxdx (Coordinates.c:2216-2234). -/
noncomputable def ddxsDxdx (s xs : ℝ) : ℝ :=
  let arg := xs * s
  if |arg| ≥ 1 then 0 else
  let u := tan (arg * π / 2)
  let dum := 1 / (1 + u * u);
  -π * s * u * dum * dum

/-- x_of_tan_stretch and so on (Coordinates.c:2237-2248). -/
noncomputable def tanStretchX (s xs ys zs : ℝ) : Fin 3 → ℝ
  | 0 => xOfXs s xs
  | 1 => xOfXs s ys
  | 2 => xOfXs s zs

/-- `dX_dx` for tan_stretch (Coordinates.c:2252-2263, installed at 340-348). -/
noncomputable def tanStretchDX (s xs ys zs : ℝ) : Fin 3 → Fin 3 → ℝ
  | 0, 0 => dxsDx s xs
  | 1, 1 => dxsDx s ys
  | 2, 2 => dxsDx s zs
  | _, _ => 0

/-- `ddX_dxdx` for tan_stretch (Coordinates.c:2268-2279, installed at 350-369). -/
noncomputable def tanStretchDDX (s xs ys zs : ℝ) : Fin 3 → Pair → ℝ
  | 0, .xx => ddxsDxdx s xs
  | 1, .yy => ddxsDxdx s ys
  | 2, .zz => ddxsDxdx s zs
  | _, _ => 0

end Sgrid
