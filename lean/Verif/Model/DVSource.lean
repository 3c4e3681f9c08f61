import Mathlib.Analysis.SpecialFunctions.Log.Basic
import Mathlib.Analysis.SpecialFunctions.Trigonometric.Arctan
import Mathlib.Algebra.BigOperators.Fin
import Verif.Model.Thz

/-!
src/physics/ScalarOnKerr/DV_CircSchwSource: the singular field of the particle (Singular.c), the window
(Window_DONUT.c), the Schwarzschild metric (Schwarzschild.c:73-109) and the effective source (Source.c).

Doubles are real numbers, the number Pi of the code is π, and the results that the code leaves in global variables are
functions of the point.  That the functions return without work at the point of their last call is the subject
of another file.  `rho`, `Drho` and `DDrho` at the end of eval_singular are never read and are left out.
-/

namespace Sgrid
open Real

/-- `rho` (Singular.c:44). -/
noncomputable def singRho (P : ThzPar) (q : Fin 4 → ℝ) : ℝ :=
  √(thzx P q * thzx P q + thzy P q * thzy P q + thzz P q * thzz P q)

/-- `Psi` (Singular.c:47). -/
noncomputable def singPsi (Q : ℝ) (P : ThzPar) (q : Fin 4 → ℝ) : ℝ := Q / singRho P q

/-- `DPsi` (Singular.c:51-53). -/
noncomputable def singDPsi (Q : ℝ) (P : ThzPar) (q : Fin 4 → ℝ) (i : Fin 4) : ℝ :=
  -(Q / (singRho P q * singRho P q * singRho P q)) *
    (thzx P q * thzDx P q i + thzy P q * thzDy P q i + thzz P q * thzDz P q i)

/-- `DDPsi` (Singular.c:55-62). -/
noncomputable def singDDPsi (Q : ℝ) (P : ThzPar) (q : Fin 4 → ℝ) (i j : Fin 4) : ℝ :=
  (3 * Q / (singRho P q * singRho P q * singRho P q * singRho P q * singRho P q)) *
      (thzx P q * thzDx P q i + thzy P q * thzDy P q i + thzz P q * thzDz P q i) *
      (thzx P q * thzDx P q j + thzy P q * thzDy P q j + thzz P q * thzDz P q j) -
    (Q / (singRho P q * singRho P q * singRho P q)) *
      (thzx P q * thzDDx P q i j + thzDx P q i * thzDx P q j + thzy P q * thzDDy P q i j + thzDy P q i * thzDy P q j +
        thzz P q * thzDDz P q i j + thzDz P q i * thzDz P q j)

/-- `powr` (Window_DONUT.c:25-32): the loop runs n times, or not at all if n is negative. -/
noncomputable def powr (r : ℝ) (n : ℤ) : ℝ := (fun temp => temp * r)^[n.toNat] 1

/-- The parameters of the window: `ian_n` and `ian_width` (Constants.c:14-15), and the parameter
DV_CircSchwSource_useWindow (Window_DONUT.c:48). -/
structure WinPar where
  /-- the power -/
  n : ℤ
  /-- the width -/
  width : ℝ
  /-- is the window used? -/
  useWindow : Bool

/-- `W` (Window_DONUT.c:44, 56, 71). -/
noncomputable def winW (w : WinPar) (P : ThzPar) (q : Fin 4 → ℝ) : ℝ :=
  if w.useWindow then exp (-powr ((q 1 - P.R) / w.width) w.n) else 1

/-- `DW` (Window_DONUT.c:59-61, 74). -/
noncomputable def winDW (w : WinPar) (P : ThzPar) (q : Fin 4 → ℝ) (i : Fin 4) : ℝ :=
  if w.useWindow then -winW w P q * (w.n * powr ((q 1 - P.R) / w.width) (w.n - 1) * kd4 1 i / w.width) else 0

/-- `DDW` (Window_DONUT.c:62-67, 75). -/
noncomputable def winDDW (w : WinPar) (P : ThzPar) (q : Fin 4 → ℝ) (i j : Fin 4) : ℝ :=
  if w.useWindow then
    -winDW w P q j * (w.n * powr ((q 1 - P.R) / w.width) (w.n - 1) * kd4 1 i / w.width) -
      winW w P q * (w.n * (w.n - 1) * powr ((q 1 - P.R) / w.width) (w.n - 2) * kd4 1 i * kd4 1 j / (w.width * w.width))
  else 0

/-- `detg` (Schwarzschild.c:77). -/
noncomputable def schwDet (q : Fin 4 → ℝ) : ℝ := q 1 * q 1 * sin (q 2)

/-- `Ddetg` (Schwarzschild.c:79-82). -/
noncomputable def schwDDet (q : Fin 4 → ℝ) : Fin 4 → ℝ
  | 0 => 0
  | 1 => 2 * q 1 * sin (q 2)
  | 2 => q 1 * q 1 * cos (q 2)
  | 3 => 0

/-- `div_g_inv` (Schwarzschild.c:84-87). -/
noncomputable def schwDiv (M : ℝ) (q : Fin 4 → ℝ) : Fin 4 → ℝ
  | 0 => 0
  | 1 => 2 * M / (q 1 * q 1)
  | 2 => 0
  | 3 => 0

/-- The diagonal of `g` (Schwarzschild.c:100-103). -/
noncomputable def schwG (M : ℝ) (q : Fin 4 → ℝ) : Fin 4 → ℝ
  | 0 => -(1 - 2 * M / q 1)
  | 1 => 1 / (1 - 2 * M / q 1)
  | 2 => q 1 * q 1
  | 3 => q 1 * q 1 * sin (q 2) * sin (q 2)

/-- `g_inv` (Schwarzschild.c:89-98, 105-108). -/
noncomputable def schwGInv (M : ℝ) (q : Fin 4 → ℝ) (i j : Fin 4) : ℝ := if i = j then 1 / schwG M q i else 0

/-- The sums of eval_source at a point (Source.c:113-157); the additions are put together as sums. -/
noncomputable def srcSum (Q : ℝ) (w : WinPar) (P : ThzPar) (q : Fin 4 → ℝ) : ℝ :=
  ((∑ i, ∑ j, schwDDet q i * schwGInv P.M q i j * singDPsi Q P q j) / schwDet q +
      (∑ i, schwDiv P.M q i * singDPsi Q P q i) + ∑ i, ∑ j, schwGInv P.M q i j * singDDPsi Q P q i j) * winW w P q +
    (∑ i, ∑ j, singPsi Q P q / schwDet q * schwDDet q i * schwGInv P.M q i j * winDW w P q j) +
    (∑ i, singPsi Q P q * schwDiv P.M q i * winDW w P q i) +
    (∑ i, ∑ j, 2 * schwGInv P.M q i j * singDPsi Q P q i * winDW w P q j) +
    ∑ i, ∑ j, singPsi Q P q * schwGInv P.M q i j * winDDW w P q i j

/-- The point at which eval_source takes the sums (Source.c:68-106): r is moved away from the particle, theta away
from the axis. -/
noncomputable def srcPoint (P : ThzPar) (q : Fin 4 → ℝ) : Fin 4 → ℝ :=
  let r := if singRho P q < 5 / 1000 * P.M then P.R + 6 / 1000 * P.M else q 1
  let th := if q 2 = 0 then q 2 + 1 / 10 ^ 12 else q 2
  let th := if |th - π| < 1 / 10 ^ 12 then th - 1 / 10 ^ 12 else th
  ![q 0, r, th, q 3]

/-- eval_source and SourceInSchwarzschild (Source.c:57-165). -/
noncomputable def evalSource (Q : ℝ) (w : WinPar) (P : ThzPar) (q : Fin 4 → ℝ) : ℝ := srcSum Q w P (srcPoint P q)

/-- `r` in SourceInKerrSchild (Source.c:172). -/
noncomputable def ksR (x y z : ℝ) : ℝ := √(x * x + y * y + z * z)

/-- `theta` in SourceInKerrSchild (Source.c:174-179). -/
noncomputable def ksTheta (x y z : ℝ) : ℝ :=
  if z ≠ 0 then
    if 0 < z then arctan (√(x * x + y * y) / z) else π - arctan (√(x * x + y * y) / |z|)
  else π / 2

/-- `phi` in SourceInKerrSchild (Source.c:181-193). -/
noncomputable def ksPhi (x y : ℝ) : ℝ :=
  if x = 0 then
    if 0 ≤ y then π / 2 else -π / 2
  else if 0 < x then
    if 0 ≤ y then arctan (y / x) else 2 * π - arctan (|y| / x)
  else
    if 0 ≤ y then π - arctan (y / |x|) else π + arctan |y / x|

/-- The Schwarzschild coordinates of a point in Kerr-Schild coordinates (Source.c:172-195). -/
noncomputable def ksPoint (M t x y z : ℝ) : Fin 4 → ℝ :=
  ![t - 2 * M * log (ksR x y z / (2 * M) - 1), ksR x y z, ksTheta x y z, ksPhi x y]

/-- SourceInKerrSchild (Source.c:167-203), without the asserts. -/
noncomputable def sourceKS (Q : ℝ) (w : WinPar) (P : ThzPar) (t x y z : ℝ) : ℝ := evalSource Q w P (ksPoint P.M t x y z)

/-- SingularInKerrSchild (Source.c:205-243), without the asserts. -/
noncomputable def singularKS (Q : ℝ) (P : ThzPar) (t x y z : ℝ) : ℝ := singPsi Q P (ksPoint P.M t x y z)

/-- `ts` in current_x and current_y (Source.c:252, 264). -/
noncomputable def currentTs (P : ThzPar) (t : ℝ) : ℝ := t - 2 * P.M * log (P.R / (2 * P.M) - 1)

/-- current_x (Source.c:245-255). -/
noncomputable def currentX (P : ThzPar) (t : ℝ) : ℝ := P.R * sin (π / 2) * cos (P.Omega * currentTs P t)

/-- current_y (Source.c:257-267). -/
noncomputable def currentY (P : ThzPar) (t : ℝ) : ℝ := P.R * sin (π / 2) * sin (P.Omega * currentTs P t)

/-- current_z (Source.c:269-272). -/
noncomputable def currentZ (_P : ThzPar) (_t : ℝ) : ℝ := 0

end Sgrid
