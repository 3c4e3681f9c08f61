import Mathlib.Analysis.SpecialFunctions.Trigonometric.Basic

/-!
# Coordinates of grid points

src/main/MemoryMan/grid.c. Doubles are real numbers and `PI` is π.
-/

namespace Sgrid
open Real

/-- Point `m` of `nb` points for the basis `ChebExtrema` (grid.c:157-165). -/
noncomputable def pointExtrema (a b : ℝ) (nb m : Nat) : ℝ :=
  if m = 0 then a
  else if m = nb - 1 then b
  else 1 / 2 * ((a - b) * cos (m * π / (nb - 1 : Nat)) + (a + b))

/-- Point `m` of `nb` points for the basis `ChebZeros` (grid.c:166-170). -/
noncomputable def pointZeros (a b : ℝ) (nb m : Nat) : ℝ :=
  1 / 2 * ((a - b) * cos ((m + 1 / 2) * π / nb) + (a + b))

/-- Point `m` of `nb` points for the bases `Fourier` and `fd2_periodic` (grid.c:171-174). -/
noncomputable def pointPeriodic (a b : ℝ) (nb m : Nat) : ℝ := (b - a) * m / nb + a

/-- Point `m` of `nb` points for the basis `fd2_onesided` (grid.c:175-178). -/
noncomputable def pointOneSided (a b : ℝ) (nb m : Nat) : ℝ := (b - a) * m / (nb - 1 : Nat) + a

end Sgrid
