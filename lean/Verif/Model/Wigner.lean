import Verif.Model.PureLoop
import Mathlib.Analysis.SpecialFunctions.Trigonometric.Basic
import Mathlib.Analysis.SpecialFunctions.Sqrt

/-!
# Spin weighted spherical harmonics

src/physics/ModeComputer/SpinWeightedSphericalHarmonics.c. Doubles are real numbers, `int` is the set of all integers.
`pow(x, e)` with an integer `e` is `x ^ e`; it differs from C only for `x = 0` and `e < 0`, which does not occur for
`|m|, |s| ≤ l`. `PI` is π.
-/

namespace Sgrid
open Real

/-- `fact` (SpinWeightedSphericalHarmonics.c:18-27); all calls have integer arguments. -/
noncomputable def factD (n : ℤ) : ℝ := if n ≤ 1 then 1 else n * factD (n - 1)
termination_by n.toNat

/-- `for(k=lo; k<=hi; k+=2)` with `int`s. -/
def byTwo {σ : Type} (lo hi : ℤ) (body : ℤ → σ → σ) (s : σ) : σ :=
  if lo ≤ hi then byTwo (lo + 2) hi body (body lo s) else s
termination_by (hi - lo + 1).toNat
decreasing_by omega

/-- The term that is added or subtracted (lines 45, 47, 51, 54 with `cosh`, `sinh` = the two factors; 73-74, 76-77, 82-83,
85-86). -/
noncomputable def wignerTerm (l m s : ℤ) (C S : ℝ) (k : ℤ) : ℝ :=
  C ^ (2 * l + m - s - 2 * k) * S ^ (2 * k + s - m) / (factD (l + m - k) * factD (l - s - k) * factD k * factD (k + s - m))

/-- The loops over even and odd indices (lines 42-55, 70-87). -/
noncomputable def wignerLoops (l m s : ℤ) (C S : ℝ) (k1 k2 : ℤ) : ℝ :=
  if k1 % 2 = 0 then
    let w := byTwo k1 k2 (fun k w => w + wignerTerm l m s C S k) 0
    byTwo (k1 + 1) k2 (fun k w => w - wignerTerm l m s C S k) w
  else
    let w := byTwo k1 k2 (fun k w => w - wignerTerm l m s C S k) 0
    byTwo (k1 + 1) k2 (fun k w => w + wignerTerm l m s C S k) w

/-- `Wigner_d_function_PG` (lines 30-58). -/
noncomputable def wignerPG (l m s : ℤ) (theta : ℝ) : ℝ :=
  let C1 := if s > m then 0 else m - s
  let C2 := if m < -s then l + m else l - s
  let costheta := cos theta
  let coshtheta := √(0.5 * (1 + costheta))
  let sinhtheta := √(0.5 * (1 - costheta))
  let c1 := if C1 < C2 then C1 else C2
  let c2 := if C1 < C2 then C2 else C1
  √(factD (l + m) * factD (l - m) * factD (l + s) * factD (l - s)) * wignerLoops l m s coshtheta sinhtheta c1 c2

/-- `Wigner_d_function_WT` (lines 61-89). -/
noncomputable def wignerWT (l m s : ℤ) (theta : ℝ) : ℝ :=
  let k1 := if s > m then 0 else m - s
  let k2 := if m < -s then l + m else l - s
  let costhetao2 := cos (theta * 0.5)
  let sinthetao2 := sin (theta * 0.5)
  √(factD (l + m) * factD (l - m) * factD (l + s) * factD (l - s)) * wignerLoops l m s costhetao2 sinthetao2 k1 k2

/-- The factor of `Re_sYlm` and `Im_sYlm` (lines 94-95, 102-103). -/
noncomputable def sYlmFactor (l s : ℤ) : ℝ :=
  let c := √((2 * l + 1) / (4 * π))
  if s % 2 ≠ 0 then -c else c

/-- `Re_sYlm` (lines 92-97). -/
noncomputable def reSYlm (l m s : ℤ) (theta phi : ℝ) : ℝ := sYlmFactor l s * wignerWT l m (-s) theta * cos (m * phi)

/-- `Im_sYlm` (lines 100-105). -/
noncomputable def imSYlm (l m s : ℤ) (theta phi : ℝ) : ℝ := sYlmFactor l s * wignerWT l m (-s) theta * sin (m * phi)

end Sgrid
