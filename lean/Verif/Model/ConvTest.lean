import Mathlib.Analysis.SpecialFunctions.ExpDeriv
import Mathlib.Analysis.SpecialFunctions.Sqrt
import Verif.Model.PureLoop

/-!
src/physics/ConvTest/ConvTest.c: the advection of a function towards the origin, with a known solution.

Doubles are real numbers.  The derivatives from `cart_partials` are parameters.
-/

namespace Sgrid

/-- f in ConvTest_startup and ConvTest_analyze (ConvTest.c:101-102, 142-143); `X` is the first coordinate of the box. -/
noncomputable def convF (time x y z X : ℝ) : ℝ :=
  let rs := Real.sqrt (x * x + y * y + z * z) + time
  Real.exp (-10 * (rs * rs - 2 * 1.2 * rs * x / X + 1.2 * 1.2))

/-- The right hand side at a point (ConvTest.c:35-36). -/
noncomputable def convRhs (x y z u1 u2 u3 : ℝ) : ℝ :=
  let r := Real.sqrt (x * x + y * y + z * z)
  (u1 * x + u2 * y + u3 * z) / r

/-- ConvTest_evo in one box (ConvTest.c:33-53): unew. -/
noncomputable def convEvo (n1 n2 n3 : Nat) (dt : ℝ) (x y z u1 u2 u3 upre unew : Nat → ℝ) : Nat → ℝ :=
  let unew := upLoop 0 (n1 * n2 * n3) (fun i unew =>
    let urhs := convRhs (x i) (y i) (z i) (u1 i) (u2 i) (u3 i)
    if dt ≠ 0 then aset unew i (upre i + dt * urhs) else aset unew i urhs) unew
  upLoop 0 n3 (fun k unew => upLoop 0 n2 (fun j unew => aset unew (n1 - 1 + n1 * j + n1 * n2 * k) 0) unew) unew

/-- err in ConvTest_analyze at a point (ConvTest.c:137-146). -/
noncomputable def convErr (time x y z X u : ℝ) : ℝ := u - convF time x y z X

end Sgrid
