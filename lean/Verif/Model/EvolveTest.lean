import Verif.Model.RungeKutta
import Mathlib.Analysis.SpecialFunctions.Exp

/-!
src/utility/evolve/evolve_test.c: the test of the time integrators with du/dt = -u.
-/

namespace Sgrid

section
variable {K : Type} [Field K] [DecidableEq K]

/-- evolve_test_evolve (evolve_test.c:15-44): unew = -ucur or unew = upre - c ucur.  The list has one variable.  As in
the other functions on lists (Model/VarArith) boxes that are not active are left alone; the code also sets
them.  The times of the lists stay as they are. -/
def evolveTestFuns : EvoFuns K where
  rhs st unew upre c ucur :=
    let t := (st.vl unew).time
    (if c = 0 then vladd st unew (-1) (some ucur) 0 (some ucur)
      else vladd st unew 1 (some upre) (-c) (some ucur)).map (·.setTime unew t)
  alg := none

end

/-- evolve_test_analyze (evolve_test.c:85-103) at one point, where evolution_method_order is a natural number. -/
noncomputable def evolveTestError (u time dt : ℝ) (order : Nat) : ℝ := |u / Real.exp (-time) - 1| / dt ^ order

end Sgrid
