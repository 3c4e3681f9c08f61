import Mathlib.Algebra.BigOperators.Intervals
import Mathlib.Algebra.Field.Basic

/-!
Linear routines on lines of `n` numbers. A routine gets its output array before the call, its
input and the last index `n-1`.
-/

namespace Sgrid.Spec

/-- On the first `n` entries the routine is linear; it reads nothing but the first `n` entries of the
input. -/
structure LineLinear {K : Type} [Field K] (f : (Nat → K) → (Nat → K) → Nat → (Nat → K)) (n : Nat) :
    Prop where
  /-- the result depends on the first `n` entries of the input only -/
  loc : ∀ out out' u v, (∀ j, j < n → u j = v j) → ∀ i, i < n → f out u (n - 1) i = f out' v (n - 1) i
  /-- sums -/
  add : ∀ out u v i, i < n →
    f out (fun j => u j + v j) (n - 1) i = f out u (n - 1) i + f out v (n - 1) i
  /-- multiples -/
  smul : ∀ out s u i, i < n → f out (fun j => s * u j) (n - 1) i = s * f out u (n - 1) i

/-- On the first `n` entries the routine multiplies by the matrix `A`. -/
def IsMatrix {K : Type} [Field K] (A : Nat → Nat → K)
    (f : (Nat → K) → (Nat → K) → Nat → (Nat → K)) (n : Nat) : Prop :=
  ∀ out u i, i < n → f out u (n - 1) i = ∑ j ∈ Finset.range n, A i j * u j

end Sgrid.Spec
