import Mathlib.RingTheory.Polynomial.Chebyshev
import Mathlib.Algebra.BigOperators.Intervals
import Mathlib.Analysis.SpecialFunctions.Trigonometric.Basic

/-! Chebyshev and Fourier series on an interval. -/

namespace Sgrid

/-- The series `c_0/2 + Σ_{k=1}^{n} c_k T_k(y)`, where `y` runs from 1 to -1 while `X` runs from `a`
to `b`. -/
noncomputable def Spec.chebSeries {K : Type} [Field K] (a b : K) (c : Nat → K) (n : Nat) (X : K) : K :=
  c 0 / 2 + ∑ k ∈ Finset.Ico 1 (n + 1),
    c k * (Polynomial.Chebyshev.T K (k : ℤ)).eval ((2 * X - a - b) / (a - b))

open Real in
/-- The trigonometric series with `N` coefficients and the period `b-a`, counted from `a`:
`(c_0 + 2 Σ_{1≤k<N/2} (c_{2k-1} cos(kφ) + c_{2k} sin(kφ)) + c_{N-1} cos(N/2 φ)) / N` with
`φ = 2π (X-a)/(b-a)`, where the last term is there for even `N` only. -/
noncomputable def Spec.fourSeries (a b : ℝ) (c : Nat → ℝ) (N : Nat) (X : ℝ) : ℝ :=
  (c 0 + 2 * ∑ k ∈ Finset.Ico 1 ((N + 1) / 2),
      (c (2 * k - 1) * cos (k * (2 * π * (X - a) / (b - a))) +
        c (2 * k) * sin (k * (2 * π * (X - a) / (b - a)))) +
    if N % 2 = 0 then c (N - 1) * cos ((N / 2 : Nat) * (2 * π * (X - a) / (b - a))) else 0) / N

end Sgrid
