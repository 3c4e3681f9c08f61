import Mathlib.Analysis.SpecialFunctions.Trigonometric.Basic
import Verif.Model.PureLoop

/-!
# Fourier transforms

src/utility/Spectral/explicit_Four_trafos.c. Doubles are real numbers and `PI` is π. The arrays `c`,
`u`, … are different ones. Every function gets the arrays as they are before the call and returns
the one that is set. `n` is the number of points minus one.
-/

namespace Sgrid
open Real

/-- `for(k=0;k<N;k++) s += f(k)` (e.g. explicit_Four_trafos.c:162). -/
noncomputable def sumTo (N : Nat) (f : Nat → ℝ) : ℝ := upLoop 0 N (fun k s => s + f k) 0

/-- `four_deriv` (explicit_Four_trafos.c:22-41). -/
noncomputable def fourDeriv (a b : ℝ) (c cder : Nat → ℝ) (n : Nat) : Nat → ℝ :=
  let N := n + 1
  let PI2_con := 2 * π / (b - a)
  let cder := upLoop 1 ((N + 1) / 2) (fun j cder =>
    let cder := aset cder (2 * j - 1) (c (2 * j) * PI2_con * j)
    aset cder (2 * j) (-c (2 * j - 1) * PI2_con * j)) cder
  let cder := aset cder 0 0
  if N % 2 = 0 then aset cder (N - 1) 0 else cder

/-- `four_coeffs` (explicit_Four_trafos.c:152-177). -/
noncomputable def fourCoeffs (c u : Nat → ℝ) (n : Nat) : Nat → ℝ :=
  let N := n + 1
  let PI2oN := 2 * π / N
  let c := aset c 0 (sumTo N u)
  upLoop 1 (N / 2 + 1) (fun j c =>
    let Re := sumTo N (fun k => cos (j * PI2oN * k) * u k)
    let Im := sumTo N (fun k => sin (j * PI2oN * k) * u k)
    let c := aset c (2 * j - 1) Re
    if 2 * j < N then aset c (2 * j) Im else c) c

/-- `four_coeffs_alt` (explicit_Four_trafos.c:87-116). -/
noncomputable def fourCoeffsAlt (c u : Nat → ℝ) (n : Nat) : Nat → ℝ :=
  let N := n + 1
  let toN := 2 / (N : ℝ)
  let PI2oN := π * toN
  let c := aset c 0 (sumTo N u)
  let c := aset c 0 (c 0 / N)
  let c := upLoop 1 (N / 2 + 1) (fun j c =>
    let Re := sumTo N (fun k => cos (j * PI2oN * k) * u k)
    let Im := sumTo N (fun k => sin (j * PI2oN * k) * u k)
    let c := aset c (2 * j - 1) (Re * toN)
    if 2 * j < N then aset c (2 * j) (Im * toN) else c) c
  if N % 2 = 0 then aset c (N - 1) (1 / 2 * c (N - 1)) else c

/-- The loop over `k` in `four_eval` and `four_eval_alt` (explicit_Four_trafos.c:191-200, 130-139). -/
noncomputable def fourSum (c : Nat → ℝ) (N j : Nat) : ℝ :=
  upLoop 1 (N / 2 + 1) (fun k sum =>
    let Re := c (2 * k - 1)
    let Im := if 2 * k < N then c (2 * k) else 0
    sum + (cos (k * (2 * π / N) * j) * Re + sin (k * (2 * π / N) * j) * Im)) 0

/-- `four_eval_alt` (explicit_Four_trafos.c:120-146). -/
noncomputable def fourEvalAlt (c u : Nat → ℝ) (n : Nat) : Nat → ℝ :=
  let N := n + 1
  upLoop 0 N (fun j u =>
    let sum := fourSum c N j
    aset u j (if N % 2 = 0 then c 0 + sum - c (N - 1) * cos (π * j) else c 0 + sum)) u

/-- `four_eval` (explicit_Four_trafos.c:181-207). -/
noncomputable def fourEval (c u : Nat → ℝ) (n : Nat) : Nat → ℝ :=
  let N := n + 1
  upLoop 0 N (fun j u =>
    let sum := fourSum c N j
    aset u j (if N % 2 = 0 then (c 0 + 2 * sum - c (N - 1) * cos (π * j)) / N
      else (c 0 + 2 * sum) / N)) u

/-- `four_int` (explicit_Four_trafos.c:45-82). -/
noncomputable def fourInt (a b : ℝ) (c cint : Nat → ℝ) (n : Nat) : Nat → ℝ :=
  let N := n + 1
  let L := b - a
  let PI2_con := 2 * π / L
  let u := upLoop 0 N (fun j u => aset u j (j * L / N)) (fun _ => 0)
  let cint := fourCoeffs cint u n
  let cint := upLoop 0 N (fun j cint => aset cint j (cint j * (c 0 / N))) cint
  let cint := upLoop 1 ((N + 1) / 2) (fun j cint =>
    let cint := aset cint (2 * j - 1) (cint (2 * j - 1) + -c (2 * j) / (PI2_con * j))
    aset cint (2 * j) (cint (2 * j) + c (2 * j - 1) / (PI2_con * j))) cint
  if N % 2 = 0 then aset cint (N - 1) (cint (N - 1) + 0) else cint

/-- `four_filter` (explicit_Four_trafos.c:211-216). -/
def fourFilter (c : Nat → ℝ) (k n : Nat) : Nat → ℝ := upLoop k (n + 1) (fun j c => aset c j 0) c

/-- `four_basisfunc_alt` (explicit_Four_trafos.c:220-228). -/
noncomputable def fourBasisAlt (a b : ℝ) (n : Nat) (X : ℝ) : ℝ :=
  let K := 2 * π / (b - a)
  let j := n / 2 + n % 2
  if n % 2 ≠ 0 then cos (j * K * X)
  else if n = 0 then 1
  else sin (j * K * X)

/-- `four_basisfunc` (explicit_Four_trafos.c:232-241). -/
noncomputable def fourBasis (a b : ℝ) (k N : Nat) (X : ℝ) : ℝ :=
  let K := 2 * π / (b - a)
  let j := k / 2 + k % 2
  if k = 0 then 1 / N
  else if k = N - 1 ∧ N % 2 = 0 then cos (j * K * X) * 1 / N
  else if k % 2 ≠ 0 then cos (j * K * X) * 2 / N
  else sin (j * K * X) * 2 / N

/-- Integral over the interval from the coefficients (integrals.c:66). -/
noncomputable def fourIntegral (a b : ℝ) (c : Nat → ℝ) (N : Nat) : ℝ := c 0 * (b - a) / N

end Sgrid
