import Mathlib.Algebra.Field.Basic
import Verif.Model.PureLoop

/-!
# Finite difference stencils

src/utility/Spectral/finite_differences.c. Doubles are elements of a field; `c` and `cder` are
different arrays. For too few points (`n=0` for the periodic and centred stencils, `n<2` and `n<3`
for the one sided ones) the code reads outside of `c`; the theorems ask for enough points.
-/

namespace Sgrid
variable {K : Type} [Field K]

/-- `fd2_deriv_periodic` (finite_differences.c:15-26). -/
def fd2DerivPeriodic (a b : K) (c cder : Nat → K) (n : Nat) : Nat → K :=
  let con := 1 / 2 * ((n : K) + 1) / (b - a)
  let cder := upLoop 1 n (fun j cder => aset cder j ((c (j + 1) - c (j - 1)) * con)) cder
  let cder := aset cder 0 ((c 1 - c n) * con)
  aset cder n ((c 0 - c (n - 1)) * con)

/-- `fd2_deriv_onesidedBC` (finite_differences.c:31-42). -/
def fd2DerivOneSided (a b : K) (c cder : Nat → K) (n : Nat) : Nat → K :=
  let con := 1 / 2 * (n : K) / (b - a)
  let cder := upLoop 1 n (fun j cder => aset cder j ((c (j + 1) - c (j - 1)) * con)) cder
  let cder := aset cder 0 ((-3 * c 0 + 4 * c 1 - c 2) * con)
  aset cder n ((3 * c n - 4 * c (n - 1) + c (n - 2)) * con)

/-- `fd2_2ndderiv_periodic` (finite_differences.c:47-59). -/
def fd2Deriv2Periodic (a b : K) (c cder : Nat → K) (n : Nat) : Nat → K :=
  let ooh := ((n : K) + 1) / (b - a)
  let con := ooh * ooh
  let cder := upLoop 1 n (fun j cder =>
    aset cder j ((c (j + 1) - 2 * c j + c (j - 1)) * con)) cder
  let cder := aset cder 0 ((c 1 - 2 * c 0 + c n) * con)
  aset cder n ((c 0 - 2 * c n + c (n - 1)) * con)

/-- `fd2_2ndderiv_onesidedBC` (finite_differences.c:64-76). -/
def fd2Deriv2OneSided (a b : K) (c cder : Nat → K) (n : Nat) : Nat → K :=
  let ooh := (n : K) / (b - a)
  let con := ooh * ooh
  let cder := upLoop 1 n (fun j cder =>
    aset cder j ((c (j + 1) - 2 * c j + c (j - 1)) * con)) cder
  let cder := aset cder 0 ((2 * c 0 - 5 * c 1 + 4 * c 2 - c 3) * con)
  aset cder n ((2 * c n - 5 * c (n - 1) + 4 * c (n - 2) - c (n - 3)) * con)

/-- `fd2_coeffs` (finite_differences.c:80-85). -/
def fd2Coeffs (c u : Nat → K) (n : Nat) : Nat → K := upLoop 0 (n + 1) (fun k c => aset c k (u k)) c

/-- `fd2_eval` (finite_differences.c:89-94). -/
def fd2Eval (c u : Nat → K) (n : Nat) : Nat → K := upLoop 0 (n + 1) (fun k u => aset u k (c k)) u

/-- `fd2_filter` (finite_differences.c:98-102): "not yet done". -/
def fd2Filter (c : Nat → K) (_k _n : Nat) : Nat → K := c

/-- `fdcentered_deriv_onesidedBC` (finite_differences.c:107-116). -/
def fdCentered (x c cder : Nat → K) (n : Nat) : Nat → K :=
  let cder := upLoop 1 n (fun j cder =>
    aset cder j ((c (j + 1) - c (j - 1)) / (x (j + 1) - x (j - 1)))) cder
  let cder := aset cder 0 ((c 1 - c 0) / (x 1 - x 0))
  aset cder n ((c n - c (n - 1)) / (x n - x (n - 1)))

/-- `fdDp_deriv_onesidedBC` (finite_differences.c:173-181). -/
def fdDp (x c cder : Nat → K) (n : Nat) : Nat → K :=
  let cder := upLoop 0 n (fun j cder =>
    aset cder j ((c (j + 1) - c j) / (x (j + 1) - x j))) cder
  aset cder n ((c n - c (n - 1)) / (x n - x (n - 1)))

/-- `fdDm_deriv_onesidedBC` (finite_differences.c:186-194). -/
def fdDm (x c cder : Nat → K) (n : Nat) : Nat → K :=
  let cder := upLoop 1 (n + 1) (fun j cder =>
    aset cder j ((c j - c (j - 1)) / (x j - x (j - 1)))) cder
  aset cder 0 ((c 1 - c 0) / (x 1 - x 0))

/-- The search in `fd_basis1`, `fd_basis2`, `fd_basis3` for a box with coordinates `x` (lines 218-225,
248-255 and 278-285 of finite_differences.c): the first `iX` with `X` below the midpoint of points
`iX` and `iX+1`, otherwise `N-1`. -/
def fdCell [LinearOrder K] (x : Nat → K) (N : Nat) (X : K) : Nat :=
  ((List.range (N - 1)).find? fun i => decide (X < (x i + x (i + 1)) * (1 / 2))).getD (N - 1)

/-- `fd_basis1`, `fd_basis2`, `fd_basis3` with a box (finite_differences.c:199-227, 229-257, 259-287). -/
def fdBasis [LinearOrder K] (x : Nat → K) (k N : Nat) (X : K) : K :=
  if k = fdCell x N X then 1 else 0

end Sgrid
