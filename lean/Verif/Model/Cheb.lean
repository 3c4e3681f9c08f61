import Mathlib.Analysis.SpecialFunctions.Trigonometric.Inverse
import Verif.Model.PureLoop
import Verif.Model.Basic

/-!
# Chebyshev transforms

src/utility/Spectral/explicit_Cheb_trafos.c. Doubles are real numbers (elements of a field where no
cosine is needed) and `PI` is π. The arrays `c`, `u`, … are different ones. Warnings printed for
arguments outside of the interval are left out.
-/

namespace Sgrid
open Real

section
variable {K : Type} [Field K]

/-- The argument of the polynomials, `y=(2.0*X-a-b)/(a-b)` (explicit_Cheb_trafos.c:67). -/
def chebY (a b X : K) : K := (2 * X - a - b) / (a - b)

/-- `cheb_eval` (explicit_Cheb_trafos.c:61-76); the state of the loop is `(d,dd)`. -/
def chebEval (a b : K) (c : Nat → K) (n : Nat) (X : K) : K :=
  let y := chebY a b X
  let y2 := 2 * y
  let s := downLoop 1 (n + 1) (fun j (s : K × K) => (y2 * s.1 - s.2 + c j, s.1)) (0, 0)
  y * s.1 - s.2 + 1 / 2 * c 0

/-- `cheb_deriv` (explicit_Cheb_trafos.c:80-95); `cder` is the array before the call. -/
def chebDeriv (a b : K) (c cder : Nat → K) (n : Nat) : Nat → K :=
  let cder := aset cder n 0
  let cder := if 1 ≤ n then aset cder (n - 1) (2 * (n : K) * c n) else cder
  let cder := downLoop 0 (n - 1) (fun j cder =>
    aset cder j (cder (j + 2) + 2 * ((j : K) + 1) * c (j + 1))) cder
  let con := 2 / (a - b)
  upLoop 0 n (fun j cder => aset cder j (cder j * con)) cder

/-- `cheb_int` (explicit_Cheb_trafos.c:99-114); the state of the loop is `(cint,sum,fac)`. For `n=0`
the code reads `c[-1]`. -/
def chebInt (a b : K) (c cint : Nat → K) (n : Nat) : Res (Nat → K) :=
  if n = 0 then .ub else
  let con := 1 / 4 * (a - b)
  let s := upLoop 1 n (fun j (s : (Nat → K) × K × K) =>
    let v := con * (c (j - 1) - c (j + 1)) / j
    (aset s.1 j v, s.2.1 + s.2.2 * v, -s.2.2)) (cint, 0, 1)
  let v := con * c (n - 1) / n
  let cint := aset s.1 n v
  let sum := s.2.1 + s.2.2 * v
  .ok (aset cint 0 (2 * sum))

/-- `cheb_filter` (explicit_Cheb_trafos.c:200-205). -/
def chebFilter (c : Nat → K) (k n : Nat) : Nat → K := upLoop k (n + 1) (fun j c => aset c j 0) c

/-- `cheb_basisfunc_FromSum` (explicit_Cheb_trafos.c:209-231). -/
def chebBasisFromSum (a b : K) (n : Nat) (X : K) : K :=
  if n = 0 then 1 / 2 else
  let y := chebY a b X
  let y2 := 2 * y
  let s := downLoop 1 n (fun _ (s : K × K) => (y2 * s.1 - s.2, s.1)) (y2 * 0 - 0 + 1, 0)
  y * s.1 - s.2

/-- Integral over the interval from the coefficients `c[0..n-1]` (integrals.c:50-55); the
loop takes even `i` only. -/
def chebIntegral (a b : K) (c : Nat → K) (n : Nat) : K :=
  let L := b - a
  upLoop 1 ((n + 1) / 2) (fun m s => s + c (2 * m) * L / (1 - (2 * m : Nat) * (2 * m : Nat)))
    (1 / 2 * c 0 * L)

end

/-- `cheb_coeffs_fromZeros` (explicit_Cheb_trafos.c:119-136). -/
noncomputable def chebFromZeros (c u : Nat → ℝ) (n : Nat) : Nat → ℝ :=
  let N : ℝ := (n + 1 : Nat)
  let PIoN := π / N
  let fac := 2 / N
  upLoop 0 (n + 1) (fun j c =>
    aset c j (fac * upLoop 0 (n + 1) (fun k sum => sum + cos (j * PIoN * (k + 1 / 2)) * u k) 0)) c

/-- `cheb_coeffs_fromExtrema` (explicit_Cheb_trafos.c:140-157). -/
noncomputable def chebFromExtrema (c u : Nat → ℝ) (N : Nat) : Nat → ℝ :=
  let PIoN := π / N
  let fac : ℝ := 2 / N
  let c := upLoop 0 (N + 1) (fun j c =>
    aset c j (fac * upLoop 1 N (fun k sum => sum + cos (j * PIoN * k) * u k)
      (1 / 2 * (u 0 + cos (j * π) * u N)))) c
  aset c N (c N * (1 / 2))

/-- `cheb_eval_onZeros` (explicit_Cheb_trafos.c:161-177). -/
noncomputable def chebOnZeros (c u : Nat → ℝ) (n : Nat) : Nat → ℝ :=
  let N : ℝ := (n + 1 : Nat)
  let PIoN := π / N
  upLoop 0 (n + 1) (fun j u =>
    aset u j (upLoop 1 (n + 1) (fun k sum => sum + c k * cos (k * PIoN * (j + 1 / 2)))
      (1 / 2 * c 0))) u

/-- `cheb_eval_onExtrema` (explicit_Cheb_trafos.c:181-196). -/
noncomputable def chebOnExtrema (c u : Nat → ℝ) (N : Nat) : Nat → ℝ :=
  let PIoN := π / N
  upLoop 0 (N + 1) (fun j u =>
    aset u j (upLoop 1 (N + 1) (fun k sum => sum + c k * cos (k * PIoN * j)) (1 / 2 * c 0))) u

/-- `dequal` (src/main/main/sgrid_main.h:89-91). -/
def dequalR (x y : ℝ) : Prop := ¬ (x < y - 1 / 10 ^ 10 ∨ y < x - 1 / 10 ^ 10)

open Classical in
/-- `cheb_basisfunc` (explicit_Cheb_trafos.c:235-253). -/
noncomputable def chebBasis (a b : ℝ) (n : Nat) (X : ℝ) : ℝ :=
  if n = 0 then 1 / 2 else
  let y := ((X - a) + (X - b)) / (a - b)
  if dequalR y 1 then 1
  else if dequalR y (-1) then if n % 2 ≠ 0 then -1 else 1
  else cos (n * arccos y)

end Sgrid
