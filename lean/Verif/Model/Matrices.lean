import Mathlib.Algebra.Field.Basic
import Verif.Model.PureLoop
import Verif.Model.Basic

/-!
# Small dense matrices and the matrices of the line routines

src/utility/Spectral/matrices.c, diffmatrices.c, filters.c and spec_coeffs.c. Doubles are elements of a
field, a matrix is an array with the entry of row `i` and column `j` at `n*i+j`. The version of
`matrix_times_vector` that calls CBLAS is not modelled. Different pointer arguments point to
different arrays unless said otherwise; running out of memory is left out.

A line routine such as `cheb_coeffs_fromExtrema(c,u,n)` is a function of the array before the call,
the input and the last index `n`.
-/

namespace Sgrid
variable {K : Type} [Field K]

/-- Line routine: output array before the call, input array, last index. -/
abbrev LineFun (K : Type) := (Nat → K) → (Nat → K) → Nat → (Nat → K)

/-- `matrix_times_vector` (matrices.c:36-49). -/
def matTimesVec (M u Mu : Nat → K) (n : Nat) : Nat → K :=
  upLoop 0 n (fun i Mu =>
    aset Mu i (upLoop 0 n (fun j sum => sum + M (n * i + j) * u j) 0)) Mu

/-- `matrix_times_vector(M,u,u,n)` (matrices.c:36-49): input and output are the same array. -/
def matTimesVecSelf (M u : Nat → K) (n : Nat) : Nat → K :=
  upLoop 0 n (fun i u =>
    aset u i (upLoop 0 n (fun j sum => sum + M (n * i + j) * u j) 0)) u

/-- `matrix_times_matrix` (matrices.c:53-65). -/
def matTimesMat (M D MD : Nat → K) (n : Nat) : Nat → K :=
  upLoop 0 n (fun i MD => upLoop 0 n (fun k MD =>
    aset MD (n * i + k) (upLoop 0 n (fun j sum => sum + M (n * i + j) * D (n * j + k)) 0)) MD) MD

/-- `vector_times_matrix` (matrices.c:68-79). -/
def vecTimesMat (u M uM : Nat → K) (n : Nat) : Nat → K :=
  upLoop 0 n (fun j uM =>
    aset uM j (upLoop 0 n (fun i sum => sum + u i * M (n * i + j)) 0)) uM

/-- `scalarproduct_vectors` (matrices.c:82-88). -/
def scalarProd (v w : Nat → K) (n : Nat) : K := upLoop 0 n (fun i sum => sum + v i * w i) 0

/-- `for(i=0; i<n1; i++) M[n1*i + j] = c[i];`: write column `j` (spec_coeffs.c:42, diffmatrices.c:43
and others). -/
def setColumn (M c : Nat → K) (n j : Nat) : Nat → K :=
  upLoop 0 n (fun i M => aset M (n * i + j) (c i)) M

/-- `initMatrix_ForCoeffs` and `initMatrix_ToEvaluate` (spec_coeffs.c:21-48 and 51-78): `u` and `c` come
from `calloc`; the state is `(M,u,c)`. -/
def initMatrix (M : Nat → K) (n1 : Nat) (f : LineFun K) : Nat → K :=
  (upLoop 0 n1 (fun j (s : (Nat → K) × (Nat → K) × (Nat → K)) =>
    let u := aset s.2.1 j 1
    let c := f s.2.2 u (n1 - 1)
    (setColumn s.1 c n1 j, aset u j 0, c)) (M, fun _ => 0, fun _ => 0)).1

/-- State of the loop in `initdiffmatrix`. -/
structure DiffState (K : Type) where
  (D DD u c d : Nat → K)

/-- Body of the loop in `initdiffmatrix` (diffmatrices.c:32-54). -/
def initDiffBody (n1 : Nat) (coeffs deriv eval : LineFun K) (j : Nat) (s : DiffState K) :
    DiffState K :=
  let u := aset s.u j 1
  let c := coeffs s.c u (n1 - 1)
  let d := deriv s.d c (n1 - 1)
  let c := eval c d (n1 - 1)
  let D := setColumn s.D c n1 j
  let c := deriv c d (n1 - 1)
  let d := eval d c (n1 - 1)
  let DD := setColumn s.DD d n1 j
  ⟨D, DD, aset u j 0, c, d⟩

/-- `initdiffmatrix` (diffmatrices.c:10-60), the matrices `D` and `DD`. The routines take the output
array before the call first. The interval is part of `deriv`. -/
def initDiff (D DD : Nat → K) (n1 : Nat) (coeffs deriv eval : LineFun K) : (Nat → K) × (Nat → K) :=
  let s := upLoop 0 n1 (initDiffBody n1 coeffs deriv eval) ⟨D, DD, fun _ => 0, fun _ => 0, fun _ => 0⟩
  (s.D, s.DD)

/-- `initdiffmatrix2` (diffmatrices.c:64-100), `initIntegrationMatrix` (diffmatrices.c:276-312) and
`init_fdcentered_diffmatrix` (diffmatrices.c:123-171): coefficients, a routine on coefficients, values.
The state is `(DD,u,c,d)`. -/
def initOp (DD : Nat → K) (n1 : Nat) (coeffs op eval : LineFun K) : Nat → K :=
  (upLoop 0 n1 (fun j (s : (Nat → K) × (Nat → K) × (Nat → K) × (Nat → K)) =>
    let u := aset s.2.1 j 1
    let c := coeffs s.2.2.1 u (n1 - 1)
    let d := op s.2.2.2 c (n1 - 1)
    let c := eval c d (n1 - 1)
    (setColumn s.1 c n1 j, aset u j 0, c, d)) (DD, fun _ => 0, fun _ => 0, fun _ => 0)).1

/-- `initfiltermatrix` (filters.c:10-53); all callers pass `k = n1+1-filt` (grid.c:216, 232, 248). For
`k ≤ n1` it reads off the matrix of: coefficients, `filter c (k-1) (n1-1)`, values; otherwise it puts
ones on the diagonal. For `k < 1` the filter writes in front of the array. The state is
`(F,u,c,uf)`. -/
def initFilter (F : Nat → K) (k : Int) (n1 : Nat) (coeffs : LineFun K)
    (filter : (Nat → K) → Nat → Nat → (Nat → K)) (eval : LineFun K) : Res (Nat → K) :=
  if k ≤ n1 then
    if k < 1 then .ub else
    .ok (upLoop 0 n1 (fun j (s : (Nat → K) × (Nat → K) × (Nat → K) × (Nat → K)) =>
      let u := aset s.2.1 j 1
      let c := coeffs s.2.2.1 u (n1 - 1)
      let c := filter c (k - 1).toNat (n1 - 1)
      let uf := eval s.2.2.2 c (n1 - 1)
      (setColumn s.1 uf n1 j, aset u j 0, c, uf)) (F, fun _ => 0, fun _ => 0, fun _ => 0)).1
  else .ok (upLoop 0 n1 (fun i F => aset F (n1 * i + i) 1) F)

/-- `spec_Basis_times_CoeffMatrix` and `spec_Basis_times_CoeffMatrix_direc` after the basis functions
are in `B` (spec_coeffs.c:921 and 947, 954, 961): the weights `BM` with `u(X) = Σ BM_i u_i`. -/
def basisTimesCoeffMatrix (B Mcoeffs BM : Nat → K) (n : Nat) : Nat → K := vecTimesMat B Mcoeffs BM n

end Sgrid
