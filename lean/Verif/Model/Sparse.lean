import Mathlib.Algebra.Field.Rat
import Verif.Model.PureLoop
import Verif.Model.Parallel

/-!
# Sparse vectors and matrices

src/utility/LinAlg/SparseVector_utils.c. Doubles are elements of a field. `realloc` does not fail.
-/

namespace Sgrid

/-- `tSparseVector` (src/utility/LinAlg/sgrid_LinAlg.h): the arrays `pos` and `val`. -/
abbrev SVec (K : Type) := List (Int × K)

variable {K : Type} [Field K]

/-- `AddToSparseVector` (SparseVector_utils.c:28-43). -/
def SVec.add (v : SVec K) (newpos : Int) (newval : K) : SVec K := v ++ [(newpos, newval)]

/-- `GetSparseVectorComponent` (SparseVector_utils.c:164-171). -/
def SVec.comp (v : SVec K) (c : Int) : K :=
  match v with
  | [] => 0
  | e :: v => if e.1 = c then e.2 else SVec.comp v c

/-- An array of doubles that can only be used at indices `0 ≤ j`. -/
abbrev DArr (K : Type) := Int → K

/-- The inner loop of `SparseMatrixLines_times_vector` (SparseVector_utils.c:194-199). -/
def spLine (v : SVec K) (x : DArr K) (i : Int) (f : DArr K) : DArr K :=
  v.foldl (fun f e => Function.update f i (f i + e.2 * x e.1)) f

/-- `SparseMatrixLines_times_vector` with one thread (SparseVector_utils.c:179-201); `x` and `f` are
different arrays. -/
def spTimesVec (A : Nat → SVec K) (nlines : Nat) (x f : DArr K) : DArr K :=
  upLoop 0 nlines (fun i f => spLine (A i) x i (Function.update f i 0)) f

/-- The inner loop of `vector_times_SparseMatrixLines` (SparseVector_utils.c:222-227). -/
def spLineT (v : SVec K) (xk : K) (f : DArr K) : DArr K :=
  v.foldl (fun f e => Function.update f e.1 (f e.1 + xk * e.2)) f

/-- `vector_times_SparseMatrixLines` with one thread (SparseVector_utils.c:208-229). -/
def vecTimesSp (x : DArr K) (A : Nat → SVec K) (nlines : Nat) (f : DArr K) : DArr K :=
  let f := upLoop 0 nlines (fun k f => Function.update f (k : Int) 0) f
  upLoop 0 nlines (fun k f => spLineT (A k) (x k) f) f

/-- `SparseMatrixLinesTranspose_times_vector` with one thread (SparseVector_utils.c:236-258), which
differs from the previous function in the order of a product. -/
def spTTimesVec (A : Nat → SVec K) (nlines : Nat) (x f : DArr K) : DArr K :=
  let f := upLoop 0 nlines (fun i f => Function.update f (i : Int) 0) f
  upLoop 0 nlines (fun i f => (A i).foldl (fun f e => Function.update f e.1 (f e.1 + e.2 * x i)) f) f

/-- The arrays in the shared memory. -/
inductive SLoc
  | x (j : Int)
  | f (j : Int)
  deriving DecidableEq

/-- Accesses of pass `i` of the loop in `SparseMatrixLines_times_vector` (SparseVector_utils.c:185-200). -/
def spTimesVecProg (A : Nat → SVec K) (i : Nat) : List (Act SLoc K) :=
  .store (.f i) (fun _ => 0) :: (A i).flatMap fun e =>
    [.load 0 (.x e.1), .load 1 (.f i), .store (.f i) fun r => r 1 + e.2 * r 0]

/-- Accesses of pass `k` of the second loop in `vector_times_SparseMatrixLines`
(SparseVector_utils.c:215-228). -/
def vecTimesSpProg (A : Nat → SVec K) (k : Nat) : List (Act SLoc K) :=
  (A k).flatMap fun e =>
    [.load 0 (.x k), .load 1 (.f e.1), .store (.f e.1) fun r => r 1 + r 0 * e.2]

/-- Accesses of pass `i` of the second loop in `SparseMatrixLinesTranspose_times_vector`
(SparseVector_utils.c:244-257). -/
def spTTimesVecProg (A : Nat → SVec K) (i : Nat) : List (Act SLoc K) :=
  (A i).flatMap fun e =>
    [.load 0 (.x i), .load 1 (.f e.1), .store (.f e.1) fun r => r 1 + e.2 * r 0]

/-- Shared memory with the arrays `x` and `f`. -/
def SLoc.mem (x f : DArr K) : SLoc → K
  | .x j => x j
  | .f j => f j

end Sgrid
