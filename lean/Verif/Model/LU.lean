import Mathlib.Algebra.Order.Field.Basic
import Verif.Model.Loop
import Verif.Model.PureLoop

/-!
# LU decomposition

`src/utility/numerics/lu.c`. Doubles are elements of an ordered field. The allocation of `vscal` does
not fail.
-/

namespace Sgrid

variable {K : Type} [Field K] [LinearOrder K]

/-- `A[i][j]`. -/
abbrev Mat (K : Type) := Nat → Nat → K

/-- `A[i][j] = x`. -/
def mset (A : Mat K) (i j : Nat) (x : K) : Mat K := fun i' j' =>
  if i' = i ∧ j' = j then x else A i' j'

/-- The largest of `|f(0)|, …, |f(n-1)|` (`src/utility/numerics/lu.c:36-38,50-52`). -/
def luBig (n : Nat) (f : Nat → K) : K :=
  upLoop 0 n (fun i big => if big < |f i| then |f i| else big) 0

/-- The loop over columns that returns at a column of zeros (`src/utility/numerics/lu.c:34-45`). -/
def luColCheck (n : Nat) (A : Mat K) : Option Int :=
  upLoop 0 n (fun j r => match r with
    | some r => some r
    | none => if luBig n (fun i => A i j) = 0 then some ((j : Int) + 1) else none) none

/-- The loop over rows that returns at a row of zeros and sets `vscal`
(`src/utility/numerics/lu.c:48-60`). -/
def luRowCheck (n : Nat) (A : Mat K) (vscal : Nat → K) : Option Int × (Nat → K) :=
  upLoop 0 n (fun i s => match s.1 with
    | some _ => s
    | none =>
      let big := luBig n (fun j => A i j);
      if big = 0 then (some (-((i : Int) + 1)), s.2) else (none, aset s.2 i (1 / big)))
    (none, vscal)

/-- `sum = A[i][j]; for(k=0; k<m; k++) sum -= A[i][k]*A[k][j];`
(`src/utility/numerics/lu.c:73-74,81-82`). -/
def luSum (A : Mat K) (i j m : Nat) : K :=
  upLoop 0 m (fun k sum => sum - A i k * A k j) (A i j)

/-- The first loop over rows in Crout's method (`src/utility/numerics/lu.c:71-76`). -/
def luUpper (A : Mat K) (j : Nat) : Mat K :=
  upLoop 0 j (fun i A => mset A i j (luSum A i j i)) A

/-- The second loop over rows, with the search for the pivot (`src/utility/numerics/lu.c:78-89`):
matrix, `big`, `imax`; `imax` is not initialised. -/
def luLower (n : Nat) (A : Mat K) (vscal : Nat → K) (j : Nat) : Mat K × K × Option Nat :=
  upLoop j n (fun i s =>
    let sum := luSum s.1 i j j;
    let A := mset s.1 i j sum;
    let tmp2 := vscal i * |sum|;
    if s.2.1 ≤ tmp2 then (A, tmp2, some i) else (A, s.2)) (A, 0, none)

/-- The loop that exchanges two rows (`src/utility/numerics/lu.c:92-97`). -/
def luSwap (n : Nat) (A : Mat K) (imax j : Nat) : Mat K :=
  upLoop 0 n (fun k A =>
    let tmp2 := A imax k;
    let A := mset A imax k (A j k);
    mset A j k tmp2) A

/-- The loop that divides by the pivot (`src/utility/numerics/lu.c:103-107`; `j != n` always). -/
def luScale (n : Nat) (A : Mat K) (j : Nat) : Mat K :=
  let tmp2 := 1 / A j j
  upLoop (j + 1) n (fun i A => mset A i j (A i j * tmp2)) A

/-- `TINY` (`src/utility/numerics/lu.c:19`). -/
def luTiny : K := 1 / 10 ^ 300

/-- State of Crout's method: `A`, `vscal`, `p_idx`, `parity`. -/
structure LUState (K : Type) where
  A : Mat K
  vscal : Nat → K
  p : Nat → Nat
  parity : Int

/-- One pass of Crout's method (`src/utility/numerics/lu.c:67-108`). -/
def luStep (n : Nat) (j : Nat) (s : LUState K) : Res (LUState K) :=
  match luLower n (luUpper s.A j) s.vscal j with
  | (_, _, none) => .ub
  | (A, _, some imax) =>
    let s1 : LUState K := if j ≠ imax then
        ⟨luSwap n A imax j, aset s.vscal imax (s.vscal j), s.p, -s.parity⟩
      else ⟨A, s.vscal, s.p, s.parity⟩;
    let p := aset s1.p j imax;
    let A := if s1.A j j = 0 then mset s1.A j j luTiny else s1.A;
    .ok ⟨luScale n A j, s1.vscal, p, s1.parity⟩

/-- `lu_decomp` (`src/utility/numerics/lu.c:20-111`): return value and state; `vscal0`, `p0` and
`parity0` are the contents before. -/
def luDecomp (n : Nat) (A : Mat K) (vscal0 : Nat → K) (p0 : Nat → Nat) (parity0 : Int) :
    Res (Int × LUState K) :=
  match luColCheck n A with
  | some r => .ok (r, ⟨A, vscal0, p0, parity0⟩)
  | none =>
    match luRowCheck n A vscal0 with
    | (some r, vscal) => .ok (r, ⟨A, vscal, p0, parity0⟩)
    | (none, vscal) =>
      match forN n (luStep n) ⟨A, vscal, p0, 1⟩ with
      | .ok s => .ok (0, s)
      | .abort => .abort
      | .ub => .ub

/-- The first loop of `lu_solve` (`src/utility/numerics/lu.c:125-134`): `b` and `i_nz`, where `none`
stands for -1. -/
def luForward (n : Nat) (A : Mat K) (p : Nat → Nat) (b : Nat → K) : (Nat → K) × Option Nat :=
  upLoop 0 n (fun i s =>
    let p_i := p i;
    let sum := s.1 p_i;
    let b := aset s.1 p_i (s.1 i);
    match s.2 with
    | some i_nz => (aset b i (upLoop i_nz i (fun j sum => sum - A i j * b j) sum), some i_nz)
    | none => (aset b i sum, if sum ≠ 0 then some i else none)) (b, none)

/-- The second loop of `lu_solve` (`src/utility/numerics/lu.c:137-142`). -/
def luBackward (n : Nat) (A : Mat K) (b : Nat → K) : Nat → K :=
  downLoop 0 n (fun i b =>
    let sum := upLoop (i + 1) n (fun j sum => sum - A i j * b j) (b i);
    aset b i (sum / A i i)) b

/-- `lu_solve` (`src/utility/numerics/lu.c:118-143`). -/
def luSolve (n : Nat) (A : Mat K) (p : Nat → Nat) (b : Nat → K) : Nat → K :=
  luBackward n A (luForward n A p b).1

/-- `lu_det` (`src/utility/numerics/lu.c:148-154`). -/
def luDet (n : Nat) (A : Mat K) (parity : Int) : K :=
  upLoop 0 n (fun i det => det * A i i) (parity : K)

end Sgrid
