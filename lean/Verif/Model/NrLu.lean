import Mathlib.Algebra.Field.Basic
import Mathlib.Algebra.Order.Group.Unbundled.Abs
import Mathlib.Order.Defs.LinearOrder
import Verif.Model.PureLoop
import Verif.Model.LU

/-!
src/utility/NumericUtils/ludcmp.c, lubksb.c: the decomposition of a matrix into triangular ones, and the solution of
linear equations with it.

Doubles are elements of an ordered field; TINY is 1e-300 (ludcmp.c:6), the `luTiny` of lu.c.  Matrices and vectors are functions of indices from 1 to n, as in the code.
-/

namespace Sgrid

variable {K : Type} [Field K] [LinearOrder K]

/-- `a[i][j] = x`. -/
def nrSet (a : Nat → Nat → K) (i j : Nat) (x : K) : Nat → Nat → K := aset a i (aset (a i) j x)

/-- The largest absolute value in row i (ludcmp.c:17-19, 91-93). -/
def nrRowBig (n : Nat) (a : Nat → Nat → K) (i : Nat) : K :=
  upLoop 1 (n + 1) (fun j big => if |a i j| > big then |a i j| else big) 0

/-- The largest absolute value in column j (ludcmpSing, ludcmp.c:78-80). -/
def nrColBig (n : Nat) (a : Nat → Nat → K) (j : Nat) : K :=
  upLoop 1 (n + 1) (fun i big => if |a i j| > big then |a i j| else big) 0

/-- The scaling of the rows (ludcmp.c:16-22): `vv`, or the first row with only zeros.  `junk` is the new memory. -/
def nrScale (n : Nat) (a : Nat → Nat → K) (junk : Nat → K) : Except Nat (Nat → K) :=
  upLoop 1 (n + 1) (fun i s => match s with
    | .error e => .error e
    | .ok vv =>
      let big := nrRowBig n a i
      if big = 0 then .error i else .ok (aset vv i (1 / big))) (.ok junk)

/-- The variables of the loop over the columns. -/
structure NrLuState (K : Type) where
  a : Nat → Nat → K
  indx : Nat → Nat
  d : K
  vv : Nat → K
  imax : Nat

/-- The entries above the diagonal in column j (ludcmp.c:24-28). -/
def nrUpper (j : Nat) (a : Nat → Nat → K) : Nat → Nat → K :=
  upLoop 1 j (fun i a => nrSet a i j (upLoop 1 i (fun k sum => sum - a i k * a k j) (a i j))) a

/-- The search for the pivot (ludcmp.c:29-39): the matrix, big, imax. -/
def nrPivot (n j : Nat) (vv : Nat → K) (s : (Nat → Nat → K) × K × Nat) : (Nat → Nat → K) × K × Nat :=
  upLoop j (n + 1) (fun i s =>
    let sum := upLoop 1 j (fun k sum => sum - s.1 i k * s.1 k j) (s.1 i j)
    let a := nrSet s.1 i j sum
    let dum := vv i * |sum|
    if dum ≥ s.2.1 then (a, dum, i) else (a, s.2)) s

/-- The exchange of two rows (ludcmp.c:41-45). -/
def nrSwap (n imax j : Nat) (a : Nat → Nat → K) : Nat → Nat → K :=
  upLoop 1 (n + 1) (fun k a =>
    let dum := a imax k
    let a := nrSet a imax k (a j k)
    nrSet a j k dum) a

/-- The loop over the columns, one step (ludcmp.c:23-55). -/
def nrColumn (n : Nat) (j : Nat) (s : NrLuState K) : NrLuState K :=
  let a := nrUpper j s.a
  let r := nrPivot n j s.vv (a, 0, s.imax)
  let a := r.1
  let imax := r.2.2
  let t : NrLuState K :=
    if j ≠ imax then ⟨nrSwap n imax j a, s.indx, -s.d, aset s.vv imax (s.vv j), imax⟩ else ⟨a, s.indx, s.d, s.vv, imax⟩
  let indx := aset t.indx j imax
  let a := if t.a j j = 0 then nrSet t.a j j luTiny else t.a
  let a := if j ≠ n then
    let dum := 1 / a j j
    upLoop (j + 1) (n + 1) (fun i a => nrSet a i j (a i j * dum)) a
    else a
  ⟨a, indx, t.d, t.vv, imax⟩

/-- ludcmp (ludcmp.c:8-57): the new matrix, indx and d, or the first row with only zeros, for which the code stops
(nrerror).  `imax` and `junk` are the values of uninitialised memory. -/
def ludcmp (n : Nat) (imax : Nat) (junk : Nat → K) (a : Nat → Nat → K) (indx : Nat → Nat) :
    Except Nat (NrLuState K) :=
  match nrScale n a junk with
  | .error i => .error i
  | .ok vv => .ok (upLoop 1 (n + 1) (nrColumn n) ⟨a, indx, 1, vv, imax⟩)

/-- The test for columns with only zeros (ludcmp.c:76-87): the first one. -/
def nrColCheck (n : Nat) (a : Nat → Nat → K) : Except Nat Unit :=
  upLoop 1 (n + 1) (fun j s => match s with
    | .error e => .error e
    | .ok () => if nrColBig n a j = 0 then .error j else .ok ()) (.ok ())

/-- ludcmpSing (ludcmp.c:63-136): the status and the matrix with indx and d.  The test of the columns comes first. -/
def ludcmpSing (n : Nat) (imax : Nat) (junk : Nat → K) (a : Nat → Nat → K) (indx : Nat → Nat) :
    Int × NrLuState K :=
  match nrColCheck n a with
  | .error j => ((j : Int), ⟨a, indx, 1, junk, imax⟩)
  | .ok () =>
    match ludcmp n imax junk a indx with
    | .error i => (-(i : Int), ⟨a, indx, 1, junk, imax⟩)
    | .ok s => (0, s)

/-- The first loop of lubksb (lubksb.c:8-16): b and ii. -/
def nrForward (n : Nat) (a : Nat → Nat → K) (indx : Nat → Nat) (b : Nat → K) : (Nat → K) × Nat :=
  upLoop 1 (n + 1) (fun i s =>
    let ip := indx i
    let sum := s.1 ip
    let b := aset s.1 ip (s.1 i)
    if s.2 ≠ 0 then (aset b i (upLoop s.2 i (fun j sum => sum - a i j * b j) sum), s.2)
    else (aset b i sum, if sum ≠ 0 then i else s.2)) (b, 0)

/-- The second loop of lubksb (lubksb.c:17-21). -/
def nrBack (n : Nat) (a : Nat → Nat → K) (b : Nat → K) : Nat → K :=
  downLoop 1 (n + 1) (fun i b => aset b i (upLoop (i + 1) (n + 1) (fun j sum => sum - a i j * b j) (b i) / a i i)) b

/-- lubksb (lubksb.c:3-22). -/
def lubksb (n : Nat) (a : Nat → Nat → K) (indx : Nat → Nat) (b : Nat → K) : Nat → K :=
  nrBack n a (nrForward n a indx b).1

end Sgrid
