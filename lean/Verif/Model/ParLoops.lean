import Verif.Model.Lines
import Verif.Model.Parallel
import Verif.Model.VarArith

/-!
# The parallel loops over points and lines

The passes of the `omp parallel for` loops as lists of reads and writes of single doubles. A place in the
memory of a box is the number of an array and the index in this array.
-/

namespace Sgrid
variable {K : Type}

/-- The memory of a box: array and index. -/
abbrev Place := Nat × Nat

/-! ## Points -/

/-- One pass of the point loops of variables.c (vlsetconstant 578-580, vlcopy 609-611, vlaverage
704-706, vlsubtract 736-738, vladd 771-785, vladdto 831-839): read the arrays `xs` at point `i`, then write
array `dst` at point `i`. -/
def pointProg (xs : List Nat) (dst : Nat) (e : (Nat → K) → K) (i : Nat) : List (Act Place K) :=
  (List.range xs.length).map (fun r => Act.load r (xs.getD r 0, i)) ++ [Act.store (dst, i) e]

/-- One pass of vlswap (variables.c:660-666). `temp` is declared before the loop (line 643) and the pragma
(line 660) does not make it private, so that it is a place in the shared memory; here `none`. -/
def swapProg (pv pu i : Nat) : List (Act (Option Place) K) :=
  [ .load 0 (some (pv, i)), .store none (fun r => r 0),
    .load 1 (some (pu, i)), .store (some (pv, i)) (fun r => r 1),
    .load 2 none, .store (some (pu, i)) (fun r => r 2) ]

/-! ## Lines -/

/-- `get_memline` (derivs.c:82-107): the line goes to local variables. -/
def lineLoads (d : Dims) (ax : Axis) (src j k : Nat) : List (Act Place K) :=
  (List.range (d.len ax)).map fun i => .load i (src, d.place ax j k i)

/-- `put_memline` (derivs.c:111-136) of a line computed from the local variables. -/
def linePut (d : Dims) (ax : Axis) (f : (Nat → K) → Nat → K) (dst j k : Nat) : List (Act Place K) :=
  (List.range (d.len ax)).map fun i => .store (dst, d.place ax j k i) (fun r => f r i)

/-- One line with buffers: read, compute in the buffers, write. -/
def bufProg (d : Dims) (ax : Axis) (f : (Nat → K) → Nat → K) (src dst j k : Nat) : List (Act Place K) :=
  lineLoads d ax src j k ++ linePut d ax f dst j k

/-- One line with buffers and two results (e.g. first and second derivative, derivs.c:1019-1023). -/
def buf2Prog (d : Dims) (ax : Axis) (f h : (Nat → K) → Nat → K) (src d1 d2 j k : Nat) :
    List (Act Place K) :=
  lineLoads d ax src j k ++ (linePut d ax f d1 j k ++ linePut d ax h d2 j k)

/-- `matrix_times_vector` from the array to the array (derivs.c:782; matrices.c:36-49): every entry of the
result reads the whole line again. -/
def directProg (d : Dims) (f : (Nat → K) → Nat → K) (src dst j k : Nat) : List (Act Place K) :=
  (List.range d.n1).flatMap fun i =>
    lineLoads d .one src j k ++ [.store (dst, d.place .one j k i) (fun r => f r i)]

/-- One pass of the outer loop over lines (OpenMPsave_loops.h:26-49): all lines of the inner loop. -/
def linesProg (d : Dims) (ax : Axis) (p : Nat → Nat → List (Act Place K)) (k : Nat) : List (Act Place K) :=
  (List.range (d.inner ax)).flatMap fun j => p j k

end Sgrid
