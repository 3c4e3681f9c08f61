import Mathlib.Algebra.Order.Field.Basic
import Verif.Model.GridArrays
import Verif.Model.Sparse

/-!
# Reading a matrix off from a linear operator

`src/utility/LinAlg/ReadMatrixFrom_Fx.c`. The operator `Fx(vlFx, vlx, vlc1, vlc2)` is an arbitrary
function that takes the values of all variables on the grid to the values after the call. Calls of
`AddToSparseVector` are recorded in a list of (line, column, value) and then put into the lines or
columns. With OpenMP (`LEVEL6_Pragmas`) each thread works on its own copy of the grid; the adds of
the threads can happen in any order. Progress output is not modelled.
-/

namespace Sgrid

variable {K : Type} [Field K] [LinearOrder K]

/-- One `AddToSparseVector` into the matrix: line, column, value. -/
abbrev MEvent (K : Type) := Nat × Nat × K

/-- The variables of the grid that `Fx` uses, and the adds up to now. -/
abbrev MState (K : Type) := GData K × List (MEvent K)

/-- `vladd(vlx, 0.0,NULL, 0.0,NULL)` (`src/main/main/variables.c:754-774`) and
`vlsetconstant(vlx, 0.0)` (`src/main/main/variables.c:562-582`). -/
def zeroList (g : GShape) (vlx : VIdx) (v : GData K) : GData K :=
  loopSorted g vlx.n (fun b i j v => v.set b (vlx.index j) i 0) v

/-- `copy_grid(grid, grid_p, 0)`: the values in the active boxes (`src/main/MemoryMan/grid.c:463-492`);
`v0` are the values in the new grid before. All variables are taken as enabled. -/
def copyGrid (g : GShape) (v0 v : GData K) : GData K := fun b x i =>
  if b < g.nboxes ∧ g.inactive b = false ∧ i < g.nnodes b then v b x i else v0 b x i

/-- The loop over the lines of one column: boxes, points, variables
(`src/utility/LinAlg/ReadMatrixFrom_Fx.c:137-151,445-458`). -/
def scanPoints (g : GShape) (vlx vlFx : VIdx) (drop : K) (v : GData K) (col : Nat)
    (ev : List (MEvent K)) : List (MEvent K) :=
  (loopPoints g vlx.n (fun b i j (s : List (MEvent K) × Nat) =>
    (if drop < |v b (vlFx.index j) i| then s.1 ++ [(s.2, col, v b (vlFx.index j) i)] else s.1,
     s.2 + 1)) (ev, 0)).1

/-- The loop over the lines of one column: boxes, variables, points
(`src/utility/LinAlg/ReadMatrixFrom_Fx.c:282-297,583-599`). -/
def scanSorted (g : GShape) (vlx vlFx : VIdx) (drop : K) (v : GData K) (col : Nat)
    (ev : List (MEvent K)) : List (MEvent K) :=
  (loopSorted g vlx.n (fun b i j (s : List (MEvent K) × Nat) =>
    (if drop < |v b (vlFx.index j) i| then s.1 ++ [(s.2, col, v b (vlFx.index j) i)] else s.1,
     s.2 + 1)) (ev, 0)).1

/-- Put a 1 into `x`, evaluate `Fx`, look for entries, remove the 1
(`src/utility/LinAlg/ReadMatrixFrom_Fx.c:129-154`). -/
def probeAt (scan : GData K → Nat → List (MEvent K) → List (MEvent K)) (Fx : GData K → GData K)
    (vlx : VIdx) (b i j col : Nat) (s : MState K) : MState K :=
  let v := s.1.set b (vlx.index j) i 1
  let v := Fx v
  let ev := scan v col s.2
  (v.set b (vlx.index j) i 0, ev)

/-- The offsets of the boxes (`src/utility/LinAlg/ReadMatrixFrom_Fx.c:72-80,379-387`): state
`(offset, offset_prev, nnodes_prev)`. -/
def matrixOffsets (g : GShape) (n : Nat) : Nat → Nat :=
  (g.forBoxes (fun b (s : (Nat → Nat) × Nat × Nat) =>
    let ob := s.2.1 + s.2.2 * n
    (aset s.1 b ob, ob, g.nnodes b)) (fun _ => 0, 0, 0)).1

/-- `SetMatrixLines_slowly` and `SetMatrixColumns_slowly` without `LEVEL6_Pragmas`
(`src/utility/LinAlg/ReadMatrixFrom_Fx.c:48-186,355-493`): the copy of the grid is made before `vlx`
is set to zero on the original grid. -/
def matrixEventsSerial (g : GShape) (Fx : GData K → GData K) (vlFx vlx : VIdx) (drop : K)
    (v0 v : GData K) : List (MEvent K) :=
  let v_p := copyGrid g v0 v
  let offset := matrixOffsets g vlx.n
  (loopPoints g vlx.n (fun b i j =>
    probeAt (scanPoints g vlx vlFx drop) Fx vlx b i j (offset b + i * vlx.n + j)) (v_p, [])).2

/-- One thread of the parallel region for box `b` with `LEVEL6_Pragmas`: its own copy of the grid,
made after `vlx` was set to zero, and the points that it works on
(`src/utility/LinAlg/ReadMatrixFrom_Fx.c:94-165,402-472`). -/
def threadEvents (g : GShape) (Fx : GData K → GData K) (vlFx vlx : VIdx) (drop : K)
    (v0 v : GData K) (b : Nat) (pts : List Nat) : List (MEvent K) :=
  let v_p := copyGrid g v0 (zeroList g vlx v)
  let offset := matrixOffsets g vlx.n
  (pts.foldl (fun s i => upLoop 0 vlx.n (fun j =>
    probeAt (scanPoints g vlx vlFx drop) Fx vlx b i j (offset b + i * vlx.n + j)) s) (v_p, [])).2

/-- Possible orders of the adds with `LEVEL6_Pragmas`: box after box, in each box any order of the
adds of the threads; the adds of each thread stay in their order. `shares b` are the points of each
thread. -/
def MatrixEventsPar (g : GShape) (Fx : GData K → GData K) (vlFx vlx : VIdx) (drop : K)
    (v0 v : GData K) (shares : Nat → List (List Nat)) (ev : List (MEvent K)) : Prop :=
  ∃ part : Nat → List (MEvent K),
    (∀ b, b < g.nboxes → g.inactive b = false →
      (part b).Perm ((shares b).flatMap (threadEvents g Fx vlFx vlx drop v0 v b)) ∧
      ∀ t ∈ shares b, (threadEvents g Fx vlFx vlx drop v0 v b t).Sublist (part b)) ∧
    ev = (List.range' 0 g.nboxes).flatMap fun b => if g.inactive b then [] else part b

/-- `SetMatrixLines_forSortedVars_slowly` and `SetMatrixColumns_forSortedVars_slowly`
(`src/utility/LinAlg/ReadMatrixFrom_Fx.c:236-316,538-617`), on the grid itself. -/
def matrixRunSorted (g : GShape) (Fx : GData K → GData K) (vlFx vlx : VIdx) (drop : K)
    (v : GData K) : MState K :=
  let v := zeroList g vlx v
  (loopSorted g vlx.n (fun b i j (s : MState K × Nat) =>
    (probeAt (scanSorted g vlx vlFx drop) Fx vlx b i j s.2 s.1, s.2 + 1)) ((v, []), 0)).1

/-- The adds of `matrixRunSorted`. -/
def matrixEventsSorted (g : GShape) (Fx : GData K → GData K) (vlFx vlx : VIdx) (drop : K)
    (v : GData K) : List (MEvent K) := (matrixRunSorted g Fx vlFx vlx drop v).2

/-- The adds put into the lines, which are empty before the call: `AddToSparseVector(Aline[line],
col, Fx[i])` (`src/utility/LinAlg/ReadMatrixFrom_Fx.c:147-148,293`). -/
def linesOf (ev : List (MEvent K)) : Nat → SVec K :=
  ev.foldl (fun A e => Function.update A e.1 ((A e.1).add e.2.1 e.2.2)) fun _ => []

/-- The adds put into the columns: `AddToSparseVector(Acol[col], line, Fx[i])`
(`src/utility/LinAlg/ReadMatrixFrom_Fx.c:455,595`). -/
def columnsOf (ev : List (MEvent K)) : Nat → SVec K :=
  ev.foldl (fun A e => Function.update A e.2.1 ((A e.2.1).add e.1 e.2.2)) fun _ => []

/-! ## Blocks -/

/-- The lines of one box and one variable (`src/utility/LinAlg/ReadMatrixFrom_Fx.c:697-701`). -/
def scanOneBox (g : GShape) (vlFx : VIdx) (vlind b : Nat) (drop : K) (v : GData K) (col : Nat)
    (ev : List (MEvent K)) : List (MEvent K) :=
  g.forPoints b (fun line ev =>
    if drop < |v b (vlFx.index vlind) line| then ev ++ [(line, col, v b (vlFx.index vlind) line)]
    else ev) ev

/-- One thread of `SetMatrixColumns_ForOneVarInOneBox_slowly`
(`src/utility/LinAlg/ReadMatrixFrom_Fx.c:646-720`). -/
def oneBoxEvents (g : GShape) (Fx : GData K → GData K) (vlFx vlx : VIdx) (drop : K)
    (v0 v : GData K) (vlind b : Nat) (pts : List Nat) : List (MEvent K) :=
  let v_p := copyGrid g v0 (zeroList g vlx v)
  (pts.foldl (fun s i => probeAt (scanOneBox g vlFx vlind b drop) Fx vlx b i vlind i s) (v_p, [])).2

/-- The lines of one subbox and one variable (`src/utility/LinAlg/ReadMatrixFrom_Fx.c:837-845`). -/
def scanSubbox (d : Dims) (vlFx : VIdx) (vlind b sbi sbj sbk nsb1 nsb2 nsb3 : Nat) (drop : K)
    (v : GData K) (col : Nat) (ev : List (MEvent K)) : List (MEvent K) :=
  loopSubbox d sbi sbj sbk nsb1 nsb2 nsb3 (fun ijk line ev =>
    if drop < |v b (vlFx.index vlind) ijk| then ev ++ [(line, col, v b (vlFx.index vlind) ijk)]
    else ev) ev

/-- One thread of `SetMatrixColumns_ForOneVarInOneSubBox_slowly`
(`src/utility/LinAlg/ReadMatrixFrom_Fx.c:750-868`): on its copy of the grid it sets `vlx` to zero and
calls `Fx` once; `is` are the values of `i` that it works on. -/
def subBoxEvents (g : GShape) (d : Dims) (Fx : GData K → GData K) (vlFx vlx : VIdx) (drop : K)
    (v0 v : GData K) (vlind b sbi sbj sbk nsb1 nsb2 nsb3 : Nat) (is : List Nat) :
    List (MEvent K) :=
  let v_p := Fx (zeroList g vlx (copyGrid g v0 v))
  let r1 := subboxRange d.n1 sbi nsb1
  let r2 := subboxRange d.n2 sbj nsb2
  let r3 := subboxRange d.n3 sbk nsb3
  (is.foldl (fun s i => upLoop r3.1 r3.2 (fun k => upLoop r2.1 r2.2 fun j =>
    probeAt (scanSubbox d vlFx vlind b sbi sbj sbk nsb1 nsb2 nsb3 drop) Fx vlx b (d.idx i j k) vlind
      (ind_n1n2 (i - r1.1) (j - r2.1) (k - r3.1) (r1.2 - r1.1) (r2.2 - r2.1))) s) (v_p, [])).2

end Sgrid
