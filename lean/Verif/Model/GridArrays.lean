import Mathlib.Analysis.Real.Sqrt
import Verif.Model.PureLoop
import Verif.Model.Lines

/-!
Flat arrays and variable lists (`src/utility/GridIterators/utility.c`): dot product and L2 norms of
variable lists, and the copies between the variables of a list and an ordinary C array.

The values of all variables in all boxes are one function `v b x i` of the box, the variable index
and the point. That the arrays of the variables exist (are allocated) is not modelled here, it is the
subject of `Verif/Model/VarArith.lean`. Doubles are elements of a field `K`, and reals for the norms.
-/

namespace Sgrid

/-- What the loops need to know of a grid: `grid->nboxes`, `box->nnodes` and `box->inactive`
(`src/main/MemoryMan/sgrid_MemoryMan_loops.h:10-23`). -/
structure GShape where
  nboxes : Nat
  nnodes : Nat → Nat
  inactive : Nat → Bool

/-- A variable list: `vl->n` and `vl->index`. -/
structure VIdx where
  n : Nat
  index : Nat → Nat

/-- The values of the variables: box, variable index, point. -/
abbrev GData (K : Type) := Nat → Nat → Nat → K

/-- `box->v[x][i] = c` in box `b`. -/
def GData.set {K : Type} (v : GData K) (b x i : Nat) (c : K) : GData K := fun b' x' i' =>
  if b' = b ∧ x' = x ∧ i' = i then c else v b' x' i'

/-- `forallboxes(grid,b)`: only the active boxes
(`src/main/MemoryMan/sgrid_MemoryMan_loops.h:21-23`). -/
def GShape.forBoxes {σ : Type} (g : GShape) (body : Nat → σ → σ) (s : σ) : σ :=
  upLoop 0 g.nboxes (fun b s => if g.inactive b then s else body b s) s

/-- `forallpoints(box,i)` (`src/main/MemoryMan/sgrid_MemoryMan_loops.h:10-11`). -/
def GShape.forPoints {σ : Type} (g : GShape) (b : Nat) (body : Nat → σ → σ) (s : σ) : σ :=
  upLoop 0 (g.nnodes b) body s

section
variable {K : Type}

/-- `GridDotProduct` (`src/utility/GridIterators/utility.c:9-25`). -/
def gridDotProduct [Add K] [Mul K] [Zero K] (g : GShape) (v : GData K) (vlu vlv : VIdx) : K :=
  upLoop 0 vlu.n (fun j => g.forBoxes fun b => g.forPoints b fun i sum =>
    sum + v b (vlu.index j) i * v b (vlv.index j) i) 0

/-- The loops of `GridL2Norm`: sum of the squares and number of terms
(`src/utility/GridIterators/utility.c:31-42`). -/
def gridL2Sums [Add K] [Mul K] [Zero K] (g : GShape) (v : GData K) (vlu : VIdx) : K × Nat :=
  upLoop 0 vlu.n (fun j => g.forBoxes fun b => g.forPoints b fun i s =>
    (s.1 + v b (vlu.index j) i * v b (vlu.index j) i, s.2 + 1)) (0, 0)

/-- `GridL2Norm` (`src/utility/GridIterators/utility.c:29-44`). -/
noncomputable def gridL2Norm (g : GShape) (v : GData ℝ) (vlu : VIdx) : ℝ :=
  let s := gridL2Sums g v vlu
  √(s.1 / s.2)

/-- `BoxL2Norm` (`src/utility/GridIterators/utility.c:48-61`); it does not ask whether the box is
active. -/
noncomputable def boxL2Norm (g : GShape) (v : GData ℝ) (b : Nat) (vlu : VIdx) : ℝ :=
  let s := upLoop 0 vlu.n (fun j => g.forPoints b fun i (s : ℝ × Nat) =>
    (s.1 + v b (vlu.index j) i * v b (vlu.index j) i, s.2 + 1)) (0, 0)
  √(s.1 / s.2)

/-- `varBoxL2Norm` (`src/utility/GridIterators/utility.c:64-72`): the list that holds one variable. -/
noncomputable def varBoxL2Norm (g : GShape) (v : GData ℝ) (b iu : Nat) : ℝ :=
  boxL2Norm g v b ⟨1, fun _ => iu⟩

/-! ## Copies between lists and arrays -/

/-- `x[line] = px[i]; line++;`. -/
def stepInto (v : GData K) (vlx : VIdx) (b i j : Nat) (s : (Nat → K) × Nat) : (Nat → K) × Nat :=
  (aset s.1 s.2 (v b (vlx.index j) i), s.2 + 1)

/-- `px[i] = x[line]; line++;`. -/
def stepOut (x : Nat → K) (vlx : VIdx) (b i j : Nat) (s : GData K × Nat) : GData K × Nat :=
  (s.1.set b (vlx.index j) i (x s.2), s.2 + 1)

/-- Boxes, points, variables: the loops of `copy_varlist_into_array` and `copy_array_into_varlist`
(`src/utility/GridIterators/utility.c:84-99,136-151`). -/
def loopPoints {σ : Type} (g : GShape) (n : Nat) (body : Nat → Nat → Nat → σ → σ) (s : σ) : σ :=
  g.forBoxes (fun b => g.forPoints b fun i => upLoop 0 n fun j => body b i j) s

/-- Boxes, variables, points: the loops of the `_forSortedVars` copies
(`src/utility/GridIterators/utility.c:189-201,210-222`). -/
def loopSorted {σ : Type} (g : GShape) (n : Nat) (body : Nat → Nat → Nat → σ → σ) (s : σ) : σ :=
  g.forBoxes (fun b => upLoop 0 n fun j => g.forPoints b fun i => body b i j) s

/-- Variables, boxes, points: the loops of the `_outervlloop` copies
(`src/utility/GridIterators/utility.c:232-242,252-262`). -/
def loopOuter {σ : Type} (g : GShape) (n : Nat) (body : Nat → Nat → Nat → σ → σ) (s : σ) : σ :=
  upLoop 0 n (fun j => g.forBoxes fun b => g.forPoints b fun i => body b i j) s

/-- `copy_varlist_into_array` (`src/utility/GridIterators/utility.c:79-100`). -/
def copyVarlistIntoArray (g : GShape) (v : GData K) (vlx : VIdx) (x : Nat → K) : Nat → K :=
  (loopPoints g vlx.n (stepInto v vlx) (x, 0)).1

/-- `copy_array_into_varlist` (`src/utility/GridIterators/utility.c:131-152`). -/
def copyArrayIntoVarlist (g : GShape) (x : Nat → K) (v : GData K) (vlx : VIdx) : GData K :=
  (loopPoints g vlx.n (stepOut x vlx) (v, 0)).1

/-- `copy_varlist_into_array_forSortedVars` (`src/utility/GridIterators/utility.c:184-202`). -/
def copyVarlistIntoArraySorted (g : GShape) (v : GData K) (vlx : VIdx) (x : Nat → K) : Nat → K :=
  (loopSorted g vlx.n (stepInto v vlx) (x, 0)).1

/-- `copy_array_into_varlist_forSortedVars` (`src/utility/GridIterators/utility.c:205-223`). -/
def copyArrayIntoVarlistSorted (g : GShape) (x : Nat → K) (v : GData K) (vlx : VIdx) : GData K :=
  (loopSorted g vlx.n (stepOut x vlx) (v, 0)).1

/-- `copy_vl_into_array_outervlloop` (`src/utility/GridIterators/utility.c:227-243`). -/
def copyVlIntoArrayOuter (g : GShape) (v : GData K) (vlx : VIdx) (xa : Nat → K) : Nat → K :=
  (loopOuter g vlx.n (stepInto v vlx) (xa, 0)).1

/-- `copy_array_into_vl_outervlloop` (`src/utility/GridIterators/utility.c:247-263`). -/
def copyArrayIntoVlOuter (g : GShape) (xa : Nat → K) (v : GData K) (vlx : VIdx) : GData K :=
  (loopOuter g vlx.n (stepOut xa vlx) (v, 0)).1

/-! ## Subboxes -/

/-- One index range of `IndexRangesInSubbox`
(`src/utility/GridIterators/sgrid_GridIterators.h:22-28`). -/
def subboxRange (n sb nsb : Nat) : Nat × Nat := (sb * n / nsb, (sb + 1) * n / nsb)

/-- `Ind_n1n2(i,j,k,n1,n2)` (`src/main/main/sgrid_main.h:17`). -/
def ind_n1n2 (i j k n1 n2 : Nat) : Nat := i + n1 * (j + n2 * k)

/-- The loops of the subbox copies with the two places that the body uses
(`src/utility/GridIterators/utility.c:279-290,307-318`); the subbox `(sbi,sbj,sbk)` of
`nsb1*nsb2*nsb3` subboxes. -/
def loopSubbox {σ : Type} (d : Dims) (sbi sbj sbk nsb1 nsb2 nsb3 : Nat)
    (body : (ijk ix : Nat) → σ → σ) (s : σ) : σ :=
  let r1 := subboxRange d.n1 sbi nsb1
  let r2 := subboxRange d.n2 sbj nsb2
  let r3 := subboxRange d.n3 sbk nsb3
  upLoop r3.1 r3.2 (fun k => upLoop r2.1 r2.2 fun j => upLoop r1.1 r1.2 fun i =>
    body (d.idx i j k) (ind_n1n2 (i - r1.1) (j - r2.1) (k - r3.1) (r1.2 - r1.1) (r2.2 - r2.1))) s

/-- `copy_varlistCompInSubbox_into_array` (`src/utility/GridIterators/utility.c:266-291`); `xp` are
the values of the component in the box. -/
def copySubboxIntoArray (d : Dims) (xp : Nat → K) (sbi sbj sbk nsb1 nsb2 nsb3 : Nat)
    (x : Nat → K) : Nat → K :=
  loopSubbox d sbi sbj sbk nsb1 nsb2 nsb3 (fun ijk ix x => aset x ix (xp ijk)) x

/-- `copy_array_into_varlistCompInSubbox` (`src/utility/GridIterators/utility.c:294-319`). -/
def copyArrayIntoSubbox (d : Dims) (x : Nat → K) (sbi sbj sbk nsb1 nsb2 nsb3 : Nat)
    (xp : Nat → K) : Nat → K :=
  loopSubbox d sbi sbj sbk nsb1 nsb2 nsb3 (fun ijk ix xp => aset xp ijk (x ix)) xp

end

end Sgrid
