import Verif.Model.Umfpack
import Verif.Model.RootFind
import Verif.Model.Parallel

/-!
# Active boxes, and the Jacobi and block Jacobi preconditioners

`src/main/MemoryMan/grid.c:571-640`, `src/utility/GridIterators/sgrid_GridIterators.h:5-28`,
`src/utility/GridIterators/wrappers_for_JacobiPrecon.c`. A linear solver and the libraries that factor a
block are arbitrary functions. The conversion of the grid to finite differences and back around the
reading of the matrix, messages and allocation are left out: the operator `L` of the theorems is the one
that `lop` applies while the matrix is read.
-/

namespace Sgrid

/-! ## Active boxes -/

/-- `set_ninactive` (`src/main/MemoryMan/grid.c:576-581`). -/
def setNinactive (g : GShape) : Nat := g.nboxes - g.forBoxes (fun _ n => n + 1) 0

/-- `set_box_inactiveflags` (`src/main/MemoryMan/grid.c:584-589`): the flags and `ninactive`. An entry of the
list that is not the number of a box is undefined behaviour. -/
def setInactiveFlags (g : GShape) (l : List Int) (fl : Bool) : Res (GShape × Nat) :=
  if l.any (fun i => i < 0 || g.nboxes ≤ i) then .ub else
  let g := { g with inactive := l.foldl (fun f i => aset f i.toNat fl) g.inactive }
  .ok (g, setNinactive g)

/-- `deactivate_allboxes` (`fl` true) and `activate_allboxes` (`fl` false)
(`src/main/MemoryMan/grid.c:601-613`). -/
def setAllFlags (g : GShape) (fl : Bool) : GShape × Nat :=
  let g := { g with inactive := upLoop 0 g.nboxes (fun b f => aset f b fl) g.inactive }
  (g, setNinactive g)

/-- One pass of the loop of `IndexOf_ith_ActiveBox` (`src/main/MemoryMan/grid.c:627-631`); `b` is one less than
the number of the pass. -/
def activePass (g : GShape) (i : Int) (j : Nat) (nn : Int) : Nat ⊕ Int :=
  if g.inactive (j - 1) then .inr nn else
  if nn = i then .inl (j - 1) else .inr (nn + 1)

/-- `IndexOf_ith_ActiveBox` (`src/main/MemoryMan/grid.c:618-634`). -/
def indexOfActive (g : GShape) (ninactive : Nat) (i : Int) : Int :=
  if ninactive = 0 then (if 0 ≤ i ∧ i < g.nboxes then i else -1) else
  match forRet g.nboxes (activePass g i) 0 with
  | .inl b => b
  | .inr _ => -1

/-! ## Blocks -/

/-- The variable, the box and the subbox of a block. -/
structure BlockIdx where
  vi : Nat
  bi : Int
  sbi : Nat
  sbj : Nat
  sbk : Nat
  deriving DecidableEq, Repr

/-- The number of passes of `forallVarsBoxesAndSubboxes_defIndices`
(`src/utility/GridIterators/sgrid_GridIterators.h:7`, `src/main/MemoryMan/sgrid_MemoryMan_loops.h:18`). -/
def nBlocks (g : GShape) (ninactive n nsb1 nsb2 nsb3 : Nat) : Nat :=
  nsb1 * nsb2 * nsb3 * (g.nboxes - ninactive) * n

/-- The indices of pass `blocki` (`src/utility/GridIterators/sgrid_GridIterators.h:8-17`). -/
def blockIdx (g : GShape) (ninactive nsb1 nsb2 nsb3 blocki : Nat) : BlockIdx :=
  let vi := blocki / (nsb1 * nsb2 * nsb3 * (g.nboxes - ninactive))
  let acu := blocki - nsb1 * nsb2 * nsb3 * (g.nboxes - ninactive) * vi
  let abi := acu / (nsb1 * nsb2 * nsb3)
  let bi := indexOfActive g ninactive abi
  let acu := acu - nsb1 * nsb2 * nsb3 * abi
  let sbk := acu / (nsb1 * nsb2)
  let acu := acu - nsb1 * nsb2 * sbk
  let sbj := acu / nsb1
  ⟨vi, bi, acu - nsb1 * sbj, sbj, sbk⟩

variable {K : Type} [Field K] [LinearOrder K]

/-- The first entry on the diagonal of column `col`
(`src/utility/GridIterators/wrappers_for_JacobiPrecon.c:129-132,447-450`). -/
def diagEntry (A : Nat → SVec K) (col : Nat) : Option K :=
  ((A col).find? fun e => e.1 = (col : Int)).map Prod.snd

/-- One column of the loop that sets `DiagMinv_JacobiPrecon`
(`src/utility/GridIterators/wrappers_for_JacobiPrecon.c:128-136`). -/
def diagInvPass (A : Nat → SVec K) (j : Nat) (D : Nat → K) : Unit ⊕ (Nat → K) :=
  match diagEntry A (j - 1) with
  | none => .inr D
  | some DiagM => if DiagM = 0 then .inl () else .inr (aset D (j - 1) (1 / DiagM))

/-- `DiagMinv_JacobiPrecon` (`src/utility/GridIterators/wrappers_for_JacobiPrecon.c:124-136`). -/
def diagInv (A : Nat → SVec K) (ncols : Nat) : Res (Nat → K) :=
  match forRet ncols (diagInvPass A) fun _ => 0 with
  | .inl _ => .abort
  | .inr D => .ok D

/-- One entry of `Jacobi_Preconditioner_from_DiagM`
(`src/utility/GridIterators/wrappers_for_JacobiPrecon.c:57-60`). -/
def jacobiEntry (D : Nat → K) (vlx vlb : VIdx) (b i j : Nat) (s : GData K × Nat) : GData K × Nat :=
  (s.1.set b (vlx.index j) i (s.1 b (vlb.index j) i * D s.2), s.2 + 1)

/-- `Jacobi_Preconditioner_from_DiagM` (`src/utility/GridIterators/wrappers_for_JacobiPrecon.c:40-69`).
`none` is a pointer `DiagMinv_JacobiPrecon` that is NULL or points to memory that has been freed; reading
through it is undefined behaviour. -/
def jacobiPrecon (DiagMinv : Option (Nat → K)) (g : GShape) (vlx vlb : VIdx) (v : GData K) :
    Res (GData K) :=
  match DiagMinv with
  | some D => .ok (loopPoints g vlx.n (jacobiEntry D vlx vlb) (v, 0)).1
  | none => if gridLines g vlx.n = 0 then .ok v else .ub

/-- A linear solver: it gets the preconditioner as a function of the two lists. -/
abbrev PreconSolver (K : Type) := (VIdx → VIdx → GData K → Res (GData K)) → GData K → Res (GData K × Int)

/-- `linSolve_with_Jacobi_precon` (`src/utility/GridIterators/wrappers_for_JacobiPrecon.c:73-151`) after
`SetMatrixColumns_slowly` has put `ev` into the columns and set `vlx` to zero on the grid. Returns also the
value of `DiagMinv_JacobiPrecon` at the end, which points to freed memory. -/
def linSolveJacobi (lsolver : PreconSolver K) (g : GShape) (ev : List (MEvent K)) (v : GData K)
    (vlx : VIdx) : Res ((GData K × Int) × Option (Nat → K)) :=
  (diagInv (columnsOf ev) (gridLines g vlx.n)).bind fun D =>
  (lsolver (fun x b => jacobiPrecon (some D) g x b) (zeroList g vlx v)).bind fun r => .ok (r, none)

/-- `templates_qmr_wrapper_with_Jacobi_precon` and `templates_bicg_wrapper_with_Jacobi_precon`
(`src/utility/GridIterators/wrappers_for_JacobiPrecon.c:221-255`): `DiagMinv` is the value that the pointer
has before. -/
def solveJacobiUnset (lsolver : PreconSolver K) (DiagMinv : Option (Nat → K)) (g : GShape) (v : GData K) :
    Res (GData K × Int) :=
  lsolver (fun x b => jacobiPrecon DiagMinv g x b) v

/-- The diagonal of a block
(`src/utility/GridIterators/wrappers_for_JacobiPrecon.c:443-452`). -/
def diagOf (A : Nat → SVec K) (ncols : Nat) : Nat → K :=
  upLoop 0 ncols (fun col D => match diagEntry A col with
    | none => D
    | some a => aset D col a) fun _ => 0

/-- What is stored for a block. -/
structure JBlock (K : Type) where
  dim : Nat
  diag : Nat → K
  csc : Csc K

/-- Number of columns of a block
(`src/utility/GridIterators/wrappers_for_JacobiPrecon.c:420-421`). -/
def blockCols (d : Dims) (sbi sbj sbk nsb1 nsb2 nsb3 : Nat) : Nat :=
  let r1 := subboxRange d.n1 sbi nsb1
  let r2 := subboxRange d.n2 sbj nsb2
  let r3 := subboxRange d.n3 sbk nsb3
  (r1.2 - r1.1) * (r2.2 - r2.1) * (r3.2 - r3.1)

/-- The block after its columns are set
(`src/utility/GridIterators/wrappers_for_JacobiPrecon.c:443-510`); `s` is what calloc returns. The same arrays
go to UMFPACK and to SuiteSparseQR. -/
def setBlock (A : Nat → SVec K) (ncols : Nat) (dropbelow : K) (s : Csc K) : JBlock K :=
  ⟨ncols, diagOf A ncols, (cscFromColumns A ncols dropbelow s).1⟩

/-- `Matrix_BlockJacobi_Solve` (`src/utility/GridIterators/wrappers_for_JacobiPrecon.c:260-286`).
`numeric` is what the factorisation has reported (`NumericInfo` or `cc_status`), `solve` is
`umfpack_dl_solve` or the solver of SuiteSparseQR, `x` is what dmalloc returns. -/
def blockSolve (numeric : Int) (solve : UmfSolver K) (B : JBlock K) (x b : Nat → K) : Nat → K :=
  let r := if numeric = 0 then solve B.dim B.csc.Ap B.csc.Ai B.csc.Ax b else (-6662442, x)
  if r.1 ≠ 0 then
    upLoop 0 B.dim (fun k x => if B.diag k ≠ 0 then aset x k (b k / B.diag k) else aset x k 0) r.2
  else r.2

/-- One pass of `BlockJacobi_Preconditioner_from_Blocks`
(`src/utility/GridIterators/wrappers_for_JacobiPrecon.c:290-337`,
`src/utility/GridIterators/utility.c:264-317`) as accesses to the shared memory, whose places are
(box, variable, point). The local variables are the array `b`; `solve` is what the solver makes of it. -/
def blockProg (dims : Nat → Dims) (q : BlockIdx) (nsb1 nsb2 nsb3 : Nat) (vlx vlb : VIdx)
    (solve : (Nat → K) → Nat → K) : List (Act (Nat × Nat × Nat) K) :=
  let b := q.bi.toNat
  let loads := loopSubbox (dims b) q.sbi q.sbj q.sbk nsb1 nsb2 nsb3
    (fun ijk l acts => acts ++ [Act.load l (b, vlb.index q.vi, ijk)]) []
  loopSubbox (dims b) q.sbi q.sbj q.sbk nsb1 nsb2 nsb3
    (fun ijk l acts => acts ++ [Act.store (b, vlx.index q.vi, ijk) fun ρ => solve ρ l]) loads

end Sgrid
