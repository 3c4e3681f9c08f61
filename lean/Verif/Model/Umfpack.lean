import Verif.Model.ReadMatrix

/-!
# Matrices in compressed columns and the call of UMFPACK

`src/utility/LinAlg/umfpack_dl_interface.c`, `src/utility/LinAlg/umfpack_di_interface.c`,
`src/utility/GridIterators/wrappers_for_UMFPACK.c`. `Ap`, `Ai`, `Ax` and `n` are the arrays and the counter
of the code. UMFPACK itself is an arbitrary function. The versions with `int` and with `LONGINT` are the
same. Messages and allocation are left out.
-/

namespace Sgrid

/-- The arrays `Ap`, `Ai`, `Ax` and the counter `n`. -/
structure Csc (K : Type) where
  Ap : Nat → Nat
  Ai : Nat → Int
  Ax : Nat → K
  n : Nat

variable {K : Type} [Field K] [LinearOrder K]

/-- Add an entry to column `j` (`src/utility/LinAlg/umfpack_dl_interface.c:83-87,134-138`). -/
def cscAdd (dropbelow : K) (j : Nat) (i : Int) (Aij : K) (s : Csc K) : Csc K :=
  if |Aij| ≤ dropbelow then s else
  { Ap := aset s.Ap (j + 1) (s.Ap (j + 1) + 1), Ai := aset s.Ai s.n i, Ax := aset s.Ax s.n Aij,
    n := s.n + 1 }

/-- The start of column `j` (`src/utility/LinAlg/umfpack_dl_interface.c:79,129`). -/
def cscCol (j : Nat) (s : Csc K) : Csc K := { s with Ap := aset s.Ap (j + 1) (s.Ap j) }

/-- `set_umfpack_dl_matrix_from_lines` (`src/utility/LinAlg/umfpack_dl_interface.c:59-106`) and
`set_umfpack_di_matrix_from_lines` (`src/utility/LinAlg/umfpack_di_interface.c:58-105`); returns
`Ap[nlines]`. -/
def cscFromLines (A : Nat → SVec K) (nlines : Nat) (dropbelow : K) (s : Csc K) : Csc K × Nat :=
  let s := { s with Ap := aset s.Ap 0 0, n := 0 }
  let s := upLoop 0 nlines (fun j s =>
    upLoop 0 nlines (fun i s => cscAdd dropbelow j i ((A i).comp j) s) (cscCol j s)) s
  (s, s.Ap nlines)

/-- `set_umfpack_dl_matrix_from_columns` (`src/utility/LinAlg/umfpack_dl_interface.c:109-157`) and
`set_umfpack_di_matrix_from_columns` (`src/utility/LinAlg/umfpack_di_interface.c:108-156`); returns
`Ap[ncols]`. -/
def cscFromColumns (A : Nat → SVec K) (ncols : Nat) (dropbelow : K) (s : Csc K) : Csc K × Nat :=
  let s := { s with Ap := aset s.Ap 0 0, n := 0 }
  let s := upLoop 0 ncols (fun j s =>
    (A j).foldl (fun s e => cscAdd dropbelow j e.1 e.2 s) (cscCol j s)) s
  (s, s.Ap ncols)

/-- The number of entries of a matrix made of lines
(`src/utility/LinAlg/umfpack_di_interface.c:194-196`). -/
def nzLines (A : Nat → SVec K) (nlines : Nat) : Nat :=
  upLoop 0 nlines (fun i nz => upLoop 0 nlines (fun j nz => if (A i).comp j ≠ 0 then nz + 1 else nz) nz) 0

/-- The number of entries of a matrix made of columns
(`src/utility/LinAlg/umfpack_dl_interface.c:195`). -/
def nzColumns (A : Nat → SVec K) (ncols : Nat) : Nat :=
  upLoop 0 ncols (fun j nz => nz + (A j).length) 0

/-- UMFPACK: the size, the matrix and the right hand side; `INFO` and `x`. -/
abbrev UmfSolver (K : Type) := Nat → (Nat → Nat) → (Nat → Int) → (Nat → K) → (Nat → K) → Int × (Nat → K)

/-- `translate_SuiteSparse_warnings` (`src/utility/LinAlg/SuiteSparseQR_C_interface.c:50-56`). -/
def translateInfo (INFO : Int) : Int := if INFO > 0 then -(100000 + INFO) else INFO

/-- The number of lines (`src/utility/LinAlg/umfpack_dl_interface.c:192`). -/
def gridLines (g : GShape) (nvars : Nat) : Nat :=
  g.forBoxes (fun b nlines => nlines + g.nnodes b * nvars) 0

/-- What follows when the matrix is there: `b` from the list, the solution, `x` into the list
(`src/utility/LinAlg/umfpack_dl_interface.c:31-33,206-220,227-278,285-380`). Positive values of `INFO` are
warnings. -/
def umfSolve (into : GShape → GData K → VIdx → (Nat → K) → Nat → K)
    (out : GShape → (Nat → K) → GData K → VIdx → GData K) (solve : UmfSolver K) (g : GShape) (s : Csc K)
    (v : GData K) (vlx vlb : VIdx) : Res (GData K × Int) :=
  let b := into g v vlb fun _ => 0
  let r := solve (gridLines g vlx.n) s.Ap s.Ai s.Ax b
  if r.1 < 0 then .abort else .ok (out g r.2 v vlx, translateInfo r.1)

/-- `umfpack_dl_solve_fromAcolumns` (`src/utility/LinAlg/umfpack_dl_interface.c:167-279`) and
`umfpack_di_solve_fromAcolumns` (`src/utility/LinAlg/umfpack_di_interface.c:410-522`). `s` is what calloc
returns. -/
def umfSolveColumns (solve : UmfSolver K) (g : GShape) (A : Nat → SVec K) (v : GData K) (vlx vlb : VIdx)
    (dropbelow : K) (s : Csc K) : Res (GData K × Int) :=
  umfSolve copyVarlistIntoArray copyArrayIntoVarlist solve g
    (cscFromColumns A (gridLines g vlx.n) dropbelow s).1 v vlx vlb

/-- `umfpack_di_solve_forSortedVars_fromAcolumns`
(`src/utility/LinAlg/umfpack_di_interface.c:528-644`). -/
def umfSolveColumnsSorted (solve : UmfSolver K) (g : GShape) (A : Nat → SVec K) (v : GData K)
    (vlx vlb : VIdx) (dropbelow : K) (s : Csc K) : Res (GData K × Int) :=
  umfSolve copyVarlistIntoArraySorted copyArrayIntoVarlistSorted solve g
    (cscFromColumns A (gridLines g vlx.n) dropbelow s).1 v vlx vlb

/-- `umfpack_di_solve_fromAlines` (`src/utility/LinAlg/umfpack_di_interface.c:166-280`). -/
def umfSolveLines (solve : UmfSolver K) (g : GShape) (A : Nat → SVec K) (v : GData K) (vlx vlb : VIdx)
    (dropbelow : K) (s : Csc K) : Res (GData K × Int) :=
  umfSolve copyVarlistIntoArray copyArrayIntoVarlist solve g
    (cscFromLines A (gridLines g vlx.n) dropbelow s).1 v vlx vlb

/-- `umfpack_di_solve_forSortedVars_fromAlines`
(`src/utility/LinAlg/umfpack_di_interface.c:286-404`). -/
def umfSolveLinesSorted (solve : UmfSolver K) (g : GShape) (A : Nat → SVec K) (v : GData K)
    (vlx vlb : VIdx) (dropbelow : K) (s : Csc K) : Res (GData K × Int) :=
  umfSolve copyVarlistIntoArraySorted copyArrayIntoVarlistSorted solve g
    (cscFromLines A (gridLines g vlx.n) dropbelow s).1 v vlx vlb

/-- `UMFPACK_solve_wrapper` (`src/utility/GridIterators/wrappers_for_UMFPACK.c:193-247`) after
`SetMatrixColumns_slowly` has put `ev` into the columns and set `vlx` to zero on the grid. `drop` is the
parameter `GridIterators_setABStozero_below`. -/
def umfWrapper (solve : UmfSolver K) (g : GShape) (ev : List (MEvent K)) (v : GData K) (vlx vlb : VIdx)
    (drop : K) (s : Csc K) : Res (GData K × Int) :=
  umfSolveColumns solve g (columnsOf ev) (zeroList g vlx v) vlx vlb drop s

/-- `UMFPACK_solve_forSortedVars_wrapper`
(`src/utility/GridIterators/wrappers_for_UMFPACK.c:252-295`); `drop` and `drop2` are the parameters
`LinAlg_setABStozero_below` and `GridIterators_setABStozero_below`. `di` is whether the parameter
`GridIterators_UMFPACK_version` contains di. -/
def umfWrapperSorted (solve : UmfSolver K) (g : GShape) (Fx : GData K → GData K) (v : GData K)
    (vlFx vlx vlb : VIdx) (drop drop2 : K) (di : Bool) (s : Csc K) : Res (GData K × Int) :=
  let r := matrixRunSorted g Fx vlFx vlx drop v
  if di then umfSolveColumnsSorted solve g (columnsOf r.2) r.1 vlx vlb drop2 s else .abort

end Sgrid
