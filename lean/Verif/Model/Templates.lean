import Verif.Model.Basic
import Mathlib.Data.Real.Basic

/-!
src/utility/GridIterators/wrappers_for_templates.c: the solvers of the Templates library, which know the matrix only through
the functions matvec and psolveLEFT without arguments for the grid.

A variable list is its flat array of N numbers (C45).  Pointers to functions are numbers, and `env` says what they do.
A solver of the library is a tree that asks for matvec or psolveLEFT and goes on with the answer.
-/

namespace Sgrid

/-- The numbers of a variable list. -/
abbrev TVec (N : Nat) := Fin N → ℝ

/-- One entry of the arrays lop_fortemplates, … (wrappers_for_templates.c:27-34). -/
structure TGlob where
  lop : Nat
  precon : Nat
  r : Nat
  x : Nat
  c1 : Nat
  c2 : Nat
  dim : Nat

/-- The global variables of the file, DiagMinv_JacobiPrecon, and the variable lists of the grid. -/
structure TWorld (N : Nat) where
  ig : Int
  glob : Int → TGlob
  diag : TVec N
  grid : Nat → TVec N

/-- What the functions do: void f(vl1, vl2, vl3, vl4). -/
abbrev TEnv (N : Nat) := Nat → Nat → Nat → Nat → Nat → TWorld N → Res (TWorld N)

variable {N : Nat}

/-- The entry at iglobal_fortemplates. -/
def TWorld.cur (w : TWorld N) : TGlob := w.glob w.ig

/-- COPY_ARRAY_INTO_VL. -/
def TWorld.put (w : TWorld N) (n : Nat) (v : TVec N) : TWorld N :=
  { w with grid := fun k => if k = n then v else w.grid k }

/-- matvec (wrappers_for_templates.c:57-78): the new y. -/
def tMatvec (env : TEnv N) (alpha : ℝ) (x : TVec N) (beta : ℝ) (y : TVec N) (w : TWorld N) : Res (TVec N × TWorld N) :=
  let w := w.put w.cur.x x
  (env w.cur.lop w.cur.r w.cur.x w.cur.c1 w.cur.c2 w).bind fun w =>
  let w := w.put w.cur.x y
  let w := w.put w.cur.r (fun i => alpha * w.grid w.cur.r i + beta * w.grid w.cur.x i)
  .ok (w.grid w.cur.r, w)

/-- Jacobi_Preconditioner_from_DiagM as a pointer. -/
def tJacobi : Nat := 0

/-- Preconditioner_I as a pointer. -/
def tIdent : Nat := 1

/-- psolveLEFT (wrappers_for_templates.c:103-133): the new x. -/
def tPsolve (env : TEnv N) (x b : TVec N) (w : TWorld N) : Res (TVec N × TWorld N) :=
  if w.cur.precon = tJacobi then
    .ok (fun i => if i.val < w.cur.dim then b i * w.diag i else x i, w)
  else if w.cur.precon = tIdent then
    .ok (fun i => if i.val < w.cur.dim then b i else x i, w)
  else
    let w := w.put w.cur.r b
    (env w.cur.precon w.cur.x w.cur.r w.cur.c1 w.cur.c2 w).bind fun w => .ok (w.grid w.cur.x, w)

/-- What a solver leaves in X, ITER, RESID, INFO. -/
structure TOut (N : Nat) where
  X : TVec N
  iter : Int
  resid : ℝ
  info : Int

/-- A solver such as gmres_, bicgstab_, cgs_. -/
inductive TSolver (N : Nat) where
  | done (o : TOut N)
  | matvec (alpha : ℝ) (x : TVec N) (beta : ℝ) (y : TVec N) (next : TVec N → TSolver N)
  | psolve (x b : TVec N) (next : TVec N → TSolver N)

/-- The solver with the functions of the file. -/
def TSolver.run (env : TEnv N) : TSolver N → TWorld N → Res (TOut N × TWorld N)
  | .done o, w => .ok (o, w)
  | .matvec alpha x beta y next, w => (tMatvec env alpha x beta y w).bind fun p => (next p.1).run env p.2
  | .psolve x b next, w => (tPsolve env x b w).bind fun p => (next p.1).run env p.2

/-- MAX_NGLOBALS (wrappers_for_templates.c:24). -/
def tMax : Int := 1024

/-- templates_gmres_wrapper (wrappers_for_templates.c:196-296), and in the same way templates_bicgstab_wrapper and
templates_cgs_wrapper: the value that is returned, normres and the new state.  `solver` gets B, X, itmax, tol.  tol is
already scaled, and the memory is there. -/
def tWrapper (env : TEnv N) (solver : TVec N → TVec N → Int → ℝ → TSolver N) (x b r c1 c2 : Nat) (itmax : Int) (tol : ℝ)
    (lop precon : Nat) (w : TWorld N) : Res (Int × ℝ × TWorld N) :=
  let w := { w with ig := w.ig + 1 }
  if w.ig ≥ tMax then .abort
  else
    let w := { w with glob := fun k => if k = w.ig then ⟨lop, precon, r, x, c1, c2, N⟩ else w.glob k }
    let B := w.grid b
    let X := w.grid x
    ((solver B X itmax tol).run env w).bind fun p =>
    let w := { p.2 with ig := p.2.ig - 1 }
    let w := w.put x p.1.X
    .ok (if p.1.info < 0 then p.1.info else if p.1.info > 0 then -p.1.iter else p.1.iter, p.1.resid, w)

/-- templates_Preconditioner_for_templates_solver (wrappers_for_templates.c:908-969) without finite differences.  `tolOf` is the
tolerance that is computed from the norm of vlr. -/
def tPreconditioner (env : TEnv N) (solver : TVec N → TVec N → Int → ℝ → TSolver N) (itmax : Int) (tolOf : TVec N → ℝ)
    (vlx vlr vlc1 vlc2 : Nat) (w : TWorld N) : Res (TWorld N) :=
  if w.ig < 0 then .abort
  else (tWrapper env solver vlx vlr vlr vlc1 vlc2 itmax (tolOf (w.grid vlr)) w.cur.lop tIdent w).bind fun p => .ok p.2.2

end Sgrid
