import Mathlib.Algebra.Order.Field.Basic
import Verif.Model.Basic
import Verif.Model.Sparse
import Verif.Model.RootFind

/-!
# SOR

`src/utility/GridIterators/SOR.c`. Doubles are elements of an ordered field, `sqrt` is an argument.
`itmax` is not negative. Messages are left out.
-/

namespace Sgrid

variable {K : Type} [Field K]

/-- `sig` and `Aii` after the loop over the entries of a line (`src/utility/GridIterators/SOR.c:24-35`). -/
def sorLine (v : SVec K) (x : DArr K) (i : Int) : K × K :=
  v.foldl (fun s e => if e.1 ≠ i then (s.1 + e.2 * x e.1, s.2) else (s.1, e.2)) (0, 0)

variable [LinearOrder K]

/-- `SOR_step` (`src/utility/GridIterators/SOR.c:14-42`); the loop variable of `forRet` is `i+1`. -/
def sorStep (A : Nat → SVec K) (nlines : Nat) (x b : DArr K) (omega : K) : Res (DArr K) :=
  match forRet nlines (fun j x =>
    let i := j - 1
    let s := sorLine (A i) x i
    if s.2 = 0 then .inl () else
    .inr (Function.update x (i : Int) ((1 - omega) * x i + (omega / s.2) * (b i - s.1)))) x with
  | .inl () => .abort
  | .inr x => .ok x

/-- `scalarproduct_vectors` (`src/utility/Spectral/matrices.c:82-88`). -/
def scalarprod (u v : DArr K) (n : Nat) : K :=
  upLoop 0 n (fun i sum => sum + u i * v i) 0

/-- The norm of the residual (`src/utility/GridIterators/SOR.c:60-62,78-80`). `f` is what the array held
before. -/
def sorRes (sqrt : K → K) (A : Nat → SVec K) (nlines : Nat) (x b f : DArr K) : K :=
  let f := spTimesVec A nlines x f
  let f := upLoop 0 nlines (fun i f => Function.update f (i : Int) (f i - b i)) f
  sqrt (scalarprod f f nlines)

/-- One pass of the loop in `matrix_SOR` (`src/utility/GridIterators/SOR.c:74-87`). -/
def sorPass (sqrt : K → K) (A : Nat → SVec K) (nlines : Nat) (b : DArr K) (omega tol : K) (it : Nat)
    (s : DArr K × K) : Res (Nat × DArr K × K) ⊕ (DArr K × K) :=
  match sorStep A nlines s.1 b omega with
  | .ok x =>
    let normres := sorRes sqrt A nlines x b (fun _ => 0)
    if normres ≤ tol then .inl (.ok (it, x, normres)) else .inr (x, normres)
  | _ => .inl .abort

/-- `matrix_SOR` (`src/utility/GridIterators/SOR.c:45-91`): the return value, `x` and `*normres`. What the
array `f` holds before the product does not matter, it is left zero. -/
def matrixSor (sqrt : K → K) (A : Nat → SVec K) (nlines : Nat) (x b : DArr K) (omega : K)
    (itmax : Nat) (tol : K) : Res (Nat × DArr K × K) :=
  let normres := sorRes sqrt A nlines x b (fun _ => 0)
  if normres ≤ tol then .ok (0, x, normres) else
  match forRet itmax (sorPass sqrt A nlines b omega tol) (x, normres) with
  | .inl r => r
  | .inr s => .ok (itmax + 1, s.1, s.2)

end Sgrid
