import Mathlib.Algebra.Order.Field.Basic
import Mathlib.Algebra.Group.Pi.Basic
import Verif.Model.RootFind

/-!
# bicgstab

`src/utility/GridIterators/bicgstab.c`. A list of variables is the function that gives its numbers; an index
stands for variable, box and point, and the loops over variables, boxes and points are operations on
functions (`Verif.Model.VarArith` has these loops). The seven temporary lists and `x`, `b`, `r` are
different lists. `lop` and `precon` are functions of their second argument; what they do with `c1` and `c2`
is left out. `dot` and `norm2` are arguments (`GridDotProduct` and `GridL2Norm`, see C82). Doubles are
elements of an ordered field; if a number is divided by zero the model stops with `none`. `itmax` is not
negative. Messages and the memory of the temporary lists are left out.
-/

namespace Sgrid

variable {ι K : Type} [Field K] [LinearOrder K]

/-- The functions that `bicgstab` calls. -/
structure BicgOps (ι K : Type) where
  lop : (ι → K) → ι → K
  precon : (ι → K) → ι → K
  dot : (ι → K) → (ι → K) → K
  norm2 : (ι → K) → K

/-- The variables of `bicgstab` that live through the loop. -/
structure Bicg (ι K : Type) where
  x : ι → K
  r : ι → K
  p : ι → K
  v : ι → K
  alpha : K
  rho : K
  rho1 : K
  omega : K
  normres : K

/-- `rhotol` and `omegatol` (`src/utility/GridIterators/bicgstab.c:21-22`). -/
def bicgTiny : K := 1 / 10 ^ 50

/-- The direction `p` (`src/utility/GridIterators/bicgstab.c:68-82`); `j` is `ii+1`. -/
def bicgDir (j : Nat) (rho : K) (s : Bicg ι K) : Option (ι → K) :=
  if j = 1 then some s.r else
  if s.rho1 = 0 ∨ s.omega = 0 then none else
  let beta := (rho / s.rho1) * (s.alpha / s.omega)
  some fun i => s.r i + beta * (s.p i - s.omega * s.v i)

/-- One pass of the loop (`src/utility/GridIterators/bicgstab.c:63-145`); `j` is `ii+1`. The result is
`.inl none` after a division by zero, `.inl (some (ii, state))` for a `break`. -/
def bicgStep (o : BicgOps ι K) (rt : ι → K) (tol : K) (j : Nat) (s : Bicg ι K) :
    Option (Nat × Bicg ι K) ⊕ Bicg ι K :=
  let rho := o.dot rt s.r
  if |rho| < bicgTiny then .inl (some (j - 1, { s with rho := rho })) else
  match bicgDir j rho s with
  | none => .inl none
  | some p =>
    let ph := o.precon p
    let v := o.lop ph
    if o.dot rt v = 0 then .inl none else
    let alpha := rho / o.dot rt v
    let sv := fun i => s.r i - alpha * v i
    let normres := o.norm2 sv
    if normres ≤ tol then
      let x := fun i => s.x i + alpha * ph i
      .inl (some (j - 1, ⟨x, s.r, p, v, alpha, rho, s.rho1, s.omega, normres⟩))
    else
    let sh := o.precon sv
    let t := o.lop sh
    if o.dot t t = 0 then .inl none else
    let omega := o.dot t sv / o.dot t t
    let x := fun i => s.x i + (alpha * ph i + omega * sh i)
    let r := fun i => sv i - omega * t i
    let normres := o.norm2 r
    if normres ≤ tol then .inl (some (j - 1, ⟨x, r, p, v, alpha, rho, s.rho1, omega, normres⟩)) else
    let s' : Bicg ι K := ⟨x, r, p, v, alpha, rho, rho, omega, normres⟩
    if |omega| < bicgTiny then .inl (some (j - 1, s')) else .inr s'

/-- The return value (`src/utility/GridIterators/bicgstab.c:156-164`). -/
def bicgCode (itmax ii : Nat) (s : Bicg ι K) : Int :=
  if ii > itmax then -1 else
  if |s.rho| < bicgTiny then -10 else
  if |s.omega| < bicgTiny then -11 else
  ii + 1

/-- `bicgstab` (`src/utility/GridIterators/bicgstab.c:13-165`): the return value, `x`, `r` and `*normres`.
`p0`, `v0` are the contents of the temporary lists. -/
def bicgstab (o : BicgOps ι K) (x b p0 v0 : ι → K) (itmax : Nat) (tol : K) :
    Option (Int × (ι → K) × (ι → K) × K) :=
  let r := fun i => b i - o.lop x i
  let rt := r
  let normres := o.norm2 r
  if normres ≤ tol then some (0, x, r, normres) else
  match forRet itmax (bicgStep o rt tol) ⟨x, r, p0, v0, 0, 0, 1, 0, normres⟩ with
  | .inl none => none
  | .inl (some (ii, s)) => some (bicgCode itmax ii s, s.x, s.r, s.normres)
  | .inr s => some (bicgCode itmax itmax s, s.x, s.r, s.normres)

end Sgrid
