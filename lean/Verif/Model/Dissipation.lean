import Mathlib.Algebra.Field.Basic
import Mathlib.Order.Defs.LinearOrder
import Verif.Model.PureLoop

/-!
src/utility/evolve/addDissipation.c in one box; the loop over the boxes does the same in each of them.

The memory of a box is a function of the index of the variable and of the point.  The three derivatives of
`cart_partials` are parameters that take all values in the box.  `pow(grid->dt, DissOrder)` is a parameter.
-/

namespace Sgrid

variable {K : Type} [Field K]

/-- `cart_partials(box, u, du1, du2, du3)` for three arrays that are different from u and from each other. -/
def dissPartials (D : Nat → (Nat → K) → Nat → K) (mem : Nat → Nat → K) (u d1 d2 d3 : Nat) : Nat → Nat → K :=
  aset (aset (aset mem d1 (D 0 (mem u))) d2 (D 1 (mem u))) d3 (D 2 (mem u))

/-- The nine variables that are used for the derivatives (addDissipation.c:41-50). -/
structure DissTemps where
  dux : Nat
  duy : Nat
  duz : Nat
  duxx : Nat
  duxy : Nat
  duxz : Nat
  duyy : Nat
  duyz : Nat
  duzz : Nat

/-- One pass of the loop over the variables (addDissipation.c:55-75). -/
def dissVar [DecidableEq K] (D : Nat → (Nat → K) → Nat → K) (T : DissTemps) (npoints : Nat)
    (DissFac dtToOrder dt : K) (uc un : Nat) (mem : Nat → Nat → K) : Nat → Nat → K :=
  let mem := dissPartials D mem uc T.dux T.duy T.duz
  let mem := dissPartials D mem T.dux T.duxx T.duxy T.duxz
  let mem := dissPartials D mem T.duy T.duxy T.duyy T.duyz
  let mem := dissPartials D mem T.duz T.duxz T.duyz T.duzz
  upLoop 0 npoints (fun ijk mem =>
    let lap := mem T.duxx ijk + mem T.duyy ijk + mem T.duzz ijk
    if dt ≠ 0 then aset mem un (aset (mem un) ijk (mem un ijk + dt * DissFac * dtToOrder * lap))
    else aset mem un (aset (mem un) ijk (mem un ijk + DissFac * dtToOrder * lap))) mem

/-- addDissipation (addDissipation.c:11-78) in one box, for the lists of indices `uc` and `un` of length `n`. -/
def addDissipation [LinearOrder K] (D : Nat → (Nat → K) → Nat → K) (T : DissTemps) (npoints n : Nat) (uc un : Nat → Nat)
    (DissFac dtToOrder dt : K) (mem : Nat → Nat → K) : Nat → Nat → K :=
  if DissFac ≤ 0 then mem
  else upLoop 0 n (fun j mem => dissVar D T npoints DissFac dtToOrder dt (uc j) (un j) mem) mem

end Sgrid
