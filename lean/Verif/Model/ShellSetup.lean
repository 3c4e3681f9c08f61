import Mathlib.Algebra.Field.Basic
import Mathlib.Order.Defs.LinearOrder
import Verif.Model.PureLoop

/-!
src/physics/ScalarOnKerr/setupgrid.c:26-46: the shells are moved so that they overlap.

Doubles are elements of an ordered field; `Setd` stores the number itself.
-/

namespace Sgrid

variable {K : Type} [Field K] [LinearOrder K]

/-- A shell of the dummy grid: `n1` and the values `X[0]` to `X[n1-1]` along a radial line (setupgrid.c:29-34). -/
structure Shell (K : Type) where
  n1 : Nat
  X : Nat → K

/-- Xshift and the parameters boxb_min1, boxb_max1. -/
structure ShellPars (K : Type) where
  shift : K
  min1 : Nat → K
  max1 : Nat → K

/-- ScalarOnKerr_setup_boxes (setupgrid.c:27-46). -/
def setupShells (nboxes : Nat) (box : Nat → Shell K) (min1 max1 : Nat → K) : ShellPars K :=
  upLoop 1 nboxes (fun b s =>
    let X := (box b).X
    let n1 := (box b).n1
    let lX := (box (b - 1)).X
    let ln1 := (box (b - 1)).n1
    let dX := X 1 - X 0
    let dlX := lX (ln1 - 1) - lX (ln1 - 2)
    let shift := if dX > dlX then s.shift + (lX (ln1 - 1) - X 1) else s.shift + (lX (ln1 - 2) - X 0)
    ⟨shift, aset s.min1 b (X 0 + shift), aset s.max1 b (X (n1 - 1) + shift)⟩) ⟨0, min1, max1⟩

end Sgrid
