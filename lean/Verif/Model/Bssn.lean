import Mathlib.Analysis.SpecialFunctions.Pow.Real
import Verif.Model.PureLoop

/-!
src/physics/BSSN/BSSN_AlgConstr.c. Doubles are real numbers. `u c ijk` is entry `ijk` of the array
`vlldataptr(ucur, box, c)` (lines 33-44); different components have different arrays.
-/

namespace Sgrid

/-- Assignment to one entry of the array of component `c`. -/
def aset2 (u : Nat → Nat → ℝ) (c i : Nat) (x : ℝ) : Nat → Nat → ℝ :=
  fun c' i' => if c' = c ∧ i' = i then x else u c' i'

/-- `detg` (BSSN_AlgConstr.c:58-62 and 104-108); components 0 to 5 are g11, g12, g13, g22, g23, g33. -/
def bssnDetg (u : Nat → Nat → ℝ) (i : Nat) : ℝ :=
  2 * u 1 i * u 2 i * u 4 i + u 0 i * u 3 i * u 5 i -
    u 5 i * (u 1 i * u 1 i) - u 3 i * (u 2 i * u 2 i) - u 0 i * (u 4 i * u 4 i)

/-- `trA` (BSSN_AlgConstr.c:119-128); components 6 to 11 are A11, A12, A13, A22, A23, A33. -/
def bssnTrA (u : Nat → Nat → ℝ) (i : Nat) (detginv : ℝ) : ℝ :=
  detginv * (-2 * u 10 i * u 0 i * u 4 i + u 6 i * u 3 i * u 5 i +
    u 0 i * (u 11 i * u 3 i + u 9 i * u 5 i) +
    2 * (u 2 i * (u 10 i * u 1 i - u 8 i * u 3 i + u 7 i * u 4 i) +
      u 1 i * (u 8 i * u 4 i - u 7 i * u 5 i)) -
    u 11 i * (u 1 i * u 1 i) - u 9 i * (u 2 i * u 2 i) - u 6 i * (u 4 i * u 4 i))

/-- The body of the loop over points (BSSN_AlgConstr.c:58-171). -/
noncomputable def bssnPoint (subtractA normalizedetg : Bool) (i : Nat) (u : Nat → Nat → ℝ) : Nat → Nat → ℝ :=
  let oothree : ℝ := 1 / 3
  let detg := bssnDetg u i
  let u := if normalizedetg then
      let aux := detg ^ (-oothree)
      let u := aset2 u 0 i (aux * u 0 i)
      let u := aset2 u 1 i (aux * u 1 i)
      let u := aset2 u 2 i (aux * u 2 i)
      let u := aset2 u 3 i (aux * u 3 i)
      let u := aset2 u 4 i (aux * u 4 i)
      aset2 u 5 i (aux * u 5 i)
    else u
  let detg := if normalizedetg then bssnDetg u i else detg
  let detginv := 1 / detg
  let trA := bssnTrA u i detginv
  if subtractA then
    let aux := -(oothree * trA)
    let u := aset2 u 6 i (u 6 i + aux * u 0 i)
    let u := aset2 u 7 i (u 7 i + aux * u 1 i)
    let u := aset2 u 8 i (u 8 i + aux * u 2 i)
    let u := aset2 u 9 i (u 9 i + aux * u 3 i)
    let u := aset2 u 10 i (u 10 i + aux * u 4 i)
    aset2 u 11 i (u 11 i + aux * u 5 i)
  else u

/-- BSSN_AlgConstr (BSSN_AlgConstr.c:17-181) in one active box with `n` points. -/
noncomputable def bssnAlgConstr (subtractA normalizedetg : Bool) (n : Nat) (u : Nat → Nat → ℝ) :
    Nat → Nat → ℝ :=
  upLoop 0 n (bssnPoint subtractA normalizedetg) u

end Sgrid
