import Mathlib.Analysis.Real.Sqrt
import Verif.Model.Loop
import Verif.Model.NewtonLine

/-!
# Functions that are needed outside of their range

The end of `src/utility/numerics/newton_linesearch.c` (the same code is in
`src/utility/NumericUtils/newton_lnsrch.c:437-548`): check whether a vector is in a range, find points at
and near the boundary of the range, and extrapolate a function linearly. Doubles are real numbers.
-/

namespace Sgrid

noncomputable section

/-- `newton_lnsrch_vec_within_range` (`src/utility/numerics/newton_linesearch.c:375-387`). -/
def vecWithinRange (n : Nat) (vec hi lo : RArr) : Int :=
  upLoop 0 n (fun i ret =>
    let ret := if vec i > hi i then 0 else ret
    if vec i < lo i then 0 else ret) 1

/-- `cent[i]` and `dir[i]` (`src/utility/numerics/newton_linesearch.c:414-417`). -/
def rangeCent (hi lo : RArr) (i : Nat) : ℝ := 5 / 10 * (hi i + lo i)

/-- One pass of the loop that finds `s` (`src/utility/numerics/newton_linesearch.c:411-426`); the state is
`s` and `sc`, which is not initialised at first. -/
def rangePass (vec hi lo : RArr) (i : Nat) (st : ℝ × Option ℝ) : Res (ℝ × Option ℝ) :=
  let dir := vec i - rangeCent hi lo i
  if dir ≠ 0 then
    let sc := if vec i > hi i then some ((hi i - rangeCent hi lo i) / dir) else st.2
    let sc := if vec i < lo i then some ((lo i - rangeCent hi lo i) / dir) else sc
    match sc with
    | none => .ub
    | some t => .ok (if t < st.1 then t else st.1, sc)
  else .ok st

/-- `newton_lnsrch_set_vecs_for_lininterp` (`src/utility/numerics/newton_linesearch.c:391-453`): `vb` and
`vi`. -/
def setVecsForLininterp (n : Nat) (vec hi lo vb vi : RArr) : Res (RArr × RArr) :=
  match forN n (rangePass vec hi lo) (1, none) with
  | .ok (s, _) =>
    .ok (upLoop 0 n (fun i v =>
      let dir := vec i - rangeCent hi lo i
      let vb := aset v.1 i (rangeCent hi lo i + dir * s)
      let vi := aset v.2 i (rangeCent hi lo i + dir * s * (999999 / 1000000))
      let vb := if vb i > hi i then aset vb i (hi i) else vb
      let vb := if vb i < lo i then aset vb i (lo i) else vb
      (vb, vi)) (vb, vi))
  | .abort => .abort
  | .ub => .ub

/-- `newton_lnsrch_get_fvec_by_lininterp` (`src/utility/numerics/newton_linesearch.c:457-485`). -/
def getFvecByLininterp (n : Nat) (vec vb vi fvec fvb fvi : RArr) : RArr :=
  let r := upLoop 0 n (fun i (r : ℝ × ℝ) =>
    let h := r.1 + (vb i - vi i) * (vb i - vi i)
    (h, r.2 + (vec i - vb i) * (vec i - vb i))) (0, 0)
  let h := Real.sqrt r.1
  let s := Real.sqrt r.2
  setLoop n (fun i => fvb i + (fvb i - fvi i) / h * s) fvec

end

end Sgrid
