import Mathlib.Analysis.SpecialFunctions.Sqrt
import Verif.Model.PureLoop

/-!
src/utility/output/output0d.c: maximum, minimum and mean values of a variable in a box.

Doubles are real numbers.  The box has the points 0 to n-1.  The functions for volume integrals are parameters, except
for the one in this file.  What is printed to files is returned.
-/

namespace Sgrid

/-- L2Norm_over_box_as_VolInt (output0d.c:27-37): the result. -/
noncomputable def l2NormBox (n : Nat) (u : Nat → ℝ) : ℝ :=
  let s := upLoop 0 n (fun i (s : ℝ × Nat) => (s.1 + u i * u i, s.2 + 1)) (0, 0)
  Real.sqrt (s.1 / (s.2 : ℝ))

/-- The values that are written (output0d.c:128-145). -/
structure Out0d where
  max : ℝ
  min : ℝ
  rms : ℝ
  meanAbs : ℝ
  mean : ℝ
  volInt : ℝ

/-- output0d_boxvar (output0d.c:65-145) with the function `volIntegral` chosen in lines 73-107; VolJac is 1 in each of
the cases. -/
noncomputable def output0dBoxvar (n : Nat) (volIntegral : (Nat → ℝ) → ℝ) (var : Nat → ℝ) : Out0d :=
  let mm := upLoop 0 n (fun i (m : ℝ × ℝ) =>
    let m := if var i > m.1 then (var i, m.2) else m
    if var i < m.2 then (m.1, var i) else m) (var 0, var 0)
  let volJac : Nat → ℝ := fun _ => 1
  let vol := volIntegral volJac
  let vol := if vol = 0 then 1 else vol
  let int1 := volIntegral fun i => var i * var i * volJac i
  let int2 := volIntegral fun i => |var i| * volJac i
  let int3 := volIntegral fun i => var i * volJac i
  { max := mm.1, min := mm.2, rms := Real.sqrt (int1 / vol), meanAbs := int2 / vol, mean := int3 / vol, volInt := int3 }

/-- The choice of the sums (output0d.c:103-107). -/
noncomputable def output0dSums (n : Nat) (var : Nat → ℝ) : Out0d := output0dBoxvar n (l2NormBox n) var

end Sgrid
