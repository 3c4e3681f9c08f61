import Verif.Model.Evolve
import Verif.Model.IntList

/-!
src/utility/NumberChecker/NumberChecker.c: counts points where a variable is not finite, and ends the evolution.

The test for one value, `!finit(v) || fabs(v) > maxNumber`, is a parameter `bad`.  The memory of a variable in a box is
the list of its values at the points of the box.  x, y, z, X, Y, Z exist in each box with one value for each point; they
are only printed.  num is a double that is a whole number; `int` has no bounds.
-/

namespace Sgrid

/-- A box: the number of points, and the values of the variable; `none` is NULL. -/
structure CkBox (V : Type) where
  npoints : Nat
  var : Option (List V)
  deriving Repr, DecidableEq

/-- The two messages of NumberChecker_CheckIfFinite (NumberChecker.c:77-81 and 90-95): index, box and the value of the
variable. -/
inductive CkMessage (V : Type) where
  | first (ijk b : Nat) (v : V)
  | til (ijk b : Nat) (v : V)
  deriving Repr, DecidableEq

/-- num, messageflag, ijk_old, b_old (NumberChecker.c:15-16, 25), and what is printed. -/
structure CkScan (V : Type) where
  num : Nat
  messageflag : Nat
  ijkOld : Nat
  bOld : Nat
  out : List (CkMessage V)
  deriving Repr, DecidableEq

/-- One point (NumberChecker.c:75-97).  The arrays of coordinates have `n` entries. -/
def ckPoint {V : Type} (bad : V → Bool) (b n : Nat) (var : List V) (ijk : Nat) (s : CkScan V) : Res (CkScan V) :=
  (aget var ijk).bind fun v =>
    if bad v then
      let s := if s.messageflag = 0 then { s with out := s.out ++ [.first ijk b v] } else s
      .ok { s with ijkOld := ijk, bOld := b, messageflag := s.messageflag + 1, num := s.num + 1 }
    else if s.messageflag > 1 then
      if s.ijkOld < n then
        (aget var s.ijkOld).bind fun w =>
          .ok { s with out := s.out ++ [.til s.ijkOld s.bOld w], messageflag := 0 }
      else .ub
    else .ok { s with messageflag := 0 }

/-- One box (NumberChecker.c:55-98). -/
def ckBox {V : Type} (bad : V → Bool) (b : Nat) (box : CkBox V) (s : CkScan V) : Res (CkScan V) :=
  match box.var with
  | none => .ok s
  | some var => forN box.npoints (ckPoint bad b box.npoints var) s

/-- The loop over the boxes (NumberChecker.c:53-99). -/
def ckBoxes {V : Type} (bad : V → Bool) : Nat → List (CkBox V) → CkScan V → Res (CkScan V)
  | _, [], s => .ok s
  | b, box :: rest, s => (ckBox bad b box s).bind (ckBoxes bad (b + 1) rest)

/-- NumberChecker_CheckIfFinite (NumberChecker.c:11-110): the result and what is printed by the loop.  ijk_old and b_old
are not set at first. -/
def checkIfFinite {V : Type} (bad : V → Bool) (grid : List (CkBox V)) : Res (Int × List (CkMessage V)) :=
  (ckBoxes bad 0 grid { num := 0, messageflag := 0, ijkOld := 0, bOld := 0, out := [] }).bind fun s =>
    if s.num > 0 then
      if s.num < 1 then .ok (-1, s.out) else .ok ((s.num : Int), s.out)
    else .ok ((s.num : Int), s.out)

/-- NumberChecker_CheckIfFinite_VarList (NumberChecker.c:147-159): the list of boxes for each variable. -/
def checkIfFiniteVarList {V : Type} (bad : V → Bool) : List (List (CkBox V)) → Res Int
  | [] => .ok 0
  | g :: rest => (checkIfFinite bad g).bind fun r => (checkIfFiniteVarList bad rest).bind fun t => .ok ((r.1.natAbs : Int) + t)

variable {K : Type} [Field K] [LinearOrder K] [FloorRing K]

/-- NumberChecker_ExitIfNAN (NumberChecker.c:122-144), for the result `r` of NumberChecker_CheckIfFinite. -/
def Sim.exitIfNAN (s : Sim K) (r : Int) : Sim K :=
  if r ≠ 0 then
    let iterationmax := s.iterations
    let iterationmax := if s.finaltime > 0 then truncC (s.finaltime / s.dt + 1 / 2) else iterationmax
    { s with iteration := iterationmax }
  else s

/-- One pass of the loop of evolve_grid (src/main/main/main.c:441-471) with NumberChecker_ExitIfNAN in POST_EVOLVE
(sgrid_NumberChecker.c:27-28). -/
def Sim.evolveStepChecked (s : Sim K) (r : Int) : Res (Sim K) :=
  let s := [TimeBin.PRE_EVOLVE, .EVOLVE, .PRE_POST_EVOLVE, .POST_EVOLVE].foldl Sim.runFun s
  let s := s.exitIfNAN r
  let s := { s with iteration := s.iteration + 1 }
  let s := { s with time := (s.iteration : K) * s.dt }
  let s := [TimeBin.ANALYZE, .OUTPUT, .POST_OUTPUT].foldl Sim.runFun s
  s.checkpoint

end Sgrid
