import Verif.Model.Evolve
import Verif.Model.Wolfio
import Verif.Model.Index

/-!
# When and what to output

src/utility/output/output.c. Doubles are elements of an ordered field `K`, `int` has no bounds.
-/

namespace Sgrid

section
variable {K : Type} [Field K] [LinearOrder K] [FloorRing K]

/-- `timeforoutput_di_dt` (src/utility/output/output.c:16-36): 0, or the number of the output. -/
def timeForOutput (iteration : Int) (time dT : K) (di : Int) (dt : K) : Int :=
  if di > 0 ∧ iteration.tmod di = 0 then iteration.tdiv di + 1
  else if dt > 0 then
    let i : Int := truncC (1 / 2 + |time| / dt)
    if |time| - i * dt > -(1 / 2) * |dT| ∧ |time| - i * dt ≤ 1 / 2 * |dT| then i + 1 else 0
  else 0

end

section
variable {K : Type} [Field K] [LinearOrder K]

/-- The loop of `find_ind_closest_to_X0` (src/utility/output/output.c:144-152); `X i` is the
coordinate of point `i` of the line. -/
def closestLoop (X : Nat → K) (X0 : K) (i k : Nat) : Nat × Nat :=
  if h : k - i > 1 then
    let j := (i + k) / 2
    if (X i - X0) * (X j - X0) ≤ 0 then closestLoop X X0 i j else closestLoop X X0 j k
  else (i, k)
termination_by k - i
decreasing_by all_goals omega

/-- `find_ind_closest_to_X0` on a line of `n` points (src/utility/output/output.c:130-157). A line
without points is read at -1. -/
def findClosest (n : Nat) (X : Nat → K) (X0 : K) : Res Nat :=
  if n = 0 then .ub
  else
    let k := n - 1
    if X0 ≥ X k then .ok k
    else if X0 ≤ X 0 then .ok 0
    else
      let r := closestLoop X X0 0 k
      if |X r.1 - X0| < |X r.2 - X0| then .ok r.1 else .ok r.2

/-- `find_ind_closest_to_X0` (src/utility/output/output.c:130-157); the coordinate is given at all
points of the box, the line is the one with j = k = 0. -/
def findX (n1 n2 : Nat) (x : Int → K) (X0 : K) : Res Nat :=
  findClosest n1 (fun i => x (Index.index n1 n2 i 0 0)) X0

/-- `find_ind_closest_to_Y0` (src/utility/output/output.c:160-186). -/
def findY (n1 n2 : Nat) (y : Int → K) (Y0 : K) : Res Nat :=
  findClosest n2 (fun i => y (Index.index n1 n2 0 i 0)) Y0

/-- `find_ind_closest_to_Z0` (src/utility/output/output.c:189-217). -/
def findZ (n1 n2 n3 : Nat) (z : Int → K) (Z0 : K) : Res Nat :=
  findClosest n3 (fun i => z (Index.index n1 n2 0 0 i)) Z0

end

theorem word_pos {s w r : CStr} (h : Wolfio.word s = some (w, r)) : 0 < w.length := by
  unfold Wolfio.word at h
  cases hd : s.dropWhile isSpace with
  | nil => rw [hd] at h; cases h
  | cons c t =>
    rw [hd] at h
    simp only [Option.some.injEq, Prod.mk.injEq] at h
    have hc := Wolfio.dropWhile_head isSpace hd
    rw [← h.1, List.takeWhile_cons]
    simp [hc]

/-- The loop `while(sscanf(ou[d]+start, "%s", str)==1)` (src/utility/output/output.c:279-283; also
320-325, 362-367, 404-409): the words it reads. The argument is the string from `start` on; `start`
is moved by the length of the word, whatever was skipped before it, and over one blank. Words of
1000 or more characters overrun `str`. -/
def scanList (s : CStr) : Res (List CStr) :=
  match _h : Wolfio.word s with
  | none => .ok []
  | some (w, _) =>
    if w.length ≥ 1000 then .ub
    else
      let r := s.drop w.length
      if r.head? = some ' ' then (scanList r.tail).map (w :: ·) else (scanList r).map (w :: ·)
termination_by s.length
decreasing_by
  all_goals
    have h1 := word_pos _h
    have h2 : 0 < s.length := by
      cases s with
      | nil => simp [Wolfio.word] at _h
      | cons a s => simp
    simp only [List.length_tail, List.length_drop]
    omega

/-- What `write_grid` knows about variables: `IndLax`, `VarConstantFlag`, `IndComponent0`,
`VarNComponents`, `VarName`. -/
structure OutVars where
  ind : CStr → Option Nat
  constant : Nat → Bool
  comp0 : Nat → Nat
  ncomp : Nat → Nat
  name : Nat → CStr

/-- What is output for one word of the list (src/utility/output/output.c:285-303). -/
def outputsFor (V : OutVars) (all : Bool) (iteration : Int) (str : CStr) : List CStr :=
  match V.ind str with
  | none => []
  | some vi =>
    if V.constant vi ∧ iteration ≠ 0 then []
    else if all then (List.range (V.ncomp (V.comp0 vi))).map fun i => V.name (V.comp0 vi + i)
    else [str]

/-- The part of `write_grid` for one dimension if it is time for output
(src/utility/output/output.c:270-305): pairs of box and variable. -/
def outputsOf (V : OutVars) (all : Bool) (iteration : Int) (nboxes : Nat) (list : CStr) :
    Res (List (Nat × CStr)) :=
  (scanList list).map fun ws => (List.range nboxes).flatMap fun b =>
    ws.flatMap fun w => (outputsFor V all iteration w).map fun n => (b, n)

end Sgrid
