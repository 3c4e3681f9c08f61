import Mathlib.Analysis.Real.Sqrt
import Verif.Model.Sor

/-!
# WTiterator

`src/utility/GridIterators/WTsolver.c`. Doubles are real numbers; then `sfac` never becomes zero. `itmax`
is not negative. Messages and allocation are left out. What the arrays `mm`, `f` hold before the products
does not matter, they are zero here.
-/

namespace Sgrid

noncomputable section

/-- `for(i=0; i<nlines; i++) x[i] = g(i)`. -/
def dLoop (n : Nat) (g : Nat → ℝ) (x : DArr ℝ) : DArr ℝ :=
  upLoop 0 n (fun i x => Function.update x (i : Int) (g i)) x

/-- The norm of the residual (`src/utility/GridIterators/WTsolver.c:102-104,134-136`). -/
def wtRes (A : Nat → SVec ℝ) (nlines : Nat) (x b : DArr ℝ) : ℝ :=
  let f := spTimesVec A nlines x (fun _ => 0)
  let f := upLoop 0 nlines (fun i f => Function.update f (i : Int) (f i - b i)) f
  Real.sqrt (scalarprod f f nlines / nlines)

/-- The direction of the step (`src/utility/GridIterators/WTsolver.c:117-123`). -/
def wtDir (A : Nat → SVec ℝ) (nlines : Nat) (x b : DArr ℝ) (normres : ℝ) : DArr ℝ :=
  let mm := spTimesVec A nlines x (fun _ => 0)
  let f := spTTimesVec A nlines mm (fun _ => 0)
  let dx := dLoop nlines (fun i => -f i) (fun _ => 0)
  let mm := spTTimesVec A nlines b mm
  let dx := upLoop 0 nlines (fun i dx => Function.update dx (i : Int) (dx i + mm i)) dx
  let mag_dx := Real.sqrt (scalarprod dx dx nlines)
  if mag_dx ≠ 0 then
    upLoop 0 nlines (fun i dx => Function.update dx (i : Int) (normres * dx i / mag_dx)) dx
  else dx

/-- One pass of the inner loop (`src/utility/GridIterators/WTsolver.c:128-145`): `x` and `newres` if it is
left, otherwise `x` and `sfac`. The condition `sfac>0` always holds. -/
def wtTry (A : Nat → SVec ℝ) (nlines : Nat) (b dx : DArr ℝ) (normres : ℝ) (s : DArr ℝ × ℝ) :
    (DArr ℝ × ℝ) ⊕ (DArr ℝ × ℝ) :=
  let x := upLoop 0 nlines (fun i x => Function.update x (i : Int) (x i + s.2 * dx i)) s.1
  let newres := wtRes A nlines x b
  if newres ≤ normres then .inl (x, newres) else
  let x := upLoop 0 nlines (fun i x => Function.update x (i : Int) (x i - s.2 * dx i)) x
  .inr (x, s.2 * (1 / 10))

/-- One pass of the outer loop (`src/utility/GridIterators/WTsolver.c:112-157`) with at most `fuel` passes
of the inner loop; the state is `x` and `*normres`. -/
def wtPass (A : Nat → SVec ℝ) (nlines : Nat) (b : DArr ℝ) (tol : ℝ) (fuel it : Nat) (s : DArr ℝ × ℝ) :
    Option (Nat × DArr ℝ × ℝ) ⊕ (DArr ℝ × ℝ) :=
  let dx := wtDir A nlines s.1 b s.2
  match forRet fuel (fun _ => wtTry A nlines b dx s.2) (s.1, 1) with
  | .inr _ => .inl none
  | .inl (x, newres) => if newres ≤ tol then .inl (some (it, x, newres)) else .inr (x, newres)

/-- `WTiterator` (`src/utility/GridIterators/WTsolver.c:63-163`): return value, `x` and `*normres`. -/
def wtIterator (fuel : Nat) (A : Nat → SVec ℝ) (nlines : Nat) (x b : DArr ℝ) (itmax : Nat) (tol : ℝ) :
    Option (Nat × DArr ℝ × ℝ) :=
  let normres := wtRes A nlines x b
  if normres ≤ tol then some (0, x, normres) else
  match forRet itmax (wtPass A nlines b tol fuel) (x, normres) with
  | .inl r => r
  | .inr s => some (itmax + 1, s.1, s.2)

end

end Sgrid
