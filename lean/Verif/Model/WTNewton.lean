import Verif.Model.NewtonLine

/-!
# Newton's method with a given linear solver

`src/utility/NumericUtils/WT_newton.c`. As in `NewtonLine`, doubles are real numbers, so that every number is finite, and
memory allocation does not fail. Arrays begin at 1 in the code and at 0 here. The linear solver with `J_x_dx`, `precon`,
`par` and `linitmax` is an arbitrary function of the right hand side, of `dx` as it finds it, of `x` and of the tolerance;
it gives the return value and `dx`, and changes nothing else.
-/

namespace Sgrid

noncomputable section

/-- WT_linesrch (`src/utility/NumericUtils/WT_newton.c:30-95`), with at most `fuel` passes. The loop in lines 64-94 is
the one of `linesrchP`, and `f_to_minimize_in_WT_linesrch` (lines 13-25) is `f_to_minimize_in_linesrchP`. -/
def wtLinesrch (fuel n : Nat) (F : RArr → RArr) (xold : RArr) (fold : ℝ) (p0 x : RArr) (stpmax : ℝ) :
    Option (Res LineOut) :=
  let sum := Real.sqrt (sumLoop n (fun i => p0 i * p0 i))
  let p := lineScale n p0 stpmax
  let slope := if sum > stpmax then -2 * fold * (stpmax / sum) else -2 * fold
  let test := maxLoop n (fun i => |p i| / max |xold i| 1)
  match forRet fuel (fun _ => linePass n F xold p fold slope test) ⟨x, 1, 0, 0⟩ with
  | .inl r => some r
  | .inr _ => none

/-- What the loop over `its` of WT_newton keeps. -/
structure WTState where
  x : RArr
  f : ℝ
  fvec : RArr
  check : Bool
  p : RArr

/-- The tolerance for the linear solver without the factor (`src/utility/NumericUtils/WT_newton.c:167-169`). -/
def wtTol (n : Nat) (fvec : RArr) : ℝ := upLoop 0 n (fun i test => if fvec i > test then |fvec i| else test) 0

/-- The tests after the line search (`src/utility/NumericUtils/WT_newton.c:184-209`): `return` with `*check`, or
go on. -/
def wtTests (n : Nat) (tolf : ℝ) (xold : RArr) (o : LineOut) : Option Bool :=
  if maxLoop n (fun i => |o.fvec i|) < tolf then some false else
  if o.check then some (maxLoop n (fun _ => 0) < 1 / 10 ^ 13) else
  if maxLoop n (fun i => |o.x i - xold i| / max |o.x i| 1) < 1 / 10 ^ 14 then some o.check else none

/-- One pass of the loop (`src/utility/NumericUtils/WT_newton.c:157-209`). -/
def wtNewtonPass (fuel n : Nat) (F : RArr → RArr) (linSol : RArr → RArr → RArr → ℝ → Int × RArr) (stpmax tolf lintolfac : ℝ)
    (its : Nat) (s : WTState) : (Option (Res NLOut)) ⊕ WTState :=
  let lintol := wtTol n s.fvec * lintolfac
  let r := linSol s.fvec s.p s.x lintol
  let p := setLoop n (fun i => -r.2 i) r.2
  if r.1 < 0 then .inl (some (.ok (-its - 1, s.check, s.x))) else
  match wtLinesrch fuel n F s.x s.f p s.x stpmax with
  | none => .inl none
  | some (.ok o) =>
    match wtTests n tolf s.x o with
    | some check => .inl (some (.ok (its, check, o.x)))
    | none => .inr ⟨o.x, o.f, o.fvec, o.check, lineScale n p stpmax⟩
  | some .abort => .inl (some .abort)
  | some .ub => .inl (some .ub)

/-- WT_newton (`src/utility/NumericUtils/WT_newton.c:124-214`): return value, `*check` and `x`; `check0` is `*check`
before and `junk` is what `vector` gives. `none` stands for a line search that is not finished after `fuel` passes. -/
def wtNewton (fuel n : Nat) (F : RArr → RArr) (linSol : RArr → RArr → RArr → ℝ → Int × RArr) (maxits : Nat)
    (tolf lintolfac : ℝ) (junk x : RArr) (check0 : Bool) : Option (Res NLOut) :=
  let fvec := F x
  let f := lineObj n fvec
  if maxLoop n (fun i => |fvec i|) < 1 / 100 * tolf then some (.ok (0, false, x)) else
  let stpmax := 100 * max (Real.sqrt (sumLoop n (fun i => x i * x i))) n
  match forRet maxits (wtNewtonPass fuel n F linSol stpmax tolf lintolfac) ⟨x, f, fvec, check0, junk⟩ with
  | .inl r => r
  | .inr s => some (.ok ((maxits : Int) + 1, s.check, s.x))

end

end Sgrid
