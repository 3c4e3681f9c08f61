import Mathlib.Analysis.Real.Sqrt
import Verif.Model.LU
import Verif.Model.RootFind

/-!
# Newton's method with line search

`src/utility/numerics/newton_linesearch.c`. Doubles are real numbers, so that `x[j]+h-x[j]` is `h` and
every number is finite. Memory allocation does not fail. `vecfuncP_ilow` only shifts pointers
(`x = x + vecfuncP_ilow` in line 66, `x-i0` in lines 250 and 275) and is left out: arrays begin at 0.
The function `vecfuncP` is an arbitrary function of the array `x`.
-/

namespace Sgrid

noncomputable section

/-- An array of doubles. -/
abbrev RArr := Nat → ℝ

/-- `test = 0.0; for(i=0; i<n; i++) if(f(i) > test) test = f(i);`
(`src/utility/numerics/newton_linesearch.c:88-91,167-170,180-185,190-195,308-313`). -/
def maxLoop (n : Nat) (f : Nat → ℝ) : ℝ := upLoop 0 n (fun i test => if f i > test then f i else test) 0

/-- `for(sum=0.0,i=0; i<n; i++) sum += f(i);`
(`src/utility/numerics/newton_linesearch.c:99,109,276-277,300,306-307`). -/
def sumLoop (n : Nat) (f : Nat → ℝ) : ℝ := upLoop 0 n (fun i sum => sum + f i) 0

/-- `for(i=0; i<n; i++) a[i] = f(i);`. -/
def setLoop (n : Nat) (f : Nat → ℝ) (a : RArr) : RArr := upLoop 0 n (fun i a => aset a i (f i)) a

/-- `HMIN` and `EPS` (`src/utility/numerics/newton_linesearch.c:221-222`): the first `h`
(lines 243-245). -/
def fdStart (xj : ℝ) : ℝ :=
  let h := 1 / 10 ^ 7 * |xj|
  if h < 1 / 10 ^ 10 then 1 / 10 ^ 10 else h

/-- Column `j` of the matrix of `fd_jacobianP` (`src/utility/numerics/newton_linesearch.c:241-260`); the
state is `h`, the column and whether the loop over `k` was left. -/
def fdColumn (n : Nat) (F : RArr → RArr) (x fvec : RArr) (j : Nat) : Nat → ℝ :=
  (upLoop 0 8 (fun _ s =>
    if s.2.2 then s else
    let f := F (aset x j (x j + s.1))
    let r := upLoop 0 n (fun i t =>
      let d := (f i - fvec i) / s.1
      (aset t.1 i d, if d ≠ 0 then true else t.2)) (s.2.1, false)
    (if r.2 then s.1 else s.1 * 10, r.1, r.2)) (fdStart (x j), (fun _ => (0 : ℝ)), false)).2.1

/-- `fd_jacobianP` (`src/utility/numerics/newton_linesearch.c:223-263`): the entry `df[i][j]`. -/
def fdJacobian (n : Nat) (F : RArr → RArr) (x fvec : RArr) : Mat ℝ := fun i j => fdColumn n F x fvec j i

/-- `f_to_minimize_in_linesrchP` (`src/utility/numerics/newton_linesearch.c:268-280`). -/
def lineObj (n : Nat) (fvec : RArr) : ℝ := 1 / 2 * sumLoop n (fun i => fvec i * fvec i)

/-- What `linesrchP` has changed when it returns: `x`, `*f`, `newton_linesrch_fvec`, `*check`. -/
structure LineOut where
  x : RArr
  f : ℝ
  fvec : RArr
  check : Bool

/-- The variables of the loop in `linesrchP`. -/
structure LineState where
  x : RArr
  alam : ℝ
  alam2 : ℝ
  f2 : ℝ

/-- The new `tmplam` (`src/utility/numerics/newton_linesearch.c:332-357`; `fold2` is always `fold`).
`abort` is the round-off problem. -/
def lineLam (fold slope f : ℝ) (s : LineState) : Res ℝ :=
  if s.alam = 1 then .ok (-slope / (2 * (f - fold - slope))) else
  let term1 := f - fold - s.alam * slope
  let term2 := s.f2 - fold - s.alam2 * slope
  let a := (term1 / (s.alam * s.alam) - term2 / (s.alam2 * s.alam2)) / (s.alam - s.alam2)
  let b := (-s.alam2 * term1 / (s.alam * s.alam) + s.alam * term2 / (s.alam2 * s.alam2)) /
    (s.alam - s.alam2)
  let half := fun tmplam : ℝ => if tmplam > 5 / 10 * s.alam then 5 / 10 * s.alam else tmplam
  if a = 0 then .ok (half (-slope / (2 * b))) else
  let discrimi := b * b - 3 * a * slope
  if discrimi < 0 then .abort else .ok (half ((-b + Real.sqrt discrimi) / (3 * a)))

/-- One pass of the loop in `linesrchP` (`src/utility/numerics/newton_linesearch.c:317-363`). `test` is
the largest relative step; `alamin` is `TOLX/test`, which is infinite if `test` is zero. -/
def linePass (n : Nat) (F : RArr → RArr) (xold p : RArr) (fold slope test : ℝ) (s : LineState) :
    (Res LineOut) ⊕ LineState :=
  let x := setLoop n (fun i => xold i + s.alam * p i) s.x
  let fvec := F x
  let f := lineObj n fvec
  if test = 0 ∨ s.alam < 1 / 10 ^ 14 / test then
    .inl (.ok ⟨setLoop n xold x, f, fvec, true⟩)
  else if f ≤ fold + 1 / 10 ^ 4 * s.alam * slope then .inl (.ok ⟨x, f, fvec, false⟩)
  else
    match lineLam fold slope f s with
    | .ok tmplam => .inr ⟨x, max tmplam (1 / 10 * s.alam), s.alam, f⟩
    | .abort => .inl .abort
    | .ub => .inl .ub

/-- The scaled step (`src/utility/numerics/newton_linesearch.c:300-304`). -/
def lineScale (n : Nat) (p : RArr) (stpmax : ℝ) : RArr :=
  let sum := Real.sqrt (sumLoop n (fun i => p i * p i))
  if sum > stpmax then setLoop n (fun i => p i * (stpmax / sum)) p else p

/-- `linesrchP` (`src/utility/numerics/newton_linesearch.c:286-364`), with at most `fuel` passes. -/
def linesrch (fuel n : Nat) (F : RArr → RArr) (xold : RArr) (fold : ℝ) (g p0 x : RArr) (stpmax : ℝ) :
    Option (Res LineOut) :=
  let p := lineScale n p0 stpmax
  let slope := sumLoop n (fun i => g i * p i)
  let test := maxLoop n (fun i => |p i| / max |xold i| 1)
  match forRet fuel (fun _ => linePass n F xold p fold slope test) ⟨x, 1, 0, 0⟩ with
  | .inl r => some r
  | .inr _ => none

/-- The search for the largest entry in column `l` in a row that is not in `idx[0], …, idx[l-1]`
(`src/utility/numerics/newton_linesearch.c:134-149`): `ma` and `idx`. -/
def singSearch (n : Nat) (A : Mat ℝ) (l : Nat) (idx : Nat → Nat) : ℝ × (Nat → Nat) :=
  upLoop 0 n (fun k s =>
    if |A k l| > s.1 ∧ ∀ li, li < l → s.2 li ≠ k then (|A k l|, aset s.2 l k) else s) (0, idx)

/-- The step for a matrix with a row or column of zeros
(`src/utility/numerics/newton_linesearch.c:128-156`). -/
def singStep (n : Nat) (A : Mat ℝ) (p : RArr) : RArr :=
  (upLoop 0 n (fun l s =>
    let idx := (singSearch n A l s.2).2
    let k := idx l
    (aset s.1 l (if k > 0 then s.1 l / A k l else 0), idx)) (p, fun _ => 0)).1

/-- What the loop over `its` of `newton_linesearch` keeps. -/
structure NLState where
  x : RArr
  f : ℝ
  fvec : RArr
  check : Bool

/-- The step `p` (`src/utility/numerics/newton_linesearch.c:113-160`); `abort` and `ub` are those of
`lu_decomp`, which do not occur. -/
def nlStep (n : Nat) (J : Mat ℝ) (fvec : RArr) : Res RArr :=
  let p := fun i => -fvec i
  match luDecomp n J (fun _ => 0) (fun _ => 0) 0 with
  | .ok (j, s) => .ok (if j ≠ 0 then singStep n s.A p else luSolve n s.A s.p p)
  | .abort => .abort
  | .ub => .ub

/-- The tests after the line search (`src/utility/numerics/newton_linesearch.c:167-199`): `return` with
`*check`, or the next pass. -/
def nlTests (n : Nat) (tolf : ℝ) (xold g : RArr) (o : LineOut) : Bool ⊕ NLState :=
  if maxLoop n (fun i => |o.fvec i|) < tolf then .inl false else
  if o.check then
    let denom := max o.f (5 / 10 * n)
    .inl (maxLoop n (fun i => |g i| * max |o.x i| 1 / denom) < 1 / 10 ^ 13) else
  if maxLoop n (fun i => |o.x i - xold i| / max |o.x i| 1) < 1 / 10 ^ 14 then .inl o.check else
  .inr ⟨o.x, o.f, o.fvec, o.check⟩

/-- How `newton_linesearch` ends: return value, `*check` and `x`. -/
abbrev NLOut := Int × Bool × RArr

/-- One pass of the loop over `its` (`src/utility/numerics/newton_linesearch.c:101-200`). -/
def nlPass (fuel n : Nat) (F : RArr → RArr) (stpmax tolf : ℝ) (its : Nat) (s : NLState) :
    (Option (Res NLOut)) ⊕ NLState :=
  let J := fdJacobian n F s.x s.fvec
  let g : RArr := fun i => sumLoop n (fun j => J j i * s.fvec j)
  match nlStep n J s.fvec with
  | .ok p =>
    match linesrch fuel n F s.x s.f g p s.x stpmax with
    | none => .inl none
    | some (.ok o) =>
      match nlTests n tolf s.x g o with
      | .inl check => .inl (some (.ok (its, check, o.x)))
      | .inr s => .inr s
    | some .abort => .inl (some .abort)
    | some .ub => .inl (some .ub)
  | .abort => .inl (some .abort)
  | .ub => .inl (some .ub)

/-- `newton_linesearch` (`src/utility/numerics/newton_linesearch.c:52-213`); `check0` is `*check` before.
`none` stands for a line search that is not finished after `fuel` passes. -/
def newtonLinesearch (fuel n : Nat) (F : RArr → RArr) (itmax : Nat) (tolf : ℝ) (x : RArr)
    (check0 : Bool) : Option (Res NLOut) :=
  let fvec := F x
  let f := lineObj n fvec
  if maxLoop n (fun i => |fvec i|) < 1 / 100 * tolf then some (.ok (0, false, x)) else
  let stpmax := 100 * max (Real.sqrt (sumLoop n (fun i => x i * x i))) n
  match forRet itmax (nlPass fuel n F stpmax tolf) ⟨x, f, fvec, check0⟩ with
  | .inl r => r
  | .inr s => some (.ok (-((itmax : Int) + 1) - 1, s.check, s.x))

end

end Sgrid
