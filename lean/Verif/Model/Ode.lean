import Mathlib.Algebra.Field.Basic
import Mathlib.Algebra.Order.Group.Abs
import Verif.Model.Basic
import Verif.Model.Minimize

/-!
# Ordinary differential equations

`src/utility/NumericUtils/rkck.c`, `rkqs.c`, `odeintegrate.c` and the functions with the same names in
`src/utility/numerics/GSL_odeint.c`. Vectors start at index 1. The function for the right hand side reads `x`
and `y` and writes `dydx`. The versions with the extra argument `par` are the same.
-/

namespace Sgrid

section step

variable {K : Type} [Field K]

/-- The right hand side of the differential equation. -/
abbrev Rhs (K : Type) := K → (Nat → K) → (Nat → K)

/-- `rkck` (`src/utility/NumericUtils/rkck.c:15-61`, `rkckP` 64-112): `yout` and `yerr`. -/
def rkck (derivs : Rhs K) (y dydx : Nat → K) (x h : K) : (Nat → K) × (Nat → K) :=
  let ak2 := derivs (x + 2 / 10 * h) (fun i => y i + 2 / 10 * h * dydx i)
  let ak3 := derivs (x + 3 / 10 * h) (fun i => y i + h * (3 / 40 * dydx i + 9 / 40 * ak2 i))
  let ak4 := derivs (x + 6 / 10 * h)
    (fun i => y i + h * (3 / 10 * dydx i + -(9 / 10) * ak2 i + 12 / 10 * ak3 i))
  let ak5 := derivs (x + 1 * h)
    (fun i => y i + h * (-(11 / 54) * dydx i + 25 / 10 * ak2 i + -(70 / 27) * ak3 i + 35 / 27 * ak4 i))
  let ak6 := derivs (x + 875 / 1000 * h)
    (fun i => y i + h * (1631 / 55296 * dydx i + 175 / 512 * ak2 i + 575 / 13824 * ak3 i +
      44275 / 110592 * ak4 i + 253 / 4096 * ak5 i))
  (fun i => y i + h * (37 / 378 * dydx i + 250 / 621 * ak3 i + 125 / 594 * ak4 i + 512 / 1771 * ak6 i),
    fun i => h * ((37 / 378 - 2825 / 27648) * dydx i + (250 / 621 - 18575 / 48384) * ak3 i +
      (125 / 594 - 13525 / 55296) * ak4 i + -(277 / 14336) * ak5 i + (512 / 1771 - 1 / 4) * ak6 i))

end step

variable {K : Type} [Field K] [LinearOrder K]

/-- What a stepper returns: `y`, `*x`, `*hdid` and `*hnext`. -/
structure OdeStep (K : Type) where
  y : Nat → K
  x : K
  hdid : K
  hnext : K

/-- `errmax` for the step size `h` (`src/utility/NumericUtils/rkqs.c:43-46`). -/
def rkErr (derivs : Rhs K) (y dydx : Nat → K) (n : Nat) (x h eps : K) (yscal : Nat → K) : K :=
  let yerr := (rkck derivs y dydx x h).2
  upLoop 1 (n + 1) (fun i e => if e > |yerr i / yscal i| then e else |yerr i / yscal i|) 0 / eps

/-- The step size of the next attempt (`src/utility/NumericUtils/rkqs.c:48-49`). -/
def rkShrink (pow : K → K → K) (h errmax : K) : K :=
  let htemp := 9 / 10 * h * pow errmax (-(25 / 100))
  if h ≥ 0 then (if htemp > 1 / 10 * h then htemp else 1 / 10 * h)
  else (if htemp < 1 / 10 * h then htemp else 1 / 10 * h)

/-- The loop `for(;;)` in `rkqs` (`src/utility/NumericUtils/rkqs.c:42-52`): the step size and the error of the
first attempt that is good enough. `none` if there is none among the first `fuel` ones. -/
def rkAttempts (pow : K → K → K) (derivs : Rhs K) (y dydx : Nat → K) (n : Nat) (x eps : K)
    (yscal : Nat → K) : Nat → K → Option (Res (K × K))
  | 0, _ => none
  | fuel + 1, h =>
    let errmax := rkErr derivs y dydx n x h eps yscal
    if errmax ≤ 1 then some (.ok (h, errmax)) else
    let h := rkShrink pow h errmax
    if x + h = x then some .abort else rkAttempts pow derivs y dydx n x eps yscal fuel h

/-- `rkqs` (`src/utility/NumericUtils/rkqs.c:30-59`, `rkqsP` 62-94). -/
def rkqs (pow : K → K → K) (derivs : Rhs K) (n : Nat) (eps : K) (fuel : Nat) (y dydx : Nat → K) (x htry : K)
    (yscal : Nat → K) : Option (Res (OdeStep K)) :=
  match rkAttempts pow derivs y dydx n x eps yscal fuel htry with
  | none => none
  | some (.ok (h, errmax)) =>
    let hnext := if errmax > 189 / 1000000 then 9 / 10 * h * pow errmax (-(2 / 10)) else 5 * h
    some (.ok ⟨(rkck derivs y dydx x h).1, x + h, h, hnext⟩)
  | some .abort => some .abort
  | some .ub => some .ub

/-- The variables of `odeintegrate` that live through the loop. `xp` and `yp` are the arrays for the points
that are kept, `yp k` is the column `k`. -/
structure OdeState (K : Type) where
  y : Nat → K
  x : K
  h : K
  xsav : K
  kount : Nat
  xp : Nat → K
  yp : Nat → Nat → K
  nok : Nat
  nbad : Nat

/-- What `odeintegrate` returns and leaves. -/
structure OdeOut (K : Type) where
  ret : K
  status : Int
  ystart : Nat → K
  kcount : Int
  xp : Nat → K
  yp : Nat → Nat → K
  nok : Nat
  nbad : Nat

/-- The arguments of `odeintegrate` that do not change. -/
structure OdeArgs (K : Type) where
  derivs : Rhs K
  /-- The stepper, given `y`, `dydx`, `*x`, `h` and `yscal`. -/
  step : (Nat → K) → (Nat → K) → K → K → (Nat → K) → Res (OdeStep K)
  ystart : Nat → K
  x1 : K
  x2 : K
  hmin : K
  kmax : Int
  kcount : Int
  dxsav : K

/-- `odeintegrate.c:67-71`: keep a point if the last one is far enough. -/
def odeSave (a : OdeArgs K) (s : OdeState K) : OdeState K :=
  if a.kmax > 0 ∧ (s.kount : Int) < a.kmax - 1 ∧ |s.x - s.xsav| > |a.dxsav| then
    { s with kount := s.kount + 1, xp := aset s.xp (s.kount + 1) s.x, yp := aset s.yp (s.kount + 1) s.y,
             xsav := s.x }
  else s

/-- One pass of the loop in `odeintegrate` (`src/utility/NumericUtils/odeintegrate.c:63-97`). -/
def odePass (a : OdeArgs K) (_nstp : Nat) (s : OdeState K) : Res (OdeOut K) ⊕ OdeState K :=
  let dydx := a.derivs s.x s.y
  let yscal := fun i => |s.y i| + |dydx i * s.h| + 1 / 10 ^ 250
  let s := odeSave a s
  let h := if (s.x + s.h - a.x2) * (s.x + s.h - a.x1) > 0 then a.x2 - s.x else s.h
  match a.step s.y dydx s.x h yscal with
  | .ok t =>
    let nok := if t.hdid = h then s.nok + 1 else s.nok
    let nbad := if t.hdid = h then s.nbad else s.nbad + 1
    if (t.x - a.x2) * (a.x2 - a.x1) ≥ 0 then
      if a.kmax ≠ 0 then
        .inl (.ok ⟨a.x2, 0, t.y, s.kount + 1, aset s.xp (s.kount + 1) t.x, aset s.yp (s.kount + 1) t.y,
          nok, nbad⟩)
      else .inl (.ok ⟨a.x2, 0, t.y, s.kount, s.xp, s.yp, nok, nbad⟩)
    else if |t.hnext| ≤ a.hmin then .inl (.ok ⟨t.x, -1, a.ystart, a.kcount, s.xp, s.yp, nok, nbad⟩)
    else .inr { s with y := t.y, x := t.x, h := t.hnext, nok := nok, nbad := nbad }
  | .abort => .inl .abort
  | .ub => .inl .ub

/-- `odeintegrate` (`src/utility/NumericUtils/odeintegrate.c:42-104`, `odeintegrateP` 107-171) with `MAXSTP`
passes (10000 in the code). -/
def odeintegrate (maxstp : Nat) (a : OdeArgs K) (h1 : K) (xp : Nat → K) (yp : Nat → Nat → K) :
    Res (OdeOut K) :=
  match forRet maxstp (odePass a)
    ⟨a.ystart, a.x1, withSignOf h1 (a.x2 - a.x1), a.x1 - a.dxsav * 2, 0, xp, yp, 0, 0⟩ with
  | .inl r => r
  | .inr s => .ok ⟨s.x, -2, a.ystart, a.kcount, s.xp, s.yp, s.nok, s.nbad⟩

/-! ### The version that uses the GSL -/

/-- `GSL_odeint_rk8pd`: from `*xs`, `xe` and `y` to `*xs`, `y` and the return value. -/
abbrev Gsl (K : Type) := K → K → (Nat → K) → K × (Nat → K) × Int

/-- What the second integration of `odeintegrate` in `GSL_odeint.c` changes. -/
structure GslState (K : Type) where
  xs : K
  y : Nat → K
  kcount : Nat
  xp : Nat → K
  yp : Nat → Nat → K

/-- One pass of the second integration (`src/utility/numerics/GSL_odeint.c:138-152`), `k = j+1`. -/
def gslPass (gsl : Gsl K) (x1 xf : K) (kmax : Nat) (j : Nat) (s : GslState K) : GslState K ⊕ GslState K :=
  let xe := x1 + j * (xf - x1) / (kmax - 1)
  let r := gsl s.xs xe s.y
  let s : GslState K := ⟨r.1, r.2.1, s.kcount + 1, aset s.xp (j + 1) r.1, aset s.yp (j + 1) r.2.1⟩
  if s.xs < xe then .inl s else .inr s

/-- `odeintegrate` (`src/utility/numerics/GSL_odeint.c:95-156`, `odeintegrateP` 171-240) for `kmax ≥ 0`. The
return value `stat` of the first integration is not looked at. -/
def gslOdeintegrate (gsl : Gsl K) (y : Nat → K) (x1 x2 : K) (kmax : Nat) (xp : Nat → K)
    (yp : Nat → Nat → K) : OdeOut K :=
  let s : GslState K := if kmax > 0 then ⟨x1, y, 1, aset xp 1 x1, aset yp 1 y⟩ else ⟨x1, y, 0, xp, yp⟩
  let r := gsl x1 x2 y
  if kmax > 1 then
    match forRet (kmax - 1) (gslPass gsl x1 r.1 kmax) { s with xs := x1, y := s.yp 1 } with
    | .inl s => ⟨s.xs, 0, s.y, s.kcount, s.xp, s.yp, 0, 0⟩
    | .inr s => ⟨s.xs, 0, s.y, s.kcount, s.xp, s.yp, 0, 0⟩
  else ⟨r.1, 0, r.2.1, s.kcount, s.xp, s.yp, 0, 0⟩

end Sgrid
