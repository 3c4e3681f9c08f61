import Mathlib.Algebra.Field.Basic
import Mathlib.Algebra.Order.Group.Abs
import Verif.Model.Minimize

/-!
# The Newton solver for equations on the grid

`src/utility/GridIterators/Newton.c`. A variable list is a function from its points and components to numbers.
The user supplied function `Fu` reads `vlu` and writes `vlFu`; that some of these functions leave values in
further variables is not modelled, nor is the call of `Jdu` at the end of a step, which only writes to
`vlres`, and printing.
-/

namespace Sgrid

variable {ι K : Type} [Field K] [LinearOrder K]

/-- What `Newton` is given: the function, the norm, the parameters of the parameter file, the linear solvers
and the functions that it may call. -/
structure NewtonEnv (ι K : Type) where
  /-- `Fu` as a function from `vlu` to `vlFu`. -/
  F : (ι → K) → (ι → K)
  /-- `norm2`. -/
  norm : (ι → K) → K
  /-- `Getv("GridIterators_Newtonstep", "backtrack")` -/
  backtrack : Bool
  /-- `Getv("GridIterators_Newtonstep", "optimal")` -/
  optimal : Bool
  /-- `Getv("GridIterators_Newton_atlocalMin", "escapeMin")` -/
  escape : Bool
  /-- `Getv("GridIterators_Newton_atlocalMin", "quit")` -/
  quit : Bool
  /-- `Getv("GridIterators_Newton_atlocalMin", "AltLinSolver")` -/
  alt : Bool
  /-- The number of words in `GridIterators_Newton_linSolvers`. -/
  nalt : Nat
  /-- `GridIterators_Newton_minstep` -/
  minstep : K
  /-- `linSolv_tolFac` -/
  tolFac : K
  /-- `linSolv_tol` -/
  linTol : K
  /-- The minimisation of a function of `lambda`: the minimum and the last number at which the function has
  been evaluated. -/
  search : (K → K) → Res (K × K)
  /-- The linear solvers: the number of the Newton step, the number of the solver (0 is the one passed to
  `Newton`), `vlu`, `vlFu` and the tolerance give the return value and `vldu`. -/
  lin : Nat → Nat → (ι → K) → (ι → K) → K → Int × (ι → K)
  /-- `do_random_Newton_step` -/
  random : Nat → Nat → (ι → K) → (ι → K)
  /-- `Newton_do_before_linSolver`, which may change the variables. -/
  before : Nat → (ι → K) → (ι → K)
  /-- `Newton_do_after_step` -/
  after : Nat → (ι → K) → (ι → K)

/-- `do_partial_Newton_step` (`Newton.c:209-225`). -/
def partialStep (u : ι → K) (lambda : K) (du : ι → K) : ι → K := fun i => u i - lambda * du i

/-- `mnbrak_with_pointer_to_pars` followed by `brent_with_pointer_to_pars` with the numbers of
`do_Newton_step` (`Newton.c:295-298,330-336`), as in `src/utility/NumericUtils/mnbrak.c`, `brent.c`. The first
one has no limit, here it is given up after `limit` passes (the version in
`src/utility/numerics/NumericUtils_shims.c:115-121` has the limit 1073741824). The last point at which the
function has been evaluated is left open. -/
def searchMin (limit : Nat) (last : (K → K) → K) (f : K → K) : Res (K × K) :=
  let t := (minBrak f (-(11 / 10)) (-(1 / 2)) limit).2
  match brentMin f t.a t.b t.c (1 / 10000) with
  | .ok r => .ok (r.2.1, last f)
  | .abort => .abort
  | .ub => .ub

/-- The same with `minbrent_brak` (`src/utility/numerics/NumericUtils_shims.c:104-121`). -/
def searchMinShim (junk : Nat → Option K) (limit : Nat) (last : (K → K) → K) (f : K → K) : Res (K × K) :=
  let t := (minBrak f (-(11 / 10)) (-(1 / 2)) limit).2
  match minbrent junk f t.a t.b t.c 100 (1 / 10000) with
  | .ok r => .ok (r.2.1, last f)
  | .abort => .abort
  | .ub => .ub

/-- What `do_Newton_step` leaves: `lambda`, `vlu` and `vlFu`. -/
structure Stepped (ι K : Type) where
  lambda : K
  u : ι → K
  f : ι → K

/-- `do_Newton_step` (`Newton.c:268-367`). -/
def newtonStep (e : NewtonEnv ι K) (oldres : K) (u f du : ι → K) : Res (Stepped ι K) :=
  let u1 := partialStep u 1 du
  if e.backtrack then
    let f1 := e.F u1
    if e.norm f1 ≥ oldres ∨ e.optimal then
      match e.search (fun lambda => e.norm (e.F (partialStep u1 lambda du))) with
      | .ok r => .ok ⟨r.1, partialStep u1 r.1 du, e.F (partialStep u1 r.2 du)⟩
      | .abort => .abort
      | .ub => .ub
    else .ok ⟨0, u1, f1⟩
  else .ok ⟨0, u1, f⟩

/-- `vlu`, `vlFu` and whether `inewton` has been set to `itmax`. -/
structure NewtonState (ι K : Type) where
  u : ι → K
  f : ι → K
  stop : Bool

/-- One pass of the loop over the linear solvers (`Newton.c:107-175`): pass `j` uses solver `j-1`. -/
def newtonPass (e : NewtonEnv ι K) (n : Nat) (res : K) (j : Nat) (s : NewtonState ι K) :
    Res (NewtonState ι K) ⊕ NewtonState ι K :=
  let r := e.lin n (j - 1) s.u s.f (max (res * e.tolFac) e.linTol)
  match (if r.1 ≥ 0 then newtonStep e res s.u s.f r.2 else .ok ⟨-1, s.u, s.f⟩) with
  | .ok t =>
    if |t.lambda + 1| < e.minstep then
      let s : NewtonState ι K := ⟨if e.escape then e.random n j t.u else t.u, t.f, s.stop || e.quit⟩
      if e.alt && decide (j ≤ e.nalt) then .inr s else .inl (.ok s)
    else .inl (.ok ⟨t.u, t.f, s.stop⟩)
  | .abort => .inl .abort
  | .ub => .inl .ub

/-- The loop over the linear solvers (`Newton.c:105-175`). It ends after `nalt+1` passes at the latest. -/
def newtonSolve (e : NewtonEnv ι K) (n : Nat) (res : K) (u f : ι → K) : Res (NewtonState ι K) :=
  match forRet (e.nalt + 1) (newtonPass e n res) ⟨u, f, false⟩ with
  | .inl r => r
  | .inr s => .ok s

/-- One Newton iteration, `inewton = j-1` (`Newton.c:79-187`, and 190-201 in case of `quit`). -/
def newtonIter (e : NewtonEnv ι K) (itmax : Nat) (tol : K) (j : Nat) (u : ι → K) :
    Res (Nat × (ι → K) × K) ⊕ (ι → K) :=
  let f := e.F u
  let res := e.norm f
  if res ≤ tol then .inl (.ok (j - 1, u, res)) else
  match newtonSolve e (j - 1) res (e.before (j - 1) u) f with
  | .ok s =>
    let u := e.after (j - 1) s.u
    if s.stop then .inl (.ok (itmax + 1, u, e.norm (e.F u))) else .inr u
  | .abort => .inl .abort
  | .ub => .inl .ub

/-- `Newton` (`Newton.c:51-204`): the return value, `vlu` and `*normres`. -/
def newton (e : NewtonEnv ι K) (u : ι → K) (itmax : Nat) (tol : K) : Res (Nat × (ι → K) × K) :=
  match forRet itmax (newtonIter e itmax tol) u with
  | .inl r => r
  | .inr u => .ok (itmax, u, e.norm (e.F u))

end Sgrid
