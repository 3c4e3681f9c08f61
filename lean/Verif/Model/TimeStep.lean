import Verif.Model.Evolve

/-!
src/utility/ParManipulator/ParManipulator.c:100-125: the choice of the time step.

Doubles are elements of an ordered field, `int` has no bounds.  `Setd` stores the number itself.  The parameters of the
boxes (lines 20-98) are not modelled; n1 of each box is given.
-/

namespace Sgrid

variable {K : Type} [Field K] [LinearOrder K] [FloorRing K]

/-- The parameters ParManipulator_dt_scaling, ParManipulator_ds_min_coeff, ParManipulator_requiredtime and
ParManipulator_dtfac (ParManipulator.c:101-120).  The first one is `none` for `no`, `some true` if `1/n1^2` is in it,
`some false` for `1/n1`. -/
structure StepPars (K : Type) where
  quadratic : Option Bool
  coeff : K
  requiredtime : K
  dtfac : K

/-- ParManipulator_ds_min (ParManipulator.c:112-117). -/
def StepPars.dsMin (p : StepPars K) (q : Bool) (n1 : Int) : K :=
  if q then p.coeff / ((n1 * n1 : Int) : K) else p.coeff / (n1 : K)

/-- dt for one box (ParManipulator.c:119-121). -/
def StepPars.dtBox (p : StepPars K) (q : Bool) (n1 : Int) : K :=
  let dt := p.dtfac * p.dsMin q n1
  if p.requiredtime > 0 then
    let i : Int := truncC (1 + p.requiredtime / dt)
    p.requiredtime / (i : K)
  else dt

/-- The loop over the boxes with the numbers of points `n1s` (ParManipulator.c:15, 100-126): dtmin and the parameter dt. -/
def StepPars.run (p : StepPars K) (n1s : List Int) (dtPar : K) : K × K :=
  match p.quadratic with
  | none => (10 ^ 300, dtPar)
  | some q => n1s.foldl (fun s n1 => if p.dtBox q n1 < s.1 then (p.dtBox q n1, p.dtBox q n1) else s) (10 ^ 300, dtPar)

end Sgrid
