import Mathlib.Algebra.Field.Rat
import Verif.Model.VarArith
import Verif.Model.Params

/-!
# Time integrators

src/utility/evolve/rk.c and src/utility/evolve/icn.c on the variable lists of Model/VarArith.lean.
The right hand side `evolve_rhs` and the routine for algebraic conditions are registered by other
modules through function pointers (src/utility/evolve/evolve.c:18-62); here they are parameters.
-/

namespace Sgrid

/-- `tButcher` (src/utility/evolve/rk.c:31-36). Entries not given in an initialiser are 0. -/
structure Butcher (K : Type) where
  nstages : Nat
  a : List (List K)
  b : List K
  c : List K

namespace Butcher
variable {K : Type} [Zero K]

/-- `rk->a[i][j]`. -/
def A (t : Butcher K) (i j : Nat) : K := (t.a.getD i []).getD j 0

/-- `rk->b[j]`. -/
def B (t : Butcher K) (j : Nat) : K := t.b.getD j 0

/-- `rk->c[j]`. -/
def C (t : Butcher K) (j : Nat) : K := t.c.getD j 0

end Butcher

/-- `NSTAGES` (src/utility/evolve/rk.c:23). -/
def nStages : Nat := 6

section tables
variable {K : Type} [Field K]

/-- src/utility/evolve/rk.c:39-44. -/
def rk1 : Butcher K := ⟨1, [[0]], [1], [1]⟩

/-- src/utility/evolve/rk.c:47-52. -/
def rk2 : Butcher K := ⟨2, [[0], [1]], [1 / 2, 1 / 2], [1, 1]⟩

/-- src/utility/evolve/rk.c:55-60. -/
def rk2a : Butcher K := ⟨2, [[0], [1 / 2]], [0, 1], [0, 1 / 2]⟩

/-- src/utility/evolve/rk.c:64-69. -/
def rk3 : Butcher K := ⟨3, [[0], [1 / 2], [-1, 2]], [1 / 6, 2 / 3, 1 / 6], [0, 1 / 2, 1]⟩

/-- src/utility/evolve/rk.c:72-77. -/
def rk3a : Butcher K := ⟨3, [[0], [1 / 3], [0, 2 / 3]], [1 / 4, 0, 3 / 4], [0, 1 / 3, 2 / 3]⟩

/-- src/utility/evolve/rk.c:80-85. -/
def rk3b : Butcher K := ⟨3, [[0], [1 / 2], [0, 3 / 4]], [2 / 9, 1 / 3, 4 / 9], [0, 1 / 2, 3 / 4]⟩

/-- src/utility/evolve/rk.c:89-94. -/
def rk4 : Butcher K :=
  ⟨4, [[0], [1 / 2], [0, 1 / 2], [0, 0, 1]], [1 / 6, 1 / 3, 1 / 3, 1 / 6], [0, 1 / 2, 1 / 2, 1]⟩

/-- src/utility/evolve/rk.c:97-102. -/
def rk4a : Butcher K :=
  ⟨4, [[0], [2 / 5], [-3 / 20, 3 / 4], [19 / 44, -15 / 44, 10 / 11]],
    [11 / 72, 25 / 72, 25 / 72, 11 / 72], [2 / 5, 3 / 5, 1, 1]⟩

/-- src/utility/evolve/rk.c:106-117. -/
def rk5 : Butcher K :=
  ⟨6, [[0], [1 / 5], [3 / 40, 9 / 40], [44 / 45, -56 / 15, 32 / 9],
      [19372 / 6561, -25360 / 2187, 64448 / 6561, -212 / 729],
      [9017 / 3168, -355 / 33, 46732 / 5247, 49 / 176, -5103 / 18656]],
    [35 / 384, 0, 500 / 1113, 125 / 192, -2187 / 6784, 11 / 84], [1 / 5, 3 / 10, 4 / 5, 8 / 9, 1, 1]⟩

end tables

/-- The registered routines (src/utility/evolve/evolve.c:18-28): `rhs unew upre c ucur` and, if
there is one, `alg unew upre`. -/
structure EvoFuns (K : Type) where
  rhs : DState K → (unew upre : Nat) → (c : K) → (ucur : Nat) → Res (DState K)
  alg : Option (DState K → (unew upre : Nat) → Res (DState K))

section
variable {K : Type} [Field K] [DecidableEq K]

/-- `if(evolve_algebraicConditions) evolve_algebraicConditions(u, u_p)`. -/
def EvoFuns.cond (R : EvoFuns K) (st : DState K) (u up : Nat) : Res (DState K) :=
  match R.alg with
  | none => .ok st
  | some g => g st u up

/-- Pass `i` of the loop over the stages (src/utility/evolve/rk.c:155-172). `uk` are the
lists `u_k[]`; using one that is NULL is undefined. -/
def rkStage (R : EvoFuns K) (dt : K) (rk : Butcher K) (uc up : Nat) (uk : Nat → Option Nat)
    (i : Nat) (st : DState K) : Res (DState K) :=
  (if i ≠ 0 then vlcopy st uc up else .ok st).bind fun st =>
  (forN i (fun j st => vladd st uc 1 (some uc) (dt * rk.A i j) (uk j)) st).bind fun st =>
  (R.cond st uc up).bind fun st =>
  match uk i with
  | none => .ub
  | some k => R.rhs st k up 0 uc

/-- `evolve_rk_generic` (src/utility/evolve/rk.c:146-183). -/
def evolveRkGeneric (R : EvoFuns K) (dt : K) (rk : Butcher K) (uc up : Nat)
    (uk : Nat → Option Nat) (st : DState K) : Res (DState K) :=
  (vlcopy st up uc).bind fun st =>
  (forN rk.nstages (rkStage R dt rk uc up uk) st).bind fun st =>
  (vlcopy st uc up).bind fun st =>
  (forN rk.nstages (fun j st => vladd st uc 1 (some uc) (dt * rk.B j) (uk j)) st).bind fun st =>
  R.cond st uc up

/-- `evolve_rk_rk4` (src/utility/evolve/rk.c:187-219); `r` and `v` are `u_k[0]` and `u_k[1]`. -/
def evolveRkRk4 (R : EvoFuns K) (dt : K) (uc up r v : Nat) (st : DState K) : Res (DState K) :=
  (vlcopy st up uc).bind fun st =>
  (R.cond st uc up).bind fun st =>
  (R.rhs st r up 0 uc).bind fun st =>
  (vladdto st uc (dt / 6) (some r)).bind fun st =>
  (vladd st v 1 (some up) (dt / 2) (some r)).bind fun st =>
  (R.cond st v up).bind fun st =>
  (R.rhs st r up 0 v).bind fun st =>
  (vladdto st uc (dt / 3) (some r)).bind fun st =>
  (vladd st v 1 (some up) (dt / 2) (some r)).bind fun st =>
  (R.cond st v up).bind fun st =>
  (R.rhs st r up 0 v).bind fun st =>
  (vladdto st uc (dt / 3) (some r)).bind fun st =>
  (vladd st v 1 (some up) dt (some r)).bind fun st =>
  (R.cond st v up).bind fun st =>
  (R.rhs st r up 0 v).bind fun st =>
  (vladdto st uc (dt / 6) (some r)).bind fun st =>
  R.cond st uc up

/-- The methods offered (src/utility/evolve/rk.c:234-246), in the order in which they are looked
for. -/
def rkNames : List (String × Butcher K) :=
  [("rk5", rk5), ("rk4a", rk4a), ("rk4", rk4), ("rk3b", rk3b), ("rk3a", rk3a), ("rk3", rk3),
    ("rk2a", rk2a), ("rk2", rk2), ("rk1", rk1), ("midpoint", rk2a), ("euler", rk1)]

/-- The choice of the table (src/utility/evolve/rk.c:233-246): the first name that `Getv` finds in
the value of `evolution_method_rk`; also the name, since rk.c:250 asks for the table `rk4`. -/
def rkPick (method : CStr) : Res (String × Butcher K) :=
  match rkNames.find? (fun p => getv method p.1.toList) with
  | none => .abort
  | some p => .ok p

/-- Pass of the loop that gives the lists of the stages time 1 (src/utility/evolve/rk.c:266-267). -/
def rkMark (uk : Nat → Option Nat) (i : Nat) (st : DState K) : Res (DState K) :=
  match uk i with
  | none => .ok st
  | some l => .ok (st.setTime l 1)

/-- `evolve_rk` (src/utility/evolve/rk.c:226-282) after the first call. `uk` are the lists made by
the first call; the storage of all of them is on. Every list gets time 1 (line 267). -/
def evolveRk (R : EvoFuns K) (dt : K) (method : CStr) (uc up : Nat) (uk : Nat → Option Nat)
    (st : DState K) : Res (DState K) :=
  (rkPick method).bind fun p =>
  let n := if p.1 = "rk4" then 2 else p.2.nstages
  (forN n (rkMark uk) st).bind fun st =>
  if p.1 = "rk4" then
    match uk 0, uk 1 with
    | some r, some v => evolveRkRk4 R dt uc up r v st
    | _, _ => .ub
  else evolveRkGeneric R dt p.2 uc up uk st

/-- Pass of the loop of `evolve_icn` (src/utility/evolve/icn.c:22-36). -/
def icnPass (R : EvoFuns K) (dt : K) (uc up uq : Nat) (st : DState K) : Res (DState K) :=
  (vlaverage st uq uc up).bind fun st =>
  (R.rhs st uc up dt uq).bind fun st =>
  R.cond st uc up

/-- `evolve_icn` (src/utility/evolve/icn.c:9-37). -/
def evolveIcn (R : EvoFuns K) (dt : K) (uc up uq : Nat) (st : DState K) : Res (DState K) :=
  (vlcopy st up uc).bind fun st => forN 3 (fun _ => icnPass R dt uc up uq) st

/-- `evolve_euler` (src/utility/evolve/icn.c:43-62); `debug` is the parameter
`evolve_euler_debug`. -/
def evolveEuler (R : EvoFuns K) (dt : K) (debug : Bool) (uc up : Nat) (st : DState K) :
    Res (DState K) :=
  let dt := if debug then 0 else dt
  (vlcopy st up uc).bind fun st =>
  (R.rhs st uc up dt up).bind fun st =>
  R.cond st uc up

end

/-- Which lists the integrators have: `u_p` and `u_q` (src/utility/evolve/evolve.c:14) and, after the
first call of `evolve_rk`, the number of lists in `u_k[]`. -/
structure EvoLists where
  up : Bool
  uq : Bool
  uk : Option Nat

/-- Before the first step. -/
def EvoLists.start : EvoLists := ⟨false, false, none⟩

/-- Making of lists before the first time step (src/utility/evolve/evolve.c:83-102). -/
def EvoLists.add (it : Nat) (method : CStr) (s : EvoLists) : EvoLists :=
  if it = 0 then
    let s := if getv method "euler".toList then { s with up := true } else s
    let s := if getv method "icn".toList then { s with up := true, uq := true } else s
    if getv method "rk".toList then { s with up := true } else s
  else s

/-- The lists used by a call of `evolve_rk` (src/utility/evolve/rk.c:226-282). -/
def EvoLists.rk (rkmethod : CStr) (s : EvoLists) : Res EvoLists :=
  (rkPick (K := ℚ) rkmethod).bind fun p =>
  let n := if p.1 = "rk4" then 2 else p.2.nstages
  let m := s.uk.getD n
  if s.up = true ∧ n ≤ m then .ok { s with uk := some m } else .ub

/-- `evolve` (src/utility/evolve/evolve.c:66-169), with a registered right hand side and list of
variables, as far as the existence of the lists is concerned. A step that uses a list which does
not exist is undefined. The loop that computes changes is left out. -/
def evolveCall (it : Nat) (method rkmethod : CStr) (s : EvoLists) : Res EvoLists :=
  let s := s.add it method
  if getv method "icn".toList then if s.up && s.uq then .ok s else .ub
  else if getv method "euler".toList then if s.up then .ok s else .ub
  else if getv method "rk".toList then s.rk rkmethod
  else .abort

/-- The calls of `evolve` in one run, with the iteration numbers they see. -/
def evolveCalls (method rkmethod : CStr) : List Nat → EvoLists → Res EvoLists
  | [], s => .ok s
  | it :: its, s => (evolveCall it method rkmethod s).bind (evolveCalls method rkmethod its)

end Sgrid
