import Verif.Model.Loop
import Mathlib.Algebra.Order.Floor.Ring

/-!
# The evolution loop and the times of checkpoints

src/main/main/main.c and src/utility/checkpoint/checkpoint.c. Doubles are elements of an ordered
field `K`, `int` has no bounds. Functions in the time bins change the data on the grid, which are
not part of the state here; they do not change the iteration, the time, the time step or the
parameters that control the loop.
-/

namespace Sgrid

/-- Conversion of a double to `int`: cut off everything behind the decimal point. -/
def truncC {K : Type} [Field K] [LinearOrder K] [FloorRing K] (x : K) : Int :=
  if 0 ≤ x then ⌊x⌋ else ⌈x⌉

/-- The time bins used by `initialize_grid` and `evolve_grid` (src/main/main/sgrid_main.h:142-163). -/
inductive TimeBin where
  | PRE_COORDINATES | COORDINATES | PRE_INITIALDATA | INITIALDATA | POST_INITIALDATA
  | PRE_EVOLVE | EVOLVE | PRE_POST_EVOLVE | POST_EVOLVE
  | ANALYZE | OUTPUT | POST_OUTPUT
  deriving DecidableEq, Repr

/-- What happens during a run: a time bin is run, a checkpoint is written, a checkpoint is read;
each with iteration and time (for reading: those after reading). -/
inductive Event (K : Type) where
  | ran (b : TimeBin) (iteration : Int) (time : K)
  | wrote (iteration : Int) (time : K)
  | restored (iteration : Int) (time : K)
  deriving DecidableEq, Repr

/-- The parameter `checkpoint`; simplified to the three values the code sets or documents
(src/utility/checkpoint/sgrid_checkpoint.c:14, checkpoint.c:53,188). -/
inductive CkMode where
  | no | yes | restart
  deriving DecidableEq, Repr

/-- Iteration, time and time step of the grid, the parameters `iterations`, `finaltime`,
`checkpoint`, `checkpoint_restart_it`, `checkpoint_dt`, `checkpoint_di`, `checkpoint_DeltaT`,
iteration and time stored in the checkpoint file in `outdir_previous`, and what has happened. -/
structure Sim (K : Type) where
  iteration : Int
  time : K
  dt : K
  iterations : Int
  finaltime : K
  mode : CkMode
  restartIt : Int
  ckDt : K
  ckDi : Int
  ckDeltaT : K
  file : Option (Int × K)
  log : List (Event K)

variable {K : Type} [Field K] [LinearOrder K] [FloorRing K]

/-- RunFun of a time bin. -/
def Sim.runFun (s : Sim K) (b : TimeBin) : Sim K :=
  { s with log := s.log ++ [.ran b s.iteration s.time] }

/-- `checkpoint_read` (src/utility/checkpoint/checkpoint_read.c:15-71) as far as iteration and time
are concerned: nothing happens if there is no file. -/
def Sim.ckRead (s : Sim K) : Sim K :=
  match s.file with
  | none => s
  | some f => { s with iteration := f.1, time := f.2, log := s.log ++ [.restored f.1 f.2] }

/-- The number of iterations between checkpoints (src/utility/checkpoint/checkpoint.c:71-75);
`dequaleps` is 1e-10 (src/main/main/sgrid_main.h:89). -/
def Sim.ckStep (s : Sim K) : Int :=
  if s.ckDt > 0 then truncC (s.ckDt / s.dt + 1 / 10 ^ 10) else s.ckDi

/-- `checkpoint` (src/utility/checkpoint/checkpoint.c:20-90). `iteration % di` is undefined
for `di == 0`. Simplified: `Setd` and `Seti` store the number itself. -/
def Sim.checkpoint (s : Sim K) : Res (Sim K) :=
  match s.mode with
  | .no => .ok s
  | .restart =>
    if s.iteration = s.restartIt ∨ s.restartIt < 0 then
      let s1 := s.ckRead
      let s2 := { s1 with mode := .yes }
      if s2.ckDeltaT > 0 then
        .ok { s2 with
          finaltime := s2.time + s2.ckDeltaT
          iterations := truncC ((s2.time + s2.ckDeltaT) / s2.dt + 1 / 2) }
      else .ok s2
    else .ok s
  | .yes =>
    let di := s.ckStep
    if di = 0 then .ub
    else if s.iteration.tmod di ≠ 0 then .ok s
    else if s.iteration = 0 ∧ s.restartIt > 0 then .ok s
    else .ok { s with log := s.log ++ [.wrote s.iteration s.time] }

/-- The bins of `initialize_grid` in order (src/main/main/main.c:381-411). -/
def initBins : List TimeBin :=
  [.PRE_COORDINATES, .COORDINATES, .PRE_INITIALDATA, .INITIALDATA, .POST_INITIALDATA,
    .PRE_POST_EVOLVE, .POST_EVOLVE, .ANALYZE, .OUTPUT, .POST_OUTPUT]

/-- `initialize_grid` (src/main/main/main.c:373-417). -/
def Sim.initialize (s : Sim K) : Res (Sim K) := (initBins.foldl Sim.runFun s).checkpoint

/-- `iterationmax` (src/main/main/main.c:425-431, 473-474). -/
def Sim.iterationmax (s : Sim K) : Int :=
  if s.finaltime > 0 then truncC (s.finaltime / s.dt + 1 / 2) else s.iterations

/-- One pass of the loop (src/main/main/main.c:441-471). -/
def Sim.evolveStep (s : Sim K) : Res (Sim K) :=
  let s := [TimeBin.PRE_EVOLVE, .EVOLVE, .PRE_POST_EVOLVE, .POST_EVOLVE].foldl Sim.runFun s
  let s := { s with iteration := s.iteration + 1 }
  let s := { s with time := (s.iteration : K) * s.dt }
  let s := [TimeBin.ANALYZE, .OUTPUT, .POST_OUTPUT].foldl Sim.runFun s
  s.checkpoint

/-- The loop of `evolve_grid` (src/main/main/main.c:440-475), at most `fuel` passes; `none`: not yet
at the end. -/
def Sim.evolveLoop : Nat → Int → Sim K → Res (Option (Sim K))
  | 0, imax, s => if s.iteration < imax then .ok none else .ok (some s)
  | fuel + 1, imax, s =>
    if s.iteration < imax then
      s.evolveStep.bind fun s' => Sim.evolveLoop fuel s'.iterationmax s'
    else .ok (some s)

/-- `evolve_grid` (src/main/main/main.c:423-477). -/
def Sim.evolve (fuel : Nat) (s : Sim K) : Res (Option (Sim K)) :=
  let imax := s.iterationmax
  if imax ≤ 0 then .ok (some s) else Sim.evolveLoop fuel imax s

/-- `initialize_grid` and `evolve_grid` (src/main/main/main.c:91-92). -/
def Sim.main (fuel : Nat) (s : Sim K) : Res (Option (Sim K)) :=
  s.initialize.bind (Sim.evolve fuel)

end Sgrid
