import Verif.Model.Basic

/-!
Function bins (src/main/main/skeleton.c) and the argument lines handed to MPI ranks
(src/main/main/main.c).
-/

namespace Sgrid

/-- Chain of `tTODO` cells (skeleton.c:13-17). `last` is the empty cell with `next == NULL`
that ends every chain. `F` stands for the function pointers; names are left out. -/
inductive Todo (F : Type) where
  | last
  | node (f : F) (next : Todo F)

/-- `NFUNCTIONS` (src/main/main/sgrid_main.h:142-163). -/
def nFunctions : Nat := 18

/-- `fps[NFUNCTIONS]` and `sgrid_restarts` (skeleton.c:10,19). -/
structure Bins (F : Type) where
  fps : Nat → Option (Todo F)
  restarts : Nat

/-- Program start. -/
def Bins.init (F : Type) : Bins F := ⟨fun _ => none, 0⟩

/-- Walk to the empty cell, fill it and hang a new empty cell behind it
(skeleton.c:34-38). -/
def Todo.addEnd {F : Type} (f : F) : Todo F → Todo F
  | .last => .node f .last
  | .node g next => .node g (next.addEnd f)

/-- AddFun (skeleton.c:23-39). Bins outside the array are undefined behaviour. -/
def Bins.addFun {F : Type} (b : Bins F) (step : Nat) (f : F) : Res (Bins F) :=
  if b.restarts > 0 then .ok b
  else if step ≥ nFunctions then .ub
  else
    let chain := match b.fps step with
      | none => Todo.last
      | some t => t
    .ok { b with fps := fun s => if s = step then some (chain.addEnd f) else b.fps s }

/-- remove_all_Funs (skeleton.c:42-61). -/
def Bins.removeAll {F : Type} (b : Bins F) : Bins F :=
  { b with fps := fun s => if s < nFunctions then none else b.fps s }

/-- Call the functions of a chain in turn (skeleton.c:70-72). A function acts on the state
`G` of the program; functions that change the bins while they run are not modelled. -/
def Todo.run {G : Type} : Todo (G → G) → G → G
  | .last, g => g
  | .node f next, g => next.run (f g)

/-- RunFun (skeleton.c:64-73). -/
def Bins.runFun {G : Type} (b : Bins (G → G)) (step : Nat) (g : G) : Res G :=
  if step ≥ nFunctions then .ub
  else match b.fps step with
    | none => .ok g
    | some t => .ok (t.run g)

/-- Calls that change the bins; `restart` is `sgrid_restarts++` (main.c:114). -/
inductive BinOp (F : Type) where
  | add (step : Nat) (f : F)
  | restart
  | removeAll

/-- A history of calls. -/
def Bins.run {F : Type} (b : Bins F) : List (BinOp F) → Res (Bins F)
  | [] => .ok b
  | .add s f :: ops => (b.addFun s f).bind fun b' => b'.run ops
  | .restart :: ops => ({ b with restarts := b.restarts + 1 } : Bins F).run ops
  | .removeAll :: ops => b.removeAll.run ops

/-- Lines of an argument file that count (main.c:157-163): empty lines and lines starting
with '#' are skipped. `fscanline` (src/utility/checkpoint/wolfio.c:185-205) is taken to
deliver the file line by line. -/
def argLines (raw : List CStr) : List CStr := raw.filter fun l => match l with
  | [] => false
  | c :: _ => c ≠ '#'

/-- The restart loop of one rank (main.c:53-115). `rest` are the argument lines not yet
read, `lnum` the static line counter, `restarts` is `sgrid_restarts`. The result is the
list of runs made: `some line`, or `none` for a run with sgrid's own command line. Without
`--argsfile` the loop is the one for an empty list of lines. -/
def rankRun {α : Type} (rank size : Nat) : (rest : List α) → (lnum restarts : Nat) →
    List (Option α)
  | [], lnum, restarts =>
    if rank > 0 then []                             -- restart==0: break
    else if rank > lnum then []                     -- continue, then while(0)
    else if (lnum - rank) % size ≠ 0 then []        -- continue, then while(0)
    else if restarts > 0 then []                    -- break
    else [none]
  | l :: rest, lnum, restarts =>
    if rank > lnum then rankRun rank size rest (lnum + 1) restarts
    else if (lnum - rank) % size ≠ 0 then rankRun rank size rest (lnum + 1) restarts
    else some l :: rankRun rank size rest (lnum + 1) (restarts + 1)

end Sgrid
