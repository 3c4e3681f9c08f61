import Mathlib.Data.List.Count
import Verif.Model.PureLoop

/-!
# Parallel loops

`omp parallel for` (src/main/main/sgrid_main.h:52-86) distributes the passes of a loop over threads.
Here each pass is a list of reads and writes of single doubles in the shared memory. Reads go to
registers of the pass (its local variables). The machine runs the actions of the passes in any order
that keeps the order within each pass. Every distribution of the passes over threads gives such an order.
Writes are seen by all threads at once and in one order; loops without conflicting accesses do not depend
on this.
-/

namespace Sgrid
variable {L K : Type} [DecidableEq L]

/-- One access to the shared memory: local variable `r` gets the value at `x`, or the value at `x`
becomes a function of the local variables. -/
inductive Act (L K : Type)
  | load (r : Nat) (x : L)
  | store (x : L) (e : (Nat → K) → K)

/-- Shared memory and the local variables of one pass. -/
abbrev Local (L K : Type) := (L → K) × (Nat → K)

/-- Effect of one access. -/
def Act.run (s : Local L K) : Act L K → Local L K
  | .load r x => (s.1, Function.update s.2 r (s.1 x))
  | .store x e => (Function.update s.1 x (e s.2), s.2)

/-- The accesses of one pass, one after the other. -/
def runPass (p : List (Act L K)) (s : Local L K) : Local L K := p.foldl Act.run s

/-- The loop with one thread: pass `i` starts with the local variables `ρ i`. -/
def seqLoop (n : Nat) (prog : Nat → List (Act L K)) (ρ : Nat → Nat → K) (m : L → K) : L → K :=
  upLoop 0 n (fun i m => (runPass (prog i) (m, ρ i)).1) m

/-- State of a parallel loop: shared memory, local variables of all passes and how many accesses each
pass has made. -/
structure ParState (L K : Type) where
  mem : L → K
  reg : Nat → Nat → K
  pc : Nat → Nat

/-- The next access of pass `i`, if there is one. -/
def ParState.step (prog : Nat → List (Act L K)) (s : ParState L K) (i : Nat) : ParState L K :=
  match (prog i)[s.pc i]? with
  | none => s
  | some a =>
    let t := a.run (s.mem, s.reg i)
    ⟨t.1, Function.update s.reg i t.2, Function.update s.pc i (s.pc i + 1)⟩

/-- The loop under a schedule: entry `i` stands for the next access of pass `i`. -/
def parLoop (prog : Nat → List (Act L K)) (ρ : Nat → Nat → K) (m : L → K) (sched : List Nat) : L → K :=
  (sched.foldl (ParState.step prog) ⟨m, ρ, fun _ => 0⟩).mem

end Sgrid
