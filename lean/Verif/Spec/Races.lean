import Verif.Model.Parallel

/-! Schedules of parallel loops and conflicting accesses. -/

namespace Sgrid.Spec
variable {L K : Type}

/-- A complete schedule of `n` passes: it runs every access of every pass. -/
def Complete (n : Nat) (prog : Nat → List (Act L K)) (sched : List Nat) : Prop :=
  ∀ i, sched.count i = if i < n then (prog i).length else 0

/-- The pass writes `x`. -/
def Writes (p : List (Act L K)) (x : L) : Prop := ∃ e, Act.store x e ∈ p

/-- The pass reads `x`. -/
def Reads (p : List (Act L K)) (x : L) : Prop := ∃ r, Act.load r x ∈ p

/-- No pass writes what another pass reads or writes. -/
def NoRace (n : Nat) (prog : Nat → List (Act L K)) : Prop :=
  ∀ i j, i < n → j < n → i ≠ j → ∀ x, Writes (prog i) x → ¬ Writes (prog j) x ∧ ¬ Reads (prog j) x

end Sgrid.Spec
