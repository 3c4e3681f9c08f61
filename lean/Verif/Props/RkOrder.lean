import Mathlib.Algebra.Order.Field.Rat
import Verif.Model.RungeKutta

/-!
Property C28: the order conditions of the Runge-Kutta tables.
-/

namespace Sgrid

/-- Forests of ordered rooted trees: nothing, or a first tree, given by the forest of the subtrees
of its root, and the forest of the remaining trees. A rooted tree is given by the forest of the
subtrees of its root. -/
inductive Forest where
  | nil
  | cons (sub rest : Forest)
  deriving DecidableEq

namespace Forest

/-- Number of nodes of a forest. -/
def size : Forest → Nat
  | nil => 0
  | cons s r => s.size + 1 + r.size

/-- Number of nodes of the rooted tree whose root has these subtrees: the order of the tree. -/
def order (f : Forest) : Nat := f.size + 1

/-- Product of the densities of the trees of a forest; the density of a tree is its number of nodes
times the densities of the subtrees. -/
def dens : Forest → Nat
  | nil => 1
  | cons s r => (s.size + 1) * s.dens * r.dens

/-- Density `γ` of the tree. -/
def gamma (f : Forest) : Nat := f.order * f.dens

/-- Stage `i` of the elementary weights: the product over the trees of the forest of
`Σ_j a_ij · (stage j of the subtrees)`. -/
def stage (t : Butcher ℚ) : Forest → Nat → ℚ
  | nil, _ => 1
  | cons s r, i => ((List.range t.nstages).map fun j => t.A i j * s.stage t j).sum * r.stage t i

/-- Elementary weight `Σ_i b_i …` of the tree. -/
def weight (t : Butcher ℚ) (f : Forest) : ℚ :=
  ((List.range t.nstages).map fun i => t.B i * f.stage t i).sum

/-- A list with all forests up to the given size. -/
def upto : Nat → List Forest
  | 0 => [nil]
  | n + 1 => nil :: (upto n).flatMap fun s => (upto n).map fun r => cons s r

theorem mem_upto (f : Forest) (n : Nat) (h : f.size ≤ n) : f ∈ upto n := by
  induction f generalizing n with
  | nil => cases n <;> simp [upto]
  | cons s r hs hr =>
    cases n with
    | zero => simp [size] at h
    | succ n =>
      simp only [size] at h
      simp only [upto, List.mem_cons, List.mem_flatMap, List.mem_map]
      exact .inr ⟨s, hs n (by omega), r, hr n (by omega), rfl⟩

end Forest

/-- All order conditions up to order `p` (Butcher): for each rooted tree the elementary weight is
the inverse of the density. -/
def Spec.OrderConditions (t : Butcher ℚ) (p : Nat) : Prop :=
  ∀ f : Forest, f.order ≤ p → f.weight t = 1 / (f.gamma : ℚ)

theorem order_of_check (t : Butcher ℚ) (p : Nat)
    (h : ∀ f ∈ Forest.upto p, f.size ≤ p → f.weight t = 1 / (f.gamma : ℚ)) :
    Spec.OrderConditions t (p + 1) := by
  intro f hf
  have hs : f.size ≤ p := by simp only [Forest.order] at hf; omega
  exact h f (f.mem_upto p hs) hs

/-- **C28.** Every table satisfies all conditions up to the order in its name, and not all of those
of the next order. -/
theorem C28_rk1 : Spec.OrderConditions rk1 1 ∧ ¬ Spec.OrderConditions rk1 2 :=
  ⟨order_of_check _ 0 (by decide +kernel),
    fun h => absurd (h (.cons .nil .nil) (by decide)) (by decide +kernel)⟩

/-- **C28** for `rk2`. -/
theorem C28_rk2 : Spec.OrderConditions rk2 2 ∧ ¬ Spec.OrderConditions rk2 3 :=
  ⟨order_of_check _ 1 (by decide +kernel),
    fun h => absurd (h (.cons (.cons .nil .nil) .nil) (by decide)) (by decide +kernel)⟩

/-- **C28** for `rk2a`. -/
theorem C28_rk2a : Spec.OrderConditions rk2a 2 ∧ ¬ Spec.OrderConditions rk2a 3 :=
  ⟨order_of_check _ 1 (by decide +kernel),
    fun h => absurd (h (.cons (.cons .nil .nil) .nil) (by decide)) (by decide +kernel)⟩

/-- **C28** for `rk3`. -/
theorem C28_rk3 : Spec.OrderConditions rk3 3 ∧ ¬ Spec.OrderConditions rk3 4 :=
  ⟨order_of_check _ 2 (by decide +kernel),
    fun h => absurd (h (.cons (.cons (.cons .nil .nil) .nil) .nil) (by decide)) (by decide +kernel)⟩

/-- **C28** for `rk3a`. -/
theorem C28_rk3a : Spec.OrderConditions rk3a 3 ∧ ¬ Spec.OrderConditions rk3a 4 :=
  ⟨order_of_check _ 2 (by decide +kernel),
    fun h => absurd (h (.cons (.cons (.cons .nil .nil) .nil) .nil) (by decide)) (by decide +kernel)⟩

/-- **C28** for `rk3b`. -/
theorem C28_rk3b : Spec.OrderConditions rk3b 3 ∧ ¬ Spec.OrderConditions rk3b 4 :=
  ⟨order_of_check _ 2 (by decide +kernel),
    fun h => absurd (h (.cons (.cons (.cons .nil .nil) .nil) .nil) (by decide)) (by decide +kernel)⟩

/-- **C28** for `rk4`. -/
theorem C28_rk4 : Spec.OrderConditions rk4 4 ∧ ¬ Spec.OrderConditions rk4 5 :=
  ⟨order_of_check _ 3 (by decide +kernel),
    fun h => absurd (h (.cons (.cons (.cons (.cons .nil .nil) .nil) .nil) .nil) (by decide)) (by decide +kernel)⟩

/-- **C28** for `rk4a`. -/
theorem C28_rk4a : Spec.OrderConditions rk4a 4 ∧ ¬ Spec.OrderConditions rk4a 5 :=
  ⟨order_of_check _ 3 (by decide +kernel),
    fun h => absurd (h (.cons (.cons (.cons (.cons .nil .nil) .nil) .nil) .nil) (by decide)) (by decide +kernel)⟩

/-- **C28** for `rk5`. -/
theorem C28_rk5 : Spec.OrderConditions rk5 5 ∧ ¬ Spec.OrderConditions rk5 6 :=
  ⟨order_of_check _ 4 (by decide +kernel),
    fun h => absurd (h (.cons (.cons (.cons (.cons (.cons .nil .nil) .nil) .nil) .nil) .nil) (by decide)) (by decide +kernel)⟩

/-- The number of rooted trees with at most 5 nodes, ordered ones: 1 + 1 + 2 + 5 + 14. -/
example : ((Forest.upto 4).filter fun f => f.size ≤ 4).length = 23 := by decide +kernel

/-- The condition of the tree whose root has two leaves: `Σ b_i c_i² = 1/3`. -/
example : (Forest.cons .nil (.cons .nil .nil)).gamma = 3 ∧
    (Forest.cons .nil (.cons .nil .nil)).weight rk3 = 1 / 3 ∧
    (Forest.cons .nil (.cons .nil .nil)).weight rk2 = 1 / 2 := by decide +kernel

/-- Row sums of the table, which are the times used by the integrator (see `C27_generic`). -/
def Spec.rowSum (t : Butcher ℚ) (i : Nat) : ℚ := ((List.range t.nstages).map fun j => t.A i j).sum

/-- **C28**, row sums: the stored `c` are the row sums for these tables. -/
theorem C28_rows_partial : ∀ t ∈ [rk2a, rk3, rk3a, rk3b, rk4], ∀ i, i < t.nstages →
    t.C i = Spec.rowSum t i := by
  decide +kernel

/-- **C28 fails** for the stored `c` of the other tables; they are only printed. In `rk4a` and `rk5`
all entries are one place too early. -/
theorem C28_rows_counterexample : ∀ t ∈ [rk1, rk2, rk4a, rk5],
    ∃ i, i < t.nstages ∧ t.C i ≠ Spec.rowSum t i := by
  decide +kernel

end Sgrid
