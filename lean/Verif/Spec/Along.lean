import Mathlib.Algebra.BigOperators.Intervals
import Verif.Model.Lines

/-! Operations along one direction of a three-dimensional array. -/

namespace Sgrid.Spec
variable {K : Type}

/-- `f` applied to the line through the point in the given direction. -/
def onLines (ax : Axis) (f : (Nat → K) → Nat → K) (u : Nat → Nat → Nat → K) (i j k : Nat) : K :=
  match ax with
  | .one => f (fun l => u l j k) i
  | .two => f (fun l => u i l k) j
  | .three => f (fun l => u i j l) k

/-- Array `a` as a function of the three grid indices. -/
def view (d : Dims) (mem : Arrays K) (a : Nat) : Nat → Nat → Nat → K :=
  fun i j k => mem a (i + d.n1 * (j + d.n2 * k))

/-- The three indices belong to a point of the box. -/
def inBox (d : Dims) (i j k : Nat) : Prop := i < d.n1 ∧ j < d.n2 ∧ k < d.n3

/-- Array `dst` is the result of `f` along lines of array `src`; everything else is unchanged. -/
def ActsAlong (d : Dims) (ax : Axis) (f : (Nat → K) → Nat → K) (src dst : Nat) (mem mem' : Arrays K) :
    Prop :=
  (∀ i j k, inBox d i j k → view d mem' dst i j k = onLines ax f (view d mem src) i j k) ∧
  ∀ a p, a ≠ dst ∨ d.n1 * d.n2 * d.n3 ≤ p → mem' a p = mem a p

end Sgrid.Spec
