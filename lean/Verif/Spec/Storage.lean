import Verif.Model.Storage

/-! When a variable should have storage: the switching events of a history of calls. -/

namespace Sgrid.Spec
variable {K : Type}

/-- An event: variable `x` is switched on or off in box `b`. -/
structure Ev where
  b : Nat
  x : Nat
  on : Bool
  deriving DecidableEq

/-- Variable `x` in all `nb` boxes. -/
def allBoxes (nb x : Nat) (on : Bool) : List Ev := (List.range nb).map fun b => ⟨b, x, on⟩

/-- The events of a call on a grid of `nb` boxes. -/
def events (nb : Nat) : SOp K → List Ev
  | .enableIn b i => [⟨b, i, true⟩]
  | .disableIn b i => [⟨b, i, false⟩]
  | .enablevarIn b i n => (List.range n).map fun j => ⟨b, i + j, true⟩
  | .disablevarIn b i n => (List.range n).map fun j => ⟨b, i + j, false⟩
  | .enablecomp i => allBoxes nb i true
  | .disablecomp i => allBoxes nb i false
  | .enablevar i n => (List.range n).flatMap fun j => allBoxes nb (i + j) true
  | .disablevar i n => (List.range n).flatMap fun j => allBoxes nb (i + j) false
  | .enablelist l => l.flatMap fun i => allBoxes nb i true
  | .disablelist l => l.flatMap fun i => allBoxes nb i false
  | .realloc _ => []
  | .write _ _ _ => []

/-- The last event for variable `x` in box `b` switched it on. -/
def isOn (evs : List Ev) (b x : Nat) : Bool :=
  match evs.reverse.find? fun e => decide (e.b = b ∧ e.x = x) with
  | some e => e.on
  | none => false

/-- The history only mentions boxes and variables that exist at the time (`nb` boxes, `nv`
variables at the start) and never shrinks the tables. -/
def Valid (nb : Nat) : Nat → List (SOp K) → Prop
  | _, [] => True
  | nv, o :: os =>
    (∀ e ∈ events nb o, e.b < nb ∧ e.x < nv) ∧
    match o with
    | .realloc m => nv ≤ m ∧ Valid nb m os
    | _ => Valid nb nv os

/-- Number of arrays in the grid. -/
def arrays (g : SGrid K) : Nat := (g.boxes.map fun box => box.v.countP Option.isSome).sum

/-- The array of variable `x` in box `b`. -/
def storage (g : SGrid K) (b x : Nat) : Option (List K) :=
  match g.boxes[b]? with
  | none => none
  | some box => (box.v[x]?).getD none

end Sgrid.Spec
