import Verif.Model.VarArith

/-! Meaning of "set the variables of a list", stated on the values of single points. -/

namespace Sgrid
variable {K : Type}

/-- Value of variable `x` at point `i` of box `b`; `none` if there is no such box, point or
storage. -/
def DState.val (st : DState K) (b x i : Nat) : Option K :=
  match st.boxes[b]? with
  | none => none
  | some box => if i < box.nnodes then (box.v x).map (· i) else none

/-- Point `i` exists in box `b` and the box is active. -/
def DState.Live (st : DState K) (b i : Nat) : Prop :=
  ∃ box, st.boxes[b]? = some box ∧ box.inactive = false ∧ i < box.nnodes

/-- Every variable of list `l` has storage in every active box. -/
def DState.Stored (st : DState K) (l : Nat) : Prop :=
  ∀ box ∈ st.boxes, box.inactive = false → ∀ x ∈ (st.vl l).index, (box.v x).isSome

/-- `l` can serve as an operand while `r` is written: it has storage, is long enough and none
of its variables is a variable of `r` at an earlier place. It may well be that `l = r` or that
both lists contain the same variables in the same places. -/
structure DState.Operand (st : DState K) (r l : Nat) : Prop where
  stored : st.Stored l
  long : (st.vl r).index.length ≤ (st.vl l).index.length
  apart : ∀ (m n : Nat) (x y : Nat), m < n → (st.vl r).index[m]? = some x →
    (st.vl l).index[n]? = some y → x ≠ y

/-- Value of component `n` of the list `l` at point `i` of box `b`, 0 if there is no such list,
component, point or storage. -/
def DState.compVal [Zero K] (st : DState K) (l : Option Nat) (b n i : Nat) : K :=
  match l with
  | none => 0
  | some l => (((st.vl l).index[n]?).bind fun x => st.val b x i).getD 0

/-- Time of a list, 0 if there is no such list. -/
def DState.timeVal [Zero K] (st : DState K) (l : Option Nat) : K :=
  match l with
  | none => 0
  | some l => (st.vl l).time

/-- `st'` comes from `st` by giving component `n` of list `r` the value `new b n i` at point
`i` of every active box `b`, and the list `r` the time `t`; nothing else changes. -/
structure Spec.Assigned (st st' : DState K) (r : Nat) (new : Nat → Nat → Nat → K) (t : K) :
    Prop where
  /-- the new values -/
  set : ∀ b n i x, st.Live b i → (st.vl r).index[n]? = some x →
    st'.val b x i = some (new b n i)
  /-- other variables and inactive boxes keep their values -/
  frame : ∀ b x i, (x ∉ (st.vl r).index ∨ ¬ st.Live b i) → st'.val b x i = st.val b x i
  /-- the variable lists keep their indices -/
  index : ∀ l, (st'.vl l).index = (st.vl l).index
  /-- the new time -/
  time : (st'.vl r).time = t
  /-- other lists keep their time -/
  times : ∀ l, l ≠ r → (st'.vl l).time = (st.vl l).time
  /-- boxes keep size and activity -/
  shape : st'.boxes.map (fun b => (b.nnodes, b.inactive))
    = st.boxes.map (fun b => (b.nnodes, b.inactive))

/-- `st'` comes from `st` by exchanging the values of component `n` of `v` and of `u`, for
every component `n` of `v`, in every point of every active box, and the times of both lists. -/
structure Spec.Swapped [Zero K] (st st' : DState K) (v u : Nat) : Prop where
  setv : ∀ b n i x, st.Live b i → (st.vl v).index[n]? = some x →
    st'.val b x i = some (st.compVal (some u) b n i)
  setu : ∀ b n i y, st.Live b i → n < (st.vl v).index.length → (st.vl u).index[n]? = some y →
    st'.val b y i = some (st.compVal (some v) b n i)
  frame : ∀ b x i, (x ∉ (st.vl v).index ∧ x ∉ (st.vl u).index.take (st.vl v).index.length) ∨
    ¬ st.Live b i → st'.val b x i = st.val b x i
  index : ∀ l, (st'.vl l).index = (st.vl l).index
  timev : (st'.vl v).time = (st.vl u).time
  timeu : (st'.vl u).time = (st.vl v).time
  times : ∀ l, l ≠ v → l ≠ u → (st'.vl l).time = (st.vl l).time
  shape : st'.boxes.map (fun b => (b.nnodes, b.inactive))
    = st.boxes.map (fun b => (b.nnodes, b.inactive))

end Sgrid
