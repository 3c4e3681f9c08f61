import Mathlib.Algebra.Field.Basic
import Verif.Model.Loop

/-!
Arithmetic on variable lists, src/main/main/variables.c:562-844.

Simplifications: doubles are elements of a field; every array `box->v[i]` that exists has
`nnodes` entries (enablevarcomp_inbox, storage.c:368-386, is the only place that makes one)
and different variables have different arrays. The `omp parallel for` pragmas are ignored
here, see `Model/Parallel.lean` for them.
-/

namespace Sgrid

/-- The fields of `tBox` (sgrid_MemoryMan.h:63-116) used here: number of points, activity
flag and the table of arrays; `none` is a NULL pointer. -/
structure DBox (K : Type) where
  nnodes : Nat
  inactive : Bool
  v : Nat → Option (Nat → K)

/-- The fields of `tVarList` used here. -/
structure VL (K : Type) where
  index : List Nat
  time : K

/-- The boxes of the grid and the variable list objects. The lists live at addresses so that
two arguments can be the same object. -/
structure DState (K : Type) where
  boxes : List (DBox K)
  vl : Nat → VL K

namespace DBox
variable {K : Type}

/-- `box->v[x][i]` as a value. -/
def rd (box : DBox K) (x i : Nat) : Res K :=
  match box.v x with
  | none => .ub
  | some p => if i < box.nnodes then .ok (p i) else .ub

/-- Replace the array of variable `x`. -/
def setTo (box : DBox K) (x : Nat) (p : Nat → K) : DBox K :=
  { box with v := fun y => if y = x then some p else box.v y }

/-- `box->v[x][i] = y`. -/
def wr (box : DBox K) (x i : Nat) (y : K) : Res (DBox K) :=
  match box.v x with
  | none => .ub
  | some p =>
    if i < box.nnodes then .ok (box.setTo x fun j => if j = i then y else p j) else .ub

end DBox

section
variable {K : Type}

/-- `forallboxes(grid,b)` (sgrid_MemoryMan_loops.h:21-23) for a body that works on its own box
only. -/
def forallboxes (body : DBox K → Res (DBox K)) : List (DBox K) → Res (List (DBox K))
  | [] => .ok []
  | box :: rest =>
    (if box.inactive then .ok box else body box).bind fun box' =>
    (forallboxes body rest).bind fun rest' => .ok (box' :: rest')

/-- `l->index[n]`. A NULL list or a place outside the array is undefined. -/
def DState.idx (st : DState K) (l : Option Nat) (n : Nat) : Res Nat :=
  match l with
  | none => .ub
  | some l => match (st.vl l).index[n]? with
    | none => .ub
    | some x => .ok x

/-- `l->time`. -/
def DState.timeOf (st : DState K) (l : Option Nat) : Res K :=
  match l with
  | none => .ub
  | some l => .ok (st.vl l).time

/-- `r->time = t`. -/
def DState.setTime (st : DState K) (r : Nat) (t : K) : DState K :=
  { st with vl := fun l => if l = r then { st.vl l with time := t } else st.vl l }

/-- The double loop shared by all functions below: all active boxes, then all components
`n < r->n`. -/
def DState.loop (st : DState K) (r : Nat) (body : Nat → DBox K → Res (DBox K)) :
    Res (DState K) :=
  (forallboxes (forN (st.vl r).index.length body) st.boxes).bind fun bs =>
    .ok { st with boxes := bs }

/-- vlsetconstant (variables.c:562-582). -/
def vlsetconstant (st : DState K) (u : Nat) (c : K) : Res (DState K) :=
  st.loop u fun n box =>
    (st.idx (some u) n).bind fun pu =>
    forN box.nnodes (fun i box => box.wr pu i c) box

/-- vlcopy (variables.c:589-614). -/
def vlcopy (st : DState K) (v u : Nat) : Res (DState K) :=
  (st.timeOf (some u)).bind fun t =>
  let st := st.setTime v t
  st.loop v fun n box =>
    (st.idx (some u) n).bind fun pu =>
    (st.idx (some v) n).bind fun pv =>
    forN box.nnodes (fun i box => (box.rd pu i).bind fun x => box.wr pv i x) box

/-- vlswap (variables.c:637-669). -/
def vlswap (st : DState K) (v u : Nat) : Res (DState K) :=
  let temp := (st.vl v).time
  let st := st.setTime v (st.vl u).time
  let st := st.setTime u temp
  st.loop v fun n box =>
    (st.idx (some u) n).bind fun pu =>
    (st.idx (some v) n).bind fun pv =>
    forN box.nnodes (fun i box =>
      (box.rd pv i).bind fun temp =>
      (box.rd pu i).bind fun x =>
      (box.wr pv i x).bind fun box =>
      box.wr pu i temp) box

variable [Field K]

/-- vlaverage (variables.c:685-711). -/
def vlaverage (st : DState K) (r a b : Nat) : Res (DState K) :=
  (st.loop r fun n box =>
    (st.idx (some r) n).bind fun pr =>
    (st.idx (some a) n).bind fun pa =>
    (st.idx (some b) n).bind fun pb =>
    forN box.nnodes (fun i box =>
      (box.rd pa i).bind fun x => (box.rd pb i).bind fun y =>
        box.wr pr i ((1 / 2) * (x + y))) box).bind fun st =>
  .ok (st.setTime r ((1 / 2) * ((st.vl a).time + (st.vl b).time)))

/-- vlsubtract (variables.c:718-743). -/
def vlsubtract (st : DState K) (r a b : Nat) : Res (DState K) :=
  (st.loop r fun n box =>
    (st.idx (some r) n).bind fun pr =>
    (st.idx (some a) n).bind fun pa =>
    (st.idx (some b) n).bind fun pb =>
    forN box.nnodes (fun i box =>
      (box.rd pa i).bind fun x => (box.rd pb i).bind fun y => box.wr pr i (x - y)) box).bind
  fun st => .ok (st.setTime r ((st.vl a).time - (st.vl b).time))

variable [DecidableEq K]

/-- vladd (variables.c:753-793). A NULL list is `none`. A pointer that is not read (coefficient
zero) stays uninitialised, which is why it is only looked up where it is used. -/
def vladd (st : DState K) (r : Nat) (ca : K) (a : Option Nat) (cb : K) (b : Option Nat) :
    Res (DState K) :=
  (st.loop r fun n box =>
    (st.idx (some r) n).bind fun pr =>
    if ca = 0 ∧ cb = 0 then forN box.nnodes (fun i box => box.wr pr i 0) box
    else if ca = 0 then
      (st.idx b n).bind fun pb =>
      forN box.nnodes (fun i box => (box.rd pb i).bind fun y => box.wr pr i (cb * y)) box
    else if cb = 0 then
      (st.idx a n).bind fun pa =>
      forN box.nnodes (fun i box => (box.rd pa i).bind fun x => box.wr pr i (ca * x)) box
    else
      (st.idx a n).bind fun pa =>
      (st.idx b n).bind fun pb =>
      forN box.nnodes (fun i box =>
        (box.rd pa i).bind fun x => (box.rd pb i).bind fun y =>
          box.wr pr i (ca * x + cb * y)) box).bind fun st =>
  if ca = 0 ∧ cb = 0 then .ok (st.setTime r 0)
  else if ca = 0 then (st.timeOf b).bind fun tb => .ok (st.setTime r (cb * tb))
  else if cb = 0 then (st.timeOf a).bind fun ta => .ok (st.setTime r (ca * ta))
  else (st.timeOf a).bind fun ta => (st.timeOf b).bind fun tb =>
    .ok (st.setTime r (ca * ta + cb * tb))

/-- vladdto (variables.c:812-844). -/
def vladdto (st : DState K) (r : Nat) (ca : K) (a : Option Nat) : Res (DState K) :=
  if ca = 0 then .ok st
  else
    (st.loop r fun n box =>
      (st.idx (some r) n).bind fun pr =>
      (st.idx a n).bind fun pa =>
      if ca = 1 then
        forN box.nnodes (fun i box =>
          (box.rd pr i).bind fun x => (box.rd pa i).bind fun y => box.wr pr i (x + y)) box
      else if ca = -1 then
        forN box.nnodes (fun i box =>
          (box.rd pr i).bind fun x => (box.rd pa i).bind fun y => box.wr pr i (x - y)) box
      else
        forN box.nnodes (fun i box =>
          (box.rd pr i).bind fun x => (box.rd pa i).bind fun y =>
            box.wr pr i (x + ca * y)) box).bind fun st =>
    (st.timeOf a).bind fun ta => .ok (st.setTime r ((st.vl r).time + ca * ta))

end

end Sgrid
