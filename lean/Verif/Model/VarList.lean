import Verif.Model.Variables

/-!
Editing of variable lists, src/main/main/variables.c:300-450. A variable list is its index
array `index[0..n-1]`; the fields `grid`, `time` and `vlPars` are carried along by
`VList`.
-/

namespace Sgrid

/-- `tVarList` (sgrid_main.h): indices, time and the (opaque) grid. -/
structure VList (γ τ : Type) where
  index : List Nat
  grid : γ
  time : τ
  deriving DecidableEq

/-- vlpushone (variables.c:335-340). -/
def vlpushone (v : List Nat) (vi : Nat) : List Nat := v ++ [vi]

/-- The loop of vlpush, writing `v->index[v->n-n+i] = vi+i` into the enlarged array
(variables.c:353-356). `i` counts down to the number of passes left. -/
def pushLoop (vi n : Nat) : Nat → List Nat → List Nat
  | 0, a => a
  | left + 1, a => pushLoop vi n left (a.set (a.length - n + (n - (left + 1))) (vi + (n - (left + 1))))

/-- vlpush (variables.c:346-357). The new places hold an arbitrary value (0 here) until the
loop fills them. -/
def vlpush {ν : Type} (db : VDB ν) (v : List Nat) (vi : Nat) : Res (List Nat) :=
  (db.varNComponents vi).bind fun n =>
  (db.indComponent0 vi).bind fun i0 =>
    if i0 ≠ (vi : Int) then .abort
    else .ok (pushLoop vi n n (v ++ List.replicate n 0))

/-- The loop of vlpushvl: `v->index[v->n - u->n + i] = u->index[i]` (variables.c:370-371).
`same` says whether `v` and `u` are the same object; `none` is an uninitialised place. -/
def pushvlLoop (same : Bool) (u : List Nat) (base : Nat) : Nat → Nat → List (Option Nat) →
    List (Option Nat)
  | 0, _, a => a
  | left + 1, i, a =>
    pushvlLoop same u base left (i + 1)
      (a.set (base + i) (if same then (a[i]?).getD none else u[i]?))

/-- vlpushvl (variables.c:363-372) for non-NULL lists. With `same` the count `u->n` changes
together with `v->n`. -/
def vlpushvl (same : Bool) (v u : List Nat) : List (Option Nat) :=
  let vn := v.length + u.length
  let un := if same then vn else u.length
  pushvlLoop same u (vn - un) un 0 (v.map some ++ List.replicate u.length none)

/-- The loop `for(; i < v->n; i++) v->index[i] = v->index[i+1]` (variables.c:385-386);
`n` is the already decremented `v->n`. -/
def shiftLoop {α : Type} (n : Nat) : Nat → Nat → List α → List α
  | 0, _, a => a
  | fuel + 1, i, a =>
    if i < n then
      match a[i + 1]? with
      | some x => shiftLoop n fuel (i + 1) (a.set i x)
      | none => a
    else a

/-- vldropone (variables.c:378-389), loop from `i` on. The passes of the inner loop are at
most the length of the array. -/
def dropOneLoop (vi : Nat) (a : List Nat) : Nat → Nat → List Nat
  | 0, _ => a
  | fuel + 1, i =>
    match a[i]? with
    | none => a
    | some x =>
      if x = vi then (shiftLoop (a.length - 1) a.length i a).take (a.length - 1)
      else dropOneLoop vi a fuel (i + 1)

/-- vldropone (variables.c:378-389). -/
def vldropone (v : List Nat) (vi : Nat) : List Nat := dropOneLoop vi v v.length 0

/-- The loop of vldrop (variables.c:396-397). -/
def vldropLoop (vi : Nat) : Nat → Nat → List Nat → List Nat
  | 0, _, v => v
  | left + 1, i, v => vldropLoop vi left (i + 1) (vldropone v (vi + i))

/-- vldrop (variables.c:392-398). -/
def vldrop {ν : Type} (db : VDB ν) (v : List Nat) (vi : Nat) : Res (List Nat) :=
  (db.varNComponents vi).bind fun n => .ok (vldropLoop vi n 0 v)

/-- vldropn (variables.c:401-409). -/
def vldropn (v : List Nat) (n : Int) : List Nat :=
  if n ≤ 0 then v
  else if n ≥ v.length then v.take 0
  else v.take (v.length - n.toNat)

/-- The loop of vlduplicate (variables.c:422-423). -/
def dupLoop (v : List Nat) : Nat → Nat → List Nat → List Nat
  | 0, _, u => u
  | left + 1, i, u => dupLoop v left (i + 1) (vlpushone u (v.getD i 0))

/-- vlduplicate (variables.c:415-426). -/
def vlduplicate {γ τ : Type} (v : VList γ τ) : VList γ τ :=
  { index := dupLoop v.index v.index.length 0 [], grid := v.grid, time := v.time }

end Sgrid
