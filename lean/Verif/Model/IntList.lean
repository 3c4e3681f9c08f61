import Verif.Model.Loop

/-!
The list container of src/main/MemoryMan/list_templates.c, which is instantiated for `int`
(`intList`) and `double`. A container is an allocated array and the number of valid entries.
The array may be longer than that number, because the drop functions do not reallocate.
Simplification: memory never runs out, so `realloc` does not return NULL.
-/

namespace Sgrid

/-- Reading `e[i]`; outside the allocated array this is undefined. -/
def aget {α : Type} (e : List α) (i : Nat) : Res α :=
  match e[i]? with
  | none => .ub
  | some x => .ok x

/-- Writing `e[i] = x`. -/
def aput {α : Type} (e : List α) (i : Nat) (x : α) : Res (List α) :=
  if i < e.length then .ok (e.set i x) else .ub

/-- `realloc(e, m)`: keeps the entries that fit; new places hold `junk`. -/
def reallocTo {α : Type} (junk : α) (e : List α) (m : Nat) : List α :=
  (e ++ List.replicate (m - e.length) junk).take m

/-- The struct of list_templates.h:24-27: `e` is the allocated memory, `n` the number of
entries. -/
structure CList (α : Type) where
  e : List α
  n : Nat
  deriving DecidableEq

namespace CList
variable {α : Type}

/-- alloc (list_templates.c:24-30): calloc gives `e = NULL`, `n = 0`. -/
def alloc : CList α := ⟨[], 0⟩

/-- clear (list_templates.c:44-52). -/
def clear (_ : CList α) : CList α := ⟨[], 0⟩

/-- push (list_templates.c:65-70). -/
def push (junk : α) (v : CList α) (vi : α) : Res (CList α) :=
  (aput (reallocTo junk v.e (v.n + 1)) v.n vi).bind fun e => .ok ⟨e, v.n + 1⟩

/-- pushlist (list_templates.c:73-82) for two different non-NULL lists. -/
def pushlist (junk : α) (v u : CList α) : Res (CList α) :=
  (forN u.n (fun i e => (aget u.e i).bind fun x => aput e (v.n + u.n - u.n + i) x)
    (reallocTo junk v.e (v.n + u.n))).bind fun e => .ok ⟨e, v.n + u.n⟩

/-- pushlist (list_templates.c:73-82) called with the same list twice: `u->n` and `u->e` are
then `v->n` and `v->e`. -/
def pushlistSelf (junk : α) (v : CList α) : Res (CList α) :=
  let n := v.n + v.n
  (forN n (fun i e => (aget e i).bind fun x => aput e (n - n + i) x)
    (reallocTo junk v.e n)).bind fun e => .ok ⟨e, n⟩

/-- The loop `for(; i<n; i++) if(test(e[i])) break;` with `left` passes to go; gives the
position where it stopped, `none` if it went through. -/
def search (test : α → Bool) (e : List α) : Nat → Nat → Res (Option Nat)
  | 0, _ => .ok none
  | left + 1, i => (aget e i).bind fun x =>
    if test x then .ok (some i) else search test e left (i + 1)

variable [DecidableEq α]

/-- unionpush (list_templates.c:85-92). -/
def unionpush (junk : α) (v : CList α) (vi : α) : Res (CList α) :=
  (search (fun x => decide (x = vi)) v.e v.n 0).bind fun r =>
    match r with
    | some _ => .ok v
    | none => v.push junk vi

/-- unionpushlist (list_templates.c:95-99), two different lists. -/
def unionpushlist (junk : α) (v u : CList α) : Res (CList α) :=
  forN u.n (fun i v => (aget u.e i).bind fun x => v.unionpush junk x) v

omit [DecidableEq α] in
/-- The loop moving entries one place to the front, from place `i` on, until `n` is reached:
`for(; i < n; i++) e[i] = e[i+1]`. -/
def shift (n i : Nat) (e : List α) : Res (List α) :=
  forN (n - i) (fun k e => (aget e (i + k + 1)).bind fun x => aput e (i + k) x) e

omit [DecidableEq α] in
/-- dropindex (list_templates.c:102-108). -/
def dropindex (v : CList α) (ind : Int) : Res (CList α) :=
  if ind < 0 ∨ ind ≥ v.n then .ok v
  else (shift (v.n - 1) ind.toNat v.e).bind fun e => .ok ⟨e, v.n - 1⟩

/-- drop (list_templates.c:111-123). -/
def drop (v : CList α) (vi : α) : Res (CList α) :=
  (search (fun x => decide (x = vi)) v.e v.n 0).bind fun r =>
    match r with
    | none => .ok v
    | some i => (shift (v.n - 1) i v.e).bind fun e => .ok ⟨e, v.n - 1⟩

omit [DecidableEq α] in
/-- droplastn (list_templates.c:126-134). -/
def droplastn (v : CList α) (n : Int) : CList α :=
  if n ≤ 0 then v
  else if n ≥ v.n then ⟨v.e, 0⟩
  else ⟨v.e, v.n - n.toNat⟩

/-- droplist (list_templates.c:137-141), two different lists. -/
def droplist (v u : CList α) : Res (CList α) :=
  forN u.n (fun i v => (aget u.e i).bind fun x => v.drop x) v

/-- droplist (list_templates.c:137-141) called with the same list twice: the loop bound and
the entries are those of the shrinking list. `fuel` bounds the passes. -/
def droplistSelf : Nat → Nat → CList α → Res (CList α)
  | 0, _, v => .ok v
  | fuel + 1, i, v =>
    if i < v.n then (aget v.e i).bind fun x => (v.drop x).bind fun v => droplistSelf fuel (i + 1) v
    else .ok v

omit [DecidableEq α] in
/-- duplicate (list_templates.c:144-153). -/
def duplicate (junk : α) (v : CList α) : Res (CList α) :=
  forN v.n (fun i u => (aget v.e i).bind fun x => u.push junk x) alloc

/-- in (list_templates.c:156-162). -/
def mem (v : CList α) (vi : α) : Res Bool :=
  (search (fun x => decide (x = vi)) v.e v.n 0).map Option.isSome

/-- index (list_templates.c:165-171); -1 is `none`. -/
def index (v : CList α) (vi : α) : Res (Option Nat) :=
  search (fun x => decide (x = vi)) v.e v.n 0

omit [DecidableEq α] in
/-- index_prop (list_templates.c:182-190). -/
def indexProp (v : CList α) (i0 : Int) (prop : α → Bool) : Res (Option Nat) :=
  search prop v.e (v.n - i0.toNat) i0.toNat

end CList

end Sgrid
