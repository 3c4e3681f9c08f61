import Verif.Model.IntList

/-!
Point lists (src/main/MemoryMan/points.c), the loops over them
(sgrid_MemoryMan_loops.h:76-87), boundary faces (storage.c:155-302) and the numbering of active
boxes (grid.c:571-634).
Simplification: memory never runs out.
-/

namespace Sgrid

/-- tPointList (sgrid_MemoryMan.h:135-143): for each box `point[b]` with `npoints[b]`, and
`blist` with `nblist`. -/
structure PL where
  pts : List (CList Int)
  bl : CList Nat
  deriving DecidableEq

namespace PL

/-- AllocatePointList (points.c:17-49). -/
def alloc (nboxes : Nat) : PL := ⟨List.replicate nboxes ⟨[], 0⟩, ⟨[], 0⟩⟩

/-- Adding at the end after `realloc` to `n+2` entries (points.c:68-75). -/
def append2 {α : Type} (junk : α) (c : CList α) (x : α) : Res (CList α) :=
  (aput (reallocTo junk c.e (c.n + 2)) c.n x).bind fun e => .ok ⟨e, c.n + 1⟩

/-- The `realloc` of blist followed by addto_blist (points.c:77-84 and 52-61). -/
def addBox (c : CList Nat) (bi : Nat) : Res (CList Nat) :=
  let e := reallocTo 0 c.e (c.n + 2)
  (CList.search (fun x => decide (x = bi)) e c.n 0).bind fun r =>
    match r with
    | some _ => .ok ⟨e, c.n⟩
    | none => (aput e c.n bi).bind fun e => .ok ⟨e, c.n + 1⟩

/-- AddToPointList (points.c:64-85). New memory holds 0 in the model; C20 treats arbitrary
content for the container functions. -/
def add (pl : PL) (b : Nat) (p : Int) : Res PL :=
  (aget pl.pts b).bind fun c =>
  (append2 0 c p).bind fun c' =>
  (aput pl.pts b c').bind fun pts =>
  (addBox pl.bl b).bind fun bl => .ok ⟨pts, bl⟩

/-- DropFromPointList (points.c:88-99): the container function works on `point[b]` in place,
the box list is not changed. -/
def drop (pl : PL) (b : Nat) (p : Int) : Res PL :=
  (aget pl.pts b).bind fun c =>
  (c.drop p).bind fun c' =>
  (aput pl.pts b c').bind fun pts => .ok { pl with pts := pts }

/-- DropListFromPointList (points.c:102-113). -/
def droplist (pl : PL) (b : Nat) (u : CList Int) : Res PL :=
  (aget pl.pts b).bind fun c =>
  (c.droplist u).bind fun c' =>
  (aput pl.pts b c').bind fun pts => .ok { pl with pts := pts }

/-- Copying `n` entries of one array into another, `for(i=0; i<n; i++) new[i] = old[i]`. -/
def copyN {α : Type} (n : Nat) (old new : List α) : Res (List α) :=
  forN n (fun i e => (aget old i).bind fun x => aput e i x) new

/-- The copy of the points in DuplicatePointList_for_grid (points.c:213-222), for one box. -/
def dupBox (c : CList Int) : Res (CList Int) :=
  (copyN c.n c.e (reallocTo 0 [] (c.n + 2))).bind fun e => .ok ⟨e, c.n⟩

/-- DuplicatePointList_for_grid (points.c:204-233) for a grid with as many boxes. The `realloc`
in line 225 uses `PL->nblist`, which is still 0, and not `PL0->nblist`. -/
def duplicate (pl : PL) : Res PL :=
  (forN pl.pts.length (fun b acc => (aget pl.pts b).bind fun c =>
    (dupBox c).bind fun c' => .ok (acc ++ [c'])) []).bind fun pts =>
  let PLnblist := 0
  (copyN pl.bl.n pl.bl.e (reallocTo 0 [] (PLnblist + 2))).bind fun e =>
  .ok ⟨pts, ⟨e, pl.bl.n⟩⟩

/-- forPointList_inbox (sgrid_MemoryMan_loops.h:84-87) with a body that records `ijk`: pass
`pi` records the `ijk` loaded before and then loads the next one. `left` counts the passes. -/
def inboxLoop (c : CList Int) : Nat → Nat → Int → List Int → Res (List Int)
  | 0, _, _, acc => .ok acc
  | left + 1, pi, ijk, acc =>
    (aget c.e (pi + 1 - (if pi + 1 = c.n then 1 else 0))).bind fun ijk' =>
    inboxLoop c left (pi + 1) ijk' (acc ++ [ijk])

/-- forPointList_inbox: `ijk = point[b][0]` is read even if there are no points. -/
def visitBox (c : CList Int) : Res (List Int) :=
  (aget c.e 0).bind fun ijk => inboxLoop c c.n 0 ijk []

/-- forPointList (sgrid_MemoryMan_loops.h:77-81): the boxes that are active, with the points
visited in them. -/
def visit (pl : PL) (inactive : Nat → Bool) : Res (List (Nat × List Int)) :=
  forN pl.pts.length (fun b acc =>
    if inactive b then .ok acc
    else (aget pl.pts b).bind fun c => (visitBox c).bind fun l => .ok (acc ++ [(b, l)])) []

end PL

/-- The fields of tBface (sgrid_MemoryMan.h:151-172) used here: face, own number and points
(`none` is NULL). -/
structure Bface where
  f : Int
  fi : Nat
  fpts : Option PL
  deriving DecidableEq

namespace Bfaces

/-- add_empty_bface (storage.c:157-185). -/
def addEmpty (bf : List Bface) (f : Int) : List Bface := bf ++ [⟨f, bf.length, none⟩]

/-- add_point_to_bface_inbox (storage.c:189-203) in box `b` of a grid with `nb` boxes. -/
def addPoint (nb b : Nat) (bf : List Bface) (fi : Int) (ijk f : Int) : Res (List Bface × Nat) :=
  let new := decide (fi < 0 ∨ fi ≥ bf.length)
  let bf' := if new then addEmpty bf f else bf
  let k := if new then bf.length else fi.toNat
  (aget bf' k).bind fun x =>
  ((x.fpts.getD (PL.alloc nb)).add b ijk).bind fun pl =>
  (aput bf' k { x with fpts := some pl, f := if x.f ≠ f then -1 else x.f }).bind fun bf'' =>
  .ok (bf'', k)

/-- remove_bface (storage.c:259-287); the second component is the return value. -/
def remove (bf : List Bface) (fi : Int) : Res (List Bface × Nat) :=
  if fi < 0 ∨ fi ≥ bf.length then .ok (bf, 0)
  else
    (forN (bf.length - 1 - fi.toNat) (fun k a => (aget a (fi.toNat + k + 1)).bind fun x =>
      aput a (fi.toNat + k) { x with fi := fi.toNat + k }) bf).bind fun a =>
    .ok (a.take (bf.length - 1), 1)

/-- remove_bfaces_with_NULL_fpts (storage.c:290-302). After a removal `fi` is set back, so the
loop looks at the same place again. `fuel` bounds the passes. -/
def removeNull : Nat → Nat → Nat → List Bface → Res (List Bface × Nat)
  | 0, _, n, bf => .ok (bf, n)
  | fuel + 1, fi, n, bf =>
    if fi < bf.length then
      (aget bf fi).bind fun x =>
        if x.fpts = none then
          (remove bf fi).bind fun r => removeNull fuel (fi + 1 - r.2) (n + 1) r.1
        else removeNull fuel (fi + 1) n bf
    else .ok (bf, n)

end Bfaces

/-- Activity of the boxes and the counter `ninactive`. -/
structure ActGrid where
  inactive : List Bool
  ninactive : Int
  deriving DecidableEq

namespace ActGrid

/-- The loop of set_ninactive counting active boxes (grid.c:579). -/
def countActive : List Bool → Int
  | [] => 0
  | fl :: rest => (if fl then 0 else 1) + countActive rest

/-- set_ninactive (grid.c:576-581). -/
def setNinactive (g : ActGrid) : ActGrid :=
  { g with ninactive := g.inactive.length - countActive g.inactive }

/-- set_box_inactiveflags (grid.c:584-589). -/
def setFlags (g : ActGrid) (l : List Nat) (fl : Bool) : Res ActGrid :=
  (forN l.length (fun i a => (aget l i).bind fun b => aput a b fl) g.inactive).bind fun a =>
  .ok (setNinactive { g with inactive := a })

/-- activate_allboxes and deactivate_allboxes (grid.c:601-613). -/
def setAll (g : ActGrid) (fl : Bool) : Res ActGrid :=
  (forN g.inactive.length (fun b a => aput a b fl) g.inactive).bind fun a =>
  .ok (setNinactive { g with inactive := a })

/-- The loop of IndexOf_ith_ActiveBox (grid.c:627-631): box number at which it stops. -/
def indexLoop (i : Int) : List Bool → Nat → Int → Nat
  | [], b, _ => b
  | fl :: rest, b, nn =>
    if fl then indexLoop i rest (b + 1) nn
    else if nn = i then b
    else indexLoop i rest (b + 1) (nn + 1)

/-- IndexOf_ith_ActiveBox (grid.c:618-634). -/
def indexOfIth (g : ActGrid) (i : Int) : Int :=
  if g.ninactive = 0 then (if i ≥ 0 ∧ i < g.inactive.length then i else -1)
  else
    let b := indexLoop i g.inactive 0 0
    if b < g.inactive.length then b else -1

/-- The boxes visited by forallboxes (sgrid_MemoryMan_loops.h:21-23). -/
def visited : List Bool → Nat → List Nat
  | [], _ => []
  | fl :: rest, b => if fl then visited rest (b + 1) else b :: visited rest (b + 1)

end ActGrid

end Sgrid
