import Verif.Model.IntList

/-!
src/main/MemoryMan/boxlists.c: lists of boxes chosen by an attribute, and the neighbours of a box.

A grid is the list of its boxes; `grid->box[b]` outside this list is undefined.  Of a box only the array `Attrib`
and the numbers `ob` of its faces are used.  The list that is read and the list that grows are different objects.
-/

namespace Sgrid

/-- The parts of `tBox` used in boxlists.c: `Attrib`, and `bface[i]->ob` for `i < nbfaces`
(boxlists.c:29, 79-83). -/
structure NbBox where
  /-- `Attrib` -/
  attr : List Int
  /-- `bface[i]->ob` -/
  ob : List Int

variable (junk : Int)

/-- The loop bodies `if(box->Attrib[iAttr] == AttrVal) push_intList(bl, b);` (boxlists.c:28-29) and with `!=`
(boxlists.c:42-43); `want` tells which. -/
def pushIf (want : Bool) (grid : List NbBox) (iAttr : Nat) (val : Int) (b : Int) (bl : CList Int) : Res (CList Int) :=
  if b < 0 then .ub
  else (aget grid b.toNat).bind fun box => (aget box.attr iAttr).bind fun a =>
    if decide (a = val) = want then bl.push junk b else .ok bl

/-- `bladd_ifAttrib` (boxlists.c:23-32) and, for `want = false`, `bladd_ifnotAttrib` (boxlists.c:36-45): the list
and the returned number. -/
def bladdIf (want : Bool) (grid : List NbBox) (iAttr : Nat) (val : Int) (bl : CList Int) : Res (CList Int × Nat) :=
  (forN grid.length (fun b bl => pushIf junk want grid iAttr val b bl) bl).bind fun bl => .ok (bl, bl.n)

/-- `bl2_ifAttrib` (boxlists.c:49-59) and, for `want = false`, `bl2_ifnotAttrib` (boxlists.c:63-73). -/
def bl2If (want : Bool) (grid : List NbBox) (bl1 : CList Int) (iAttr : Nat) (val : Int) (bl2 : CList Int) :
    Res (CList Int × Nat) :=
  (forN bl1.n (fun i bl => (aget bl1.e i).bind fun b => pushIf junk want grid iAttr val b bl) bl2).bind fun bl =>
    .ok (bl, bl.n)

/-- `bladd_neighbors` (boxlists.c:76-93). -/
def bladdNeighbors (box : NbBox) (bl : CList Int) : Res (CList Int × Nat) :=
  (forN box.ob.length (fun i bl => (aget box.ob i).bind fun nb =>
    if nb < 0 then .ok bl
    else (bl.mem nb).bind fun found => if found then .ok bl else bl.push junk nb) bl).bind fun bl => .ok (bl, bl.n)

/-- `bladd_neighbors_of_neighbors` (boxlists.c:96-133); `b` is `box->b`. -/
def bladdNeighbors2 (grid : List NbBox) (b : Nat) (bl : CList Int) : Res (CList Int × Nat) :=
  (aget grid b).bind fun box =>
  (bladdNeighbors junk box CList.alloc).bind fun r =>
  let bln := r.1
  (forN bln.n (fun i (s : CList Int × CList Int) =>
    (aget bln.e i).bind fun nb =>
    if nb < 0 then .ub
    else (aget grid nb.toNat).bind fun box2 =>
      let bln2 := s.1.clear
      (bladdNeighbors junk box2 bln2).bind fun r2 =>
      (s.2.unionpushlist junk r2.1).bind fun blnn => .ok (r2.1, blnn)) (CList.alloc, CList.alloc)).bind fun s =>
  (s.2.droplist bln).bind fun blnn =>
  (blnn.drop b).bind fun blnn =>
  (bl.pushlist junk blnn).bind fun bl => .ok (bl, bl.n)

end Sgrid
