import Verif.Model.FaceSplit
import Verif.Model.PureLoop

/-!
The search for faces with the same points (src/utility/Coordinates/Coordinates_set_bfaces.c:1656-1844).

`hit b ind b2 fi2` is the answer of lines 1727-1752 for point `ind` of box `b0+b`: `some ind2` if the point of the plane
of face `fi2` of box `b0+b2` that is nearest to it, number `ind2`, is at a distance whose square is 0 for dequal, and
`none` if it is farther away. Boxes are counted from `b0`.
-/

namespace Sgrid

/-- The entries of a bface that the search sets: the other box, the face there, the bits `touch`, `same_fpts`,
`setnormalderiv`, `outerbound`, and the points `fpts->point[box->b]` (`none` if `fpts` is NULL). -/
structure TouchFace where
  ob : Int
  ofi : Int
  touch : Bool
  same : Bool
  snd : Bool
  outer : Bool
  fpts : Option (List Nat)
  deriving DecidableEq

/-- add_empty_bface (storage.c:157-185): calloc, then `ob = ofi = -1`. -/
def emptyTouch : TouchFace := ⟨-1, -1, false, false, false, false, none⟩

/-- The bfaces of the boxes `b0, b0+1, ...`, each with 6 bfaces, and the number of interfaces. -/
structure TouchState where
  face : Nat → Nat → TouchFace
  ifaces : Nat

/-- The points of `forplaneN` in the plane of face `fi` (Coordinates_set_bfaces.c:1705-1715,1826-1833). -/
def facePlanePts (d : Dims) (fi : Nat) : List Nat := planeN d (faceAxis fi) (fi % 2 * (d.len (faceAxis fi) - 1))

/-- add_point_to_bface_inbox (storage.c:189-203) for a face that exists, number `fi = f`. -/
def addTouch (x : TouchFace) (ind : Nat) : TouchFace := { x with fpts := some (x.fpts.getD [] ++ [ind]) }

/-- Adding the point of the other box if there is one at this place (Coordinates_set_bfaces.c:1752-1753). -/
def addFound (x : TouchFace) : Option Nat → TouchFace
  | some ind2 => addTouch x ind2
  | none => x

/-- Replacing bface `fi` of box `b0+b`. -/
def putFace (s : Nat → Nat → TouchFace) (b fi : Nat) (x : TouchFace) : Nat → Nat → TouchFace := aset s b (aset (s b) fi x)

/-- `bface->fpts->npoints[b]` (Coordinates_set_bfaces.c:1765): the points of the list are in box `b0+b`, but its number
is asked for box `b`. -/
def npointsAt (b0 b : Nat) (l : List Nat) : Nat := if b0 + b = b then l.length else 0

/-- The body of the loop over `fi2` when neither face has another box (Coordinates_set_bfaces.c:1704-1796). The second
component tells if the loop is left by `break`. -/
def tryFaces (b0 : Nat) (d : Nat → Dims) (hit : Nat → Nat → Nat → Nat → Option Nat) (b b2 fi fi2 : Nat) (s : TouchState) :
    TouchState × Bool :=
  let r := (facePlanePts (d b) fi).foldl (fun (r : TouchFace × TouchFace) ind =>
    (addTouch r.1 ind, addFound r.2 (hit b ind b2 fi2))) (s.face b fi, s.face b2 fi2)
  match r.1.fpts, r.2.fpts with
  | some l, some l2 =>
    if npointsAt b0 b l = npointsAt b0 b2 l2 then
      let x : TouchFace := { r.1 with ob := (b0 + b2 : Nat), ofi := fi2, touch := true, same := true }
      let x2 : TouchFace := { r.2 with
        ob := (b0 + b : Nat), ofi := fi, touch := true, same := true, snd := if x.snd = false then true else false }
      (⟨putFace (putFace s.face b fi x) b2 fi2 x2, s.ifaces + 1⟩, true)
    else (⟨putFace (putFace s.face b fi { r.1 with fpts := none }) b2 fi2 { r.2 with fpts := none }, s.ifaces⟩, false)
  | _, _ => (⟨putFace (putFace s.face b fi { r.1 with fpts := none }) b2 fi2 { r.2 with fpts := none }, s.ifaces⟩, false)

/-- The loop over `fi2` (Coordinates_set_bfaces.c:1691-1797); the state tells if it was left by `break`. -/
def tryFace (b0 : Nat) (d : Nat → Dims) (hit : Nat → Nat → Nat → Nat → Option Nat) (b b2 fi : Nat) (s : TouchState) :
    TouchState :=
  if 0 ≤ (s.face b fi).ob then s else
  (upLoop 0 6 (fun fi2 (r : TouchState × Bool) =>
    if r.2 then r
    else if 0 ≤ (r.1.face b2 fi2).ob then r
    else tryFaces b0 d hit b b2 fi fi2 r.1) (s, false)).1

/-- set_touching_bfaces_of_boxes_with_same_facepoints (Coordinates_set_bfaces.c:1658-1802); `old` are the bfaces
before. -/
def touchFaces (b0 nb : Nat) (d : Nat → Dims) (hit : Nat → Nat → Nat → Nat → Option Nat)
    (old : Nat → Nat → TouchFace) : TouchState :=
  let start := upLoop 0 nb (fun b s => aset s b fun _ => emptyTouch) old
  upLoop 0 nb (fun b s => upLoop 0 nb (fun b2 s =>
    if b2 = b then s else upLoop 0 6 (fun fi s => tryFace b0 d hit b b2 fi s) s) s) ⟨start, 0⟩

/-- set_all_bfaces_with_ob_minus1_to_outerbound (Coordinates_set_bfaces.c:1806-1844) for boxes with 6 bfaces. -/
def markOuterFaces (nb : Nat) (d : Nat → Dims) (s : Nat → Nat → TouchFace) : Nat → Nat → TouchFace :=
  upLoop 0 nb (fun b s => upLoop 0 6 (fun fi s =>
    if (s b fi).ob ≠ -1 then s
    else
      let x := (facePlanePts (d b) fi).foldl addTouch (s b fi)
      putFace s b fi { x with outer := true }) s) s

end Sgrid
