import Verif.Model.Boundary

/-!
The bfaces of the faces of a box (src/utility/Coordinates/Coordinates_set_bfaces.c): every point of a face goes to the
bface of the other box in which a place just outside of the point lies.

The list of bfaces is a list of records; adding at the end, adding a point and removing the bfaces with no points do to
it what C18 proves of the arrays. `hit ob ijk` is the answer of lines 584-600: whether the place outside of point `ijk`
is found in box `ob` (the distance to the nearest point, XYZ_of_xyz, and the comparison with `bbox`).
-/

namespace Sgrid

/-- The entries of a bface: its face, the other box, `outerbound` and the points (`none` is NULL). -/
structure FaceRec where
  f : Nat
  ob : Int
  outer : Bool
  fpts : Option (List Nat)
  deriving DecidableEq

/-- `for(li=0; li<obl->n; li++) ... break;` (Coordinates_set_bfaces.c:580-606): the first box of the list in which the
place is found, -1 if there is none. -/
def findOther (hit : Nat → Bool) : List Nat → Int
  | [] => -1
  | bi :: rest => if hit bi then bi else findOther hit rest

/-- Adding the point to the first bface with this `ob` and `f` (Coordinates_set_bfaces.c:608-613). -/
def addToFace (ob : Int) (f ijk : Nat) : List FaceRec → List FaceRec
  | [] => []
  | x :: rest =>
    if x.ob = ob ∧ x.f = f then { x with fpts := some (x.fpts.getD [] ++ [ijk]) } :: rest
    else x :: addToFace ob f ijk rest

/-- `dir = f/2 + 1` as an axis. -/
def faceAxis (f : Nat) : Axis := if f / 2 = 0 then .one else if f / 2 = 1 then .two else .three

/-- The points visited by `forplaneN(dir, i,j,k, n1,n2,n3, p)` (sgrid_MemoryMan_loops.h:44-47): none if there is no
plane `p`. -/
def planeN (d : Dims) (ax : Axis) (p : Nat) : List Nat := if p < d.len ax then planePts d ax p else []

/-- set_bfaces_on_boxface (Coordinates_set_bfaces.c:471-624); the second component is the return value. -/
def setFacesOn (nboxes b : Nat) (d : Dims) (hit : Nat → Nat → Bool) (bf : List FaceRec) (f : Nat) :
    List FaceRec × Int :=
  let obl := (List.range nboxes).filter (fun i => i ≠ b)
  let bf1 := obl.foldl (fun bf i => bf ++ [⟨f, (i : Int), false, none⟩]) bf
  let bf2 := bf1 ++ [⟨f, -1, false, none⟩]
  let p := (d.len (faceAxis f) - 1) * (f % 2)
  let bf3 := (planeN d (faceAxis f) p).foldl
    (fun bf ijk => addToFace (findOther (fun o => hit o ijk) obl) f ijk bf) bf2
  let bf4 := bf3.filter fun x => x.fpts.isSome
  (bf4, (bf4.length : Int) - bf.length)

/-- add_boxface_as_outerbound_bface (Coordinates_set_bfaces.c:735-751). The number of the plane is computed from `n1` in
all directions. -/
def addOuterFace (d : Dims) (bf : List FaceRec) (f : Nat) : List FaceRec :=
  let p := (d.n1 - 1) * (f % 2)
  let pts := planeN d (faceAxis f) p
  bf ++ [⟨f, -1, true, if pts = [] then none else some pts⟩]

/-- The loop over the faces of one box in Coordinates_set_bfaces_oldWT (Coordinates_set_bfaces.c:805-814), after
free_all_bfaces. -/
def setFacesOfBox (nboxes b : Nat) (d : Dims) (hit : Nat → Nat → Nat → Bool) (extface : Nat → Bool) : List FaceRec :=
  (List.range 6).foldl (fun bf f =>
    if extface f then
      let r := setFacesOn nboxes b d (hit f) bf f
      if r.2 = 0 then addOuterFace d r.1 f else r.1
    else bf) []

end Sgrid
