import Verif.Model.Loop
import Verif.Model.PureLoop

/-!
Which of two touching boundary faces (bfaces) sets the normal derivative and which the field itself, and the number of
the face on the other side (src/utility/Coordinates/Coordinates_set_bfaces.c).
-/

namespace Sgrid

/-- The entries of `tBface` (sgrid_MemoryMan.h:151-171) that decide the flags: the face `f` of the box, the other box
`ob`, the number `ofi` of the face there, and `touch`. -/
structure FaceRef where
  f : Int
  ob : Int
  ofi : Int
  touch : Bool

/-- The boxes: their number, `CI->type`, `CI->dom`, `nbfaces` and the bfaces. -/
structure FaceGrid where
  nboxes : Nat
  type : Nat → Int
  dom : Nat → Int
  nbfaces : Nat → Nat
  bface : Nat → Nat → FaceRef

/-- The bit `setnormalderiv` of bface `fi` of box `b`. -/
abbrev FaceBits := Nat → Nat → Bool

/-- The assignment `grid->box[b]->bface[fi]->setnormalderiv = x`. -/
def FaceBits.set (s : FaceBits) (b fi : Nat) (x : Bool) : FaceBits := aset s b (aset (s b) fi x)

/-- `forallboxes(grid, b) forallbfaces(box, fi)` (sgrid_MemoryMan_loops.h:69-70). -/
def forAllFaces (g : FaceGrid) (body : Nat → Nat → FaceBits → Res FaceBits) (s : FaceBits) : Res FaceBits :=
  forN g.nboxes (fun b s => forN (g.nbfaces b) (fun fi s => body b fi s) s) s

/-- `obface = grid->box[ob]->bface[ofi]`: reading past the arrays is undefined. -/
def otherRef (g : FaceGrid) (ob ofi : Int) : Res FaceRef :=
  if ob.toNat < g.nboxes ∧ ofi.toNat < g.nbfaces ob.toNat then .ok (g.bface ob.toNat ofi.toNat) else .ub

/-- zero_setnormalderiv_flag_in_all_bfaces (Coordinates_set_bfaces.c:1396-1411). -/
def zeroNormalderiv (g : FaceGrid) (s : FaceBits) : Res FaceBits :=
  forAllFaces g (fun b fi s => .ok (s.set b fi false)) s

/-- One pass of toggle_setnormalderiv_flag_in_faces4_5_of_cubes (Coordinates_set_bfaces.c:1425-1470). -/
def toggleCubeFace (g : FaceGrid) (b fi : Nat) (s : FaceBits) : Res FaceBits :=
  if g.type b = 0 then
    let bface := g.bface b fi
    if bface.f = 4 ∨ bface.f = 5 then
      let s := s.set b fi (if s b fi then false else true)
      if bface.ob < 0 then .ok s
      else if bface.ofi < 0 then .ok s
      else (otherRef g bface.ob bface.ofi).bind fun obface =>
        if bface.touch then
          if obface.touch = false then .abort
          else if obface.ofi = fi then
            .ok (s.set bface.ob.toNat bface.ofi.toNat (if s b fi = false then true else false))
          else .ok s
        else .ok s
    else .ok s
  else .ok s

/-- toggle_setnormalderiv_flag_in_faces4_5_of_cubes (Coordinates_set_bfaces.c:1415-1476). -/
def toggleCubeFaces (g : FaceGrid) (s : FaceBits) : Res FaceBits := forAllFaces g (toggleCubeFace g) s

/-- One pass of toggle_setnormalderiv_flag_of_CubSph_doms_0_4_and_1_5 (Coordinates_set_bfaces.c:1491-1541);
`CubedShell` is 4 (sgrid_Coordinates.h:9-16). -/
def toggleDomFace (g : FaceGrid) (b fi : Nat) (s : FaceBits) : Res FaceBits :=
  if 0 < g.type b ∧ g.type b ≤ 4 then
    let bface := g.bface b fi
    if bface.ob < 0 then .ok s
    else if bface.ofi < 0 then .ok s
    else (otherRef g bface.ob bface.ofi).bind fun obface =>
      let odomain := g.dom bface.ob.toNat
      if (g.dom b = 0 ∧ odomain = 4) ∨ (g.dom b = 1 ∧ odomain = 5) then
        let s := s.set b fi (if s b fi then false else true)
        if bface.touch then
          if obface.touch = false then .abort
          else if obface.ofi = fi then
            .ok (s.set bface.ob.toNat bface.ofi.toNat (if s b fi = false then true else false))
          else .ok s
        else .ok s
      else .ok s
  else .ok s

/-- toggle_setnormalderiv_flag_of_CubSph_doms_0_4_and_1_5 (Coordinates_set_bfaces.c:1482-1546). -/
def toggleDomFaces (g : FaceGrid) (s : FaceBits) : Res FaceBits := forAllFaces g (toggleDomFace g) s

/-- The options `setnormalderiv_order1` ... `setnormalderiv_order4` in `Coordinates_bface_options`. -/
structure SndOrder where
  order1 : Bool
  order2 : Bool
  order3 : Bool
  order4 : Bool

/-- One pass of the loop of set_consistent_flags_in_all_bfaces (Coordinates_set_bfaces.c:1574-1634). -/
def consistentFace (g : FaceGrid) (sndorder2 : Bool) (b fi : Nat) (s : FaceBits) : Res FaceBits :=
  let bface := g.bface b fi
  if bface.ob < 0 then .ok s
  else if bface.ofi < 0 then .ok s
  else (otherRef g bface.ob bface.ofi).bind fun obface =>
    let ob := bface.ob.toNat
    let ofi := bface.ofi.toNat
    if bface.touch then
      if obface.touch = false then .abort
      else if obface.ofi = fi then
        if sndorder2 then .ok (s.set b fi (if s ob ofi = false then true else false))
        else .ok (s.set ob ofi (if s b fi = false then true else false))
      else .ok (s.set b fi (if s ob ofi = false then true else false))
    else .ok s

/-- set_consistent_flags_in_all_bfaces (Coordinates_set_bfaces.c:1550-1652). -/
def consistentFlags (g : FaceGrid) (o : SndOrder) (s : FaceBits) : Res FaceBits :=
  let sndorder3 := o.order3 || o.order4
  (if o.order1 || o.order2 || sndorder3 then zeroNormalderiv g s else .ok s).bind fun s =>
  (forAllFaces g (consistentFace g o.order2) s).bind fun s =>
  (if sndorder3 then toggleCubeFaces g s else .ok s).bind fun s =>
  if o.order4 then toggleDomFaces g s else .ok s

/-! ### The number of the face on the other side -/

/-- r_from_cbt_OR_nbt (Coordinates_set_bfaces.c:653-668) for 32-bit `unsigned int`; `r = bt` is the value of the same
bits as `int`, so `r < 0` says that the highest bit is set. -/
def rFromBits (cbt nbt : Nat) : Nat :=
  let bt := cbt ||| nbt
  let bt := if cbt = 0 ∨ nbt = 0 then bt ||| 1 else bt
  let bt := if 2 ^ 31 ≤ bt then ((bt * 2 % 2 ^ 32) / 2) ||| 1 else bt
  if bt = 1 then 3 else bt

/-- `1<<(c+1)` for an `int`: undefined when `2^(c+1)` is no `int`. -/
def bitOf (c : Int) : Res Nat := if 0 ≤ c + 1 ∧ c + 1 < 31 then .ok (2 ^ (c + 1).toNat) else .ub

/-- One pass of the inner loop of set_ofi_in_all_bfaces (Coordinates_set_bfaces.c:699-729): `cur` is
`box->bface[fi]->ofi`. -/
def addOfi (cur : Int) (ofi : Nat) : Res Int :=
  if cur = -1 ∨ cur = ofi then .ok ofi
  else if 0 ≤ cur then
    (bitOf cur).bind fun cbt => (bitOf ofi).bind fun nbt => .ok (-(rFromBits cbt nbt : Int))
  else (bitOf ofi).bind fun nbt => .ok (-(rFromBits (-cur).toNat nbt : Int))

/-- set_ofi_in_all_bfaces (Coordinates_set_bfaces.c:685-732). The entries `ofi` are the state; `ob` does not change. -/
def setOfi (nboxes : Nat) (nbfaces : Nat → Nat) (ob : Nat → Nat → Int) (ofi : Nat → Nat → Int) :
    Res (Nat → Nat → Int) :=
  forN nboxes (fun b s => forN (nbfaces b) (fun fi s =>
    let o := ob b fi
    if o < 0 then .ok s
    else if o.toNat < nboxes then
      forN (nbfaces o.toNat) (fun k s =>
        if ob o.toNat k = b then (addOfi (s b fi) k).bind fun r => .ok (aset s b (aset (s b) fi r))
        else .ok s) s
    else .ub) s) ofi

/-- mark_all_bfaces_without_ob_as_outerbound (Coordinates_set_bfaces.c:627-645). -/
def markOuter (nboxes : Nat) (nbfaces : Nat → Nat) (ob : Nat → Nat → Int) (outer : FaceBits) : Res FaceBits :=
  forN nboxes (fun b s => forN (nbfaces b) (fun fi s =>
    if ob b fi = -1 then .ok (s.set b fi true) else .ok s) s) outer

end Sgrid
