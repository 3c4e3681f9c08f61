import Verif.Model.InPlane
import Verif.Model.IntList

/-!
# Boundary conditions between boxes

src/utility/boundary/BCs_from_bfaces.c. Doubles are elements of an ordered field `K`; `sqrt` is an argument so that
examples can be computed. Arrays of coefficients come from `malloc` and have arbitrary contents `junk` at first. The
tests for numbers that are not finite and the output to the screen are left out. Indices of boxes and faces that are
not negative are valid. The loops `forPointList_inbox` go through the list of points (see `Verif.Model.PointList`).
-/

namespace Sgrid
variable {K : Type} [Field K] [LinearOrder K]

/-- What the normal of a box face needs from a box: `cart` is `box->x_of_X[1]==NULL`, `hasVar` is
`box->v[Ind("dXdx")]!=NULL`, `iX` is `Ind("X")`, `idX a` are `Ind("dXdx")`, `Ind("dYdx")`, `Ind("dZdx")` for
`a` = 1, 2, 3, `dXdx a j` is the function `box->dX_dx[a][j]`, `hasD a` is `box->dx_dX[1][a]!=NULL`, `dxdX j a` is
the function `box->dx_dX[j][a]`. -/
structure NBox (K : Type) where
  cart : Bool
  hasVar : Bool
  iX : Nat
  idX : Nat → Nat
  dXdx : Nat → Nat → K → K → K → K
  hasD : Nat → Bool
  dxdX : Nat → Nat → K → K → K → K

/-- `dir = 1 + f/2` (BCs_from_bfaces.c:12). -/
def faceDir (f : Int) : Nat := (1 + f.tdiv 2).toNat

/-- `sig = 2*(f%2) - 1` (BCs_from_bfaces.c:13). -/
def faceSig (f : Int) : Int := 2 * f.tmod 2 - 1

/-- The Cartesian normal (BCs_from_bfaces.c:52-53). -/
def dirVec (dir : Nat) : Nat → K := aset (fun _ => 0) dir 1

/-- A vector `n[1], n[2], n[3]`. -/
def vecN (x y z : K) : Nat → K := fun j => if j = 1 then x else if j = 2 then y else z

/-- Normalisation with sign (BCs_from_bfaces.c:56-61, 132-137, 162-167, 203-208). -/
def normalizeSig (sqrt : K → K) (sig : Int) (n : Nat → K) : Nat → K :=
  let smag := (sig : K) * sqrt (n 1 * n 1 + n 2 * n 2 + n 3 * n 3)
  let smag := if smag = 0 then (sig : K) else smag
  vecN (n 1 / smag) (n 2 / smag) (n 3 / smag)

/-- `boxface_normal_at_ijk` (BCs_from_bfaces.c:10-75). -/
def normalAtIjk (sqrt : K → K) (b : NBox K) (f : Int) (ijk : Nat) (v : Arrays K) : Res (Nat → K) :=
  let dir := faceDir f
  if f > 5 ∨ f < 0 then .abort
  else
    let n : Nat → K :=
      if !b.cart then
        if b.hasVar then fun j => v (b.idX dir + j - 1) ijk
        else fun j => b.dXdx dir j (v b.iX ijk) (v (b.iX + 1) ijk) (v (b.iX + 2) ijk)
      else dirVec dir
    .ok (normalizeSig sqrt (faceSig f) n)

/-- `boxface_outwarddir_at_ijk` (BCs_from_bfaces.c:79-138). The variables `dxdX` do not exist: the first branch
(line 97) needs `idxd>0`, but `idxd` is -1. -/
def outwardAtIjk (sqrt : K → K) (b : NBox K) (f : Int) (ijk : Nat) (v : Arrays K) : Res (Nat → K) :=
  let dir := faceDir f
  if f > 5 ∨ f < 0 then .abort
  else if !b.cart then
    if b.hasD dir then
      .ok (normalizeSig sqrt (faceSig f) fun j => b.dxdX j dir (v b.iX ijk) (v (b.iX + 1) ijk) (v (b.iX + 2) ijk))
    else normalAtIjk sqrt b f ijk v
  else .ok (normalizeSig sqrt (faceSig f) (dirVec dir))

/-- `boxface_normal_at_XYZ` (BCs_from_bfaces.c:141-168). -/
def normalAtXYZ (sqrt : K → K) (b : NBox K) (f : Int) (X Y Z : K) : Res (Nat → K) :=
  let dir := faceDir f
  if f > 5 ∨ f < 0 then .abort
  else
    let n : Nat → K := if !b.cart then fun j => b.dXdx dir j X Y Z else dirVec dir
    .ok (normalizeSig sqrt (faceSig f) n)

/-- `boxface_outwarddir_at_XYZ` (BCs_from_bfaces.c:172-209). -/
def outwardAtXYZ (sqrt : K → K) (b : NBox K) (f : Int) (X Y Z : K) : Res (Nat → K) :=
  let dir := faceDir f
  if f > 5 ∨ f < 0 then .abort
  else if !b.cart then
    if b.hasD dir then .ok (normalizeSig sqrt (faceSig f) fun j => b.dxdX j dir X Y Z)
    else normalAtXYZ sqrt b f X Y Z
  else .ok (normalizeSig sqrt (faceSig f) (dirVec dir))

/-- The entries of `tBface` (sgrid_MemoryMan.h:151-171) that are used; `fpts = none` is NULL, else it has the points
in box `b`. -/
structure IFace where
  b : Nat
  f : Int
  fpts : Option (List Nat)
  ob : Int
  ofi : Int
  oXi : Int
  oYi : Int
  oZi : Int
  touch : Bool
  sameX : Bool
  sameY : Bool
  sameZ : Bool
  sameFpts : Bool
  offFace : Bool
  setnd : Bool

/-- The entries of a box that are used. -/
structure XBox (K : Type) where
  lb : LBox K
  basis : Axis → Nat → K → K
  bbox : Nat → K
  nb : NBox K
  bfaces : List IFace

/-- The numbers of the variables: `iFPsi`, `iPsi`, `idPsi[1..3]`. -/
structure FIds where
  iF : Nat
  iP : Nat
  idP : Nat → Nat

/-- The grid and the contents of new memory. -/
structure IEnv (K : Type) where
  sqrt : K → K
  box : Nat → XBox K
  g3 : Nat → (Nat → K) × (Nat → K) × (Nat → K)
  g2 : (Nat → K) × (Nat → K) × (Nat → K)
  junk : Nat → K

/-- `forPointList_inbox(fpts, box, pi, ind)` with a body that may stop; `pi` counts from the first argument. -/
def forPts {σ : Type} (body : Nat → Nat → σ → Res σ) : Nat → List Nat → σ → Res σ
  | _, [], s => .ok s
  | pi, ind :: rest, s => (body pi ind s).bind fun s => forPts body (pi + 1) rest s

/-- `FPsi[ind] = x` in box `b`. -/
def setF (b iF ind : Nat) (x : K) (m : Nat → Arrays K) : Nat → Arrays K :=
  aset m b (aset (m b) iF (aset (m b iF) ind x))

/-- `n[1] * (dPsi[1][ind] - q[1]) + ...` (e.g. BCs_from_bfaces.c:494-496). -/
def normalJump (n : Nat → K) (dPsi q : Nat → K) : K :=
  n 1 * (dPsi 1 - q 1) + n 2 * (dPsi 2 - q 2) + n 3 * (dPsi 3 - q 3)

/-- The coefficients of the array `P` in new memory: `spec_Coeffs(obox, P, Pcoeffs)`. -/
def coeffs3Of (e : IEnv K) (ob : Nat) (P : Nat → K) : Nat → K :=
  specCoeffs e.g3 (e.box ob).lb 0 1 (fun a => if a = 0 then P else e.junk) 1

/-- The same for `spec_Coeffs_inplaneN(obox, plN, op, P, Pcoeffs)`. -/
def coeffs2Of (e : IEnv K) (ob : Nat) (plN : Int) (op : Nat) (P : Nat → K) : Res (Nat → K) :=
  (specCoeffsInPlane e.g2 (e.box ob).lb plN op 0 1 (fun a => if a = 0 then P else e.junk)).bind fun m => .ok (m 1)

/-- `*fpts`, an error if the pointer is NULL. -/
def derefPts (bf : IFace) : Res (List Nat) :=
  match bf.fpts with
  | none => .ub
  | some l => .ok l

/-- The other face `obox->bface[ofi]`. -/
def otherFace (e : IEnv K) (bf : IFace) : Res IFace := aget (e.box bf.ob.toNat).bfaces bf.ofi.toNat

/-- `FPsi_1Dinterp_for_bface` (BCs_from_bfaces.c:218-369). The loop stops the program at its first point
(line 304); what comes after that, and the coefficients, are left out. -/
def fpsi1D (e : IEnv K) (bf : IFace) (idir : Int) (m : Nat → Arrays K) : Res (Nat → Arrays K) :=
  if bf.ob < 0 then .abort
  else if bf.ofi < 0 then .abort
  else (otherFace e bf).bind fun obf =>
    let odir : Int := 1 + obf.f.tdiv 2
    if odir = idir then .abort
    else
      let oCi := if idir = 1 then bf.oXi else if idir = 2 then bf.oYi else bf.oZi
      if ¬ (idir = 1 ∨ idir = 2 ∨ idir = 3) then .abort
      else if oCi ≤ 0 then .abort
      else (derefPts bf).bind fun pts => forPts (fun _ _ _ => .abort) 0 pts m

/-- `FPsi_2Dinterp_for_bface` (BCs_from_bfaces.c:377-525). -/
def fpsi2D (e : IEnv K) (a : FIds) (bf : IFace) (plN : Int) (m : Nat → Arrays K) : Res (Nat → Arrays K) :=
  if bf.ob < 0 then .abort
  else if bf.ofi < 0 then .abort
  else (otherFace e bf).bind fun obf =>
    let ob := bf.ob.toNat
    let o := e.box ob
    let s := (obf.f.tmod 2).toNat
    let sel : Res (Nat × Int × Int × Nat × Nat) :=
      if plN = 1 then .ok ((o.lb.d.n1 - 1) * s, bf.oYi, bf.oZi, 2, 4)
      else if plN = 2 then .ok ((o.lb.d.n2 - 1) * s, bf.oXi, bf.oZi, 0, 4)
      else if plN = 3 then .ok ((o.lb.d.n3 - 1) * s, bf.oXi, bf.oYi, 0, 2)
      else .abort
    sel.bind fun (op, oCi1, oCi2, r1, r2) =>
    if oCi1 ≤ 0 ∨ oCi2 ≤ 0 then .abort
    else
      let interp (c : Nat → K) (C1 C2 : K) := specInterpolateInPlane o.lb.d o.basis plN op c C1 C2
      let out (C1 C2 : K) := C1 < o.bbox r1 ∨ C1 > o.bbox (r1 + 1) ∨ C2 < o.bbox r2 ∨ C2 > o.bbox (r2 + 1)
      if bf.setnd = false then
        (coeffs2Of e ob plN op (m ob a.iP)).bind fun c =>
        (derefPts bf).bind fun pts => forPts (fun _ ind m =>
          let C1 := m bf.b oCi1.toNat ind
          let C2 := m bf.b oCi2.toNat ind
          if out C1 C2 then .ok m
          else (interp c C1 C2).bind fun q => .ok (setF bf.b a.iF ind (m bf.b a.iP ind - q) m)) 0 pts m
      else
        (coeffs2Of e ob plN op (m ob (a.idP 1))).bind fun c1 =>
        (coeffs2Of e ob plN op (m ob (a.idP 2))).bind fun c2 =>
        (coeffs2Of e ob plN op (m ob (a.idP 3))).bind fun c3 =>
        (derefPts bf).bind fun pts => forPts (fun _ ind m =>
          let C1 := m bf.b oCi1.toNat ind
          let C2 := m bf.b oCi2.toNat ind
          if out C1 C2 then .ok m
          else (interp c1 C1 C2).bind fun q1 => (interp c2 C1 C2).bind fun q2 => (interp c3 C1 C2).bind fun q3 =>
            (normalAtIjk e.sqrt (e.box bf.b).nb bf.f ind (m bf.b)).bind fun n =>
            .ok (setF bf.b a.iF ind (normalJump n (fun j => m bf.b (a.idP j) ind)
              (vecN q1 q2 q3)) m)) 0 pts m

/-- `FPsi_3Dinterp_for_bface` (BCs_from_bfaces.c:534-613). -/
def fpsi3D (e : IEnv K) (a : FIds) (bf : IFace) (m : Nat → Arrays K) : Res (Nat → Arrays K) :=
  if bf.ob < 0 then .abort
  else if bf.oXi ≤ 0 ∨ bf.oYi ≤ 0 ∨ bf.oZi ≤ 0 then .abort
  else
    let ob := bf.ob.toNat
    let o := e.box ob
    let interp (c : Nat → K) (X Y Z : K) := specInterpolate o.lb.d c (fun k => o.basis .one k X)
      (fun k => o.basis .two k Y) (fun k => o.basis .three k Z)
    if bf.setnd = false then
      let c := coeffs3Of e ob (m ob a.iP)
      (derefPts bf).bind fun pts => forPts (fun _ ind m =>
        let X := m bf.b bf.oXi.toNat ind
        let Y := m bf.b bf.oYi.toNat ind
        let Z := m bf.b bf.oZi.toNat ind
        .ok (setF bf.b a.iF ind (m bf.b a.iP ind - interp c X Y Z) m)) 0 pts m
    else
      let c j := coeffs3Of e ob (m ob (a.idP j))
      (derefPts bf).bind fun pts => forPts (fun _ ind m =>
        let X := m bf.b bf.oXi.toNat ind
        let Y := m bf.b bf.oYi.toNat ind
        let Z := m bf.b bf.oZi.toNat ind
        (normalAtIjk e.sqrt (e.box bf.b).nb bf.f ind (m bf.b)).bind fun n =>
        .ok (setF bf.b a.iF ind (normalJump n (fun j => m bf.b (a.idP j) ind) (fun j => interp (c j) X Y Z)) m))
        0 pts m

/-- `ijk_in_other_box_if_touch_samePoints_sameCoords` (BCs_from_bfaces.c:620-652) for the point `ijk` of the list;
the index macros are sgrid_main.h:17-24. -/
def oijkTouch (e : IEnv K) (bf : IFace) (pi : Nat) : Res Int :=
  (derefPts bf).bind fun pts =>
  if pi ≥ pts.length then .ok (-1)
  else (aget pts pi).bind fun ijk =>
  if bf.ob < 0 then .ok (-1)
  else if bf.ofi < 0 then .ub
  else (otherFace e bf).bind fun obf =>
    let d := (e.box bf.b).lb.d
    let o := (e.box bf.ob.toNat).lb.d
    let od : Int := 1 + obf.f.tdiv 2
    let s := (obf.f.tmod 2).toNat
    let ok := ijk / (d.n1 * d.n2)
    let oj := (ijk - d.n1 * d.n2 * ok) / d.n1
    let oi := ijk - d.n1 * d.n2 * ok - d.n1 * oj
    let (oi, oj, ok) :=
      if od = 1 then ((o.n1 - 1) * s, oj, ok)
      else if od = 2 then (oi, (o.n2 - 1) * s, ok)
      else if od = 3 then (oi, oj, (o.n3 - 1) * s)
      else (oi, oj, ok)
    .ok (o.idx oi oj ok : Nat)

/-- `ijk_in_other_box_if_same_fpts` (BCs_from_bfaces.c:655-677). -/
def oijkSame (e : IEnv K) (bf : IFace) (pi : Nat) : Res Int :=
  if bf.ob < 0 ∨ bf.ofi < 0 then .ok (-1)
  else (otherFace e bf).bind fun obf =>
    match obf.fpts with
    | none => .ok (-1)
    | some ofpts => if pi ≥ ofpts.length then .ok (-1) else (aget ofpts pi).bind fun p => .ok (p : Int)

/-- `P[oind]`: an index below zero is an error. -/
def atInd (x : Nat → K) (oind : Int) : Res K := if oind < 0 then .ub else .ok (x oind.toNat)

/-- `FPsi_copy_for_bface` (BCs_from_bfaces.c:684-730). -/
def fpsiCopy (e : IEnv K) (a : FIds) (bf : IFace) (getOijk : Nat → Res Int) (m : Nat → Arrays K) :
    Res (Nat → Arrays K) :=
  if bf.ob < 0 then .abort
  else
    let ob := bf.ob.toNat
    if bf.setnd = false then
      (derefPts bf).bind fun pts => forPts (fun pi ind m =>
        (getOijk pi).bind fun oind => (atInd (m ob a.iP) oind).bind fun q =>
        .ok (setF bf.b a.iF ind (m bf.b a.iP ind - q) m)) 0 pts m
    else
      (derefPts bf).bind fun pts => forPts (fun pi ind m =>
        (getOijk pi).bind fun oind =>
        (normalAtIjk e.sqrt (e.box bf.b).nb bf.f ind (m bf.b)).bind fun n =>
        (atInd (m ob (a.idP 1)) oind).bind fun q1 => (atInd (m ob (a.idP 2)) oind).bind fun q2 =>
        (atInd (m ob (a.idP 3)) oind).bind fun q3 =>
        .ok (setF bf.b a.iF ind (normalJump n (fun j => m bf.b (a.idP j) ind)
          (vecN q1 q2 q3)) m)) 0 pts m

/-- `set_interbox_BCs_for_bface` (BCs_from_bfaces.c:733-814). -/
def interboxFace (e : IEnv K) (a : FIds) (bf : IFace) (m : Nat → Arrays K) : Res (Nat → Arrays K) :=
  if bf.ob ≥ 0 then
    if bf.touch then
      if bf.sameFpts then fpsiCopy e a bf (oijkSame e bf) m
      else if bf.sameX && bf.sameY && bf.sameZ then
        if bf.fpts = none then .abort else fpsiCopy e a bf (oijkTouch e bf) m
      else if bf.sameX && bf.sameY then fpsi1D e bf 3 m
      else if bf.sameX && bf.sameZ then fpsi1D e bf 2 m
      else if bf.sameY && bf.sameZ then fpsi1D e bf 1 m
      else if bf.sameX || bf.sameY || bf.sameZ then
        let plN : Int := if bf.sameZ then 3 else if bf.sameY then 2 else 1
        fpsi2D e a bf plN m
      else .abort
    else (fpsi3D e a bf m).bind fun m => if bf.setnd then .abort else .ok m
  else .ok m

/-- The loop `forallbfaces(box, fi)` (sgrid_MemoryMan_loops.h). -/
def forFaces (body : IFace → (Nat → Arrays K) → Res (Nat → Arrays K)) :
    List IFace → (Nat → Arrays K) → Res (Nat → Arrays K)
  | [], m => .ok m
  | bf :: rest, m => (body bf m).bind fun m => forFaces body rest m

/-- `set_interbox_BCs_for_boxbfaces` (BCs_from_bfaces.c:817-827). -/
def interboxBox (e : IEnv K) (a : FIds) (b : Nat) (m : Nat → Arrays K) : Res (Nat → Arrays K) :=
  forFaces (interboxFace e a) (e.box b).bfaces m

/-- `set_interbox_BC_onface` (BCs_from_bfaces.c:832-855). The flag has one bit (sgrid_MemoryMan.h:168). -/
def interboxOnface (e : IEnv K) (a : FIds) (b : Nat) (face setnd : Int) (m : Nat → Arrays K) :
    Res (Nat → Arrays K) :=
  forFaces (fun bf m =>
    if bf.f ≠ face then .ok m
    else interboxFace e a (if setnd ≥ 0 then { bf with setnd := decide (setnd % 2 = 1) } else bf) m)
    (e.box b).bfaces m

end Sgrid
