import Verif.Model.NewtonLine
import Verif.Model.Boundary
import Verif.Model.CubedSphere

/-!
# Finding coordinates

`src/utility/Coordinates/findXYZ_of_xyz.c`, `find_ijk.c` and `Singularities.c`. Doubles are real numbers.
`newton_linesrch_itsP` is `newton_linesearch` for arrays that begin at 1
(`src/utility/numerics/NumericUtils_shims.c:18-24`); here they begin at 0, so that `XYZvec[1]` is entry 0. Output to
the screen is left out. A pointer argument that is read and written is an argument and a part of the result. A result
`none` means that a line search is not finished after `fuel` passes.
-/

namespace Sgrid

noncomputable section

/-- Three coordinates. -/
abbrev P3 := ℝ × ℝ × ℝ

/-- `XYZvec[1], XYZvec[2], XYZvec[3]`. -/
def vec3 (p : P3) : RArr := fun i => if i = 0 then p.1 else if i = 1 then p.2.1 else p.2.2

/-- `dless` (src/main/main/sgrid_main.h:89-90). -/
def dless (a b : ℝ) : Prop := a < b - 1e-10

/-- Results of functions that call `newton_linesrch_itsP`. -/
abbrev FRes (α : Type) := Option (Res α)

/-- Sequential composition. -/
def FRes.bind {α β : Type} (r : FRes α) (f : α → FRes β) : FRes β :=
  match r with
  | none => none
  | some (.ok a) => f a
  | some .abort => some .abort
  | some .ub => some .ub

/-- The entries `f` and `dx_dX` of `tSingInfo` (src/main/MemoryMan/sgrid_MemoryMan.h:11-18). -/
structure SingInfo where
  f : Nat → Bool
  dx : Nat → Nat → Char

/-- The entries of a box that are used. -/
structure FBox where
  bbox : Nat → ℝ
  /-- `box->x_of_X[1]==NULL` -/
  cart : Bool
  /-- `box->x_of_X[i]`, `i` = 1, 2, 3 -/
  xOf : Nat → ℝ → ℝ → ℝ → ℝ
  /-- `box->XYZ_Of_xyz`; arguments x,y,z and X,Y,Z -/
  inv : Option (P3 → P3 → Int × P3)
  /-- `box->isSing`; `some si` if the return value is not 0 -/
  isSing : Option (P3 → Option SingInfo)
  /-- numbers of points -/
  d : Dims
  /-- the variables X, Y, Z -/
  pX : Nat → P3
  /-- the variables x, y, z -/
  px : Nat → P3

/-- The parameters `Coordinates_newtTOLF`, `Coordinates_newtMAXITS`, `Coordinates_XYZ_of_xyz_Guess`, the bound for
the line searches, and the uninitialised `check`. -/
structure FindPars where
  tol : ℝ
  itmax : Nat
  guess : Bool
  fuel : Nat
  check0 : Bool

/-- `xyz_VectorFuncP` (src/utility/Coordinates/findXYZ_of_xyz.c:19-44). -/
def xyzFun (b : FBox) (x : P3) : RArr → RArr := fun v i => b.xOf (i + 1) (v 0) (v 1) (v 2) - vec3 x i

/-- `check_xyz_error` (src/utility/Coordinates/findXYZ_of_xyz.c:158-192): return value. -/
def checkXyzError (b : FBox) (X x : P3) (tol : ℝ) : Int :=
  let fvec := xyzFun b x (vec3 X)
  let err := Real.sqrt (fvec 0 * fvec 0 + fvec 1 * fvec 1 + fvec 2 * fvec 2)
  let r := Real.sqrt (x.1 * x.1 + x.2.1 * x.2.1 + x.2.2 * x.2.2)
  let err := if r > 0 then err / r else err
  if err > tol * 100 then -1 else 1

/-- `check` as an integer. -/
def checkInt (c : Bool) : Int := if c then 1 else 0

/-- `X_of_x_forgiven_YZ` with `x_VectorFuncP_YZ` (src/utility/Coordinates/findXYZ_of_xyz.c:621-666): return value and
`*X`. -/
def xOfxForgivenYZ (q : FindPars) (b : FBox) (X x Y Z : ℝ) : FRes (Int × ℝ) :=
  if b.cart then some (.ok (0, x)) else
  FRes.bind
    (newtonLinesearch q.fuel 1 (fun v _ => b.xOf 1 (v 0) (v 1) (v 2) - x) q.itmax q.tol (vec3 (X, Y, Z)) q.check0)
    fun r => some (.ok (r.1 - checkInt r.2.1, r.2.2 0))

/-- `Y_of_y_forgiven_XZ` with `y_VectorFuncP_XZ` (src/utility/Coordinates/findXYZ_of_xyz.c:731-778). -/
def yOfyForgivenXZ (q : FindPars) (b : FBox) (Y y X Z : ℝ) : FRes (Int × ℝ) :=
  if b.cart then some (.ok (0, y)) else
  FRes.bind
    (newtonLinesearch q.fuel 1 (fun v _ => b.xOf 2 (v 1) (v 0) (v 2) - y) q.itmax q.tol (vec3 (Y, X, Z)) q.check0)
    fun r => some (.ok (r.1 - checkInt r.2.1, r.2.2 0))

/-- The block with `X_of_x_forgiven_YZ` (src/utility/Coordinates/findXYZ_of_xyz.c:250-259,266-275). -/
def recoverX (q : FindPars) (b : FBox) (x : P3) (si : SingInfo) (s : Int × P3) : FRes (Int × P3) :=
  if si.dx 1 1 = '.' then
    (xOfxForgivenYZ q b s.2.1 x.1 s.2.2.1 s.2.2.2).bind fun r =>
      let X : P3 := (r.2, s.2.2.1, s.2.2.2)
      some (.ok (if r.1 ≥ 0 then checkXyzError b X x q.tol else r.1, X))
  else if si.dx 1 2 = '.' then some .abort
  else if si.dx 1 3 = '.' then some .abort
  else some (.ok s)

/-- `recover_if_start_on_singularity` (src/utility/Coordinates/findXYZ_of_xyz.c:195-288). -/
def recoverSing (q : FindPars) (b : FBox) (X x : P3) (si : SingInfo) : FRes (Int × P3) :=
  let dir1 := si.f 0 || si.f 1
  let dir2 := si.f 2 || si.f 3
  let dir3 := si.f 4 || si.f 5
  let zc : Nat → Bool := fun j => si.dx 1 j == '0' && si.dx 2 j == '0' && si.dx 3 j == '0'
  FRes.bind
    (if dir1 && zc 3 then
      if si.dx 2 1 = '.' then some .abort
      else if si.dx 2 2 = '.' then
        (yOfyForgivenXZ q b X.2.1 x.2.1 X.1 X.2.2).bind fun r =>
          let X' : P3 := (X.1, r.2, X.2.2)
          some (.ok (if r.1 ≥ 0 then checkXyzError b X' x q.tol else r.1, X'))
      else if si.dx 2 3 = '.' then some .abort
      else some (.ok (-1, X))
    else some (.ok (-1, X))) fun s =>
  FRes.bind (if dir2 && decide (s.1 < 0) && zc 3 then recoverX q b x si s else some (.ok s)) fun s =>
  if dir3 && decide (s.1 < 0) && zc 2 then recoverX q b x si s else some (.ok s)

/-! ### The nearest points -/

/-- `rmin`, `*ind` and `*X,*Y,*Z` in the loops for the nearest point. -/
structure Near where
  rmin : ℝ
  ind : Nat
  P : P3

/-- The body of the loops (src/utility/Coordinates/findXYZ_of_xyz.c:375-386,458-470,565-577,582-594,599-611). -/
def nearStep (pX px : Nat → P3) (x : P3) (s : Near) (i : Nat) : Near :=
  let dxi := (px i).1 - x.1
  let dyi := (px i).2.1 - x.2.1
  let dzi := (px i).2.2 - x.2.2
  let r := dxi * dxi + dyi * dyi + dzi * dzi
  if r ≤ s.rmin ∨ s.rmin < 0 then ⟨r, i, pX i⟩ else s

/-- A loop over points with `rmin=-1.0` before and `if(rmin>0.) rmin = sqrt(rmin);` after it. -/
def nearLoop (pX px : Nat → P3) (x : P3) (pts : List Nat) (ind : Nat) (P : P3) : Near :=
  let s := pts.foldl (nearStep pX px x) ⟨-1, ind, P⟩
  ⟨if s.rmin > 0 then Real.sqrt s.rmin else s.rmin, s.ind, s.P⟩

/-- `nearestXYZ_of_xyz` (src/utility/Coordinates/findXYZ_of_xyz.c:361-390). -/
def nearestXYZ (b : FBox) (x : P3) (ind : Nat) (P : P3) : Near :=
  nearLoop b.pX b.px x (List.range (b.d.n1 * b.d.n2 * b.d.n3)) ind P

/-- The points of the loops in `nearestinnerXYZ_of_xyz` (src/utility/Coordinates/findXYZ_of_xyz.c:454-458). -/
def innerPts (d : Dims) : List Nat :=
  (List.range' 1 (d.n3 - 2)).flatMap fun k => (List.range' 1 (d.n2 - 2)).flatMap fun j =>
    (List.range' 1 (d.n1 - 2)).map fun i => d.idx i j k

/-- `nearestinnerXYZ_of_xyz` and `guessXYZ_of_xyz`
(src/utility/Coordinates/findXYZ_of_xyz.c:439-474,532-540). -/
def nearestInner (b : FBox) (x : P3) (ind : Nat) (P : P3) : Near := nearLoop b.pX b.px x (innerPts b.d) ind P

/-- `nearestXYZ_of_xyz_inplane` (src/utility/Coordinates/findXYZ_of_xyz.c:543-618). -/
def nearestInPlane (b : FBox) (x : P3) (plane : Int) (pind ind : Nat) (P : P3) : Res Near :=
  if plane = 1 then .ok (nearLoop b.pX b.px x (planePts b.d .one pind) ind P)
  else if plane = 2 then .ok (nearLoop b.pX b.px x (planePts b.d .two pind) ind P)
  else if plane = 3 then .ok (nearLoop b.pX b.px x (planePts b.d .three pind) ind P)
  else .abort

/-- The body of the loops over boxes (src/utility/Coordinates/findXYZ_of_xyz.c:405-409,429-433); the state is `*b` and
the rest. `ind1,X1,Y1,Z1` are not initialised; the values of the last box are in them. -/
def nearBoxStep (box : Nat → FBox) (x : P3) (s : (Nat × Near) × Nat × P3) (bi : Nat) : (Nat × Near) × Nat × P3 :=
  let t := nearestXYZ (box bi) x s.2.1 s.2.2
  (if t.rmin ≤ s.1.2.rmin ∨ s.1.2.rmin < 0 then (bi, t) else s.1, t.ind, t.P)

/-- `nearest_b_XYZ_of_xyz_inboxlist` (src/utility/Coordinates/findXYZ_of_xyz.c:415-436), and
`nearest_b_XYZ_of_xyz` (lines 393-412) with the list of all active boxes. -/
def nearestB (box : Nat → FBox) (x : P3) (blist : List Nat) (b ind : Nat) (P : P3) (ind1 : Nat) (P1 : P3) :
    Nat × Near :=
  (blist.foldl (nearBoxStep box x) ((b, ⟨-1, ind, P⟩), ind1, P1)).1

/-- The boxes of `forallboxes` (src/main/MemoryMan/sgrid_MemoryMan_loops.h:21-23). -/
def activeBoxes (nboxes : Nat) (inactive : Nat → Bool) : List Nat :=
  (List.range nboxes).filter fun b => !inactive b

/-! ### Coordinates from Cartesian coordinates -/

/-- `XYZ_of_xyz` (src/utility/Coordinates/findXYZ_of_xyz.c:47-155): return value and `*X,*Y,*Z`. -/
def xyzOfxyz (q : FindPars) (b : FBox) (X x : P3) : FRes (Int × P3) :=
  if b.cart then some (.ok (0, x)) else
  match b.inv with
  | some inv => some (.ok (inv x X))
  | none =>
    let X := if q.guess then (nearestInner b x 0 X).P else X
    match b.isSing.bind (fun f => f X) with
    | some si => recoverSing q b X x si
    | none =>
      FRes.bind (newtonLinesearch q.fuel 3 (xyzFun b x) q.itmax q.tol (vec3 X) q.check0) fun r =>
        let X : P3 := (r.2.2 0, r.2.2 1, r.2.2 2)
        let stat := r.1
        let check := checkInt r.2.1
        if check ≠ 0 ∨ stat < 0 then
          let stat2 := checkXyzError b X x q.tol
          if check ≠ 0 then
            if stat2 = 1 then some (.ok (|stat|, X)) else some (.ok (-|stat| - 1 - check, X))
          else some (.ok (stat - check, X))
        else some (.ok (stat - check, X))

/-- Is one of the coordinates outside (src/utility/Coordinates/findXYZ_of_xyz.c:305-307,344-346,685-687,718-720). -/
def outsideBox (bb : Nat → ℝ) (X : P3) : Prop :=
  (dless X.1 (bb 0) ∨ dless (bb 1) X.1) ∨ (dless X.2.1 (bb 2) ∨ dless (bb 3) X.2.1) ∨
    (dless X.2.2 (bb 4) ∨ dless (bb 5) X.2.2)

/-- `if(X1 < lo) X1 = lo; if(X1 > hi) X1 = hi;` (src/utility/Coordinates/findXYZ_of_xyz.c:309-314,348-353,689-690,
722-723). -/
def roundInside (lo hi X : ℝ) : ℝ :=
  let X := if X < lo then lo else X
  if X > hi then hi else X

/-- All three coordinates are rounded. -/
def roundBox (bb : Nat → ℝ) (X : P3) : P3 :=
  (roundInside (bb 0) (bb 1) X.1, roundInside (bb 2) (bb 3) X.2.1, roundInside (bb 4) (bb 5) X.2.2)

open Classical in
/-- The loops over boxes in `b_XYZ_of_xyz`, `b_XYZ_of_xyz_inboxlist`, `b_X_of_x_forgiven_YZ` and
`b_X_of_x_forgiven_YZ_inboxlist`; `find` is what is tried in a box with the coordinates at the beginning, `fin` is `bi`
after the loop, and `round` what is done before the return. -/
def searchBoxes (find : Nat → P3 → FRes (Int × P3)) (bbox : Nat → Nat → ℝ) (round : Nat → P3 → P3) (X : P3) (fin : Int) :
    List Nat → FRes (Int × P3)
  | [] => some (.ok (-fin - 10000, X))
  | bi :: l => (find bi X).bind fun r =>
    if r.1 < 0 ∨ outsideBox (bbox bi) r.2 then searchBoxes find bbox round X fin l
    else some (.ok (bi, round bi r.2))

/-- `b_XYZ_of_xyz` (src/utility/Coordinates/findXYZ_of_xyz.c:292-319). -/
def bXYZ (q : FindPars) (box : Nat → FBox) (nboxes : Nat) (inactive : Nat → Bool) (X x : P3) : FRes (Int × P3) :=
  searchBoxes (fun b X => xyzOfxyz q (box b) X x) (fun b => (box b).bbox) (fun b => roundBox (box b).bbox) X nboxes
    (activeBoxes nboxes inactive)

/-- `b_XYZ_of_xyz_inboxlist` (src/utility/Coordinates/findXYZ_of_xyz.c:324-358); `bi` is 0 or the last number of the
list after the loop. -/
def bXYZlist (q : FindPars) (box : Nat → FBox) (blist : List Nat) (X x : P3) : FRes (Int × P3) :=
  searchBoxes (fun b X => xyzOfxyz q (box b) X x) (fun b => (box b).bbox) (fun b => roundBox (box b).bbox) X
    (blist.getLastD 0 : Nat) blist

/-- `X_of_x_forgiven_YZ` in one box of the loop. -/
def findXforYZ (q : FindPars) (box : Nat → FBox) (x : ℝ) (b : Nat) (X : P3) : FRes (Int × P3) :=
  (xOfxForgivenYZ q (box b) X.1 x X.2.1 X.2.2).bind fun r => some (.ok (r.1, r.2, X.2.1, X.2.2))

/-- `b_X_of_x_forgiven_YZ` (src/utility/Coordinates/findXYZ_of_xyz.c:670-695). -/
def bXforYZ (q : FindPars) (box : Nat → FBox) (nboxes : Nat) (inactive : Nat → Bool) (X : P3) (x : ℝ) :
    FRes (Int × P3) :=
  searchBoxes (findXforYZ q box x) (fun b => (box b).bbox)
    (fun b X => (roundInside ((box b).bbox 0) ((box b).bbox 1) X.1, X.2.1, X.2.2)) X nboxes (activeBoxes nboxes inactive)

/-- `b_X_of_x_forgiven_YZ_inboxlist` (src/utility/Coordinates/findXYZ_of_xyz.c:700-728). -/
def bXforYZlist (q : FindPars) (box : Nat → FBox) (blist : List Nat) (X : P3) (x : ℝ) : FRes (Int × P3) :=
  searchBoxes (findXforYZ q box x) (fun b => (box b).bbox)
    (fun b X => (roundInside ((box b).bbox 0) ((box b).bbox 1) X.1, X.2.1, X.2.2)) X (blist.getLastD 0 : Nat) blist

/-! ### Faces -/

open Classical in
/-- `XYZ_on_face` (src/utility/Coordinates/findXYZ_of_xyz.c:477-498): `face` and the number of faces. -/
def xyzOnFace (bb : Nat → ℝ) (X : P3) (face : Nat → Nat) : (Nat → Nat) × Nat :=
  let face := upLoop 0 6 (fun f face => aset face f 0) face
  upLoop 0 6 (fun f s => if dequal (vec3 X (f / 2)) (bb f) then (aset s.1 f 1, s.2 + 1) else s) (face, 0)

/-- `moveXYZ_off_face` (src/utility/Coordinates/findXYZ_of_xyz.c:501-529); `1+d` is `d` here. -/
def moveOffFace (bb : Nat → ℝ) (X : P3) : Nat × P3 :=
  let s := xyzOnFace bb X (fun _ => 0)
  if s.2 ≠ 0 then
    let LX : Nat → ℝ := fun d => bb (2 * d + 1) - bb (2 * d)
    let dX := upLoop 0 6 (fun f dX => if s.1 f ≠ 0 then aset dX (f / 2) (1e-6 * LX (f / 2) * (1 - 2 * ((f % 2 : Nat) : ℝ)))
      else dX) (fun _ => (0 : ℝ))
    (s.2, X.1 + dX 0, X.2.1 + dX 1, X.2.2 + dX 2)
  else (s.2, X)

open Classical in
/-- The loops of `find_i_Of_X`, `find_j_Of_Y` and `find_k_Of_Z` (src/utility/Coordinates/find_ijk.c:9-43); `a i` is
`X[i]`, `Y[i*n1]` or `Z[i*n1*n2]`. -/
def findIdx (n : Nat) (a : Nat → ℝ) (x0 : ℝ) : Int :=
  match (List.range n).find? (fun i => decide (dequal (a i) x0)) with
  | some i => i
  | none => -1

/-- `find_i_Of_X` (src/utility/Coordinates/find_ijk.c:9-17). -/
def findI (b : FBox) (X0 : ℝ) : Int := findIdx b.d.n1 (fun i => (b.pX i).1) X0

/-- `find_j_Of_Y` (src/utility/Coordinates/find_ijk.c:20-29). -/
def findJ (b : FBox) (Y0 : ℝ) : Int := findIdx b.d.n2 (fun j => (b.pX (j * b.d.n1)).2.1) Y0

/-- `find_k_Of_Z` (src/utility/Coordinates/find_ijk.c:32-43). -/
def findK (b : FBox) (Z0 : ℝ) : Int := findIdx b.d.n3 (fun k => (b.pX (k * (b.d.n1 * b.d.n2))).2.2) Z0

/-! ### Singularities -/

open Classical in
/-- `isSing_AnsorgNS12` and, because of `0 &&`, also `isSing_AnsorgNS03`
(src/utility/Coordinates/Singularities.c:30-59,62-102), with `update=1`. -/
def isSingAnsorg (X : P3) : Option SingInfo :=
  if dequal X.2.1 0 ∨ dequal X.2.1 1 then
    some ⟨fun i => decide (i = 2 + (if dequal X.2.1 1 then 1 else 0)), fun i j =>
      if j = 3 then '0' else if j = 2 then '.' else if i = 1 then '.' else '0'⟩
  else none

end

end Sgrid
