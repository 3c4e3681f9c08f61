import Verif.Model.CubedSphere
import Verif.Model.PureLoop
import Verif.Model.Lines
import Verif.Model.Basic

/-!
src/utility/Coordinates/setup_CubedSpheres.c: arrangements of boxes with cubed spheres.

Doubles are real numbers.  The parameters `box%d_Coordinates`, `box%d_min%d`, `box%d_max%d` are fields of
the box here; that they go through decimal strings (lines 253-261, 417-423) and that
set_BoxStructures_fromPars copies them into the box (lines 343, 430) is left out, and so are the parameters
`box%d_basis%d`, the removal of the boundary faces and the derivatives of sigma (lines 24-25, 29, 101-119).
The branch `CI->useF` of init_6CubedSphereBoxes_from_CI_iFS (lines 49-50) is left out: here `useF` is 0.
Directions 1, 2, 3 are 0, 1, 2 here.
-/

namespace Sgrid

/-- The values of `box%d_Coordinates` that are set (setup_CubedSpheres.c:221, 229, 410). -/
inductive BoxCoords where
  | Cartesian | CubedSphere | stretchedCubedSphere
  deriving DecidableEq, Repr

/-- What the set-up reads and writes of a box (setup_CubedSpheres.c:199-346, 395-433). -/
structure SetupBox where
  /-- `box%d_Coordinates` -/
  coords : BoxCoords
  /-- `box%d_min%d` -/
  min : Fin 3 → ℝ
  /-- `box%d_max%d` -/
  max : Fin 3 → ℝ
  /-- `box->CI->xc` -/
  xc : Fin 3 → ℝ
  /-- `box->CI->s[0]`, `s[1]` -/
  s : Fin 2 → ℝ
  /-- `box->CI->dom` -/
  dom : ℕ
  /-- `box->CI->type` -/
  type : PatchType
  /-- `box->CI->iFS[0]`, `iFS[1]` -/
  iFS : Fin 2 → ℤ
  /-- `box->CI->iSurf[0]`, `iSurf[1]` -/
  iSurf : Fin 2 → ℤ
  /-- `box->n1`, `n2`, `n3` -/
  d : Dims
  /-- `box->v[isigdef]` is not NULL -/
  hasDef : Bool
  /-- `box->v[isigdef]` -/
  vdef : ℕ → ℝ
  /-- `box->v[isigma]` -/
  vsig : ℕ → ℝ

/-- The grid. -/
structure SetupGrid where
  nboxes : ℕ
  box : ℕ → SetupBox

/-- Plane index `p = (n1-1) * (si==1)` (setup_CubedSpheres.c:71, 91). -/
def planeOf (d : Dims) (si : Fin 2) : ℕ := (d.n1 - 1) * (if si = 1 then 1 else 0)

/-- set_const_CubedSphere_sigma01_inplane (setup_CubedSpheres.c:85-99) on the array `v`. -/
def setConstInplane (d : Dims) (v : ℕ → ℝ) (si : Fin 2) (sigma : ℝ) : ℕ → ℝ :=
  let p := planeOf d si;
  upLoop 0 d.n3 (fun k v => upLoop 0 d.n2 (fun j v => aset v (d.idx p j k) sigma) v) v

/-- copy_CubedSphere_sigma01_inplane (setup_CubedSpheres.c:65-81) from the array `s` to `v`. -/
def copyInplane (d : Dims) (si : Fin 2) (s v : ℕ → ℝ) : ℕ → ℝ :=
  let p := planeOf d si;
  upLoop 0 d.n3 (fun k v => upLoop 0 d.n2 (fun j v => aset v (d.idx p j k) (s (d.idx p j k))) v) v

/-- init_1CubedSphere_by_copying_CI_iFS (setup_CubedSpheres.c:13-32) without the derivatives.  The indices
`iFS[si]` and `iSurf[si]`, if they are set, are those of `vdef` and `vsig`. -/
def init1ByCopying (b : SetupBox) (si : Fin 2) : SetupBox :=
  if b.iFS si < 1 then b else { b with vsig := copyInplane b.d si b.vdef b.vsig }

/-- `grid->box[i] = b`. -/
def SetupGrid.put (g : SetupGrid) (i : ℕ) (b : SetupBox) : SetupGrid :=
  { g with box := aset g.box i b }

/-- init_6CubedSphereBoxes_from_CI_iFS with `useF = 0` (setup_CubedSpheres.c:36-62). -/
def init6Boxes (g : SetupGrid) (bi_dom0 : ℕ) : SetupGrid :=
  let type := (g.box bi_dom0).type;
  if (g.box bi_dom0).dom ≠ 0 then g
  else if type = .innerCubedSphere ∨ type = .outerCubedSphere ∨ type = .CubedShell then
    upLoop 0 6 (fun i g => g.put (bi_dom0 + i) (init1ByCopying (init1ByCopying (g.box (bi_dom0 + i)) 0) 1)) g
  else g

/-- set_AB_min_max_from_Din (setup_CubedSpheres.c:138-189): `Amin, Amax, Bmin, Bmax`. -/
noncomputable def setABminmax (dom : ℕ) (Din : ℕ → ℝ) : Res (ℝ × ℝ × ℝ × ℝ) :=
  match dom with
  | 0 => .ok (-Din 3 / Din dom, Din 2 / Din dom, -Din 5 / Din dom, Din 4 / Din dom)
  | 1 => .ok (-Din 2 / Din dom, Din 3 / Din dom, -Din 4 / Din dom, Din 5 / Din dom)
  | 2 => .ok (-Din 1 / Din dom, Din 0 / Din dom, -Din 5 / Din dom, Din 4 / Din dom)
  | 3 => .ok (-Din 0 / Din dom, Din 1 / Din dom, -Din 4 / Din dom, Din 5 / Din dom)
  | 4 => .ok (-Din 3 / Din dom, Din 2 / Din dom, -Din 1 / Din dom, Din 0 / Din dom)
  | 5 => .ok (-Din 2 / Din dom, Din 3 / Din dom, -Din 0 / Din dom, Din 1 / Din dom)
  | _ => .abort

/-- The indices of the variables `Coordinates_CubedSphere_sigma01` and `..._def`
(setup_CubedSpheres.c:202-206). -/
structure SetupVars where
  isigma : ℤ
  isigdef : ℤ

/-- One pass of the loop of convert_6boxes_to_CubedSphere up to line 318: coordinates, ranges, centre,
distances, type and the surfaces of box `i` (setup_CubedSpheres.c:242-318). -/
noncomputable def convertBox (V : SetupVars) (b : SetupBox) (i : ℕ) (type : PatchType) (stretch : Bool)
    (xc : Fin 3 → ℝ) (Din Dout : ℕ → ℝ) : Res SetupBox := do
  let (Amin, Amax, Bmin, Bmax) ← setABminmax i Din
  let b := { b with
    coords := if stretch then .stretchedCubedSphere else .CubedSphere
    min := ![0, Amin, Bmin]
    max := ![1, Amax, Bmax]
    xc := xc
    s := ![Din i, Dout i]
    dom := i
    type := type }
  if b.hasDef ∧ ¬stretch then
    match type with
    | .innerCubedSphere => .ok { b with
        vdef := setConstInplane b.d b.vdef 0 (b.s 0)
        iFS := Function.update b.iFS 0 V.isigdef
        iSurf := Function.update b.iSurf 0 V.isigma }
    | .outerCubedSphere => .ok { b with
        vdef := setConstInplane b.d b.vdef 1 (b.s 1)
        iFS := Function.update b.iFS 1 V.isigdef
        iSurf := Function.update b.iSurf 1 V.isigma }
    | .CubedShell => .ok { b with
        vdef := setConstInplane b.d (setConstInplane b.d b.vdef 0 (b.s 0)) 1 (b.s 1)
        iFS := Function.update (Function.update b.iFS 0 V.isigdef) 1 V.isigdef
        iSurf := Function.update (Function.update b.iSurf 0 V.isigma) 1 V.isigma }
    | .PyramidFrustum => .abort
  else .ok b

/-- The loop over the six boxes from box `i` on, with `fuel = 6 - i` passes left, and the value `b0+i` that
is returned (setup_CubedSpheres.c:232-337, 345). -/
noncomputable def convertLoop (V : SetupVars) (b0 : ℕ) (type : PatchType) (stretch : Bool)
    (xc : Fin 3 → ℝ) (Din Dout : ℕ → ℝ) : ℕ → ℕ → SetupGrid → Res (ℕ × SetupGrid)
  | 0, i, g => .ok (b0 + i, g)
  | fuel + 1, i, g =>
    if b0 + i ≥ g.nboxes then .ok (b0 + i, g) else do
      let b ← convertBox V (g.box (b0 + i)) i type stretch xc Din Dout
      let g := g.put (b0 + i) b
      let g := if b.hasDef ∧ ¬stretch ∧ b.dom = 5 then init6Boxes g b0 else g
      convertLoop V b0 type stretch xc Din Dout fuel (i + 1) g

/-- convert_6boxes_to_CubedSphere (setup_CubedSpheres.c:199-346): the returned index and the grid. -/
noncomputable def convert6boxes (V : SetupVars) (g : SetupGrid) (b0 : ℕ) (type : PatchType) (stretch : Bool)
    (xc : Fin 3 → ℝ) (Din Dout : ℕ → ℝ) : Res (ℕ × SetupGrid) :=
  convertLoop V b0 type stretch xc Din Dout 6 0 g

/-- convert_1box_to_cube (setup_CubedSpheres.c:395-433).  The pointer `grid->box[b0]` is read in line 399
before the test of `b0` in line 402, and the array has `nboxes` entries (src/main/MemoryMan/storage.c:31). -/
noncomputable def convert1box (g : SetupGrid) (b0 : ℕ) (xc : Fin 3 → ℝ) (dout : ℝ) : Res (ℕ × SetupGrid) :=
  if b0 ≥ g.nboxes then .ub
  else if b0 + 1 > g.nboxes then .ok (b0, g)
  else .ok (b0 + 1, g.put b0 { g.box b0 with
    coords := .Cartesian
    min := fun d => xc d - dout
    max := fun d => xc d + dout })

/-- arrange_12CubSph_into_empty_cube (setup_CubedSpheres.c:449-471). -/
noncomputable def arrange12 (V : SetupVars) (g : SetupGrid) (b0 : ℕ) (xc : Fin 3 → ℝ) (din dmid dout : ℝ) :
    Res (ℕ × SetupGrid) := do
  let (bl, g) ← convert6boxes V g b0 .outerCubedSphere false xc (fun _ => din) (fun _ => dmid)
  convert6boxes V g bl .innerCubedSphere false xc (fun _ => dmid) (fun _ => dout)

/-- arrange_1box12CubSph_into_full_cube (setup_CubedSpheres.c:474-481). -/
noncomputable def arrange13 (V : SetupVars) (g : SetupGrid) (b0 : ℕ) (xc : Fin 3 → ℝ) (din dmid dout : ℝ) :
    Res (ℕ × SetupGrid) := do
  let (bl, g) ← convert1box g b0 xc din
  arrange12 V g bl xc din dmid dout

/-- two_full_cubes_touching_at_x0 (setup_CubedSpheres.c:496-525). -/
noncomputable def twoFullCubes (V : SetupVars) (g : SetupGrid) (b0 : ℕ) (dc din1 dmid1 din2 dmid2 : ℝ) :
    Res (ℕ × SetupGrid) := do
  let (bl, g) ← arrange13 V g b0 ![dc, 0, 0] din1 dmid1 dc
  arrange13 V g bl ![-dc, 0, 0] din2 dmid2 dc

/-- sphere_around_two_full_cubes_touching_at_x0 (setup_CubedSpheres.c:542-564). -/
noncomputable def sphereAroundTwo (V : SetupVars) (g : SetupGrid) (b0 : ℕ) (dc din1 dmid1 din2 dmid2 r0 : ℝ) :
    Res (ℕ × SetupGrid) := do
  let (bl, g) ← twoFullCubes V g b0 dc din1 dmid1 din2 dmid2
  convert6boxes V g bl .outerCubedSphere false ![0, 0, 0] (fun i => if i < 2 then 2 * dc else dc) (fun _ => r0)

/-- two_spheres_around_two_full_cubes (setup_CubedSpheres.c:589-609). -/
noncomputable def twoSpheresAroundTwo (V : SetupVars) (g : SetupGrid) (b0 : ℕ)
    (dc din1 dmid1 din2 dmid2 r0 r1 : ℝ) : Res (ℕ × SetupGrid) := do
  let (bl, g) ← sphereAroundTwo V g b0 dc din1 dmid1 din2 dmid2 r0
  convert6boxes V g bl .CubedShell true ![0, 0, 0] (fun _ => r0) (fun _ => r1)

/-- What `CubedSphere_sigma(box, si, ind, A,B)` reads in this box (coordtrans_CubedSphere.c:607-629);
`interp` interpolates in the plane with the given numbers of points. -/
noncomputable def SetupBox.src (interp : ℕ → ℕ → (ℕ → ℕ → ℝ) → ℝ → ℝ → ℝ) (b : SetupBox) (si : Fin 2) :
    SigmaSrc where
  isig := b.iSurf si
  n1 := b.d.n1
  n2 := b.d.n2
  v := b.vsig
  unset := b.s si
  interp := interp b.d.n2 b.d.n3 (fun j k => b.vsig (b.d.idx (planeOf b.d si) j k))

/-- The box as the coordinate transformations see it (coordtrans_CubedSphere.c:41-53, 161-176) for the index
`ind`, which is negative if the point is not on the grid. -/
noncomputable def SetupBox.cub (interp : ℕ → ℕ → (ℕ → ℕ → ℝ) → ℝ → ℝ → ℝ) (b : SetupBox) (ind : ℤ) :
    CubBox where
  dom := b.dom
  type := b.type
  s := b.s
  xc := b.xc
  sigma := fun si A B => cubedSphereSigma (b.src interp si) si ind A B
  dsigmaA := fun _ _ _ => 0
  dsigmaB := fun _ _ _ => 0
  bboxA := ![b.min 1, b.max 1]
  bboxB := ![b.min 2, b.max 2]
  indNeg := decide (ind < 0)

/-- The Cartesian coordinates of the point with coordinates `X` of the box: for Cartesian boxes they are `X`
itself, otherwise the functions of coordtrans_CubedSphere.c are called (src/utility/Coordinates/Coordinates.c). -/
noncomputable def SetupBox.xyz (interp : ℕ → ℕ → (ℕ → ℕ → ℝ) → ℝ → ℝ → ℝ) (b : SetupBox) (ind : ℤ)
    (X : Fin 3 → ℝ) : Fin 3 → ℝ :=
  match b.coords with
  | .Cartesian => X
  | .CubedSphere => xyzOfLamAB (b.cub interp ind) (X 0) (X 1) (X 2)
  | .stretchedCubedSphere => xyzOfRhoAB (b.cub interp ind) (X 0) (X 1) (X 2)

end Sgrid
