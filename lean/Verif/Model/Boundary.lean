import Verif.Model.Lines
import Verif.Model.CartDerivs
import Verif.Model.Loop

/-!
# Boundary conditions of the evolution systems

`src/utility/boundary/boundary.c`, `radiative.c`, `excision.c`, `BCs.c`. The memory of a grid is a function of
(box, variable, point). Point lists are lists of points for every box, in the order in which
`forPointList_inbox` visits them (`Verif.Model.PointList`). `Getv` and `snprintf` of parameter names are
replaced by the answers: functions of the box or the variable. Pointers to arrays are different from NULL.
-/

namespace Sgrid

variable {K : Type} [Field K]

/-! ### The point lists -/

/-- The points of a plane in the order of `forplane1`, `forplane2`, `forplane3`
(`src/main/MemoryMan/sgrid_MemoryMan_loops.h:31-41`). -/
def planePts (d : Dims) (ax : Axis) (p : Nat) : List Nat :=
  match ax with
  | .one => (List.range d.n3).flatMap fun k => (List.range d.n2).map fun j => d.idx p j k
  | .two => (List.range d.n3).flatMap fun k => (List.range d.n1).map fun i => d.idx i p k
  | .three => (List.range d.n2).flatMap fun j => (List.range d.n1).map fun i => d.idx i j p

/-- The first and the last plane of a direction (e.g. `src/utility/boundary/boundary.c:42-46`). -/
def bothPlanes (d : Dims) (ax : Axis) : List Nat := planePts d ax 0 ++ planePts d ax (d.len ax - 1)

/-- What `initialize_BoundaryPointLists` asks for. -/
structure BdryGrid where
  /-- number of boxes -/
  nboxes : Nat
  /-- `box->inactive` -/
  inactive : Nat → Bool
  /-- numbers of points -/
  dims : Nat → Dims
  /-- the basis of a direction is `Fourier` or `fd2_periodic` -/
  periodic : Nat → Axis → Bool
  /-- `box%d_Coordinates` is one of SphericalDF, compactSphericalDF, Spherical, Spherical2, Spherical3 -/
  spherical : Nat → Bool

/-- The answers of `Getv("boundary", ...)`. -/
structure BdryFlags where
  radiative : Bool := false
  radiativeAnalytic : Bool := false
  constant : Bool := false
  constantExcision : Bool := false
  simpleExcision : Bool := false
  vonNeumann : Bool := false
  selConstant : Bool := false
  selVonNeumann : Bool := false

/-- The calls of `AddToPointList` for the five lists, as pairs of box and point. -/
structure BdryLists where
  radiative : List (Nat × Nat)
  constant : List (Nat × Nat)
  selected : List (Nat × Nat)
  excision : List (Nat × Nat)
  box : List (Nat × Nat)

/-- The loop for `boxBoundaryPointList` (`src/utility/boundary/boundary.c:32-66`). -/
def boxBoundary (g : BdryGrid) : List (Nat × Nat) :=
  ((List.range g.nboxes).filter fun b => !g.inactive b).flatMap fun b =>
    ((if !g.periodic b .one then bothPlanes (g.dims b) .one else []) ++
     (if !g.periodic b .two then bothPlanes (g.dims b) .two else []) ++
     (if !g.periodic b .three then bothPlanes (g.dims b) .three else [])).map fun p => (b, p)

/-- The points of the outer boundary in the last box (`src/utility/boundary/boundary.c:74-112,121-159`). -/
def outerBoundary (g : BdryGrid) : List (Nat × Nat) :=
  let b := g.nboxes - 1
  let d := g.dims b
  (if g.spherical b then planePts d .one (d.n1 - 1)
   else bothPlanes d .one ++ bothPlanes d .two ++ bothPlanes d .three).map fun p => (b, p)

/-- The points of the inner boundary in box 0
(`src/utility/boundary/boundary.c:167-181,189-203,211-225`). -/
def innerBoundary (g : BdryGrid) : List (Nat × Nat) :=
  if g.spherical 0 then (planePts (g.dims 0) .one 0).map fun p => (0, p) else []

/-- `initialize_BoundaryPointLists` (`src/utility/boundary/boundary.c:13-232`). -/
def initBoundaryLists (g : BdryGrid) (f : BdryFlags) : BdryLists where
  box := boxBoundary g
  radiative := if f.radiative || f.radiativeAnalytic then outerBoundary g else []
  constant := (if f.constant then outerBoundary g else []) ++ (if f.constantExcision then innerBoundary g else [])
  excision := if f.simpleExcision || f.vonNeumann then innerBoundary g else []
  selected := if f.selConstant || f.selVonNeumann then innerBoundary g else []

/-! ### The conditions -/

/-- `forallboxes` with a body that works on one box. -/
def onBoxes (boxes : List Nat) (f : Nat → Arrays K → Arrays K) (m : Nat → Arrays K) : Nat → Arrays K :=
  boxes.foldl (fun m b => aset m b (f b (m b))) m

/-- An assignment to `u[p]`. -/
def setPt (m : Arrays K) (u p : Nat) (x : K) : Arrays K := aset m u (aset (m u) p x)

/-- `set_boundary_constant` (`src/utility/boundary/boundary.c:357-373`). -/
def setConstant (boxes : List Nat) (pts : Nat → List Nat) (unew upre : Nat) :
    (Nat → Arrays K) → Nat → Arrays K :=
  onBoxes boxes fun b m => (pts b).foldl (fun m p => setPt m unew p (m upre p)) m

/-- `set_boundary_value` (`src/utility/boundary/BCs.c:9-22`). -/
def setValue (boxes : List Nat) (pts : Nat → List Nat) (ui : Nat) (value : K) :
    (Nat → Arrays K) → Nat → Arrays K :=
  onBoxes boxes fun b m => (pts b).foldl (fun m p => setPt m ui p value) m

/-- `set_boundary_simpleExcision` (`src/utility/boundary/excision.c:10-25`). -/
def setSimpleExcision (boxes : List Nat) (pts : Nat → List Nat) (unew upre : Nat) :
    (Nat → Arrays K) → Nat → Arrays K :=
  onBoxes boxes fun b m => (pts b).foldl (fun m p =>
    setPt m unew p (m upre p + m unew (p + 1) - m upre (p + 1))) m

/-- `set_boundary_normalderiv_leftBound` (`src/utility/boundary/BCs.c:25-47`) and, with `right`,
`set_boundary_normalderiv_rightBound` (`src/utility/boundary/BCs.c:50-72`) in one box. `du` is the variable
`temp1`. -/
def normalDerivBox (right : Bool) (g : Nat → (Nat → K) × (Nat → K) × (Nat → K)) (b : LBox K) (ax : Axis)
    (pts : List Nat) (u du : Nat) (deriv : K) (m : Arrays K) : Arrays K :=
  let m := specDeriv1 g b ax u du m
  let D := b.D ax (if right then b.d.len ax * b.d.len ax - 1 else 0)
  pts.foldl (fun m p => setPt m u p ((deriv - m du p + D * m u p) / D)) m

/-- The two functions for all boxes; another direction than 1, 2, 3 is an error. -/
def setNormalDeriv (right : Bool) (g : Nat → Nat → (Nat → K) × (Nat → K) × (Nat → K)) (lb : Nat → LBox K)
    (direc : Int) (boxes : List Nat) (pts : Nat → List Nat) (u du : Nat) (deriv : K) (m : Nat → Arrays K) :
    Res (Nat → Arrays K) :=
  (Axis.of direc).map fun ax => onBoxes boxes (fun b => normalDerivBox right (g b) (lb b) ax (pts b) u du deriv) m

/-- `set_boundary_VonNeumannExcision` (`src/utility/boundary/excision.c:29-33`). -/
def setVonNeumann (g : Nat → Nat → (Nat → K) × (Nat → K) × (Nat → K)) (lb : Nat → LBox K) (boxes : List Nat)
    (pts : Nat → List Nat) (unew du : Nat) (m : Nat → Arrays K) : Res (Nat → Arrays K) :=
  setNormalDeriv false g lb 1 boxes pts unew du 0 m

/-- The numbers of the variables x, y, z, temp1, temp2, temp3. -/
structure RadIds where
  (x y z t1 t2 t3 : Nat)

/-- The arrays that `cart_partials` is to write to. -/
def RadIds.temp (a : RadIds) (k : Nat) : Nat := if k = 1 then a.t1 else if k = 2 then a.t2 else a.t3

/-- `cart_partials` on the curried memory of a box. -/
def cartPartialsOf (c : CartBox K) (sched : List Nat) (ρ : Nat → Nat → K) (v : Nat) (u : Nat → Nat)
    (m : Arrays K) : Arrays K := Function.curry (cartPartials c sched ρ v u (Function.uncurry m))

section
variable [DecidableEq K]

/-- The loop body of `set_boundary_radiative` (`src/utility/boundary/radiative.c:37-55`). -/
def radiativePass (sqrt : K → K) (a : RadIds) (unew upre : Nat) (c : K) (ucur : Nat) (var0 v : K) (m : Arrays K)
    (ijk : Nat) : Arrays K :=
  let x := m a.x ijk
  let y := m a.y ijk
  let z := m a.z ijk
  let r := sqrt (x * x + y * y + z * z)
  let vx := v * x / r
  let vy := v * y / r
  let vz := v * z / r
  let rhs := -v * (m ucur ijk - var0) / r
  let rhs := rhs - (vx * m a.t1 ijk + vy * m a.t2 ijk + vz * m a.t3 ijk)
  setPt m unew ijk (if c ≠ 0 then m upre ijk + c * rhs else rhs)

/-- `set_boundary_radiative` (`src/utility/boundary/radiative.c:11-57`). -/
def setRadiative (sqrt : K → K) (cb : Nat → CartBox K) (sched : Nat → List Nat) (ρ : Nat → Nat → Nat → K)
    (a : RadIds) (boxes : List Nat) (pts : Nat → List Nat) (unew upre : Nat) (c : K) (ucur : Nat) (var0 v : K) :
    (Nat → Arrays K) → Nat → Arrays K :=
  onBoxes boxes fun b m => (pts b).foldl (radiativePass sqrt a unew upre c ucur var0 v)
    (cartPartialsOf (cb b) (sched b) (ρ b) ucur a.temp m)

/-- The name without an ending of two characters that starts with `_`
(`src/utility/boundary/boundary.c:283-285`, `src/utility/boundary/radiative.c:106-107`). -/
def radName (name : CStr) : CStr :=
  if 3 ≤ name.length ∧ name[name.length - 2]? = some '_' then name.take (name.length - 2) else name

/-- The speed that is used: 0 for variables in `boundary_radconstant`
(`src/utility/boundary/boundary.c:274-286`, `src/utility/boundary/radiative.c:98-108`). Names have less than 1000
characters. -/
def radSpeed (isConst : CStr → Bool) (name : CStr) (v : K) : K :=
  if isConst name || isConst (radName name) then 0 else v

/-- The loop body of `set_boundary_radiative_analytic` (`src/utility/boundary/radiative.c:133-157`); `d1`, `d2`,
`d3` are the variables ADMvars_dgxxx, ADMvars_dgxxy, ADMvars_dgxxz. -/
def analyticPass (sqrt : K → K) (a : RadIds) (d : RadIds) (unew upre : Nat) (c : K) (ucur uinit : Nat) (v : K)
    (m : Arrays K) (ijk : Nat) : Arrays K :=
  let x := m a.x ijk
  let y := m a.y ijk
  let z := m a.z ijk
  let r := sqrt (x * x + y * y + z * z)
  let vx := v * x / r
  let vy := v * y / r
  let vz := v * z / r
  let rhs := -v * (m ucur ijk - m uinit ijk) / r
  let rhs := rhs - (vx * (m a.t1 ijk - m d.t1 ijk) + vy * (m a.t2 ijk - m d.t2 ijk) +
    vz * (m a.t3 ijk - m d.t3 ijk))
  setPt m unew ijk (if c ≠ 0 then m upre ijk + c * rhs else rhs)

/-- The loop over the boxes in `set_boundary_radiative_analytic` (`src/utility/boundary/radiative.c:114-159`). -/
def setAnalytic (sqrt : K → K) (cb : Nat → CartBox K) (sched : Nat → Nat → List Nat) (ρ : Nat → Nat → Nat → K)
    (a d : RadIds) (boxes : List Nat) (pts : Nat → List Nat) (unew upre : Nat) (c : K) (ucur uinit : Nat)
    (v : K) : (Nat → Arrays K) → Nat → Arrays K :=
  onBoxes boxes fun b m => (pts b).foldl (analyticPass sqrt a d unew upre c ucur uinit v)
    (cartPartialsOf (cb b) (sched 1 b) (ρ b) uinit d.temp
      (cartPartialsOf (cb b) (sched 0 b) (ρ b) ucur a.temp m))

/-- The copy of `upre` at time 0 (`src/utility/boundary/radiative.c:76-88`). -/
def saveInitial (cb : Nat → CartBox K) (boxes : List Nat) (upre uinit : List Nat) (m : Nat → Arrays K) :
    Nat → Arrays K :=
  (List.range upre.length).foldl (fun m j => onBoxes boxes (fun b m =>
    (List.range (cb b).npts).foldl (fun m p => setPt m (uinit.getD j 0) p (m (upre.getD j 0) p)) m) m) m

/-- `set_boundary_radiative_analytic` (`src/utility/boundary/radiative.c:62-161`). `init` is the static variable
`uinitial`, the list that `AddDuplicateEnable` makes is `dup`. The second component is the new value of the static
variable. Without a list `uinitial->index` is read from a NULL pointer. -/
def radiativeAnalytic (sqrt : K → K) (cb : Nat → CartBox K) (sched : Nat → Nat → List Nat)
    (ρ : Nat → Nat → Nat → K) (a d : RadIds) (boxes : List Nat) (pts : Nat → List Nat) (speed : Nat → K)
    (unew upre : List Nat) (c : K) (ucur : List Nat) (time : K) (dup : List Nat) (init : Option (List Nat))
    (m : Nat → Arrays K) : Res ((Nat → Arrays K) × Option (List Nat)) :=
  let init := if time = 0 then some dup else init
  let m := if time = 0 then saveInitial cb boxes upre dup m else m
  match init with
  | none => if unew.length = 0 ∨ boxes = [] then .ok (m, init) else .ub
  | some l => .ok ((List.range unew.length).foldl (fun m j =>
      setAnalytic sqrt cb sched ρ a d boxes pts (unew.getD j 0) (upre.getD j 0) c (ucur.getD j 0) (l.getD j 0)
        (speed (unew.getD j 0)) m) m, init)

/-- What `set_boundary` knows: the answers of `Getv`, the lists, the properties of the variables. -/
structure BdryEnv (K : Type) where
  sqrt : K → K
  cb : Nat → CartBox K
  lb : Nat → LBox K
  g : Nat → Nat → (Nat → K) × (Nat → K) × (Nat → K)
  sched : Nat → Nat → List Nat
  ρ : Nat → Nat → Nat → K
  a : RadIds
  d : RadIds
  boxes : List Nat
  flags : BdryFlags
  radPts : Nat → List Nat
  constPts : Nat → List Nat
  excPts : Nat → List Nat
  selPts : Nat → List Nat
  /-- `VarPropSpeed`, `VarFarLimit`, `VarName` -/
  propSpeed : Nat → K
  farLimit : Nat → K
  name : Nat → CStr
  /-- `Getv("boundary_radconstant", ...)` -/
  radConst : CStr → Bool
  /-- `Getv("boundary_selectedExcisionVars", ...)` -/
  selVar : CStr → Bool

/-- The loops over the variables in `set_boundary`, `for(j=0; j<unew->n; j++)`. -/
def forVars (n : Nat) (f : Nat → (Nat → Arrays K) → Res (Nat → Arrays K)) (m : Nat → Arrays K) :
    Res (Nat → Arrays K) := forN n f m

/-- `set_boundary` (`src/utility/boundary/boundary.c:254-354`). -/
def setBoundary (e : BdryEnv K) (unew upre : List Nat) (c : K) (ucur : List Nat) (time : K) (dup : List Nat)
    (init : Option (List Nat)) (m : Nat → Arrays K) : Res ((Nat → Arrays K) × Option (List Nat)) :=
  let un := fun j => unew.getD j 0
  let up := fun j => upre.getD j 0
  let uc := fun j => ucur.getD j 0
  let speed := fun i => radSpeed e.radConst (e.name i) (e.propSpeed i)
  (if e.flags.radiative then forVars unew.length (fun j m =>
      .ok (setRadiative e.sqrt e.cb (e.sched 0) e.ρ e.a e.boxes e.radPts (un j) (up j) c (uc j)
        (e.farLimit (un j)) (speed (un j)) m)) m else .ok m).bind fun m =>
  (if e.flags.radiativeAnalytic then
      radiativeAnalytic e.sqrt e.cb e.sched e.ρ e.a e.d e.boxes e.radPts speed unew upre c ucur time dup init m
    else .ok (m, init)).bind fun r =>
  (if e.flags.constant || e.flags.constantExcision then forVars unew.length (fun j m =>
      .ok (setConstant e.boxes e.constPts (un j) (up j) m)) r.1 else .ok r.1).bind fun m =>
  (if e.flags.simpleExcision then forVars unew.length (fun j m =>
      .ok (setSimpleExcision e.boxes e.excPts (un j) (up j) m)) m else .ok m).bind fun m =>
  (if e.flags.selConstant then forVars unew.length (fun j m =>
      if e.selVar (e.name (un j)) then .ok (setConstant e.boxes e.selPts (un j) (up j) m) else .ok m) m
    else .ok m).bind fun m =>
  (if e.flags.vonNeumann then forVars unew.length (fun j m =>
      setVonNeumann e.g e.lb e.boxes e.excPts (un j) e.a.t1 m) m else .ok m).bind fun m =>
  (if e.flags.selVonNeumann then forVars unew.length (fun j m =>
      if e.selVar (e.name (un j)) then setVonNeumann e.g e.lb e.boxes e.selPts (un j) e.a.t1 m else .ok m) m
    else .ok m).bind fun m =>
  .ok (m, r.2)

end

end Sgrid
