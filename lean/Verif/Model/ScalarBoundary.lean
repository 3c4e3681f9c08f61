import Verif.Model.Lines
import Verif.Model.PureLoop

/-!
# The boundary conditions of the scalar field on a black hole

`set_Up_Um_U0_onBoundary`, `compute_unew_from_Up_Um_U0_onBoundary` (src/physics/ScalarOnKerr/ScalarOnKerr.c:3008-3274),
`set_psi_Pi_phi_boundary` and `set_psi_Pi_phi_boundary_CP` (lines 2504-2828), which `ScalarOnKerr_evolve_1stO` calls, and
`set_psi_Pi_boundary` (lines 864-957), `set_Up_Um_onBoundary` and `compute_unew_from_Up_Um_onBoundary` (lines 1256-1681), which
`ScalarOnKerr_evolve` calls. Loops under `if(0)` (lines 1263-1307, 1644-1680, 3095-3147) are not in the model. Numbers are in a field,
`sqrt` and the spectral derivatives are arguments.
-/

namespace Sgrid

variable {K : Type}

/-- What all these functions read at a point to find the radial direction: the coordinates, the square root, and the inverse of the
3-metric by its number xx, xy, xz, yy, yz, zz (lines 3039-3048, 2544-2559). -/
structure RadialPt (K : Type) where
  sqrt : K → K
  x : K
  y : K
  z : K
  gup : Nat → K

namespace RadialPt

variable [Field K] (g : RadialPt K)

/-- Lines 3060, 3243, 2596, 2729, 2771. -/
def r : K := g.sqrt (g.x * g.x + g.y * g.y + g.z * g.z)

/-- Lines 3061, 3244, 2597, 2730, 2772. -/
def nx : K := g.x / g.r

/-- Lines 3062, 3245, 2598, 2731, 2773. -/
def ny : K := g.y / g.r

/-- Lines 3063, 3246, 2599, 2732, 2774. -/
def nz : K := g.z / g.r

/-- Lines 3064-3065, 3247-3248, 2600-2601, 2733-2734, 2775-2776. -/
def gnn : K :=
  g.gup 0 * g.nx * g.nx + g.gup 3 * g.ny * g.ny + g.gup 5 * g.nz * g.nz +
    2 * (g.gup 1 * g.nx * g.ny + g.gup 2 * g.nx * g.nz + g.gup 4 * g.ny * g.nz)

/-- Lines 3067, 3250, 2603, 2736, 2778. -/
def cx : K := g.nx / g.sqrt g.gnn

/-- Lines 3068, 3251, 2604, 2737, 2779. -/
def cy : K := g.ny / g.sqrt g.gnn

/-- Lines 3069, 3252, 2605, 2738, 2780. -/
def cz : K := g.nz / g.sqrt g.gnn

/-- Lines 3070, 3253, 2606, 2739, 2781. -/
def cupx : K := g.gup 0 * g.cx + g.gup 1 * g.cy + g.gup 2 * g.cz

/-- Lines 3071, 3254, 2607, 2740, 2782. -/
def cupy : K := g.gup 1 * g.cx + g.gup 3 * g.cy + g.gup 4 * g.cz

/-- Lines 3072, 3255, 2608, 2741, 2783. -/
def cupz : K := g.gup 2 * g.cx + g.gup 4 * g.cy + g.gup 5 * g.cz

/-- `c_i` by its number. -/
def c (n : Nat) : K := [g.cx, g.cy, g.cz].getD n 0

/-- `cupx*phix + cupy*phiy + cupz*phiz` (lines 3073, 2609, 2625, 2742, 2784, 2786). -/
def along (v : Nat → K) : K := g.cupx * v 0 + g.cupy * v 1 + g.cupz * v 2

end RadialPt

/-- The variables of `unew` at one point (lines 3019-3035). -/
structure CharPt (K : Type) where
  psi : K
  Pi : K
  Up : K
  Um : K
  phi : Nat → K
  U0 : Nat → K

/-- The variables of `unew` in all boxes, at the points of a box by `ijk`. -/
abbrev CharMem (K : Type) := Nat → Nat → CharPt K

/-- Change the variables at one point of one box. -/
def CharMem.upd (s : CharMem K) (b p : Nat) (f : CharPt K → CharPt K) : CharMem K := aset s b (aset (s b) p (f (s b p)))

/-- The points `(j,k)` of a plane in the order of `forplane1` (src/main/main/sgrid_main.h), which is also the order of lines 3232-3233. -/
def plane1 (d : Dims) : List (Nat × Nat) := (List.range d.n3).flatMap fun k => (List.range d.n2).map fun j => (j, k)

section first
variable [Field K]

/-- The loop body of lines 3079-3087 (the part for `unew`; what is computed for `ucur` is used only under `if(0)`). -/
def setChar (g : RadialPt K) (v : CharPt K) : CharPt K :=
  let nphic := g.along v.phi
  { v with Up := v.Pi + nphic, Um := v.Pi - nphic, U0 := fun n => v.phi n - nphic * g.c n }

/-- The loops of lines 3015-3092; `pts b` is `boxBoundaryPointList` in box `b`. -/
def setCharLoop (nboxes : Nat) (pts : Nat → List Nat) (geo : Nat → Nat → RadialPt K) (s : CharMem K) : CharMem K :=
  (List.range nboxes).foldl (fun s b => (pts b).foldl (fun s p => s.upd b p (setChar (geo b p))) s) s

/-- The loop body of lines 3177-3186. -/
def transferChar (d : Nat → Dims) (b : Nat) (jk : Nat × Nat) (s : CharMem K) : CharMem K :=
  let ijk := (d b).idx ((d b).n1 - 1) jk.1 jk.2
  let r_ijk := (d (b + 1)).idx 0 jk.1 jk.2
  let s := s.upd (b + 1) r_ijk fun v => { v with Up := (s b ijk).Up }
  s.upd b ijk fun v =>
    { v with Um := (s (b + 1) r_ijk).Um, psi := (s (b + 1) r_ijk).psi, U0 := (s (b + 1) r_ijk).U0 }

/-- The loops of lines 3151-3188. -/
def transferLoop (nboxes : Nat) (d : Nat → Dims) (s : CharMem K) : CharMem K :=
  (List.range (nboxes - 1)).foldl (fun s b => (plane1 (d b)).foldl (fun s jk => transferChar d b jk s) s) s

/-- `set_Up_Um_U0_onBoundary` (lines 3008-3189). -/
def setUpUmU0 (nboxes : Nat) (d : Nat → Dims) (pts : Nat → List Nat) (geo : Nat → Nat → RadialPt K) (s : CharMem K) : CharMem K :=
  transferLoop nboxes d (setCharLoop nboxes pts geo s)

/-- The loop body of lines 3260-3264. -/
def fromChar (g : RadialPt K) (v : CharPt K) : CharPt K :=
  let nphic := (v.Up - v.Um) * (1 / 2)
  { v with Pi := (v.Up + v.Um) * (1 / 2), phi := fun n => v.U0 n + nphic * g.c n }

/-- `compute_unew_from_Up_Um_U0_onBoundary` (lines 3192-3274) for boxes with `n1 ≥ 2`: the loop of line 3228 runs over `0` and `n1-1`. -/
def computeFromChar (nboxes : Nat) (d : Nat → Dims) (geo : Nat → Nat → RadialPt K) (s : CharMem K) : CharMem K :=
  (List.range nboxes).foldl (fun s b =>
    [0, (d b).n1 - 1].foldl (fun s i =>
      if (b = 0 ∧ i = 0) ∨ (b = nboxes - 1 ∧ i = (d b).n1 - 1) then s
      else (plane1 (d b)).foldl (fun s jk => s.upd b ((d b).idx i jk.1 jk.2) (fromChar (geo b ((d b).idx i jk.1 jk.2)))) s) s) s

end first

/-- What `set_psi_Pi_phi_boundary` and `set_psi_Pi_phi_boundary_CP` read in the last box (lines 2513-2559): `D` is `cart_partials`, with
the derivative in direction `n` of an array at a point. -/
structure OuterIn (K : Type) where
  d : Dims
  dt : K
  geo : Nat → RadialPt K
  D : (Nat → K) → Nat → Nat → K
  cpsi : Nat → K
  ppsi : Nat → K
  cPi : Nat → K
  pPi : Nat → K
  cphi : Nat → Nat → K
  pphi : Nat → Nat → K
  alpha : Nat → K
  beta : Nat → Nat → K

/-- What the two functions write in the last box. -/
structure OuterVars (K : Type) where
  npsi : Nat → K
  nPi : Nat → K
  nphi : Nat → Nat → K

namespace Outer
variable [Field K] [DecidableEq K]

/-- Lines 2569-2572, at the point `ijk` with the first index `i`. -/
def rpsi (e : OuterIn K) (i ijk : Nat) : K :=
  -e.alpha ijk * e.cPi ijk + (e.beta 0 i * e.cphi 0 i + e.beta 1 i * e.cphi 1 i + e.beta 2 i * e.cphi 2 i)

/-- Lines 2742-2747. -/
def rpsiCP (e : OuterIn K) (_ ijk : Nat) : K :=
  -((e.geo ijk).along fun n => e.cphi n ijk) - e.cpsi ijk / (e.geo ijk).r

/-- The loops of lines 2562-2577 and 2717-2752. -/
def psiLoop (rpsi : OuterIn K → Nat → Nat → K) (e : OuterIn K) (npsi : Nat → K) : Nat → K :=
  (plane1 e.d).foldl (fun npsi jk =>
    let i := e.d.n1 - 1
    let ijk := e.d.idx i jk.1 jk.2
    aset npsi ijk (if e.dt ≠ 0 then e.ppsi ijk + e.dt * rpsi e i ijk else rpsi e i ijk)) npsi

/-- Line 2618. -/
def nUm (e : OuterIn K) (ijk : Nat) (_ _ : K) : K := -e.cPi ijk / (e.geo ijk).r

/-- Line 2795. -/
def nUmCP (_ : OuterIn K) (_ : Nat) (nUp nUpsic : K) : K := nUp - 2 * nUpsic

/-- Lines 2609-2651 and 2784-2825; the two functions differ only in `nUm`. -/
def restPoint (nUm : OuterIn K → Nat → K → K → K) (e : OuterIn K) (npsi : Nat → K) (ijk : Nat) (v : OuterVars K) : OuterVars K :=
  let g := e.geo ijk
  let nphic := g.along fun n => v.nphi n ijk
  let nUpsi := fun n => e.D npsi n ijk
  let nUpsic := g.along nUpsi
  let nUp := v.nPi ijk + nphic
  let nUm := nUm e ijk nUp nUpsic
  let nU0 := fun n => nUpsi n - nUpsic * g.c n
  let rPi := 1 / 2 * (nUp + nUm)
  let nphic := 1 / 2 * (nUp - nUm)
  let rphi := fun n => nphic * g.c n + nU0 n
  { v with
    nPi := aset v.nPi ijk (if e.dt ≠ 0 then e.pPi ijk + e.dt * rPi else rPi)
    nphi := fun n => aset (v.nphi n) ijk (if e.dt ≠ 0 then e.pphi n ijk + e.dt * rphi n else rphi n) }

/-- The loops of lines 2583-2652 and 2758-2826. -/
def restLoop (nUm : OuterIn K → Nat → K → K → K) (e : OuterIn K) (v : OuterVars K) : OuterVars K :=
  (plane1 e.d).foldl (fun w jk => restPoint nUm e v.npsi (e.d.idx (e.d.n1 - 1) jk.1 jk.2) w) v

/-- `set_psi_Pi_phi_boundary` (lines 2504-2654). -/
def boundary (e : OuterIn K) (v : OuterVars K) : OuterVars K :=
  restLoop nUm e { v with npsi := psiLoop rpsi e v.npsi }

/-- `set_psi_Pi_phi_boundary_CP` (lines 2659-2828). -/
def boundaryCP (e : OuterIn K) (v : OuterVars K) : OuterVars K :=
  restLoop nUmCP e { v with npsi := psiLoop rpsiCP e v.npsi }

end Outer

/-- What the functions of the second order version read at a point (lines 1330-1351, 892-910): the coordinates, the square root, the
inverse of the 4-metric by its number tt, tx, ty, tz, xx, xy, xz, yy, yz, zz, the contracted Christoffel symbols t, x, y, z, and
`dXdx`, `dXdy`, `dXdz`. -/
structure RayPt (K : Type) where
  sqrt : K → K
  x : K
  y : K
  z : K
  gup : Nat → K
  G : Nat → K
  dXd : Nat → K

namespace RayPt
variable [Field K] (g : RayPt K)

/-- Lines 929, 1372, 1551. -/
def r : K := g.sqrt (g.x * g.x + g.y * g.y + g.z * g.z)

/-- Lines 930, 1373, 1552. -/
def nx : K := g.x / g.r

/-- Lines 931, 1374, 1553. -/
def ny : K := g.y / g.r

/-- Lines 932, 1375, 1554. -/
def nz : K := g.z / g.r

/-- Lines 933, 1376, 1555. -/
def alpha2 : K := -1 / g.gup 0

/-- Lines 934, 1377, 1556. -/
def betan : K := g.alpha2 * (g.gup 1 * g.nx + g.gup 2 * g.ny + g.gup 3 * g.nz)

/-- Lines 935-936, 1378-1379, 1557-1558. -/
def gnn : K :=
  g.gup 4 * g.nx * g.nx + g.gup 7 * g.ny * g.ny + g.gup 9 * g.nz * g.nz +
    2 * (g.gup 5 * g.nx * g.ny + g.gup 6 * g.nx * g.nz + g.gup 8 * g.ny * g.nz)

/-- Lines 937, 1380, 1559. -/
def Gn : K := g.G 1 * g.nx + g.G 2 * g.ny + g.G 3 * g.nz

/-- Lines 940, 1383, 1562. -/
def gdn : K := (g.gup 4 + g.gup 7 + g.gup 9 - g.gnn) / g.r

/-- Lines 941, 1384, 1563. -/
def lambdap : K := g.betan + g.sqrt (g.betan * g.betan + g.alpha2 * g.gnn)

/-- Lines 942, 1385, 1564. -/
def ap : K := g.lambdap / (g.alpha2 * g.gnn)

/-- Lines 944, 1387, 1566; also `cm` (lines 1391, 1570). -/
def cp : K := 1 / 2 * (g.gdn - g.Gn) / g.gnn

/-- Lines 1388, 1567. -/
def lambdam : K := g.betan - g.sqrt (g.betan * g.betan + g.alpha2 * g.gnn)

/-- Lines 1389, 1568. -/
def am : K := g.lambdam / (g.alpha2 * g.gnn)

/-- Lines 1394, 1573. -/
def dXdr : K := g.dXd 0 * g.nx + g.dXd 1 * g.ny + g.dXd 2 * g.nz

/-- `set_psi_Pi_boundary` at one point (lines 945-948); `dPi` are the derivatives of Pi. -/
def rPi (Pi : K) (dPi : Nat → K) : K :=
  -(1 * (g.nx * dPi 0 + g.ny * dPi 1 + g.nz * dPi 2) + g.cp * Pi) / g.ap

/-- `set_psi_Pi_boundary` at one point (lines 950-954). -/
def setPi [DecidableEq K] (dt pPi cPi : K) (dPi : Nat → K) : K := if dt ≠ 0 then pPi + dt * g.rPi cPi dPi else g.rPi cPi dPi

/-- `nUp` from `nPi`, `npsi` and `npsiX` (lines 1396, 1402). -/
def Up (Pi psi psiX : K) : K := g.ap * Pi + 1 * (g.dXdr * psiX) + g.cp * psi

/-- `nUm` from `nPi`, `npsi` and `npsiX` (lines 1396, 1403). -/
def Um (Pi psi psiX : K) : K := g.am * Pi + 1 * (g.dXdr * psiX) + g.cp * psi

/-- Line 1581. -/
def PiFrom (Up Um : K) : K := (Up - Um) / (g.ap - g.am)

/-- Lines 1575, 1596-1598, where `nPi` already has its new value; `D1` is `box->D1[(i+1)*(i+1)-1]`. -/
def psiFrom (Um Pi psi psiX D1 : K) : K :=
  let npsir := g.dXdr * psiX
  let npsir_plus_cnpsi := Um - g.am * Pi
  let D00 := g.dXdr * D1
  (npsir_plus_cnpsi - (npsir - D00 * psi)) / (g.cp + D00)

end RayPt

/-- One line in direction 1 of a box: `npsi`, `nPi`, `nUp`, `nUm`. -/
structure WaveLine (K : Type) where
  psi : Nat → K
  Pi : Nat → K
  Up : Nat → K
  Um : Nat → K

namespace WaveLine
variable [Field K]

/-- `spec_Deriv1` in direction 1 with the matrix `D1` (see `Verif.Model.Lines`): the derivative at point `i` of the line. -/
def deriv (D1 : Nat → K) (n1 : Nat) (u : Nat → K) (i : Nat) : K :=
  ((List.range n1).map fun l => D1 (i * n1 + l) * u l).sum

/-- `nUp` and `nUm` at the two ends (lines 1354, 1360-1411), for a line of a box. -/
def setUpUm (g : Nat → RayPt K) (D1 : Nat → K) (n1 : Nat) (w : WaveLine K) : WaveLine K :=
  [0, n1 - 1].foldl (fun v i =>
    { v with
      Up := aset v.Up i ((g i).Up (v.Pi i) (v.psi i) (deriv D1 n1 w.psi i))
      Um := aset v.Um i ((g i).Um (v.Pi i) (v.psi i) (deriv D1 n1 w.psi i)) }) w

/-- The loop body of lines 1581-1598 at point `i`. -/
def recompute (g : Nat → RayPt K) (D1 : Nat → K) (psiX : Nat → K) (i : Nat) (w : WaveLine K) : WaveLine K :=
  let nPi := (g i).PiFrom (w.Up i) (w.Um i)
  { w with
    Pi := aset w.Pi i nPi
    psi := aset w.psi i ((g i).psiFrom (w.Um i) nPi (w.psi i) (psiX i) (D1 ((i + 1) * (i + 1) - 1))) }

/-- `compute_unew_from_Up_Um_onBoundary` on one line of box `b` (lines 1528-1608), for `n1 ≥ 2`. The derivative is computed before the
loop over the two ends (line 1528). -/
def computeUnew (nboxes b : Nat) (g : Nat → RayPt K) (D1 : Nat → K) (n1 : Nat) (w : WaveLine K) : WaveLine K :=
  let psiX := deriv D1 n1 w.psi
  [0, n1 - 1].foldl (fun w i =>
    if (b = 0 ∧ i = 0) ∨ (b = nboxes - 1 ∧ i = n1 - 1) then w else recompute g D1 psiX i w) w

/-- The penalty terms at an interface (lines 1439-1448): `lnUp` of the box inside and `nUm` of the box outside, with the characteristic
variables of `ucur`. -/
def penaltyUpUm (dt lnUp nUm lcUp cUp cUm lcUm : K) : K × K :=
  let tau := 1 / 2 / dt
  (lnUp - tau * (lcUp - cUp), nUm - tau * (cUm - lcUm))

/-- The penalty term on the outer boundary (lines 1470-1476). -/
def penaltyOuter (dt nUp cUp : K) : K := nUp - 1 / 2 / dt * (cUp - 0)

/-- The penalty terms on psi at an interface (lines 1629-1639): inside, outside. -/
def penaltyPsi (dt lnpsi npsi lcpsi cpsi : K) : K × K :=
  let tau := 1 / 10 / dt
  (lnpsi - tau * (lcpsi - cpsi), npsi - tau * (cpsi - lcpsi))

end WaveLine

end Sgrid
