import Mathlib.Analysis.SpecialFunctions.Trigonometric.Inverse
import Verif.Model.Lines

/-!
# Filters of evolved variables

src/physics/BSSN/BSSN.c:285-590, src/physics/ScalarOnKerr/ScalarOnKerr.c:1757-1848 (the same loops) and
src/utility/Coordinates/coordFilters.c. The memory of a box is `Arrays`, `t` is the index of the variable `temp1`.
Parameters are arguments. `Naive_YlmFilter_lmshift` is not modelled here.
-/

namespace Sgrid

section generic
variable {K : Type} [Field K] (g : Nat → (Nat → K) × (Nat → K) × (Nat → K))

/-- `forallboxes(grid,b)` and `for(vi=0; vi<unew->n; vi++)` around the work on one variable (e.g. BSSN.c:428-452).
`on b`: box `b` is active. -/
def filterGrid (nboxes : Nat) (on : Nat → Bool) (work : Nat → Nat → Arrays K → Arrays K) (vars : List Nat)
    (m : Nat → Arrays K) : Nat → Arrays K :=
  (List.range nboxes).foldl
    (fun m b => if on b then aset m b (vars.foldl (fun mb v => work b v mb) (m b)) else m) m

/-- `filter_VarList` for one variable (BSSN.c:300-315). -/
def filterOld (b : LBox K) (v : Nat) (mem : Arrays K) : Arrays K :=
  specFilter1 b .three v (specFilter1 b .two v (specFilter1 b .one v mem))

/-- Removal of the coefficients with `i>=icut` (BSSN.c:444-447 and 533-536). -/
def cutX (d : Dims) (icut : Nat) (c : Nat → K) : Nat → K := zeroBlock d 0 d.n3 0 d.n2 icut d.n1 c

/-- The work on one variable in `filter_with2o3rule_inX` (BSSN.c:437-451; ScalarOnKerr.c:1832-1846). -/
def filter23X (b : LBox K) (t v : Nat) (mem : Arrays K) : Arrays K :=
  let mem := specAnalysis1 g b .one v t mem
  let mem := aset mem t (cutX b.d (b.d.n1 / 3 * 2) (mem t))
  specSynthesis1 g b .one v t mem

/-- The work on one variable in `filter_with2o3rule_minus1_inX` (BSSN.c:522-540). `icut` is an `int`. -/
def filter23Xminus1 (b : LBox K) (t v : Nat) (mem : Arrays K) : Arrays K :=
  let mem := specAnalysis1 g b .one v t mem
  let icut : Int := (b.d.n1 / 3 * 2 : Nat) - 1
  let icut := if icut < 0 then 0 else icut
  let mem := aset mem t (cutX b.d icut.toNat (mem t))
  specSynthesis1 g b .one v t mem

/-- The work on one variable in `filter_with2o3rule_inXYZ` (BSSN.c:473-500). -/
def filter23XYZ (b : LBox K) (t v : Nat) (mem : Arrays K) : Arrays K :=
  let d := b.d
  let mem := specCoeffs g b v t mem
  let mem := aset mem t (zeroBlock d 0 d.n3 0 d.n2 (d.n1 / 3 * 2) d.n1 (mem t))
  let mem := aset mem t (zeroBlock d 0 d.n3 (d.n2 / 3 * 2) d.n2 0 (d.n1 / 3 * 2 + 1) (mem t))
  let mem := aset mem t (zeroBlock d (d.n3 / 3 * 2) d.n3 0 (d.n2 / 3 * 2 + 1) 0 (d.n1 / 3 * 2 + 1) (mem t))
  specEval g b v t mem

/-- `forallijk(i,j,k)` with `if(kill i j k) temp1[Index(i,j,k)]=0.0` (BSSN.c:399-408). -/
def killLoop (d : Dims) (kill : Nat → Nat → Nat → Prop) [∀ i j k, Decidable (kill i j k)] (c : Nat → K) : Nat → K :=
  upLoop 0 d.n3 (fun k c => upLoop 0 d.n2 (fun j c => upLoop 0 d.n1 (fun i c =>
    if kill i j k then aset c (d.idx i j k) 0 else c) c) c) c

/-- The work on one variable in `BSSN_filter_unew` (BSSN.c:393-410; ScalarOnKerr.c:1786-1804). -/
def filterKill (b : LBox K) (kill : Nat → Nat → Nat → Prop) [∀ i j k, Decidable (kill i j k)] (t v : Nat)
    (mem : Arrays K) : Arrays K :=
  let mem := specCoeffs g b v t mem
  let mem := aset mem t (killLoop b.d kill (mem t))
  specEval g b v t mem

/-- The loops over `j`, `k`, `i` in the filters for spherical coordinates (coordFilters.c:57-72 and 102-121); `ks j`
is the first `k` that is removed. -/
def cutPhi (d : Dims) (ks : Nat → Nat) (c : Nat → K) : Nat → K :=
  upLoop 0 d.n2 (fun j c => if ks j ≥ d.n3 then c else
    upLoop (ks j) d.n3 (fun k c => upLoop 0 d.n1 (fun i c => aset c (d.idx i j k) 0) c) c) c

/-- The work on one variable in the filters for spherical coordinates (coordFilters.c:49-76, 94-125); `ks` reads the
coordinates in the memory of the box. -/
def filterPhi (b : LBox K) (ks : Arrays K → Nat → Nat) (t v : Nat) (mem : Arrays K) : Arrays K :=
  let mem := specAnalysis1 g b .three v t mem
  let mem := aset mem t (cutPhi b.d (ks mem) (mem t))
  specSynthesis1 g b .three v t mem

end generic

/-- `ks` (coordFilters.c:63-67 and 112-116): `ms = n3/2; ms *= fabs(s); ms++; ks = 2*ms-1`. -/
noncomputable def ksOf (n3 : Nat) (s : ℝ) : Nat :=
  let ms := ⌊((n3 / 2 : Nat) : ℝ) * |s|⌋₊
  let ms := ms + 1
  2 * ms - 1

/-- `ks` for SphericalDF (coordFilters.c:59-67); `iY` is the variable `Y`. -/
noncomputable def ksDF (d : Dims) (iY : Nat) (mem : Arrays ℝ) (j : Nat) : Nat :=
  let theta := mem iY (d.idx 0 j 0) + Real.pi / (((1 + d.n2 % 2) * d.n2 : Nat) : ℝ)
  ksOf d.n3 (Real.sin theta)

/-- `ks` for Spherical, Spherical2 and Spherical3 (coordFilters.c:104-116). -/
noncomputable def ksSph (d : Dims) (ix iy iz : Nat) (mem : Arrays ℝ) (j : Nat) : Nat :=
  let p := d.idx 0 j 0
  let x := mem ix p
  let y := mem iy p
  let z := mem iz p
  let r := Real.sqrt (x * x + y * y + z * z)
  ksOf d.n3 (Real.sin (Real.arccos (z / r)))

/-- Kinds of coordinates in `coordinateDependentFilter`: by `Getv(str, ...)` (coordFilters.c:21-27). -/
inductive SphKind
  | df
  | sph
  | other

/-- Indices of the variables `Y`, `x`, `y`, `z`, `temp1`. -/
structure FiltIds where
  (Y x y z t : Nat)

variable (g : Nat → (Nat → ℝ) × (Nat → ℝ) × (Nat → ℝ))

/-- `coordinateDependentFilter` (coordFilters.c:11-29): here the loop over the variables is inside of the functions
for one box. -/
noncomputable def coordFilter (nboxes : Nat) (on : Nat → Bool) (box : Nat → LBox ℝ) (kind : Nat → SphKind)
    (id : FiltIds) (vars : List Nat) (m : Nat → Arrays ℝ) : Nat → Arrays ℝ :=
  filterGrid nboxes on (fun b v mb => match kind b with
    | .df => filterPhi g (box b) (ksDF (box b).d id.Y) id.t v mb
    | .sph => filterPhi g (box b) (ksSph (box b).d id.x id.y id.z) id.t v mb
    | .other => mb) vars m

/-- Conversion of a double to `int`. -/
noncomputable def toInt (x : ℝ) : Int := if x < 0 then -⌊-x⌋ else ⌊x⌋

/-- `jf` and `kf` (BSSN.c:386-390): `jf=0.5*n2frac*n2; jf*=2; jf+=shift2-2`. -/
noncomputable def lastMode (frac : ℝ) (n : Nat) (shift : Int) : Int := toInt (0.5 * frac * n) * 2 + (shift - 2)

/-- The condition for the removal (BSSN.c:401-407). -/
noncomputable def killYZ (ellipse : Bool) (jf kf : Int) (_i j k : Nat) : Prop :=
  let tj : ℝ := (2 * ((j + 1) / 2) : Nat)
  let tk : ℝ := (2 * ((k + 1) / 2) : Nat)
  if ellipse then 1 < tj / jf * (tj / jf) + tk / kf * (tk / kf) else kf < k ∨ jf < j

/-- Parameters of `BSSN_filter_unew` (BSSN.c:369-373). -/
structure YZPars where
  n2frac : ℝ
  n3frac : ℝ
  shift2 : Int
  shift3 : Int
  ellipse : Bool

open Classical in
/-- `BSSN_filter_unew` (BSSN.c:365-413) and `filter_unew` (ScalarOnKerr.c:1757-1806). -/
noncomputable def filterUnew (nboxes : Nat) (on : Nat → Bool) (box : Nat → LBox ℝ) (kind : Nat → SphKind)
    (id : FiltIds) (q : YZPars) (vars : List Nat) (m : Nat → Arrays ℝ) : Nat → Arrays ℝ :=
  let m := coordFilter g nboxes on box kind id vars m
  filterGrid nboxes on (fun b v mb =>
    let jf := lastMode q.n2frac (box b).d.n2 q.shift2
    let kf := lastMode q.n3frac (box b).d.n3 q.shift3
    filterKill g (box b) (killYZ q.ellipse jf kf) id.t v mb) vars m

/-- The values of `BSSN_filter_type` (BSSN.c:549-588). -/
structure FiltSel where
  (none old coord simple naive lmshift x23 xyz23 x23m1 : Bool)

/-- `BSSN_ChooseAndApplyFilters` (BSSN.c:545-590); `ylm` is `Naive_YlmFilter_lmshift`, `bssnVars` is the list
`BSSNvars`. `vlpush` adds all components of a variable; `comps i` are these for `vl->index[i]`. -/
noncomputable def chooseFilters (nboxes : Nat) (on : Nat → Bool) (box : Nat → LBox ℝ) (kind : Nat → SphKind)
    (id : FiltIds) (q : YZPars) (ylm : List Nat → Int → (Nat → Arrays ℝ) → Nat → Arrays ℝ) (comps : Nat → List Nat)
    (bssnVars : List Nat) (sel : FiltSel) (vl : List Nat) (m : Nat → Arrays ℝ) : Nat → Arrays ℝ :=
  if sel.none then m else
  let m := if sel.old then filterGrid nboxes on (fun b v => filterOld (box b) v) vl m else m
  let m := if sel.coord then coordFilter g nboxes on box kind id vl m else m
  let m := if sel.simple then filterUnew g nboxes on box kind id q bssnVars m else m
  let m := if sel.naive then ylm vl 0 m else m
  let m := if sel.lmshift then
      let m := ylm (comps 6 ++ comps 13 ++ comps 17 ++ comps 24) (-2) m
      let m := ylm (comps 14 ++ comps 18 ++ comps 21) (-1) m
      ylm (comps 0 ++ comps 7) 0 m
    else m
  let m := if sel.x23 then filterGrid nboxes on (fun b v => filter23X g (box b) id.t v) vl m else m
  let m := if sel.xyz23 then filterGrid nboxes on (fun b v => filter23XYZ g (box b) id.t v) vl m else m
  if sel.x23m1 then filterGrid nboxes on (fun b v => filter23Xminus1 g (box b) id.t v) vl m else m

end Sgrid
