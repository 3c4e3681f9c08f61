import Verif.Model.Lines

/-!
# Coefficients and interpolation in planes and along lines

src/utility/Spectral/spec_coeffs.c:367-583 and interpolate.c:133-290 and 319-359. As in `Verif.Model.Lines`
doubles are elements of a field and arrays are numbered. The index `p` of a plane is not negative.
The functions stop if a basis function is missing; here all of them exist.
-/

namespace Sgrid
variable {K : Type} [Field K]

/-- One loop of `forLines_alloc2Lines_selectloop`, `for(k=p*sel; k<n && (k==p || !sel); k++)`
(spec_coeffs.c:12-13): all values, or only `p` if the loop is selected. -/
def selLoop {σ : Type} (sel : Bool) (p n : Nat) (body : Nat → σ → σ) (s : σ) : σ :=
  upLoop (if sel then p else 0) (if sel then min n (p + 1) else n) body s

/-- `forLines_alloc2Lines_selectloop` (spec_coeffs.c:8-14): `sel = 1` fixes the outer index, `sel = 2` the
inner one. The buffers are made once. -/
def forLinesSel (d : Dims) (ax : Axis) (g : (Nat → K) × (Nat → K) × (Nat → K)) (sel : Int) (p : Nat)
    (body : Nat → Nat → LState K → LState K) (mem : Arrays K) : Arrays K :=
  (selLoop (sel == 1) p (d.outer ax) (fun k s => selLoop (sel == 2) p (d.inner ax) (fun j s => body j k s) s)
    ⟨mem, g.1, g.2.1, g.2.2⟩).mem

/-- `sel` (spec_coeffs.c:388-396 and 498-506). -/
def planeSel (direc N : Int) : Int :=
  if direc + N = 5 then 1 else if direc + N = 3 then 2 else if N = 3 then 1 else 2

/-- `spec_analysis1_inplaneN` (spec_coeffs.c:369-475). -/
def specAnalysis1InPlane (g : (Nat → K) × (Nat → K) × (Nat → K)) (b : LBox K) (direc N : Int) (p u c : Nat)
    (mem : Arrays K) : Res (Arrays K) :=
  if N > 3 ∨ N < 1 then .abort
  else if direc = N then .abort
  else (Axis.of direc).bind fun ax =>
    if b.fft ax then .ok (forLinesSel b.d ax g (planeSel direc N) p (lineFun b.d ax (b.coeffs ax) u c) mem)
    else .ok (forLinesSel b.d ax g (planeSel direc N) p (lineMat b.d ax (b.Mcoeffs ax) u c) mem)

/-- `spec_synthesis1_inplaneN` (spec_coeffs.c:479-583). -/
def specSynthesis1InPlane (g : (Nat → K) × (Nat → K) × (Nat → K)) (b : LBox K) (direc N : Int) (p u c : Nat)
    (mem : Arrays K) : Res (Arrays K) :=
  if N > 3 ∨ N < 1 then .abort
  else if direc = N then .abort
  else (Axis.of direc).bind fun ax =>
    if b.fft ax then .ok (forLinesSel b.d ax g (planeSel direc N) p (lineFun b.d ax (b.eval ax) c u) mem)
    else .ok (forLinesSel b.d ax g (planeSel direc N) p (lineMat b.d ax (b.Meval ax) c u) mem)

/-- `spec_Coeffs_inplaneN` (interpolate.c:134-154). -/
def specCoeffsInPlane (g : (Nat → K) × (Nat → K) × (Nat → K)) (b : LBox K) (N : Int) (p u c : Nat)
    (mem : Arrays K) : Res (Arrays K) :=
  if N = 3 then (specAnalysis1InPlane g b 1 N p u c mem).bind fun mem => specAnalysis1InPlane g b 2 N p c c mem
  else if N = 2 then
    (specAnalysis1InPlane g b 1 N p u c mem).bind fun mem => specAnalysis1InPlane g b 3 N p c c mem
  else if N = 1 then
    (specAnalysis1InPlane g b 2 N p u c mem).bind fun mem => specAnalysis1InPlane g b 3 N p c c mem
  else .abort

/-- `spec_Eval_inplaneN` (interpolate.c:157-177). -/
def specEvalInPlane (g : (Nat → K) × (Nat → K) × (Nat → K)) (b : LBox K) (N : Int) (p u c : Nat)
    (mem : Arrays K) : Res (Arrays K) :=
  if N = 3 then (specSynthesis1InPlane g b 1 N p u c mem).bind fun mem => specSynthesis1InPlane g b 2 N p u u mem
  else if N = 2 then
    (specSynthesis1InPlane g b 1 N p u c mem).bind fun mem => specSynthesis1InPlane g b 3 N p u u mem
  else if N = 1 then
    (specSynthesis1InPlane g b 2 N p u c mem).bind fun mem => specSynthesis1InPlane g b 3 N p u u mem
  else .abort

/-- `spec_interpolate_inplaneN` (interpolate.c:182-243) with `forplane1/2/3`
(sgrid_MemoryMan_loops.h:31-41). `basis ax k X` is basis function number `k` of the direction at `X`. -/
def specInterpolateInPlane (d : Dims) (basis : Axis → Nat → K → K) (N : Int) (p : Nat) (c : Nat → K)
    (X1 X2 : K) : Res K :=
  if N = 3 then .ok (upLoop 0 d.n2 (fun j sum => upLoop 0 d.n1 (fun i sum =>
    sum + c (d.idx i j p) * basis .one i X1 * basis .two j X2) sum) 0)
  else if N = 2 then .ok (upLoop 0 d.n3 (fun k sum => upLoop 0 d.n1 (fun i sum =>
    sum + c (d.idx i p k) * basis .one i X1 * basis .three k X2) sum) 0)
  else if N = 1 then .ok (upLoop 0 d.n3 (fun k sum => upLoop 0 d.n2 (fun j sum =>
    sum + c (d.idx p j k) * basis .two j X1 * basis .three k X2) sum) 0)
  else .abort

/-- `spec_interpolate_in_dir_at_i1_i2` (interpolate.c:250-290). -/
def specInterpolateInDir (d : Dims) (basis : Axis → Nat → K → K) (dir : Int) (i1 i2 : Nat) (c : Nat → K)
    (X3 : K) : Res K :=
  if dir = 1 then .ok (downLoop 0 d.n1 (fun i sum => sum + c (d.idx i i1 i2) * basis .one i X3) 0)
  else if dir = 2 then .ok (downLoop 0 d.n2 (fun j sum => sum + c (d.idx i1 j i2) * basis .two j X3) 0)
  else if dir = 3 then .ok (downLoop 0 d.n3 (fun k sum => sum + c (d.idx i1 i2 k) * basis .three k X3) 0)
  else .abort

/-- The parts of a box for `spec_interpolate_Var_from_grid2_to_grid1`: `on` says whether the variable has
memory in this box. -/
structure IBox (K : Type) where
  lb : LBox K
  basis : Axis → Nat → K → K
  on : Bool

/-- `spec_interpolate_Var_from_grid2_to_grid1` (interpolate.c:321-359): `bs1`, `bs2` are the active boxes of
the two grids, `m1`, `m2` the variables in their boxes, `iX`, `iY`, `iZ` the coordinates. The two grids are
different. -/
def interpolateVar (g : Nat → Nat → (Nat → K) × (Nat → K) × (Nat → K)) (bs1 bs2 : List Nat)
    (box1 box2 : Nat → IBox K) (iX iY iZ vind cind : Nat) (m1 m2 : Nat → Arrays K) :
    (Nat → Arrays K) × (Nat → Arrays K) :=
  let m2 := bs2.foldl (fun m b =>
    if (box2 b).on then aset m b (specCoeffs (g b) (box2 b).lb vind cind (m b)) else m) m2
  let m1 := bs1.foldl (fun m b =>
    if (box1 b).on then
      aset m b (upLoop 0 ((box1 b).lb.d.n1 * (box1 b).lb.d.n2 * (box1 b).lb.d.n3) (fun i mb =>
        aset mb vind (aset (mb vind) i (specInterpolate (box2 b).lb.d (m2 b cind)
          (fun k => (box2 b).basis .one k (mb iX i)) (fun k => (box2 b).basis .two k (mb iY i))
          (fun k => (box2 b).basis .three k (mb iZ i))))) (m b))
    else m) m1
  (m1, m2)

end Sgrid
