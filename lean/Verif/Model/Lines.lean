import Verif.Model.Matrices

/-!
# Operations along the grid lines of a box

src/utility/Spectral/derivs.c, spec_coeffs.c, filters.c, interpolate.c and integrals.c. Doubles are
elements of a field. All arrays of a box are in one memory and functions get the numbers of the
arrays they work on, so that arguments may be the same array. Line buffers come from `malloc` and
have arbitrary contents at first. The parallel loops run in the order of the loop variables.
Running out of memory is left out.
-/

namespace Sgrid
variable {K : Type} [Field K]

/-- The direction `direc` of a line; other values than 1, 2, 3 stop the program (e.g.
derivs.c:105-106). -/
inductive Axis
  | one | two | three
  deriving DecidableEq

/-- The argument `direc`. -/
def Axis.of (direc : Int) : Res Axis :=
  if direc = 1 then .ok .one else if direc = 2 then .ok .two else if direc = 3 then .ok .three else .abort

/-- The numbers of points `n1`, `n2`, `n3` of a box. -/
structure Dims where
  (n1 n2 n3 : Nat)

/-- `Index(i,j,k)` (src/main/main/sgrid_main.h:16-17). -/
def Dims.idx (d : Dims) (i j k : Nat) : Nat := i + d.n1 * (j + d.n2 * k)

/-- Number of points on a line of this direction. -/
def Dims.len (d : Dims) : Axis → Nat
  | .one => d.n1
  | .two => d.n2
  | .three => d.n3

/-- Upper limit of the inner loop over lines (e.g. derivs.c:761, 792, 825). -/
def Dims.inner (d : Dims) : Axis → Nat
  | .one => d.n2
  | .two => d.n1
  | .three => d.n1

/-- Upper limit of the outer loop over lines. -/
def Dims.outer (d : Dims) : Axis → Nat
  | .one => d.n3
  | .two => d.n3
  | .three => d.n2

/-- Place of entry `i` of the line `i1`,`i2` as written in `get_memline` and `put_memline`
(derivs.c:88-90, 94-96, 100-103 and 117-119, 123-125, 129-132). -/
def Dims.place (d : Dims) (ax : Axis) (i1 i2 i : Nat) : Nat :=
  match ax with
  | .one => d.idx 0 i1 i2 + i
  | .two => d.idx i1 0 i2 + i * d.n1
  | .three => d.idx i1 i2 0 + i * (d.n1 * d.n2)

/-- `get_memline` (derivs.c:82-107). -/
def getMemline (d : Dims) (ax : Axis) (u line : Nat → K) (i1 i2 : Nat) : Nat → K :=
  upLoop 0 (d.len ax) (fun i line => aset line i (u (d.place ax i1 i2 i))) line

/-- `put_memline` (derivs.c:111-136). -/
def putMemline (d : Dims) (ax : Axis) (u line : Nat → K) (i1 i2 : Nat) : Nat → K :=
  upLoop 0 (d.len ax) (fun i u => aset u (d.place ax i1 i2 i) (line i)) u

/-- The arrays of a box. -/
abbrev Arrays (K : Type) := Nat → Nat → K

/-- The arrays and the line buffers `uline`, `duline` (`cline`, `ufline`), `dduline`. -/
structure LState (K : Type) where
  mem : Arrays K
  ul : Nat → K
  dul : Nat → K
  ddul : Nat → K

/-- `get_memline(u, uline, ...)` for the array `a`. -/
def LState.get (d : Dims) (ax : Axis) (i1 i2 a : Nat) (s : LState K) : LState K :=
  { s with ul := getMemline d ax (s.mem a) s.ul i1 i2 }

/-- `put_memline(u, line, ...)` for the array `a`. -/
def LState.put (d : Dims) (ax : Axis) (i1 i2 a : Nat) (line : Nat → K) (s : LState K) : LState K :=
  { s with mem := aset s.mem a (putMemline d ax (s.mem a) line i1 i2) }

/-- `forLines_alloc2Lines` and `forLines_alloc3Lines` (OpenMPsave_loops.h:26-35, 38-49): new buffers,
with contents `g k`, for every pass of the outer loop. -/
def forLinesAlloc (d : Dims) (ax : Axis) (g : Nat → (Nat → K) × (Nat → K) × (Nat → K))
    (body : Nat → Nat → LState K → LState K) (mem : Arrays K) : Arrays K :=
  upLoop 0 (d.outer ax) (fun k mem =>
    (upLoop 0 (d.inner ax) (fun j s => body j k s) ⟨mem, (g k).1, (g k).2.1, (g k).2.2⟩).mem) mem

/-- The two loops over lines with buffers made before the loops (derivs.c:310-349, spec_coeffs.c:101-131,
filters.c:93-122). -/
def forLinesStatic (d : Dims) (ax : Axis) (g : (Nat → K) × (Nat → K) × (Nat → K))
    (body : Nat → Nat → LState K → LState K) (mem : Arrays K) : Arrays K :=
  (upLoop 0 (d.outer ax) (fun k s => upLoop 0 (d.inner ax) (fun j s => body j k s) s)
    ⟨mem, g.1, g.2.1, g.2.2⟩).mem

/-- The parts of `tBox` used here: sizes, function pointers, matrices and `TransformType` for every
direction. The interval is part of `deriv`. -/
structure LBox (K : Type) where
  d : Dims
  coeffs : Axis → LineFun K
  deriv : Axis → LineFun K
  eval : Axis → LineFun K
  fft : Axis → Bool
  D : Axis → Nat → K
  DD : Axis → Nat → K
  F : Axis → Nat → K
  Mcoeffs : Axis → Nat → K
  Meval : Axis → Nat → K

variable (g : Nat → (Nat → K) × (Nat → K) × (Nat → K))

/-- One line with a matrix: read, multiply, write (e.g. derivs.c:805-807). -/
def lineMat (d : Dims) (ax : Axis) (M : Nat → K) (src dst : Nat) (i1 i2 : Nat) (s : LState K) :
    LState K :=
  let s := s.get d ax i1 i2 src
  let s := { s with dul := matTimesVec M s.ul s.dul (d.len ax) }
  s.put d ax i1 i2 dst s.dul

/-- `matrix_times_vector(M, u+Index(0,j,k), du+Index(0,j,k), n1)` (derivs.c:782; matrices.c:36-49),
without buffers. -/
def lineDirect (d : Dims) (M : Nat → K) (src dst : Nat) (j k : Nat) (s : LState K) : LState K :=
  { s with mem := upLoop 0 d.n1 (fun i mem =>
      aset mem dst (aset (mem dst) (d.idx 0 j k + i)
        (upLoop 0 d.n1 (fun l sum => sum + M (d.n1 * i + l) * mem src (d.idx 0 j k + l)) 0))) s.mem }

/-- One line with a routine for coefficients (spec_coeffs.c:213-215). -/
def lineFun (d : Dims) (ax : Axis) (f : LineFun K) (src dst : Nat) (i1 i2 : Nat) (s : LState K) :
    LState K :=
  let s := s.get d ax i1 i2 src
  let s := { s with dul := f s.dul s.ul (d.len ax - 1) }
  s.put d ax i1 i2 dst s.dul

/-- `spec_analysis1` (spec_coeffs.c:190-275). -/
def specAnalysis1 (b : LBox K) (ax : Axis) (u c : Nat) (mem : Arrays K) : Arrays K :=
  if b.fft ax then forLinesAlloc b.d ax g (lineFun b.d ax (b.coeffs ax) u c) mem
  else forLinesAlloc b.d ax g (lineMat b.d ax (b.Mcoeffs ax) u c) mem

/-- `spec_synthesis1` (spec_coeffs.c:279-364). Here `cline` is read and `uline` written; the buffers are
named the other way around. -/
def specSynthesis1 (b : LBox K) (ax : Axis) (u c : Nat) (mem : Arrays K) : Arrays K :=
  if b.fft ax then forLinesAlloc b.d ax g (lineFun b.d ax (b.eval ax) c u) mem
  else forLinesAlloc b.d ax g (lineMat b.d ax (b.Meval ax) c u) mem

/-- `spec_analysis1_diffmatrix` and `spec_synthesis1_diffmatrix` (spec_coeffs.c:84-132 and 136-184),
which differ in names only. -/
def specMatrix1 (d : Dims) (gs : (Nat → K) × (Nat → K) × (Nat → K)) (ax : Axis) (M : Nat → K)
    (src dst : Nat) (mem : Arrays K) : Arrays K :=
  forLinesStatic d ax gs (lineMat d ax M src dst) mem

/-- Body for the first derivative with transforms (derivs.c:763-767). -/
def lineDeriv (b : LBox K) (ax : Axis) (src dst : Nat) (i1 i2 : Nat) (s : LState K) : LState K :=
  let n := b.d.len ax - 1
  let s := s.get b.d ax i1 i2 src
  let s := { s with dul := b.coeffs ax s.dul s.ul n }
  let s := { s with ul := b.deriv ax s.ul s.dul n }
  let s := { s with dul := b.eval ax s.dul s.ul n }
  s.put b.d ax i1 i2 dst s.dul

/-- Body for the second derivative with transforms (derivs.c:1314-1319). -/
def lineDeriv2 (b : LBox K) (ax : Axis) (src dst : Nat) (i1 i2 : Nat) (s : LState K) : LState K :=
  let n := b.d.len ax - 1
  let s := s.get b.d ax i1 i2 src
  let s := { s with dul := b.coeffs ax s.dul s.ul n }
  let s := { s with ul := b.deriv ax s.ul s.dul n }
  let s := { s with dul := b.deriv ax s.dul s.ul n }
  let s := { s with ul := b.eval ax s.ul s.dul n }
  s.put b.d ax i1 i2 dst s.ul

/-- The loop for a matrix in one direction: direction 1 works on the arrays, the others with buffers. -/
def lineMatD (d : Dims) (ax : Axis) (M : Nat → K) (src dst : Nat) : Nat → Nat → LState K → LState K :=
  if ax = .one then lineDirect d M src dst else lineMat d ax M src dst

/-- `spec_Deriv1` (derivs.c:746-840). -/
def specDeriv1 (b : LBox K) (ax : Axis) (u du : Nat) (mem : Arrays K) : Arrays K :=
  if b.fft ax then forLinesAlloc b.d ax g (lineDeriv b ax u du) mem
  else forLinesAlloc b.d ax g (lineMatD b.d ax (b.D ax) u du) mem

/-- `spec_Deriv2` (derivs.c:1298-1392). -/
def specDeriv2 (b : LBox K) (ax : Axis) (u du : Nat) (mem : Arrays K) : Arrays K :=
  if b.fft ax then forLinesAlloc b.d ax g (lineDeriv2 b ax u du) mem
  else forLinesAlloc b.d ax g (lineMatD b.d ax (b.DD ax) u du) mem

/-- `spec_Deriv1_diffmatrix` and `spec_Deriv2_diffmatrix` (derivs.c:293-350 and 678-735) with
`M = D` or `M = DD`. -/
def specDerivMatrix (d : Dims) (gs : (Nat → K) × (Nat → K) × (Nat → K)) (ax : Axis) (M : Nat → K)
    (u du : Nat) (mem : Arrays K) : Arrays K :=
  forLinesStatic d ax gs (lineMatD d ax M u du) mem

/-- `spec_filter1` (filters.c:76-128): in place, buffers from `calloc`. -/
def specFilter1 (b : LBox K) (ax : Axis) (u : Nat) (mem : Arrays K) : Arrays K :=
  forLinesStatic b.d ax (fun _ => 0, fun _ => 0, fun _ => 0) (lineMat b.d ax (b.F ax) u u) mem

/-- `spec_Coeffs` (interpolate.c:10-16). -/
def specCoeffs (b : LBox K) (u c : Nat) (mem : Arrays K) : Arrays K :=
  let mem := specAnalysis1 g b .one u c mem
  let mem := specAnalysis1 g b .two c c mem
  specAnalysis1 g b .three c c mem

/-- `spec_Eval` (interpolate.c:20-26). -/
def specEval (b : LBox K) (u c : Nat) (mem : Arrays K) : Arrays K :=
  let mem := specSynthesis1 g b .one u c mem
  let mem := specSynthesis1 g b .two u u mem
  specSynthesis1 g b .three u u mem

/-- Three nested loops `for k in [k0,k1), j in [j0,j1), i in [i0,i1)` that set `vc[Index(i,j,k)]=0`
(filters.c:149-152 and others). -/
def zeroBlock (d : Dims) (k0 k1 j0 j1 i0 i1 : Nat) (c : Nat → K) : Nat → K :=
  upLoop k0 k1 (fun k c => upLoop j0 j1 (fun j c => upLoop i0 i1 (fun i c =>
    aset c (d.idx i j k) 0) c) c) c

/-- `spec_filter3d_inbox` (filters.c:134-171). -/
def specFilter3d (b : LBox K) (var vc nf1 nf2 nf3 : Nat) (mem : Arrays K) : Arrays K :=
  let d := b.d
  let mem := specAnalysis1 g b .one var vc mem
  let mem := specAnalysis1 g b .two vc vc mem
  let mem := specAnalysis1 g b .three vc vc mem
  let mem := aset mem vc (zeroBlock d nf3 d.n3 0 d.n2 0 d.n1 (mem vc))
  let mem := aset mem vc (zeroBlock d 0 (min nf3 d.n3) nf2 d.n2 0 d.n1 (mem vc))
  let mem := aset mem vc (zeroBlock d 0 (min nf3 d.n3) 0 (min nf2 d.n2) nf1 d.n1 (mem vc))
  let mem := specSynthesis1 g b .three var vc mem
  let mem := specSynthesis1 g b .two var var mem
  specSynthesis1 g b .one var var mem

/-- The sum in `spec_interpolate` (interpolate.c:117-124) in the order of a run with one thread;
`B1`, `B2`, `B3` are the basis functions at the point (interpolate.c:106-108). -/
def specInterpolate (d : Dims) (c B1 B2 B3 : Nat → K) : K :=
  downLoop 0 d.n3 (fun k sum => downLoop 0 d.n2 (fun j sum => downLoop 0 d.n1 (fun i sum =>
    sum + c (d.idx i j k) * B1 i * B2 j * B3 k) sum) sum) 0

/-- Numbers of the arrays for `u` and its derivatives. -/
structure DerivIds where
  (u u1 u2 u3 u11 u12 u13 u22 u23 u33 : Nat)

/-- Work on one line in `spec_allDerivs`: first and second derivative of one array, or first derivative
only. -/
inductive DStep
  | both (src d1 d2 : Nat)
  | one (src dst : Nat)

/-- One step on one line with the matrices (derivs.c:936-944 and 898-900); in direction 1 without buffers
(derivs.c:888-889). -/
def stepMat (d : Dims) (ax : Axis) (D DD : Nat → K) (i1 i2 : Nat) (st : DStep) (s : LState K) :
    LState K :=
  match ax, st with
  | .one, .both src d1 d2 => lineDirect d DD src d2 i1 i2 (lineDirect d D src d1 i1 i2 s)
  | .one, .one src dst => lineDirect d D src dst i1 i2 s
  | ax, .both src d1 d2 =>
    let s := s.get d ax i1 i2 src
    let s := { s with dul := matTimesVec D s.ul s.dul (d.len ax) }
    let s := { s with ddul := matTimesVec DD s.ul s.ddul (d.len ax) }
    let s := s.put d ax i1 i2 d1 s.dul
    s.put d ax i1 i2 d2 s.ddul
  | ax, .one src dst => lineMat d ax D src dst i1 i2 s

/-- One step on one line with transforms (derivs.c:866-874 and 913-917). -/
def stepFft (b : LBox K) (ax : Axis) (i1 i2 : Nat) (st : DStep) (s : LState K) : LState K :=
  let n := b.d.len ax - 1
  match st with
  | .both src d1 d2 =>
    let s := s.get b.d ax i1 i2 src
    let s := { s with dul := b.coeffs ax s.dul s.ul n }
    let s := { s with ul := b.deriv ax s.ul s.dul n }
    let s := { s with dul := b.eval ax s.dul s.ul n }
    let s := s.put b.d ax i1 i2 d1 s.dul
    let s := { s with dul := b.deriv ax s.dul s.ul n }
    let s := { s with ddul := b.eval ax s.ddul s.dul n }
    s.put b.d ax i1 i2 d2 s.ddul
  | .one src dst => lineDeriv b ax src dst i1 i2 s

/-- The orders of `Spectral_second_deriv_order` (derivs.c:856-1290 and 383-662): the loops with their
steps. -/
def derivPlan (a : DerivIds) (order : Int) : Res (List (Axis × List DStep)) :=
  if order = 123 then .ok
    [(.one, [.both a.u a.u1 a.u11]),
     (.two, [.both a.u a.u2 a.u22, .one a.u1 a.u12]),
     (.three, [.both a.u a.u3 a.u33, .one a.u1 a.u13, .one a.u2 a.u23])]
  else if order = 132 then .ok
    [(.one, [.both a.u a.u1 a.u11]),
     (.three, [.both a.u a.u3 a.u33, .one a.u1 a.u13]),
     (.two, [.both a.u a.u2 a.u22, .one a.u1 a.u12, .one a.u3 a.u23])]
  else if order = 213 then .ok
    [(.two, [.both a.u a.u2 a.u22]),
     (.one, [.both a.u a.u1 a.u11, .one a.u2 a.u12]),
     (.three, [.both a.u a.u3 a.u33, .one a.u1 a.u13, .one a.u2 a.u23])]
  else if order = 231 then .ok
    [(.two, [.both a.u a.u2 a.u22]),
     (.three, [.both a.u a.u3 a.u33, .one a.u2 a.u23]),
     (.one, [.both a.u a.u1 a.u11, .one a.u2 a.u12, .one a.u3 a.u13])]
  else if order = 312 then .ok
    [(.three, [.both a.u a.u3 a.u33]),
     (.one, [.both a.u a.u1 a.u11, .one a.u3 a.u13]),
     (.two, [.both a.u a.u2 a.u22, .one a.u1 a.u12, .one a.u3 a.u23])]
  else if order = 321 then .ok
    [(.three, [.both a.u a.u3 a.u33]),
     (.two, [.both a.u a.u2 a.u22, .one a.u3 a.u23]),
     (.one, [.both a.u a.u1 a.u11, .one a.u2 a.u12, .one a.u3 a.u13])]
  else .abort

/-- One loop over lines of `spec_allDerivs`. With transforms only the order 123 is implemented. -/
def derivPass (b : LBox K) (order : Int) (mem : Arrays K) (p : Axis × List DStep) : Res (Arrays K) :=
  if b.fft p.1 then
    if order = 123 then
      .ok (forLinesAlloc b.d p.1 g (fun i1 i2 s => p.2.foldl (fun s st => stepFft b p.1 i1 i2 st s) s) mem)
    else .abort
  else .ok (forLinesAlloc b.d p.1 g
    (fun i1 i2 s => p.2.foldl (fun s st => stepMat b.d p.1 (b.D p.1) (b.DD p.1) i1 i2 st s) s) mem)

/-- The loops of `spec_allDerivs` one after the other. -/
def derivPasses (b : LBox K) (order : Int) : List (Axis × List DStep) → Arrays K → Res (Arrays K)
  | [], mem => .ok mem
  | p :: ps, mem => (derivPass g b order mem p).bind (derivPasses b order ps)

/-- `spec_allDerivs` (derivs.c:843-1294). -/
def specAllDerivs (b : LBox K) (order : Int) (a : DerivIds) (mem : Arrays K) : Res (Arrays K) :=
  (derivPlan a order).bind fun ps => derivPasses g b order ps mem

end Sgrid
