import Verif.Model.Lines
import Verif.Model.PureLoop
import Verif.Model.ComplexFun
import Mathlib.Analysis.SpecialFunctions.Trigonometric.Inverse
import Mathlib.Analysis.SpecialFunctions.Trigonometric.Basic

/-!
# The rotating source of the scalar field

`ScalarOnKerr_rho_from_rho0_four3modes` (src/physics/ScalarOnKerr/ScalarOnKerr.c:527-588),
`ScalarOnKerr_init_rho0_four3modes` (lines 490-522, in one box) and the test source of `ScalarOnKerr_Source` (lines 437-486). Numbers are
real numbers. The sources 2 and 3 of `ScalarOnKerr_Source` (DV_SourceInKerrSchild) are not modelled, and the static variables there are
functions of the mass.
-/

namespace Sgrid

open Real

/-- The points `(i,j)` of a plane of constant `k` in the order of lines 552-553. -/
def plane3 (d : Dims) : List (Nat × Nat) := (List.range d.n2).flatMap fun j => (List.range d.n1).map fun i => (i, j)

/-- What is assigned to `crho[Index(i,j,k)]` (lines 546-583). -/
noncomputable def rotMode (d : Dims) (Omega_t : ℝ) (crho0 : Nat → ℝ) (i j k : Nat) : ℝ :=
  let N3 := (d.n3 - 1) / 2
  let km := 2 * N3
  let m := (k + 1) / 2
  let c := cos (m * Omega_t)
  let s := sin (m * Omega_t)
  if k = 0 then crho0 (d.idx i j k)
  else if k ≤ km then
    if k % 2 = 1 then crho0 (d.idx i j k) * c - crho0 (d.idx i j (k + 1)) * s
    else crho0 (d.idx i j (k - 1)) * s + crho0 (d.idx i j k) * c
  else crho0 (d.idx i j k) * c

/-- The loops of lines 543-585, one value of `k` after the other (every value of `k` writes to its own plane). -/
noncomputable def rotModes (d : Dims) (Omega_t : ℝ) (crho0 crho : Nat → ℝ) : Nat → ℝ :=
  (List.range d.n3).foldl (fun crho k =>
    (plane3 d).foldl (fun crho ij => aset crho (d.idx ij.1 ij.2 k) (rotMode d Omega_t crho0 ij.1 ij.2 k)) crho) crho

/-- `ScalarOnKerr_rho_from_rho0_four3modes` (lines 529-588): `Mass` is the parameter BHmass, and `rho`, `crho`, `crho0` are the numbers of
the arrays. -/
noncomputable def rhoFromModes (g : Nat → (Nat → ℝ) × (Nat → ℝ) × (Nat → ℝ)) (b : LBox ℝ) (Mass t : ℝ) (rho crho crho0 : Nat)
    (mem : Arrays ℝ) : Arrays ℝ :=
  let r0 := 10 * Mass
  let Omega_t := √(Mass / (r0 * r0 * r0)) * t
  specSynthesis1 g b .three rho crho (aset mem crho (rotModes b.d Omega_t (mem crho0) (mem crho)))

/-- `ScalarOnKerr_init_rho0_four3modes` in one box (lines 498-520): the values of the source at `t = 0` are put into `crho` at all points, then
their coefficients in direction 3 into `crho0`. -/
noncomputable def initModes (g : Nat → (Nat → ℝ) × (Nat → ℝ) × (Nat → ℝ)) (b : LBox ℝ) (src : Nat → ℝ) (crho crho0 : Nat) (mem : Arrays ℝ) : Arrays ℝ :=
  specAnalysis1 g b .three crho crho0
    (aset mem crho (upLoop 0 (b.d.n1 * b.d.n2 * b.d.n3) (fun i u => aset u i (src i)) (mem crho)))

/-- The test source, `sourcetype==1` (lines 452-458 and 465-474); `M` is the parameter BHmass. -/
noncomputable def y22Source (M t x y z : ℝ) : ℝ :=
  let r0 := 10 * M
  let q := 1
  let Dr := 1 * M
  let q22 := 4 * π * q / (r0 * √(1 - 3 * M / r0)) * √(5 / (96 * π)) * 3
  let Omega := √(M / (r0 * r0 * r0))
  let r := √(x * x + y * y + z * z)
  let theta := 1 / 2 * π - arcsin (z / r)
  let phi := Arg x y
  let Y22 := √(5 / (96 * π)) * (3 / 2) * (1 - cos (2 * theta))
  (-(q22 / r0)) * (exp (-(r - r0) * (r - r0) / (Dr * Dr)) / (√π * Dr)) * cos (2 * (Omega * t - phi)) * Y22

end Sgrid
