import Verif.Model.ComplexFun

/-!
src/utility/Coordinates/coordtrans_CubedSphere.c: the cubed sphere coordinates (lam, A, B), their inverse,
the derivatives of the inverse, the polar angles of a patch, and the stretched version (rho, A, B).

Doubles are real numbers.  `errorexit("unknown type")` cannot be reached since `PatchType` has only the
four known types.  A call such as `CubedSphere_sigma(box, si, ind, A,B)` with fixed `box` and `ind` is a
function of `A, B`; this function is the field `sigma si` of the box here.  `cubedSphereSigma` below
models how the code computes it.
-/

namespace Sgrid
open Real

/-- The types of patches (coordtrans_CubedSphere.c:27-33, sgrid_Coordinates.h). -/
inductive PatchType where
  | PyramidFrustum | innerCubedSphere | outerCubedSphere | CubedShell
  deriving DecidableEq, Repr

/-- What the functions read from `box` and `box->CI` for a given `ind`
(coordtrans_CubedSphere.c:41-53, 161-176). -/
structure CubBox where
  /-- `box->CI->dom` -/
  dom : ℕ
  /-- `box->CI->type` -/
  type : PatchType
  /-- `box->CI->s[0]` and `s[1]` -/
  s : Fin 2 → ℝ
  /-- `box->CI->xc[1]`, `xc[2]`, `xc[3]` -/
  xc : Fin 3 → ℝ
  /-- `CubedSphere_sigma(box, si, ind, A,B)` -/
  sigma : Fin 2 → ℝ → ℝ → ℝ
  /-- `CubedSphere_dsigma_dA(box, si, ind, A,B)` -/
  dsigmaA : Fin 2 → ℝ → ℝ → ℝ
  /-- `CubedSphere_dsigma_dB(box, si, ind, A,B)` -/
  dsigmaB : Fin 2 → ℝ → ℝ → ℝ
  /-- `box->bbox[2]`, `bbox[3]` -/
  bboxA : Fin 2 → ℝ
  /-- `box->bbox[4]`, `bbox[5]` -/
  bboxB : Fin 2 → ℝ
  /-- `ind < 0` -/
  indNeg : Bool

/-- `dir = domain/2 + 1` (coordtrans_CubedSphere.c:48). -/
def CubBox.dir (b : CubBox) : ℕ := b.dom / 2 + 1

/-- `pm = 2*(domain%2) - 1` (coordtrans_CubedSphere.c:49-50). -/
def CubBox.pm (b : CubBox) : ℝ := ((2 * ((b.dom : ℤ) % 2) - 1 : ℤ) : ℝ)

/-- `dequal` (src/main/main/sgrid_main.h:89-91). -/
def dequal (a b : ℝ) : Prop := ¬(a < b - 1e-10 ∨ b < a - 1e-10)

/-- The two faces `a0, a1` of xyz_of_lamAB_CubSph (coordtrans_CubedSphere.c:45, 55-86). -/
noncomputable def cubFaces (b : CubBox) (A B : ℝ) : ℝ × ℝ :=
  let sqrt_1_A2_B2 := √(1 + A * A + B * B);
  match b.type with
  | .PyramidFrustum => (b.pm * b.s 0, b.pm * b.s 1)
  | .innerCubedSphere => (b.pm * b.sigma 0 A B / sqrt_1_A2_B2, b.pm * b.s 1)
  | .outerCubedSphere => (b.pm * b.s 0, b.pm * b.sigma 1 A B / sqrt_1_A2_B2)
  | .CubedShell => (b.pm * b.sigma 0 A B / sqrt_1_A2_B2, b.pm * b.sigma 1 A B / sqrt_1_A2_B2)

/-- xyz_of_lamAB_CubSph (coordtrans_CubedSphere.c:38-111). -/
noncomputable def xyzOfLamAB (b : CubBox) (lam A B : ℝ) : Fin 3 → ℝ :=
  let a0 := (cubFaces b A B).1;
  let a1 := (cubFaces b A B).2;
  if b.dir = 1 then
    let rx := (a1 - a0) * lam + a0;
    ![b.xc 0 + rx, b.xc 1 + A * rx, b.xc 2 + B * rx]
  else if b.dir = 2 then
    let ry := (a1 - a0) * lam + a0;
    ![b.xc 0 + A * ry, b.xc 1 + ry, b.xc 2 + B * ry]
  else
    let rz := (a1 - a0) * lam + a0;
    ![b.xc 0 + B * rz, b.xc 1 + A * rz, b.xc 2 + rz]

open Classical in
/-- The check of the range of `A` or `B` (coordtrans_CubedSphere.c:161-176): the new value and `stat`. -/
noncomputable def cubSnap (lo hi A : ℝ) (stat : ℤ) : ℝ × ℤ :=
  if A < lo ∨ hi < A then
    if dequal A lo then (lo, stat) else if dequal A hi then (hi, stat) else (A, -1)
  else (A, stat)

/-- The two faces `a0, a1` of lamAB_of_xyz_CubSph (coordtrans_CubedSphere.c:178-212). -/
noncomputable def lamFaces (b : CubBox) (A B oosqrt_1_A2_B2 : ℝ) : ℝ × ℝ :=
  match b.type with
  | .PyramidFrustum => (b.pm * b.s 0, b.pm * b.s 1)
  | .innerCubedSphere => (b.pm * b.sigma 0 A B * oosqrt_1_A2_B2, b.pm * b.s 1)
  | .outerCubedSphere => (b.pm * b.s 0, b.pm * b.sigma 1 A B * oosqrt_1_A2_B2)
  | .CubedShell => (b.pm * b.sigma 0 A B * oosqrt_1_A2_B2, b.pm * b.sigma 1 A B * oosqrt_1_A2_B2)

/-- lamAB_of_xyz_CubSph (coordtrans_CubedSphere.c:115-236): `lam, A, B` and the returned `stat`. -/
noncomputable def lamABOfXyz (b : CubBox) (x : Fin 3 → ℝ) : (Fin 3 → ℝ) × ℤ :=
  let rx := x 0 - b.xc 0;
  let ry := x 1 - b.xc 1;
  let rz := x 2 - b.xc 2;
  let rc := √(rx * rx + ry * ry + rz * rz);
  let oosqrt_1_A2_B2 := if b.dir = 1 then |rx| / rc else if b.dir = 2 then |ry| / rc else |rz| / rc;
  let A := if b.dir = 1 then ry / rx else if b.dir = 2 then rx / ry else ry / rz;
  let B := if b.dir = 1 then rz / rx else if b.dir = 2 then rz / ry else rx / rz;
  let (A, stat) := cubSnap (b.bboxA 0) (b.bboxA 1) A 0;
  let (B, stat) := cubSnap (b.bboxB 0) (b.bboxB 1) B stat;
  let a0a1 := lamFaces b A B oosqrt_1_A2_B2;
  let stat := if b.type ≠ .PyramidFrustum ∧ b.indNeg then stat * 2 else stat;
  let a0 := a0a1.1;
  let a1 := a0a1.2;
  let lam := if b.dir = 1 then (rx - a0) / (a1 - a0) else if b.dir = 2 then (ry - a0) / (a1 - a0)
    else (rz - a0) / (a1 - a0);
  (![lam, A, B], stat)

/-- The quotients `dsigma_dA_osigma0, dsigma_dB_osigma0, dsigma_dA_osigma1, dsigma_dB_osigma1` and the
initial values of `da0_dx` and `da1_dx` of dlamAB_dxyz_CubSph (coordtrans_CubedSphere.c:263-334). -/
noncomputable def cubSlopes (b : CubBox) (A B : ℝ) : Fin 6 → ℝ :=
  let a0 := (cubFaces b A B).1;
  let a1 := (cubFaces b A B).2;
  match b.type with
  | .PyramidFrustum => ![0, 0, 0, 0, 0, 0]
  | .innerCubedSphere => ![b.dsigmaA 0 A B / b.sigma 0 A B, b.dsigmaB 0 A B / b.sigma 0 A B, 0, 0, a0, 0]
  | .outerCubedSphere => ![0, 0, b.dsigmaA 1 A B / b.sigma 1 A B, b.dsigmaB 1 A B / b.sigma 1 A B, 0, a1]
  | .CubedShell => ![b.dsigmaA 0 A B / b.sigma 0 A B, b.dsigmaB 0 A B / b.sigma 0 A B,
      b.dsigmaA 1 A B / b.sigma 1 A B, b.dsigmaB 1 A B / b.sigma 1 A B, a0, a1]

/-- dlamAB_dxyz_CubSph (coordtrans_CubedSphere.c:239-465): row 0 is `dlamdx, dlamdy, dlamdz`, row 1 is
`dAdx, ..`, row 2 is `dBdx, ..`.  The values `x, y, z` that it also returns are those of `xyzOfLamAB`; so
`ry = *y-yc` is `A*rx` and so on. -/
noncomputable def dlamABDxyz (b : CubBox) (lam A B : ℝ) : Fin 3 → Fin 3 → ℝ :=
  let a0 := (cubFaces b A B).1;
  let a1 := (cubFaces b A B).2;
  let dsigma_dA_osigma0 := cubSlopes b A B 0;
  let dsigma_dB_osigma0 := cubSlopes b A B 1;
  let dsigma_dA_osigma1 := cubSlopes b A B 2;
  let dsigma_dB_osigma1 := cubSlopes b A B 3;
  let da0 := cubSlopes b A B 4;
  let da1 := cubSlopes b A B 5;
  let r := (a1 - a0) * lam + a0;
  if b.dir = 1 then
    let rx := r;
    let ry := A * rx;
    let rz := B * rx;
    let rx2 := rx * rx;
    let ry2 := ry * ry;
    let rz2 := rz * rz;
    let rc2 := rx2 + ry2 + rz2;
    let mx := 1 / rx - rx / rc2;
    let my := -ry / rc2;
    let mz := -rz / rc2;
    let mx0 := -dsigma_dA_osigma0 * (ry / rx2) - dsigma_dB_osigma0 * (rz / rx2);
    let my0 := dsigma_dA_osigma0 / rx;
    let mz0 := dsigma_dB_osigma0 / rx;
    let mx1 := -dsigma_dA_osigma1 * (ry / rx2) - dsigma_dB_osigma1 * (rz / rx2);
    let my1 := dsigma_dA_osigma1 / rx;
    let mz1 := dsigma_dB_osigma1 / rx;
    let da0_dx := da0 * (mx + mx0);
    let da0_dy := da0 * (my + my0);
    let da0_dz := da0 * (mz + mz0);
    let da1_dx := da1 * (mx + mx1);
    let da1_dy := da1 * (my + my1);
    let da1_dz := da1 * (mz + mz1);
    ![![(1 - da0_dx - (da1_dx - da0_dx) * lam) / (a1 - a0),
        (-da0_dy - (da1_dy - da0_dy) * lam) / (a1 - a0),
        (-da0_dz - (da1_dz - da0_dz) * lam) / (a1 - a0)],
      ![-ry / rx2, 1 / rx, 0],
      ![-rz / rx2, 0, 1 / rx]]
  else if b.dir = 2 then
    let ry := r;
    let rx := A * ry;
    let rz := B * ry;
    let rx2 := rx * rx;
    let ry2 := ry * ry;
    let rz2 := rz * rz;
    let rc2 := rx2 + ry2 + rz2;
    let mx := -rx / rc2;
    let my := 1 / ry - ry / rc2;
    let mz := -rz / rc2;
    let mx0 := dsigma_dA_osigma0 / ry;
    let my0 := -dsigma_dA_osigma0 * (rx / ry2) - dsigma_dB_osigma0 * (rz / ry2);
    let mz0 := dsigma_dB_osigma0 / ry;
    let mx1 := dsigma_dA_osigma1 / ry;
    let my1 := -dsigma_dA_osigma1 * (rx / ry2) - dsigma_dB_osigma1 * (rz / ry2);
    let mz1 := dsigma_dB_osigma1 / ry;
    let da0_dx := da0 * (mx + mx0);
    let da0_dy := da0 * (my + my0);
    let da0_dz := da0 * (mz + mz0);
    let da1_dx := da1 * (mx + mx1);
    let da1_dy := da1 * (my + my1);
    let da1_dz := da1 * (mz + mz1);
    ![![(-da0_dx - (da1_dx - da0_dx) * lam) / (a1 - a0),
        (1 - da0_dy - (da1_dy - da0_dy) * lam) / (a1 - a0),
        (-da0_dz - (da1_dz - da0_dz) * lam) / (a1 - a0)],
      ![1 / ry, -rx / ry2, 0],
      ![0, -rz / ry2, 1 / ry]]
  else
    let rz := r;
    let ry := A * rz;
    let rx := B * rz;
    let rx2 := rx * rx;
    let ry2 := ry * ry;
    let rz2 := rz * rz;
    let rc2 := rx2 + ry2 + rz2;
    let mx := -rx / rc2;
    let my := -ry / rc2;
    let mz := 1 / rz - rz / rc2;
    let mx0 := dsigma_dB_osigma0 / rz;
    let my0 := dsigma_dA_osigma0 / rz;
    let mz0 := -dsigma_dA_osigma0 * (ry / rz2) - dsigma_dB_osigma0 * (rx / rz2);
    let mx1 := dsigma_dB_osigma1 / rz;
    let my1 := dsigma_dA_osigma1 / rz;
    let mz1 := -dsigma_dA_osigma1 * (ry / rz2) - dsigma_dB_osigma1 * (rx / rz2);
    let da0_dx := da0 * (mx + mx0);
    let da0_dy := da0 * (my + my0);
    let da0_dz := da0 * (mz + mz0);
    let da1_dx := da1 * (mx + mx1);
    let da1_dy := da1 * (my + my1);
    let da1_dz := da1 * (mz + mz1);
    ![![(-da0_dx - (da1_dx - da0_dx) * lam) / (a1 - a0),
        (-da0_dy - (da1_dy - da0_dy) * lam) / (a1 - a0),
        (1 - da0_dz - (da1_dz - da0_dz) * lam) / (a1 - a0)],
      ![0, 1 / rz, -ry / rz2],
      ![1 / rz, 0, -rx / rz2]]

/-- What CubedSphere_sigma and CubedSphere_dsigma_dA/dB read (coordtrans_CubedSphere.c:607-676).
`isig` is `CI->iSurf[si]` or `CI->idSurfdX[si][2/3]`, `v` the variable `box->v[isig]`, `unset` the value
for `isig < 1` (`CI->s[si]` for sigma, 0 for the derivatives), `interp` the value of the function
CubedSphere_sigma_AB etc., which calls `CI->FSurf` or interpolates in the plane `i = p`. -/
structure SigmaSrc where
  isig : ℤ
  n1 : ℕ
  n2 : ℕ
  v : ℕ → ℝ
  unset : ℝ
  interp : ℝ → ℝ → ℝ

/-- CubedSphere_sigma, and with other `SigmaSrc` CubedSphere_dsigma_dA, CubedSphere_dsigma_dB
(coordtrans_CubedSphere.c:607-676). -/
noncomputable def cubedSphereSigma (c : SigmaSrc) (si : Fin 2) (ind : ℤ) (A B : ℝ) : ℝ :=
  if c.isig < 1 then c.unset else
    let p := (c.n1 - 1) * (if si = 1 then 1 else 0);
    if ind ≥ 0 then
      let k := ind.toNat / (c.n1 * c.n2);
      let j := (ind.toNat - c.n1 * c.n2 * k) / c.n1;
      c.v (p + c.n1 * (j + c.n2 * k))
    else c.interp A B

/-- r_dr_dlam_of_lamAB_CubSph with r_of_lam_sig0sig1 and dr_dlam_of_lam_sig0sig1
(coordtrans_CubedSphere.c:691-758): `r` and `drdlam`. -/
noncomputable def rOfLamAB (b : CubBox) (lam A B : ℝ) : ℝ × ℝ :=
  let sqrt_1_A2_B2 := √(1 + A * A + B * B);
  let sig0sig1 : ℝ × ℝ := match b.type with
    | .PyramidFrustum => (b.s 0 * sqrt_1_A2_B2, b.s 1 * sqrt_1_A2_B2)
    | .innerCubedSphere => (b.sigma 0 A B, b.s 1 * sqrt_1_A2_B2)
    | .outerCubedSphere => (b.s 0 * sqrt_1_A2_B2, b.sigma 1 A B)
    | .CubedShell => (b.sigma 0 A B, b.sigma 1 A B);
  let L := sig0sig1.2 - sig0sig1.1;
  (L * lam + sig0sig1.1, L)

/-- lam_of_r_sig0sig1 (coordtrans_CubedSphere.c:696-700). -/
noncomputable def lamOfR (r sig0 sig1 : ℝ) : ℝ :=
  let L := sig1 - sig0;
  (r - sig0) / L

/-- dlam_dr_of_lam_sig0sig1 (coordtrans_CubedSphere.c:707-711). -/
noncomputable def dlamDr (_lam sig0 sig1 : ℝ) : ℝ :=
  let L := sig1 - sig0;
  1 / L

/-- ThetaPhi_of_AB_CubSph (coordtrans_CubedSphere.c:766-818): `Theta` and `Phi`. -/
noncomputable def thetaPhiOfAB (b : CubBox) (A B : ℝ) : ℝ × ℝ :=
  if b.dir = 1 then
    let Phi := ArgPlus b.pm (b.pm * A);
    (ArgPlus (B * cos Phi) 1, Phi)
  else if b.dir = 2 then
    let Phi := ArgPlus (b.pm * A) b.pm;
    (ArgPlus (B * sin Phi) 1, Phi)
  else
    let Phi := ArgPlus (b.pm * B) (b.pm * A);
    (ArgPlus b.pm √(A * A + B * B), Phi)

/-- The derivatives of ThetaPhi_dThetaPhidAB_of_AB_CubSph (coordtrans_CubedSphere.c:821-910):
`dThetadA, dThetadB, dPhidA, dPhidB`. -/
noncomputable def dThetaPhiOfAB (b : CubBox) (A B : ℝ) : Fin 4 → ℝ :=
  if b.dir = 1 then
    let Phi := ArgPlus b.pm (b.pm * A);
    let dPhidA := dArgdy b.pm (b.pm * A) * b.pm;
    let dPhidB := 0;
    ![dArgdx (B * cos Phi) 1 * B * (-sin Phi) * dPhidA,
      dArgdx (B * cos Phi) 1 * (cos Phi + B * (-sin Phi) * dPhidB), dPhidA, dPhidB]
  else if b.dir = 2 then
    let Phi := ArgPlus (b.pm * A) b.pm;
    let dPhidA := dArgdx (b.pm * A) b.pm * b.pm;
    let dPhidB := 0;
    ![dArgdx (B * sin Phi) 1 * B * cos Phi * dPhidA,
      dArgdx (B * sin Phi) 1 * (sin Phi + B * cos Phi * dPhidB), dPhidA, dPhidB]
  else
    let sqrtA2B2 := √(A * A + B * B);
    let Phi := ArgPlus (b.pm * B) (b.pm * A);
    let oosqrtA2B2 := if sqrtA2B2 ≠ 0 then 1 / sqrtA2B2 else 0;
    ![dArgdy b.pm sqrtA2B2 * sin Phi * b.pm, dArgdy b.pm sqrtA2B2 * cos Phi * b.pm,
      cos Phi * b.pm * oosqrtA2B2, -sin Phi * b.pm * oosqrtA2B2]

/-- rho_of_lam_sig0sig1 (coordtrans_CubedSphere.c:926-930). -/
noncomputable def rhoOfLam (lam sig0 sig1 : ℝ) : ℝ :=
  let L := sig1 - sig0;
  (sig1 / L) * (1 - sig0 / (L * lam + sig0))

/-- lam_of_rho_sig0sig1 (coordtrans_CubedSphere.c:931-935). -/
noncomputable def lamOfRho (rho sig0 sig1 : ℝ) : ℝ :=
  let L := sig1 - sig0;
  (sig0 / L) * (sig1 / (sig1 - L * rho) - 1)

/-- drho_dlam_of_rho_sig0sig1 (coordtrans_CubedSphere.c:938-943). -/
noncomputable def drhoDlam (rho sig0 sig1 : ℝ) : ℝ :=
  let L := sig1 - sig0;
  let d := sig1 - L * rho;
  d * d / (sig0 * sig1)

/-- xyz_of_rhoAB_CubSph (coordtrans_CubedSphere.c:947-965).  It calls errorexit unless the type is
CubedShell; the theorems assume this type. -/
noncomputable def xyzOfRhoAB (b : CubBox) (rho A B : ℝ) : Fin 3 → ℝ :=
  xyzOfLamAB b (lamOfRho rho (b.sigma 0 A B) (b.sigma 1 A B)) A B

/-- rhoAB_of_xyz_CubSph (coordtrans_CubedSphere.c:968-990), errorexit unless the type is CubedShell. -/
noncomputable def rhoABOfXyz (b : CubBox) (x : Fin 3 → ℝ) : (Fin 3 → ℝ) × ℤ :=
  let r := lamABOfXyz b x;
  let A := r.1 1;
  let B := r.1 2;
  (![rhoOfLam (r.1 0) (b.sigma 0 A B) (b.sigma 1 A B), A, B], r.2)

/-- drhoAB_dxyz_CubSph (coordtrans_CubedSphere.c:993-1035), errorexit unless the type is CubedShell and
both `iSurf` are unset, so that the sigmas are constant. -/
noncomputable def drhoABDxyz (b : CubBox) (rho A B : ℝ) : Fin 3 → Fin 3 → ℝ :=
  let sigma0 := b.sigma 0 A B;
  let sigma1 := b.sigma 1 A B;
  let lam := lamOfRho rho sigma0 sigma1;
  let d := dlamABDxyz b lam A B;
  let drho_dlam := drhoDlam rho sigma0 sigma1;
  ![![drho_dlam * d 0 0, drho_dlam * d 0 1, drho_dlam * d 0 2], d 1, d 2]

end Sgrid
