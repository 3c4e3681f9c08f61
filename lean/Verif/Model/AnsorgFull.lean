import Verif.Model.AnsorgNS
import Verif.Model.AnsorgXR
import Verif.Model.TransfDerivs
import Verif.Model.Basic

/-!
src/utility/Coordinates/Coordinates_AnsorgNS.c:97-199: the two steps of the Ansorg coordinates put together,
with the derivatives of the composition, and the inverse of the tables of derivatives.

Doubles are real numbers; `eps` is the macro `dequaleps`, `b` the parameter of the same name, and `Sp`, `Sm`
are the functions behind the pointers `Coordinates_AnsorgNS_sigmap` and `Coordinates_AnsorgNS_sigmam`.  The
output arrays are a return value of type `AnsTab`; the entries `ddxyz[i][j][k]` are kept for j ≤ k, as in the
code.
-/

namespace Sgrid
open Real

/-- A point with its first and second derivatives: `xyz[4]`, `dxyz[4][4]`, `ddxyz[4][4][4]`
(Coordinates_AnsorgNS.c:97-99). -/
structure AnsTab where
  /-- `xyz[i+1]` -/
  x : Fin 3 → ℝ
  /-- `dxyz[i+1][k+1]` -/
  dx : Fin 3 → Fin 3 → ℝ
  /-- `ddxyz[i+1][j][k]` for the pair j ≤ k -/
  ddx : Fin 3 → Pair → ℝ

/-- The entry `[i][j]` of a 4x4 array whose entries start at 1 (the type `double [4][4]` in
Coordinates_AnsorgNS.c:102-105). -/
def arr2 (J : Fin 3 → Fin 3 → ℝ) (i j : Nat) : ℝ := J (Fin.ofNat 3 (i - 1)) (Fin.ofNat 3 (j - 1))

/-- The entry `[i][j][k]`, j ≤ k, of a 4x4x4 array (the type `double [4][4][4]` in
Coordinates_AnsorgNS.c:103-105). -/
def arr3 (H : Fin 3 → Pair → ℝ) (i j k : Nat) : ℝ :=
  match j, k with
  | 1, 1 => H (Fin.ofNat 3 (i - 1)) .xx
  | 1, 2 => H (Fin.ofNat 3 (i - 1)) .xy
  | 1, 3 => H (Fin.ofNat 3 (i - 1)) .xz
  | 2, 2 => H (Fin.ofNat 3 (i - 1)) .yy
  | 2, 3 => H (Fin.ofNat 3 (i - 1)) .yz
  | _, _ => H (Fin.ofNat 3 (i - 1)) .zz

/-- The indices of the stored second derivatives (the loops `for m, for n>=m` in transfDerivs.c:181-182). -/
def pairIx : Pair → Nat × Nat
  | .xx => (1, 1)
  | .xy => (1, 2)
  | .xz => (1, 3)
  | .yy => (2, 2)
  | .yz => (2, 3)
  | .zz => (3, 3)

/-- `if(B==0.0) B = dequaleps; else if(B==1.0) B-= dequaleps;` (Coordinates_AnsorgNS.c:110-111, and in the other
domains 118-119, 125-126, 132-133). -/
noncomputable def ansB (eps B : ℝ) : ℝ := if B = 0 then eps else if B = 1 then B - eps else B

/-- `if(A==1.0) A-= dequaleps;` (Coordinates_AnsorgNS.c:112, 134). -/
noncomputable def ansA (eps A : ℝ) : ℝ := if A = 1 then A - eps else A

/-- `XRphi`, `dXRphi_dABphi` and `ddXRphi_ddABphi` of the four domains (Coordinates_AnsorgNS.c:107-139). -/
noncomputable def ansXR (eps : ℝ) (Sp Sm : AnsSig) (domain : Int) (A B phi : ℝ) : Res AnsTab :=
  let B := ansB eps B
  if domain = 0 then
    let A := ansA eps A
    .ok ⟨ns0X Sp A B phi, ns0DX Sp A B phi, ns0DDX Sp A B phi⟩
  else if domain = 1 then .ok ⟨ns1X Sp A B phi, ns1DX Sp A B phi, ns1DDX Sp A B phi⟩
  else if domain = 2 then .ok ⟨ns1X Sm A B phi, ns1DX Sm A B phi, ns1DDX Sm A B phi⟩
  else if domain = 3 then
    let A := ansA eps A
    .ok ⟨ns3X Sm A B phi, ns3DX Sm A B phi, ns3DDX Sm A B phi⟩
  else .abort

/-- The two calls that differentiate the composition: `dxdX_from_dxdU_dUdX` and
`ddxdXdX_from_dxdU_dUdX_ddxdUdU_ddUdXdX` (Coordinates_AnsorgNS.c:144-149, 175-180); `u` is the inner step and `v`
the outer one at the point of `u`. -/
noncomputable def ansComp (v u : AnsTab) : AnsTab where
  x := v.x
  dx i k := product3 (arr2 v.dx) (arr2 u.dx) (i + 1) (k + 1)
  ddx i p := secondComp (arr2 v.dx) (arr2 u.dx) (arr3 v.ddx) (arr3 u.ddx) (i + 1) (pairIx p).1 (pairIx p).2

/-- `xyz_dxyz_ddxyz_of_AnsorgNS_ABphi` (Coordinates_AnsorgNS.c:97-150). -/
noncomputable def ansABphi (eps b : ℝ) (Sp Sm : AnsSig) (domain : Int) (A B phi : ℝ) : Res AnsTab :=
  (ansXR eps Sp Sm domain A B phi).bind fun u =>
    .ok (ansComp ⟨xrX b eps (u.x 0) (u.x 1) (u.x 2), xrDX b eps (u.x 0) (u.x 1) (u.x 2),
      xrDDX b eps (u.x 0) (u.x 1) (u.x 2)⟩ u)

/-- `xyz_dxyz_ddxyz_of_AnsorgNS_AfBfPhi` (Coordinates_AnsorgNS.c:154-181). -/
noncomputable def ansAfBfPhi (eps b : ℝ) (Sp Sm : AnsSig) (domain : Int) (Af Bf Phi : ℝ) : Res AnsTab :=
  let u : AnsTab := ⟨bfX Af Bf Phi, bfDX Af Bf Phi, bfDDX Af Bf Phi⟩
  (ansABphi eps b Sp Sm domain (u.x 0) (u.x 1) (u.x 2)).bind fun v => .ok (ansComp v u)

/-- `xyz_dABphi_ddABphi_of_AnsorgNS` (Coordinates_AnsorgNS.c:185-203). -/
noncomputable def ansInv (eps b : ℝ) (Sp Sm : AnsSig) (domain : Int) (A B phi : ℝ) : Res AnsTab :=
  (ansABphi eps b Sp Sm domain A B phi).bind fun v =>
    let dX := inverse3 eps (arr2 v.dx)
    .ok ⟨v.x, fun i k => dX (i + 1) (k + 1), fun i p => secondInverse dX (arr3 v.ddx) (i + 1) (pairIx p).1 (pairIx p).2⟩

end Sgrid
