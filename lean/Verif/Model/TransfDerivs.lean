import Verif.Model.CartDerivs

/-!
# Derivatives of inverse and composed coordinate transformations

`src/utility/Coordinates/transfDerivs.c` and the generic derivatives of
`src/utility/Coordinates/Coordinates.c:4393-4625`. Matrices have the indices 1, 2, 3.
`LDOUBLE` and `double` are the same numbers. Results and arguments are different arrays.
-/

namespace Sgrid

variable {K : Type} [Field K]

/-- `DetOf3Dmatrix` and `DetM` (`src/utility/Coordinates/transfDerivs.c:30-35,81-93`). -/
def det3 (M : Nat → Nat → K) : K :=
  M 1 1 * M 2 2 * M 3 3 - M 1 3 * M 2 2 * M 3 1 + M 1 2 * M 2 3 * M 3 1 +
    M 1 3 * M 2 1 * M 3 2 - M 1 1 * M 2 3 * M 3 2 - M 1 2 * M 2 1 * M 3 3

/-- `dXdx_from_dxdX`, `dxdX_from_dXdx`, `inverse3Dmatrix_from_3Dmatrix`
(`src/utility/Coordinates/transfDerivs.c:21-66`); `eps` is `dequaleps`. -/
def inverse3 [DecidableEq K] (eps : K) (M : Nat → Nat → K) (i j : Nat) : K :=
  let d := if det3 M = 0 then eps * eps * eps else det3 M
  match i, j with
  | 1, 1 => (-(M 2 3 * M 3 2) + M 2 2 * M 3 3) / d
  | 1, 2 => (M 1 3 * M 3 2 - M 1 2 * M 3 3) / d
  | 1, 3 => (-(M 1 3 * M 2 2) + M 1 2 * M 2 3) / d
  | 2, 1 => (M 2 3 * M 3 1 - M 2 1 * M 3 3) / d
  | 2, 2 => (-(M 1 3 * M 3 1) + M 1 1 * M 3 3) / d
  | 2, 3 => (M 1 3 * M 2 1 - M 1 1 * M 2 3) / d
  | 3, 1 => (-(M 2 2 * M 3 1) + M 2 1 * M 3 2) / d
  | 3, 2 => (M 1 2 * M 3 1 - M 1 1 * M 3 2) / d
  | 3, 3 => (-(M 1 2 * M 2 1) + M 1 1 * M 2 2) / d
  | _, _ => 0

/-- `transpose3Dmatrix_from_3Dmatrix` (`src/utility/Coordinates/transfDerivs.c:68-79`). -/
def transpose3 (M : Nat → Nat → K) (i j : Nat) : K :=
  match i, j with
  | 1, 1 => M 1 1
  | 1, 2 => M 2 1
  | 1, 3 => M 3 1
  | 2, 1 => M 1 2
  | 2, 2 => M 2 2
  | 2, 3 => M 3 2
  | 3, 1 => M 1 3
  | 3, 2 => M 2 3
  | 3, 3 => M 3 3
  | _, _ => 0

/-- `product_of_3Dmatrices` and `dxdX_from_dxdU_dUdX`
(`src/utility/Coordinates/transfDerivs.c:94-105,152-165`). -/
def product3 (A B : Nat → Nat → K) (i j : Nat) : K :=
  upLoop 1 4 (fun k s => s + A i k * B k j) 0

/-- `ddXdxdx_from_dXdx_ddxdXdX` (`src/utility/Coordinates/transfDerivs.c:109-130`): the number stored in
`ddXdxdx[i][j][k]` for `j <= k`. -/
def secondInverse (dX : Nat → Nat → K) (ddx : Nat → Nat → Nat → K) (i j k : Nat) : K :=
  upLoop 1 4 (fun n s => upLoop 1 4 (fun m s => upLoop 1 4 (fun l s =>
    let d := if l ≥ m then ddx n m l else ddx n l m
    s - dX i n * dX m j * dX l k * d) s) s) 0

/-- `ddxdXdX_from_dxdU_dUdX_ddxdUdU_ddUdXdX` (`src/utility/Coordinates/transfDerivs.c:167-194`): the number stored
in `ddxdXdX[i][m][n]` for `m <= n`. -/
def secondComp (dxdU dUdX : Nat → Nat → K) (ddxdUdU ddUdXdX : Nat → Nat → Nat → K) (i m n : Nat) : K :=
  let s := upLoop 1 4 (fun j (s : K × K) =>
    let s := (s.1 + dxdU i j * ddUdXdX j m n, s.2)
    upLoop 1 4 (fun k s =>
      let d := if k ≥ j then ddxdUdU i j k else ddxdUdU i k j
      (s.1, s.2 + dUdX j m * dUdX k n * d)) s) (0, 0)
  s.1 + s.2

/-! ### Generic derivatives -/

/-- The pass for the point `ind` in `init_dXdx_generic` (`src/utility/Coordinates/Coordinates.c:4431-4449`). -/
def initFirstPass [DecidableEq K] (eps : K) (d : Nat → Nat) (ind : Nat) (m : Nat × Nat → K) : Nat × Nat → K :=
  let dX := inverse3 eps fun i k => m (d i + (k - 1), ind)
  upLoop 1 4 (fun k m => put (put (put m (d 1 + (k - 1)) ind (dX 1 k)) (d 2 + (k - 1)) ind (dX 2 k))
    (d 3 + (k - 1)) ind (dX 3 k)) m

/-- `init_dXdx_generic` (`src/utility/Coordinates/Coordinates.c:4395-4450`); the variables `x`, `y`, `z` are
`ix 1`, `ix 2`, `ix 3`, the variables `dXdx`, `dYdx`, `dZdx` are `d 1`, `d 2`, `d 3`, and `D k` is `spec_Deriv1` in
direction `k`. -/
def initFirst [DecidableEq K] (eps : K) (n : Nat) (D : Nat → (Nat → K) → Nat → K) (ix d : Nat → Nat)
    (m : Nat × Nat → K) : Nat × Nat → K :=
  let m := upLoop 1 4 (fun i m => upLoop 1 4 (fun k m =>
    setArray n m (d i + (k - 1)) (D k fun j => m (ix i, j))) m) m
  upLoop 0 n (initFirstPass eps d) m

/-- The pass for the point `ind` in `init_ddXdxdx_generic` (`src/utility/Coordinates/Coordinates.c:4583-4617`). The
counter of the loop that reads the second derivatives is written as `ddXvar`. -/
def initSecondPass (d dd : Nat → Nat) (ind : Nat) (m : Nat × Nat → K) : Nat × Nat → K :=
  let dX := fun i k => m (d i + (k - 1), ind)
  let ddx := fun i j k => m (ddXvar (dd i) 1 j k, ind)
  let ddX := secondInverse dX ddx
  (upLoop 1 4 (fun j s => upLoop j 4 (fun k s =>
    (put (put (put s.1 (dd 1 + s.2) ind (ddX 1 j k)) (dd 2 + s.2) ind (ddX 2 j k))
      (dd 3 + s.2) ind (ddX 3 j k), s.2 + 1)) s) (m, 0)).1

/-- `init_ddXdxdx_generic` (`src/utility/Coordinates/Coordinates.c:4453-4625`) as it is compiled
(`compute_ddxdXX_from_xyz` is 1); `dd 1`, `dd 2`, `dd 3` are the variables `ddXddxx`, `ddYddxx`, `ddZddxx`, `t` the
variables `temp1`, `temp2`, `temp3`, and `DD k` the arrays 1, ..., 9 of `spec_allDerivs`. -/
def initSecond (n : Nat) (DD : Nat → (Nat → K) → Nat → K) (ix d dd t : Nat → Nat)
    (m : Nat × Nat → K) : Nat × Nat → K :=
  let m := upLoop 1 4 (fun i m =>
    let a := fun j => m (ix i, j)
    upLoop 1 10 (fun k m => setArray n m (if k ≤ 3 then t k else dd i + (k - 4)) (DD k a)) m) m
  upLoop 0 n (initSecondPass d dd) m

end Sgrid
