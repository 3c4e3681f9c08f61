import Mathlib.Algebra.Field.Basic
import Verif.Model.Basic
import Verif.Model.Parallel

/-!
# Derivatives with respect to Cartesian coordinates

`src/utility/Coordinates/cartesianDerivs.c` and the loop of `src/utility/Coordinates/Coordinates.c:978-1050`
that stores the derivatives of the coordinates. The memory of a box is a function of (variable, point). The
indices 1, 2, 3 of the C arrays are kept. `spec_Deriv1` and `spec_allDerivs` (modelled in `Verif.Model.Lines`)
are arbitrary functions of an array here, and so are the functions `Sing_d_dx`. The functions `dX_dx` and
`ddX_dxdx` of a box are numbers at each point: they read nothing that is changed here. Pointers are different
from NULL.
-/

namespace Sgrid

variable {K : Type} [Field K]

/-- What `cart_partials` and `cart_partial_all` know about a box. -/
structure CartBox (K : Type) where
  /-- number of points -/
  npts : Nat
  /-- `box->x_of_X[1] != NULL` -/
  trafo : Bool
  /-- `box->ddX_dxdx[1][1][1] != NULL` -/
  hasDD : Bool
  /-- `box->v[dXd] != NULL` -/
  stored1 : Bool
  /-- `box->v[ddXdd] != NULL` -/
  stored2 : Bool
  /-- `Ind("dXdx")` -/
  dXd : Nat
  /-- `Ind("ddXddxx")` -/
  ddXdd : Nat
  /-- `box->dX_dx[i][m]` at a point -/
  dX : Nat → Nat → Nat → K
  /-- `box->ddX_dxdx[i][m][n]` at a point -/
  ddX : Nat → Nat → Nat → Nat → K
  /-- `spec_Deriv1` in direction 1, 2, 3 -/
  deriv1 : Nat → (Nat → K) → Nat → K
  /-- `spec_allDerivs`: the arrays 1, ..., 9 are u1, u2, u3, u11, u12, u13, u22, u23, u33 -/
  derivs : Nat → (Nat → K) → Nat → K
  /-- `box->Sing_d_dx[k]`: from the array and its three derivatives to the new derivatives -/
  sing : Nat → Option ((Nat → K) → (Nat → Nat → K) → Nat → Nat → K)

/-- The number of the variable that holds `dX_i/dx_m` (`src/utility/Coordinates/cartesianDerivs.c:143,200`). -/
def dXvar (dXd i m : Nat) : Nat := dXd + 3 * (i - 1) + (m - 1)

/-- The number of the variable that holds `ddX_i/dx_m dx_n`
(`src/utility/Coordinates/cartesianDerivs.c:155-156,305-306`). -/
def ddXvar (ddXdd i m n : Nat) : Nat :=
  if m = 1 then ddXdd + 6 * (i - 1) + (n - 1) else ddXdd + 6 * (i - 1) + m + (n - 1)

/-- `dv[m]` (`src/utility/Coordinates/cartesianDerivs.c:195-201,222-228,297-301,355-358`). -/
def cartGrad (dX : Nat → Nat → K) (du : Nat → K) (m : Nat) : K :=
  upLoop 1 4 (fun i s => s + dX i m * du i) 0

/-- `ddv[m][n]` (`src/utility/Coordinates/cartesianDerivs.c:303-322,360-377`). -/
def cartHess (dX : Nat → Nat → K) (ddX : Nat → Nat → Nat → K) (du : Nat → K) (ddu : Nat → Nat → K)
    (m n : Nat) : K :=
  let s := upLoop 1 4 (fun i s => s + ddX i m n * du i) 0
  upLoop 1 4 (fun i s => upLoop 1 4 (fun j s => s + dX i m * dX j n * ddu i j) s) s

/-- The pass of the loops of `cart_partials` for the point `ind`
(`src/utility/Coordinates/cartesianDerivs.c:184-233`); `u 1`, `u 2`, `u 3` are the variables of the results. Each
number is read once. -/
def cartPass (c : CartBox K) (u : Nat → Nat) (ind : Nat) : List (Act (Nat × Nat) K) :=
  ((List.range' 1 3).map fun i => Act.load i (u i, ind)) ++
  (if c.stored1 then (List.range' 1 3).flatMap fun m => (List.range' 1 3).map fun i =>
    Act.load (3 * i + m) (dXvar c.dXd i m, ind) else []) ++
  (List.range' 1 3).map fun m => Act.store (u m, ind) fun ρ =>
    cartGrad (fun i m => if c.stored1 then ρ (3 * i + m) else c.dX ind i m) ρ m

/-- The `n` numbers of an array are replaced. -/
def setArray (n : Nat) (m : Nat × Nat → K) (v : Nat) (a : Nat → K) : Nat × Nat → K :=
  fun x => if x.1 = v ∧ x.2 < n then a x.2 else m x

/-- The call of `Sing_d_dx[k]` (`src/utility/Coordinates/cartesianDerivs.c:239-241`). -/
def singCall (n : Nat) (f : (Nat → K) → (Nat → Nat → K) → Nat → Nat → K) (v : Nat) (u : Nat → Nat)
    (m : Nat × Nat → K) : Nat × Nat → K :=
  let r := f (fun i => m (v, i)) fun k i => m (u k, i)
  setArray n (setArray n (setArray n m (u 1) (r 1)) (u 2) (r 2)) (u 3) (r 3)

/-- `cart_partials` (`src/utility/Coordinates/cartesianDerivs.c:168-244`) for the variable `v`, with the order
`sched` of the accesses of the threads. -/
def cartPartials (c : CartBox K) (sched : List Nat) (ρ : Nat → Nat → K) (v : Nat) (u : Nat → Nat)
    (m : Nat × Nat → K) : Nat × Nat → K :=
  let m := upLoop 1 4 (fun k m => setArray c.npts m (u k) (c.deriv1 k fun i => m (v, i))) m
  if c.trafo then
    let m := parLoop (cartPass c u) ρ m sched
    upLoop 1 4 (fun k m => match c.sing k with
      | none => m
      | some f => singCall c.npts f v u m) m
  else m

/-- Which of the arrays u1, u2, u3, u11, u12, u13, u22, u23, u33 is `ddu[i][j]`
(`src/utility/Coordinates/cartesianDerivs.c:269-271`). -/
def dduIdx : Nat → Nat → Nat
  | 1, 1 => 4
  | 1, 2 => 5
  | 1, 3 => 6
  | 2, 1 => 5
  | 2, 2 => 7
  | 2, 3 => 8
  | 3, 1 => 6
  | 3, 2 => 8
  | _, _ => 9

/-- The pass of the loops of `cart_partial_all` for the point `ind`
(`src/utility/Coordinates/cartesianDerivs.c:277-389`); `u 1`, ..., `u 9` are the variables of the results. -/
def cartPassAll (c : CartBox K) (u : Nat → Nat) (ind : Nat) : List (Act (Nat × Nat) K) :=
  let st := c.stored2 && c.stored1
  let dX := fun (ρ : Nat → K) i m => if st then ρ (6 + 3 * i + m) else c.dX ind i m
  let ddX := fun (ρ : Nat → K) i m n => if st then ρ (6 + 9 * i + 3 * m + n) else c.ddX ind i m n
  ((List.range' 1 9).map fun i => Act.load i (u i, ind)) ++
  (if st then
    ((List.range' 1 3).flatMap fun m => (List.range' 1 3).map fun i =>
      Act.load (6 + 3 * i + m) (dXvar c.dXd i m, ind)) ++
    (List.range' 1 3).flatMap fun m => (List.range' m (4 - m)).flatMap fun n => (List.range' 1 3).map fun i =>
      Act.load (6 + 9 * i + 3 * m + n) (ddXvar c.ddXdd i m n, ind) else []) ++
  (List.range' 1 3).flatMap fun m =>
    Act.store (u m, ind) (fun ρ => cartGrad (dX ρ) ρ m) ::
    (List.range' m (4 - m)).map fun n => Act.store (u (dduIdx m n), ind) fun ρ =>
      cartHess (dX ρ) (ddX ρ) ρ (fun i j => ρ (dduIdx i j)) m n

/-- `cart_partial_all` (`src/utility/Coordinates/cartesianDerivs.c:250-391`). -/
def cartPartialAll (c : CartBox K) (sched : List Nat) (ρ : Nat → Nat → K) (v : Nat) (u : Nat → Nat)
    (m : Nat × Nat → K) : Res (Nat × Nat → K) :=
  let a := fun i => m (v, i)
  let m := upLoop 1 10 (fun k m => setArray c.npts m (u k) (c.derivs k a)) m
  if c.trafo then
    if c.hasDD then .ok (parLoop (cartPassAll c u) ρ m sched) else .abort
  else .ok m

/-! ### Storing the derivatives of the coordinates -/

/-- A number is stored. -/
def put (m : Nat × Nat → K) (v ind : Nat) (a : K) : Nat × Nat → K :=
  fun x => if x = (v, ind) then a else m x

/-- The part of the pass for the point `ind` in `compute_xyz_dXYZdxyz_ddXYZddxyz` that stores `dX_dx`
(`src/utility/Coordinates/Coordinates.c:1017-1023`). -/
def storeFirst (c : CartBox K) (dYd dZd ind : Nat) (m : Nat × Nat → K) : Nat × Nat → K :=
  if c.stored1 then
    upLoop 1 4 (fun j m => put (put (put m (c.dXd + j - 1) ind (c.dX ind 1 j))
      (dYd + j - 1) ind (c.dX ind 2 j)) (dZd + j - 1) ind (c.dX ind 3 j)) m
  else m

/-- The part that stores `ddX_dxdx` (`src/utility/Coordinates/Coordinates.c:1026-1039`). -/
def storeSecond (c : CartBox K) (ddYdd ddZdd ind : Nat) (m : Nat × Nat → K) : Nat × Nat → K :=
  if c.stored2 then
    (upLoop 1 4 (fun j s => upLoop j 4 (fun k s =>
      (put (put (put s.1 (c.ddXdd + s.2) ind (c.ddX ind 1 j k)) (ddYdd + s.2) ind (c.ddX ind 2 j k))
        (ddZdd + s.2) ind (c.ddX ind 3 j k), s.2 + 1)) s) (m, 0)).1
  else m

/-- `compute_xyz_dXYZdxyz_ddXYZddxyz` (`src/utility/Coordinates/Coordinates.c:982-1056`) for a box with
transformation, without the coordinates themselves. -/
def storeTrafos (c : CartBox K) (dYd dZd ddYdd ddZdd : Nat) (m : Nat × Nat → K) : Nat × Nat → K :=
  upLoop 0 c.npts (fun ind m => storeSecond c ddYdd ddZdd ind (storeFirst c dYd dZd ind m)) m

/-! ### Derivatives of tensors -/

/-- A variable of a tensor (0), of its first derivatives (1) or of its second derivatives (2): the number of the
tensor and the offset. -/
abbrev Addr := Nat × Nat

/-- A call of `cart_partials` or `cart_partial_all`: the variable that is differentiated and the variables of the
results. -/
abbrev Call := Addr × List Addr

/-- A call, with the function `P` for the derivatives and the indices `base 0`, `base 1`, `base 2` of the three
tensors. -/
def runCall {A : Type} (P : Nat → A → A) (base : Nat → Nat) (m : Nat → A) (c : Call) : Nat → A :=
  let a := m (base c.1.1 + c.1.2)
  (c.2.zipIdx 1).foldl (fun m q => aset m (base q.1.1 + q.1.2) (P q.2 a)) m

/-- A function that makes the calls of a list. -/
def runCalls {A : Type} (P : Nat → A → A) (base : Nat → Nat) (cs : List Call) (m : Nat → A) : Nat → A :=
  cs.foldl (runCall P base) m

/-- `FirstDerivsOf_Sab` (`src/utility/Coordinates/cartesianDerivs.c:399-436`). -/
def firstSab : List Call := [
  ((0, 0), [(1, 0), (1, 1), (1, 2)]),
  ((0, 1), [(1, 3), (1, 4), (1, 5)]),
  ((0, 2), [(1, 6), (1, 7), (1, 8)]),
  ((0, 3), [(1, 9), (1, 10), (1, 11)]),
  ((0, 4), [(1, 12), (1, 13), (1, 14)]),
  ((0, 5), [(1, 15), (1, 16), (1, 17)])]

/-- `FirstAndSecondDerivsOf_Sab` (`src/utility/Coordinates/cartesianDerivs.c:440-532`). -/
def secondSab : List Call := firstSab ++ [
  ((1, 0), [(2, 0), (2, 1), (2, 2)]),
  ((1, 1), [(2, 1), (2, 3), (2, 4)]),
  ((1, 2), [(2, 2), (2, 4), (2, 5)]),
  ((1, 3), [(2, 6), (2, 7), (2, 8)]),
  ((1, 4), [(2, 7), (2, 9), (2, 10)]),
  ((1, 5), [(2, 8), (2, 10), (2, 11)]),
  ((1, 6), [(2, 12), (2, 13), (2, 14)]),
  ((1, 7), [(2, 13), (2, 15), (2, 16)]),
  ((1, 8), [(2, 14), (2, 16), (2, 17)]),
  ((1, 9), [(2, 18), (2, 19), (2, 20)]),
  ((1, 10), [(2, 19), (2, 21), (2, 22)]),
  ((1, 11), [(2, 20), (2, 22), (2, 23)]),
  ((1, 12), [(2, 24), (2, 25), (2, 26)]),
  ((1, 13), [(2, 25), (2, 27), (2, 28)]),
  ((1, 14), [(2, 26), (2, 28), (2, 29)]),
  ((1, 15), [(2, 30), (2, 31), (2, 32)]),
  ((1, 16), [(2, 31), (2, 33), (2, 34)]),
  ((1, 17), [(2, 32), (2, 34), (2, 35)])]

/-- `FirstDerivsOf_Sa` (`src/utility/Coordinates/cartesianDerivs.c:536-558`). -/
def firstSa : List Call := [
  ((0, 0), [(1, 0), (1, 1), (1, 2)]),
  ((0, 1), [(1, 3), (1, 4), (1, 5)]),
  ((0, 2), [(1, 6), (1, 7), (1, 8)])]

/-- `FirstAndSecondDerivsOf_Sa` (`src/utility/Coordinates/cartesianDerivs.c:562-611`). -/
def secondSa : List Call := firstSa ++ [
  ((1, 0), [(2, 0), (2, 1), (2, 2)]),
  ((1, 1), [(2, 1), (2, 3), (2, 4)]),
  ((1, 2), [(2, 2), (2, 4), (2, 5)]),
  ((1, 3), [(2, 6), (2, 7), (2, 8)]),
  ((1, 4), [(2, 7), (2, 9), (2, 10)]),
  ((1, 5), [(2, 8), (2, 10), (2, 11)]),
  ((1, 6), [(2, 12), (2, 13), (2, 14)]),
  ((1, 7), [(2, 13), (2, 15), (2, 16)]),
  ((1, 8), [(2, 14), (2, 16), (2, 17)])]

/-- `FirstDerivsOf_S` (`src/utility/Coordinates/cartesianDerivs.c:615-627`). -/
def firstS : List Call := [
  ((0, 0), [(1, 0), (1, 1), (1, 2)])]

/-- `FirstAndSecondDerivsOf_S` (`src/utility/Coordinates/cartesianDerivs.c:631-652`). -/
def secondS : List Call := firstS ++ [
  ((1, 0), [(2, 0), (2, 1), (2, 2)]),
  ((1, 1), [(2, 1), (2, 3), (2, 4)]),
  ((1, 2), [(2, 2), (2, 4), (2, 5)])]

/-- `allDerivsOf_Sab` (`src/utility/Coordinates/cartesianDerivs.c:659-744`). -/
def allSab : List Call := [
  ((0, 0), [(1, 0), (1, 1), (1, 2), (2, 0), (2, 1), (2, 2), (2, 3), (2, 4), (2, 5)]),
  ((0, 1), [(1, 3), (1, 4), (1, 5), (2, 6), (2, 7), (2, 8), (2, 9), (2, 10), (2, 11)]),
  ((0, 2), [(1, 6), (1, 7), (1, 8), (2, 12), (2, 13), (2, 14), (2, 15), (2, 16), (2, 17)]),
  ((0, 3), [(1, 9), (1, 10), (1, 11), (2, 18), (2, 19), (2, 20), (2, 21), (2, 22), (2, 23)]),
  ((0, 4), [(1, 12), (1, 13), (1, 14), (2, 24), (2, 25), (2, 26), (2, 27), (2, 28), (2, 29)]),
  ((0, 5), [(1, 15), (1, 16), (1, 17), (2, 30), (2, 31), (2, 32), (2, 33), (2, 34), (2, 35)])]

/-- `allDerivsOf_Sa` (`src/utility/Coordinates/cartesianDerivs.c:749-795`). -/
def allSa : List Call := [
  ((0, 0), [(1, 0), (1, 1), (1, 2), (2, 0), (2, 1), (2, 2), (2, 3), (2, 4), (2, 5)]),
  ((0, 1), [(1, 3), (1, 4), (1, 5), (2, 6), (2, 7), (2, 8), (2, 9), (2, 10), (2, 11)]),
  ((0, 2), [(1, 6), (1, 7), (1, 8), (2, 12), (2, 13), (2, 14), (2, 15), (2, 16), (2, 17)])]

/-- `allDerivsOf_S` (`src/utility/Coordinates/cartesianDerivs.c:800-820`). -/
def allS : List Call := [
  ((0, 0), [(1, 0), (1, 1), (1, 2), (2, 0), (2, 1), (2, 2), (2, 3), (2, 4), (2, 5)])]

/-- The calls of `cart_partials` in a list, in the memory of the box. -/
def cartCalls (c : CartBox K) (sched : Call → List Nat) (ρ : Nat → Nat → K) (base : Nat → Nat) (cs : List Call)
    (m : Nat × Nat → K) : Nat × Nat → K :=
  cs.foldl (fun m q => cartPartials c (sched q) ρ (base q.1.1 + q.1.2)
    (fun k => base (q.2.getD (k - 1) (0, 0)).1 + (q.2.getD (k - 1) (0, 0)).2) m) m

/-- `D_and_DD_of_Sab`, `D_and_DD_of_Sa`, `D_and_DD_of_S`
(`src/utility/Coordinates/cartesianDerivs.c:824-846`): `no` is `Getv("Coordinates_useDD","no")`, `P` are the
derivatives of `cart_partials`, `Q` those of `cart_partial_all`. -/
def dAndDD {A : Type} (no : Bool) (P Q : Nat → A → A) (second all : List Call) (base : Nat → Nat) (m : Nat → A) :
    Nat → A :=
  if no then runCalls P base second m else runCalls Q base all m

end Sgrid
