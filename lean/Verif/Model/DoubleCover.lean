import Mathlib.Algebra.Field.Basic
import Verif.Model.Basic
import Verif.Model.Lines
import Verif.Model.Parallel

/-!
Double covered points, src/utility/Coordinates/doubleCovering.c. Arrays are functions of the index; every
variable of the list has storage.
-/

namespace Sgrid
variable {K : Type}

/-- Body of the averaging loops (doubleCovering.c:70-72, 79-81) with the two places. -/
def avgBody [Field K] (a b : Nat) (u : Nat → K) : Nat → K :=
  let av := (u a + u b) * (1 / 2)
  aset (aset u a av) b av

/-- The loops for one variable (doubleCovering.c:44-82): the first pair of loops takes `k` below `n3/2` and
goes to `k+n3/2`, the second one takes the other `k` and goes to `k-n3/2`. -/
def resetVar [Field K] (d : Dims) (u : Nat → K) : Res (Nat → K) :=
  if d.n2 % 2 ≠ 0 ∨ d.n3 % 2 ≠ 0 then .abort
  else
    let u := upLoop 0 (d.n3 / 2) (fun k u => upLoop (d.n2 / 2) d.n2 (fun j u => upLoop 0 d.n1 (fun i u =>
      avgBody (d.idx i j k) (d.idx i (d.n2 - j - 1) (k + d.n3 / 2)) u) u) u) u
    let u := upLoop (d.n3 / 2) d.n3 (fun k u => upLoop (d.n2 / 2) d.n2 (fun j u => upLoop 0 d.n1 (fun i u =>
      avgBody (d.idx i j k) (d.idx i (d.n2 - j - 1) (k - d.n3 / 2)) u) u) u) u
    .ok u

/-- reset_doubleCoveredPoints_SphericalDF (doubleCovering.c:34-84): all variables of the list. -/
def resetDoubleCovered [Field K] (d : Dims) : List Nat → (Nat → Nat → K) → Res (Nat → Nat → K)
  | [], v => .ok v
  | x :: xs, v => (resetVar d (v x)).bind fun u => resetDoubleCovered d xs (Function.update v x u)

/-- One assignment of copy_to_doubleCoveredPoints_SphericalDF (doubleCovering.c:107, 114) as accesses to
the shared memory. -/
def copyActs (dst src : Nat) : List (Act Nat K) := [.load 0 src, .store dst (fun r => r 0)]

/-- One pass `k` of the first parallel loop (doubleCovering.c:102-108). -/
def copyPass1 (d : Dims) (k : Nat) : List (Act Nat K) :=
  (List.range' (d.n2 / 2) (d.n2 - d.n2 / 2)).flatMap fun j => (List.range' 0 d.n1).flatMap fun i =>
    copyActs (d.idx i j k) (d.idx i (d.n2 - j - 1) (k + d.n3 / 2))

/-- Pass number `p` of the second parallel loop (doubleCovering.c:109-115), where `k` starts at `n3/2`. -/
def copyPass2 (d : Dims) (p : Nat) : List (Act Nat K) :=
  (List.range' (d.n2 / 2) (d.n2 - d.n2 / 2)).flatMap fun j => (List.range' 0 d.n1).flatMap fun i =>
    copyActs (d.idx i j (p + d.n3 / 2)) (d.idx i (d.n2 - j - 1) (p + d.n3 / 2 - d.n3 / 2))

/-- copy_to_doubleCoveredPoints_SphericalDF (doubleCovering.c:88-116) under a schedule for each of the two
parallel loops. The first loop is finished before the second one starts. -/
def copyToDoubleCovered (d : Dims) (ρ1 ρ2 : Nat → Nat → K) (s1 s2 : List Nat) (u : Nat → K) : Res (Nat → K) :=
  if d.n2 % 2 ≠ 0 ∨ d.n3 % 2 ≠ 0 then .abort
  else .ok (parLoop (copyPass2 d) ρ2 (parLoop (copyPass1 d) ρ1 u s1) s2)

end Sgrid
