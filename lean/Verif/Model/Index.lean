import Verif.Model.Basic

/-!
Point index macros and plane loops.

`int` values are integers; the bounds under which nothing overflows are part of the theorems.
A `for` loop is run with fuel and yields the list of the values of its loop variable for which
the body is entered; `none` means that the fuel was too small. The bodies do not change the loop
variables.
-/

namespace Sgrid.Index

/-- Index and Ind_n1n2 (sgrid_main.h:16-17). -/
def index (n1 n2 i j k : Int) : Int := i + n1 * (j + n2 * k)

/-- kOfInd_n1n2 (sgrid_main.h:22); C division truncates. -/
def kOf (ijk n1 n2 : Int) : Int := ijk.tdiv (n1 * n2)

/-- jOfInd_n1n2_k (sgrid_main.h:23). -/
def jOf (ijk n1 n2 k : Int) : Int := (ijk - n1 * n2 * k).tdiv n1

/-- iOfInd_n1n2_jk (sgrid_main.h:24). -/
def iOf (ijk n1 n2 j k : Int) : Int := ijk - n1 * n2 * k - n1 * j

/-- `for(x = x0; cond; x = next)`: the values for which the body runs. -/
def cfor : Nat → Int → (Int → Bool) → (Int → Int) → Option (List Int)
  | 0, _, _, _ => none
  | fuel + 1, x, cond, next =>
    if cond x then (cfor fuel (next x) cond next).map (x :: ·) else some []

/-- Runs an inner loop for each value of an outer one. -/
def flat {β : Type} : List Int → (Int → Option (List β)) → Option (List β)
  | [], _ => some []
  | x :: xs, f => (f x).bind fun a => (flat xs f).map (a ++ ·)

/-- `for(x = 0; x < n; x++)`. -/
def upto (F : Nat) (n : Int) : Option (List Int) := cfor F 0 (fun x => decide (x < n)) (· + 1)

/-- forallijk (sgrid_main.h:25-28). -/
def forallijk (F : Nat) (n1 n2 n3 : Int) : Option (List (Int × Int × Int)) :=
  (upto F n3).bind fun ks => flat ks fun k =>
    (upto F n2).bind fun js => flat js fun j =>
      (upto F n1).bind fun is => some (is.map fun i => (i, j, k))

/-- forinnerijk (sgrid_main.h:30-33). -/
def forinnerijk (F : Nat) (n1 n2 n3 : Int) : Option (List (Int × Int × Int)) :=
  (cfor F 1 (fun x => decide (x < n3 - 1)) (· + 1)).bind fun ks => flat ks fun k =>
    (cfor F 1 (fun x => decide (x < n2 - 1)) (· + 1)).bind fun js => flat js fun j =>
      (cfor F 1 (fun x => decide (x < n1 - 1)) (· + 1)).bind fun is =>
        some (is.map fun i => (i, j, k))

/-- forplane1 (sgrid_MemoryMan_loops.h:31-33). -/
def forplane1 (F : Nat) (n2 n3 p : Int) : Option (List (Int × Int × Int)) :=
  (upto F n3).bind fun ks => flat ks fun k =>
    (upto F n2).bind fun js => some (js.map fun j => (p, j, k))

/-- forplane2 (sgrid_MemoryMan_loops.h:35-37). -/
def forplane2 (F : Nat) (n1 n3 p : Int) : Option (List (Int × Int × Int)) :=
  (upto F n3).bind fun ks => flat ks fun k =>
    (upto F n1).bind fun is => some (is.map fun i => (i, p, k))

/-- forplane3 (sgrid_MemoryMan_loops.h:39-41). -/
def forplane3 (F : Nat) (n1 n2 p : Int) : Option (List (Int × Int × Int)) :=
  (upto F n2).bind fun js => flat js fun j =>
    (upto F n1).bind fun is => some (is.map fun i => (i, j, p))

/-- One of the three loops of forplaneN (sgrid_MemoryMan_loops.h:44-47); `d` is its direction. -/
def planeLoop (F : Nat) (N d : Int) (n p : Int) : Option (List Int) :=
  cfor F (p * (if N = d then 1 else 0))
    (fun x => decide (x < n) && (decide (x = p) || decide (N ≠ d))) (· + 1)

/-- forplaneN (sgrid_MemoryMan_loops.h:44-47). -/
def forplaneN (F : Nat) (N n1 n2 n3 p : Int) : Option (List (Int × Int × Int)) :=
  (planeLoop F N 3 n3 p).bind fun ks => flat ks fun k =>
    (planeLoop F N 2 n2 p).bind fun js => flat js fun j =>
      (planeLoop F N 1 n1 p).bind fun is => some (is.map fun i => (i, j, k))

/-- One of the three loops of forinnerplaneN (sgrid_MemoryMan_loops.h:50-53). -/
def innerLoop (F : Nat) (N d : Int) (n p : Int) : Option (List Int) :=
  cfor F (1 + (p - 1) * (if N = d then 1 else 0))
    (fun x => decide (x < n - (if N ≠ d then 1 else 0)) && (decide (x = p) || decide (N ≠ d)))
    (· + 1)

/-- forinnerplaneN (sgrid_MemoryMan_loops.h:50-53). -/
def forinnerplaneN (F : Nat) (N n1 n2 n3 p : Int) : Option (List (Int × Int × Int)) :=
  (innerLoop F N 3 n3 p).bind fun ks => flat ks fun k =>
    (innerLoop F N 2 n2 p).bind fun js => flat js fun j =>
      (innerLoop F N 1 n1 p).bind fun is => some (is.map fun i => (i, j, k))

/-- The inner loop of the nojump loops for the outer value `k` (sgrid_MemoryMan_loops.h:58). -/
def zigzag (F : Nat) (n k : Int) : Option (List Int) :=
  cfor F ((n - 1) * k.tmod 2) (fun x => decide (x < n) && decide (x ≥ 0))
    (fun x => x + 1 - 2 * k.tmod 2)

/-- forplane1_nojump (sgrid_MemoryMan_loops.h:56-58). -/
def forplane1_nojump (F : Nat) (n2 n3 p : Int) : Option (List (Int × Int × Int)) :=
  (upto F n3).bind fun ks => flat ks fun k =>
    (zigzag F n2 k).bind fun js => some (js.map fun j => (p, j, k))

/-- forplane2_nojump (sgrid_MemoryMan_loops.h:60-62). -/
def forplane2_nojump (F : Nat) (n1 n3 p : Int) : Option (List (Int × Int × Int)) :=
  (upto F n3).bind fun ks => flat ks fun k =>
    (zigzag F n1 k).bind fun is => some (is.map fun i => (i, p, k))

/-- forplane3_nojump (sgrid_MemoryMan_loops.h:64-66). -/
def forplane3_nojump (F : Nat) (n1 n2 p : Int) : Option (List (Int × Int × Int)) :=
  (upto F n2).bind fun js => flat js fun j =>
    (zigzag F n1 j).bind fun is => some (is.map fun i => (i, j, p))

end Sgrid.Index
