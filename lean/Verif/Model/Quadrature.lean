import Mathlib.Algebra.Order.Field.Basic
import Verif.Model.Basic
import Verif.Model.RootFind

/-!
# Integrals in one dimension

`src/utility/NumericUtils/{integrals_1Dgrid,integral}.c`. Doubles are elements of an ordered field. In
`trapezit` the number of points `it` is an `int`; it does not overflow if `n` is at most 32, this is assumed.
-/

namespace Sgrid

section
variable {K : Type} [Field K]

/-- `integrate_trapez_1Dgrid` (`src/utility/NumericUtils/integrals_1Dgrid.c:7-17`). -/
def trapez1D (f : Nat → K) (dx : K) (i1 i2 : Nat) : K :=
  upLoop i1 i2 (fun i sum => sum + dx / 2 * (f i + f (i + 1))) 0

/-- `for(i = i1; i < i2-1; i += 2)` with the Simpson rule as body, added to `sum`; there are `(i2-i1)/2`
passes (`src/utility/NumericUtils/integrals_1Dgrid.c:37-38,66-67`). -/
def simpsonLoop (f : Nat → K) (dx : K) (i1 i2 : Nat) (sum : K) : K :=
  upLoop 0 ((i2 - i1) / 2) (fun k sum =>
    let i := i1 + 2 * k
    sum + dx / 3 * (f i + 4 * f (i + 1) + f (i + 2))) sum

/-- `integrate_simpson_1Dgrid` (`src/utility/NumericUtils/integrals_1Dgrid.c:21-45`), for `i1 <= i2`. -/
def simpson1D (f : Nat → K) (dx : K) (i1 i2 : Nat) : K :=
  if i2 - i1 < 3 then trapez1D f dx i1 i2 else
  let ioff := if (i2 - i1 + 1) % 2 = 0 then 3 else 0
  let sum := simpsonLoop f dx i1 (i2 - ioff) 0
  if (i2 - i1 + 1) % 2 = 0 then
    sum + 3 * dx * (f (i2 - 3) + 3 * (f (i2 - 2) + f (i2 - 1)) + f i2) / 8
  else sum

/-- `integrate_simpson_old_1Dgrid` (`src/utility/NumericUtils/integrals_1Dgrid.c:50-70`), for `i1 <= i2`. -/
def simpsonOld1D (f : Nat → K) (dx : K) (i1 i2 : Nat) : K :=
  if (i2 - i1 + 1) % 2 = 0 then
    simpsonLoop f dx (i1 + 3) i2
      (0 + 3 * dx * (f (i1 + 0) + 3 * (f (i1 + 1) + f (i1 + 2)) + f (i1 + 3)) / 8)
  else simpsonLoop f dx i1 i2 0

/-- `trapezit` (`src/utility/NumericUtils/integral.c:59-76`). -/
def trapezit (f : K → K) (a b : K) (n : Nat) (s_old : K) : K :=
  if n = 1 then 1 / 2 * (b - a) * (f a + f b) else
  let it : Nat := upLoop 1 (n - 1) (fun _ it => it * 2) 1
  let tnm : K := it
  let h := (b - a) / tnm
  let xs := upLoop 1 (it + 1) (fun _ (xs : K × K) => (xs.1 + h, xs.2 + f xs.1)) (a + 1 / 2 * h, 0)
  1 / 2 * (s_old + (b - a) * xs.2 / tnm)

end

variable {K : Type} [Field K] [LinearOrder K]

/-- `integral` (`src/utility/NumericUtils/integral.c:34-50`), for `max > 0`; the loop variable of `forRet` is
`j-1`. -/
def integralTrapez (f : K → K) (a b s : K) (max : Nat) : K :=
  let itold := trapezit f a b 1 0
  match forRet (max - 1) (fun j itold =>
    let itnew := trapezit f a b (j + 1) itold
    let d := |itnew - itold|
    if d < s * |itold| then .inl itnew else .inr itnew) itold with
  | .inl itnew => itnew
  | .inr itnew => itnew

/-- The variables of `polint`. -/
structure PolState (K : Type) where
  c : Nat → K
  d : Nat → K
  y : K
  dy : K
  ns : Nat

/-- The index of the closest point, starting from 1 (`src/utility/NumericUtils/integral.c:152-162`). -/
def polNearest (xa : Nat → K) (n : Nat) (x : K) : Nat :=
  (upLoop 1 (n + 1) (fun i (s : Nat × K) =>
    let dift := |x - xa i|
    if dift < s.2 then (i, dift) else s) (1, |x - xa 1|)).1

/-- The loop over `i` (`src/utility/NumericUtils/integral.c:165-173`). -/
def polInner (xa : Nat → K) (x : K) (n m : Nat) (cd : (Nat → K) × (Nat → K)) : (Nat → K) × (Nat → K) :=
  upLoop 1 (n - m + 1) (fun i cd =>
    let ho := xa i - x
    let hp := xa (i + m) - x
    let w := cd.1 (i + 1) - cd.2 i
    let den := ho - hp
    let den := w / den
    (aset cd.1 i (ho * den), aset cd.2 i (hp * den))) cd

/-- One pass over `m` (`src/utility/NumericUtils/integral.c:164-175`). -/
def polStep (xa : Nat → K) (x : K) (n m : Nat) (s : PolState K) : PolState K :=
  let cd := polInner xa x n m (s.c, s.d)
  if 2 * s.ns < n - m then
    let dy := cd.1 (s.ns + 1)
    ⟨cd.1, cd.2, s.y + dy, dy, s.ns⟩
  else
    let dy := cd.2 s.ns
    ⟨cd.1, cd.2, s.y + dy, dy, s.ns - 1⟩

/-- `polint` (`src/utility/NumericUtils/integral.c:146-178`): `*y` and `*dy`. The arrays start with index 1. -/
def polint (xa ya : Nat → K) (n : Nat) (x dy : K) : K × K :=
  let ns := polNearest xa n x
  let s := upLoop 1 n (polStep xa x n) ⟨ya, ya, ya ns, dy, ns - 1⟩
  (s.y, s.dy)

/-- The variables of `rombintegral`; `ss` is `none` before it is set. -/
structure RombState (K : Type) where
  s : Nat → K
  h : Nat → K
  ss : Option K
  dss : K

/-- One pass of the loop in `rombintegral` (`src/utility/NumericUtils/integral.c:125-137`). -/
def rombStep (f : K → K) (a b eps : K) (j : Nat) (t : RombState K) : K ⊕ RombState K :=
  let s := aset t.s j (trapezit f a b j (t.s (j - 1)))
  let h := aset t.h (j + 1) (1 / 4 * t.h j)
  if j ≥ 5 then
    let r := polint (fun k => t.h (j - 5 + k)) (fun k => s (j - 5 + k)) 5 0 t.dss
    if |r.2| ≤ eps * |r.1| then .inl r.1 else .inr ⟨s, h, some r.1, r.2⟩
  else .inr ⟨s, h, t.ss, t.dss⟩

/-- `rombintegral` (`src/utility/NumericUtils/integral.c:109-142`). The arrays and `dss` start with what is
found in memory. -/
def rombintegral (s0 h0 : Nat → K) (dss0 : K) (f : K → K) (a b eps : K) (max : Nat) : Res K :=
  match forRet max (rombStep f a b eps) ⟨s0, aset h0 1 1, none, dss0⟩ with
  | .inl ss => .ok ss
  | .inr t => match t.ss with
    | none => .ub
    | some ss => .ok ss

end Sgrid
