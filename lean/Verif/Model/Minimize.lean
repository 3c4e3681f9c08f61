import Mathlib.Algebra.Order.Field.Basic
import Verif.Model.Basic
import Verif.Model.RootFind

/-!
# Minimisation in one dimension

`src/utility/numerics/minbrent_brak.c` and `src/utility/NumericUtils/{brent,mnbrak}.c`. Doubles are elements
of an ordered field. `maxits` is not negative. Messages are left out.
-/

namespace Sgrid

variable {K : Type} [Field K] [LinearOrder K]

/-- The macro `A_WITH_SIGNOF_B` (`src/utility/numerics/minbrent_brak.c:7`), `SIGN` in
`src/utility/NumericUtils/nrutil.h:58`. -/
def withSignOf (a b : K) : K := if b ≥ 0 then |a| else -|a|

/-- The variables of `brent` that live through the loop. A variable that has not been set is `none`. -/
structure MinState (K : Type) where
  a : K
  b : K
  v : K
  w : K
  x : K
  fv : K
  fw : K
  fx : K
  d : Option K
  e : K

/-- `e` and `d` of a golden section step (`src/utility/numerics/minbrent_brak.c:67-68,79-80`). -/
def minGolden (xm : K) (s : MinState K) : K × K :=
  let e := if s.x ≥ xm then s.a - s.x else s.b - s.x
  (e, 381966 / 1000000 * e)

/-- `p` and `q` of the parabola (`src/utility/numerics/minbrent_brak.c:57-62`). -/
def minParabola (s : MinState K) : K × K :=
  let r := (s.x - s.w) * (s.fx - s.fv)
  let q := (s.x - s.v) * (s.fx - s.fw)
  let p := (s.x - s.v) * q - (s.x - s.w) * r
  let q := 2 * (q - r)
  (if q > 0 then -p else p, |q|)

/-- `e` and `d` of the next step (`src/utility/numerics/minbrent_brak.c:55-81`), `none` if a variable is
read that has not been set. -/
def minTry (xm tol1 tol2 : K) (s : MinState K) : Option (K × K) :=
  if |s.e| > tol1 then
    let pq := minParabola s
    match s.d with
    | none => none
    | some d0 =>
      if |pq.1| ≥ |1 / 2 * pq.2 * s.e| ∨ pq.1 ≤ pq.2 * (s.a - s.x) ∨ pq.1 ≥ pq.2 * (s.b - s.x) then
        some (minGolden xm s)
      else
        let d := pq.1 / pq.2
        let u := s.x + d
        some (d0, if u - s.a < tol2 ∨ s.b - u < tol2 then withSignOf tol1 (xm - s.x) else d)
  else some (minGolden xm s)

/-- The bookkeeping after `f` has been evaluated at `u` (`src/utility/numerics/minbrent_brak.c:85-109`). -/
def minKeep (u fu : K) (s : MinState K) : MinState K :=
  if fu ≤ s.fx then
    let s := if u ≥ s.x then { s with a := s.x } else { s with b := s.x }
    { s with v := s.w, w := s.x, x := u, fv := s.fw, fw := s.fx, fx := fu }
  else
    let s := if u < s.x then { s with a := u } else { s with b := u }
    if fu ≤ s.fw ∨ s.w = s.x then { s with v := s.w, w := u, fv := s.fw, fw := fu }
    else if fu ≤ s.fv ∨ s.v = s.x ∨ s.v = s.w then { s with v := u, fv := fu }
    else s

/-- One pass of the loop in `brent_with_pointer_to_pars` (`src/utility/NumericUtils/brent.c:88-131`): the
number of the pass, `*xmin` and the value there, or the next state. -/
def minPass (f : K → K) (tol : K) (j : Nat) (s : MinState K) : Res (Int × K × K) ⊕ MinState K :=
  let xm := 1 / 2 * (s.a + s.b)
  let tol1 := tol * |s.x| + 1 / 10 ^ 10
  let tol2 := 2 * tol1
  if |s.x - xm| ≤ tol2 - 1 / 2 * (s.b - s.a) then .inl (.ok (j, s.x, s.fx)) else
  match minTry xm tol1 tol2 s with
  | none => .inl .ub
  | some ed =>
    let u := if |ed.2| ≥ tol1 then s.x + ed.2 else s.x + withSignOf tol1 ed.2
    .inr { minKeep u (f u) s with e := ed.1, d := some ed.2 }

/-- The state before the loop (`src/utility/numerics/minbrent_brak.c:31-40`). -/
def minInit (f : K → K) (ax bx cx : K) : MinState K :=
  ⟨if ax < cx then ax else cx, if ax > cx then ax else cx, bx, bx, bx, f bx, f bx, f bx, none, 0⟩

/-- `brent_with_pointer_to_pars` (`src/utility/NumericUtils/brent.c:75-136`, also `brent` in lines 10-70).
`nrerror` ends the program. -/
def brentMin (f : K → K) (ax bx cx tol : K) : Res (Int × K × K) :=
  match forRet 100 (minPass f tol) (minInit f ax bx cx) with
  | .inl r => r
  | .inr _ => .abort

/-- `minbrent_brak` (`src/utility/numerics/minbrent_brak.c:21-115`): the return value, `*xmin` and `*fmin`.
The variable `d` is declared inside the loop (line 43), so in every pass it starts without a value. What is
found in `d` at the start of pass `j` is `junk j`. -/
def minbrent (junk : Nat → Option K) (f : K → K) (ax bx cx : K) (maxits : Nat) (tol : K) :
    Res (Int × K × K) :=
  match forRet maxits (fun j s => minPass f tol j { s with d := junk j }) (minInit f ax bx cx) with
  | .inl r => r
  | .inr s => .ok (maxits + 1, s.x, s.fx)

/-- The three points of `min_brak` and the values there. -/
structure Tri (K : Type) where
  a : K
  b : K
  c : K
  fa : K
  fb : K
  fc : K
  deriving DecidableEq

/-- The point extrapolated by a parabola (`src/utility/numerics/minbrent_brak.c:144-148`). -/
def triParabola (s : Tri K) : K :=
  let r := (s.b - s.a) * (s.fb - s.fc)
  let q := (s.b - s.c) * (s.fb - s.fa)
  s.b - ((s.b - s.c) * q - (s.b - s.a) * r) /
    (2 * withSignOf (max |q - r| (1 / 10 ^ 20)) (q - r))

/-- The golden section step beyond `c` (`src/utility/numerics/minbrent_brak.c:169,177,188`). -/
def triBeyond (s : Tri K) : K := s.c + 1618034 / 1000000 * (s.c - s.b)

/-- One pass of the loop in `min_brak` (`src/utility/numerics/minbrent_brak.c:142-192`). -/
def triStep (f : K → K) (j : Nat) (s : Tri K) : (Int × Tri K) ⊕ Tri K :=
  if s.fb ≤ s.fc then .inl (j, s) else
  let u := triParabola s
  let ulim := s.b + 100 * (s.c - s.b)
  let next (s : Tri K) (u : K) : Tri K := ⟨s.b, s.c, u, s.fb, s.fc, f u⟩
  if (s.b - u) * (u - s.c) > 0 then
    if f u < s.fc then .inl (j, ⟨s.b, u, s.c, s.fb, f u, s.fc⟩)
    else if f u > s.fb then .inl (j, { s with c := u, fc := f u })
    else .inr (next s (triBeyond s))
  else if (s.c - u) * (u - ulim) > 0 then
    if f u < s.fc then
      let s : Tri K := { s with b := s.c, c := u, fb := s.fc, fc := f u }
      .inr (next s (triBeyond s))
    else .inr (next s u)
  else if (u - ulim) * (ulim - s.c) ≥ 0 then .inr (next s ulim)
  else .inr (next s (triBeyond s))

/-- The points before the loop (`src/utility/numerics/minbrent_brak.c:129-138`). -/
def triInit (f : K → K) (ax bx : K) : Tri K :=
  let p := if f bx > f ax then (bx, ax) else (ax, bx)
  let cx := p.2 + 1618034 / 1000000 * (p.2 - p.1)
  ⟨p.1, p.2, cx, f p.1, f p.2, f cx⟩

/-- `min_brak` (`src/utility/numerics/minbrent_brak.c:122-195`): the return value and the points.
`mnbrak_with_pointer_to_pars` (`src/utility/NumericUtils/mnbrak.c:64-115`) is the same without a limit. -/
def minBrak (f : K → K) (ax bx : K) (maxits : Nat) : Int × Tri K :=
  match forRet maxits (triStep f) (triInit f ax bx) with
  | .inl r => r
  | .inr s => (maxits + 1, s)

end Sgrid
