import Mathlib.Algebra.Order.Field.Basic
import Verif.Model.PureLoop

/-!
# Root finders in one dimension

`src/utility/numerics/{newton1d_brak,rtbrent_brak,rt_brak}.c` and
`src/utility/NumericUtils/{newton1d_brak,rtsafe_itsP,zbrent,zbrac}.c`. Doubles are elements of an ordered
field, so `finit` and `isfinite` are always true. `maxits` is not negative and the return values do not
overflow an `int`. Messages are left out.
-/

namespace Sgrid

/-- `for(j=1; j<=n; j++)` around a body that may return. -/
def forRet {σ ρ : Type} (n : Nat) (body : Nat → σ → ρ ⊕ σ) (s : σ) : ρ ⊕ σ :=
  upLoop 1 (n + 1) (fun j r => match r with
    | .inl x => .inl x
    | .inr s => body j s) (.inr s)

variable {K : Type} [Field K] [LinearOrder K]

/-- The starting guess (`src/utility/numerics/newton1d_brak.c:38-40,141-143`). -/
def rtGuess (x0 x1 x2 : K) : K :=
  if (x1 ≤ x0 ∧ x0 ≤ x2) ∨ (x2 ≤ x0 ∧ x0 ≤ x1) then x0 else 1 / 2 * (x1 + x2)

/-- `xl`, `xh` and `xrt`. -/
structure BisState (K : Type) where
  xl : K
  xh : K
  xrt : K

/-- One pass of the loop in `rtbisect` (`src/utility/numerics/newton1d_brak.c:172-191`; `dxold` is
never used). -/
def bisStep (f : K → K) (xacc : K) (j : Nat) (s : BisState K) : (Int × K) ⊕ BisState K :=
  let fx := f s.xrt
  if fx = 0 then .inl (j, s.xrt) else
  let xl := if fx < 0 then s.xrt else s.xl
  let xh := if fx < 0 then s.xh else s.xrt
  let dx := 1 / 2 * (xh - xl)
  let xrt := xl + dx
  if xl = xrt then .inl (j, xrt) else
  if |dx| < xacc then .inl (j, xrt) else
  .inr ⟨xl, xh, xrt⟩

/-- `rtbisect` (`src/utility/numerics/newton1d_brak.c:125-197`): the return value and `*x0`. -/
def rtbisect (f : K → K) (x0 x1 x2 : K) (maxits : Nat) (xacc : K) : Int × K :=
  let xrt := rtGuess x0 x1 x2
  let fl := f x1
  let fh := f x2
  let j := if fl ≤ 0 ∧ fh ≥ 0 then 1 else 0
  let j := if fl ≥ 0 ∧ fh ≤ 0 then 1 else j
  if j = 0 then (-2 * maxits - 3, x0) else
  if fl = 0 then (0, x1) else
  if fh = 0 then (0, x2) else
  let s : BisState K := if fl < 0 then ⟨x1, x2, xrt⟩ else ⟨x2, x1, xrt⟩
  match forRet maxits (bisStep f xacc) s with
  | .inl r => r
  | .inr s => (maxits + 1, s.xrt)

/-- The variables of `newton1d_brak`. -/
structure NewtState (K : Type) where
  xl : K
  xh : K
  xrt : K
  dx : K
  dxold : K

/-- The bisection step of `newton1d_brak` and the accuracy goal
(`src/utility/numerics/newton1d_brak.c:103-111`). -/
def newtBisect (xacc : K) (j : Nat) (s : NewtState K) : (Int × K) ⊕ NewtState K :=
  let dx := 1 / 2 * (s.xh - s.xl)
  let xrt := s.xl + dx
  if s.xl = xrt then .inl (j, xrt) else
  if |dx| < xacc then .inl (j, xrt) else
  .inr { s with xrt := xrt, dx := dx, dxold := s.dx }

/-- One pass of the loop in `newton1d_brak` (`src/utility/numerics/newton1d_brak.c:70-112`). -/
def newtStep (f df : K → K) (xacc : K) (j : Nat) (s : NewtState K) : (Int × K) ⊕ NewtState K :=
  let fx := f s.xrt
  let dfx := df s.xrt
  if fx = 0 then .inl (j, s.xrt) else
  let s := if fx < 0 then { s with xl := s.xrt } else { s with xh := s.xrt }
  if |2 * fx| > |s.dxold * dfx| then newtBisect xacc j s else
  let dx := fx / dfx
  let xrt := s.xrt - dx
  if (xrt - s.xh) * (xrt - s.xl) > 0 ∨ s.xrt = xrt then newtBisect xacc j s else
  if |dx| < xacc then .inl (j, xrt) else
  .inr { s with xrt := xrt, dx := dx, dxold := s.dx }

/-- `newton1d_brak` (`src/utility/numerics/newton1d_brak.c:20-118`): the return value and `*x0`. -/
def newton1d (f df : K → K) (x0 x1 x2 : K) (maxits : Nat) (xacc : K) : Int × K :=
  let xrt := rtGuess x0 x1 x2
  let fl := f x1
  let fh := f x2
  let j := if fl ≤ 0 ∧ fh ≥ 0 then 1 else 0
  let j := if fl ≥ 0 ∧ fh ≤ 0 then 1 else j
  if j = 0 then (-2 * maxits - 3, x0) else
  if fl = 0 then (0, x1) else
  if fh = 0 then (0, x2) else
  let dx := |x2 - x1|
  let s : NewtState K := if fl < 0 then ⟨x1, x2, xrt, dx, dx⟩ else ⟨x2, x1, xrt, dx, dx⟩
  match forRet maxits (newtStep f df xacc) s with
  | .inl r => r
  | .inr s => (maxits + 1, s.xrt)

/-- The variables of `rtbrent_brak` that live through the loop. -/
structure BrentState (K : Type) where
  a : K
  b : K
  c : K
  fa : K
  fb : K
  fc : K
  d : K
  e : K

/-- The two exchanges at the top of the loop (`src/utility/numerics/rtbrent_brak.c:57-71`). -/
def brentOrder (s : BrentState K) : BrentState K :=
  let s := if (s.fb < 0 ∧ s.fc < 0) ∨ (s.fb > 0 ∧ s.fc > 0) then
      { s with c := s.a, fc := s.fa, e := s.b - s.a, d := s.b - s.a } else s
  if |s.fc| < |s.fb| then
    { s with a := s.b, b := s.c, c := s.b, fa := s.fb, fb := s.fc, fc := s.fb } else s

/-- `b + d`, or `b` and one tolerance in the direction of `c`
(`src/utility/numerics/rtbrent_brak.c:112-116,137-140`). -/
def brentMove (b d tol xm : K) : K :=
  if |d| > tol then b + d else b + (if xm ≥ 0 then tol else -tol)

/-- `p` and `q` of the interpolation (`src/utility/numerics/rtbrent_brak.c:87-103`). -/
def brentPQ (s : BrentState K) (xm : K) : K × K :=
  let s' := s.fb / s.fa
  let pq := if s.a = s.c then (2 * xm * s', 1 - s') else
    let q := s.fa / s.fc
    let r := s.fb / s.fc
    (s' * (2 * xm * q * (q - r) - (s.b - s.a) * (r - 1)), (q - 1) * (r - 1) * (s' - 1))
  (|pq.1|, if pq.1 > 0 then -pq.2 else pq.2)

/-- `b_new`, `d` and `e` (`src/utility/numerics/rtbrent_brak.c:82-141`). -/
def brentNew (x1 x2 tol xm : K) (s : BrentState K) : K × K × K :=
  let bis := (brentMove s.b xm tol xm, xm, xm)
  if |s.e| < tol ∨ |s.fa| ≤ |s.fb| then bis else
  let pq := brentPQ s xm
  if 2 * pq.1 < min (3 * xm * pq.2 - |tol * pq.2|) |s.e * pq.2| then
    let d := pq.1 / pq.2
    let b_new := brentMove s.b d tol xm
    if (b_new - x2) * (b_new - x1) > 0 then bis else (b_new, d, s.d)
  else bis

/-- One pass of the loop in `rtbrent_brak` (`src/utility/numerics/rtbrent_brak.c:55-150`). -/
def brentStep (f : K → K) (x1 x2 xacc : K) (j : Nat) (s : BrentState K) :
    (Int × K) ⊕ BrentState K :=
  let s := brentOrder s
  let tol := 2 * (1 / 10 ^ 14) * |s.b| + 1 / 2 * xacc
  let xm := 1 / 2 * (s.c - s.b)
  if |xm| ≤ tol ∨ s.fb = 0 then .inl (j, s.b) else
  let n := brentNew x1 x2 tol xm s
  .inr ⟨s.b, n.1, s.c, s.fb, f n.1, s.fc, n.2.1, n.2.2⟩

/-- `rtbrent_brak` (`src/utility/numerics/rtbrent_brak.c:18-157`): the return value and `*x0`. -/
def rtbrent (f : K → K) (x0 x1 x2 : K) (maxits : Nat) (xacc : K) : Int × K :=
  let fa := f x1
  let fb := f x2
  if (fa < 0 ∧ fb < 0) ∨ (fa > 0 ∧ fb > 0) then (-2 * maxits - 3, x0) else
  match forRet maxits (brentStep f x1 x2 xacc) ⟨x1, x2, x2, fa, fb, fb, x2 - x1, x2 - x1⟩ with
  | .inl r => r
  | .inr s => (maxits + 1, s.b)

/-- `b`, `d` and `e` after a pass of `zbrent_itsP` (`src/utility/NumericUtils/zbrent.c:46-75`). -/
def zbrentNew (tol xm : K) (s : BrentState K) : K × K × K :=
  let de := if |s.e| ≥ tol ∧ |s.fa| > |s.fb| then
      let pq := brentPQ s xm
      let min1 := 3 * xm * pq.2 - |tol * pq.2|
      let min2 := |s.e * pq.2|
      if 2 * pq.1 < (if min1 < min2 then min1 else min2) then (pq.1 / pq.2, s.d) else (xm, xm)
    else (xm, xm)
  (brentMove s.b de.1 tol xm, de)

/-- One pass of the loop in `zbrent_itsP` (`src/utility/NumericUtils/zbrent.c:24-77`). -/
def zbrentStep (f : K → K) (tol : K) (j : Nat) (s : BrentState K) : (Int × K) ⊕ BrentState K :=
  let s := brentOrder s
  let tol1 := 2 * (1 / 10 ^ 14) * |s.b| + 1 / 2 * tol
  let xm := 1 / 2 * (s.c - s.b)
  if |xm| ≤ tol1 ∨ s.fb = 0 then .inl (j, s.b) else
  let n := zbrentNew tol1 xm s
  .inr ⟨s.b, n.1, s.c, s.fb, f n.1, s.fc, n.2.1, n.2.2⟩

/-- `zbrent_itsP` (`src/utility/NumericUtils/zbrent.c:11-80`): the return value and `*x0`; `d0` and `e0`
are the uninitialised `d` and `e`. -/
def zbrentItsP (f : K → K) (d0 e0 x0 x1 x2 : K) (maxits : Nat) (tol : K) : Int × K :=
  let fa := f x1
  let fb := f x2
  if (fa > 0 ∧ fb > 0) ∨ (fa < 0 ∧ fb < 0) then (-1, x0) else
  match forRet maxits (zbrentStep f tol) ⟨x1, x2, x2, fa, fb, fb, d0, e0⟩ with
  | .inl r => r
  | .inr _ => (-(maxits + 1) - 1, x0)

/-- The bounds and the values of the function there. -/
structure BrakState (K : Type) where
  x1 : K
  x2 : K
  f1 : K
  f2 : K

/-- One pass of the loop in `rt_brak` (`src/utility/numerics/rt_brak.c:26-42`). -/
def brakStep (f : K → K) (j : Nat) (s : BrakState K) : (Int × K × K) ⊕ BrakState K :=
  if s.f1 * s.f2 < 0 then .inl (j, s.x1, s.x2) else
  if |s.f1| < |s.f2| then
    let x1 := s.x1 + 16 / 10 * (s.x1 - s.x2)
    .inr { s with x1 := x1, f1 := f x1 }
  else
    let x2 := s.x2 + 16 / 10 * (s.x2 - s.x1)
    .inr { s with x2 := x2, f2 := f x2 }

/-- `rt_brak` (`src/utility/numerics/rt_brak.c:11-45`; `zbrac_P` in `src/utility/NumericUtils/zbrac.c:9-32`
is the same with `maxits` 50): the return value, `*x1` and `*x2`. -/
def rtBrak (f : K → K) (x1 x2 : K) (maxits : Nat) : Int × K × K :=
  if x1 = x2 then (-1, x1, x2) else
  match forRet maxits (brakStep f) ⟨x1, x2, f x1, f x2⟩ with
  | .inl r => r
  | .inr s => (-(maxits + 1) - 1, s.x1, s.x2)

end Sgrid
