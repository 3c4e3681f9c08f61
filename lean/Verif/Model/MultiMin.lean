import Verif.Model.NewtonLine
import Verif.Model.Minimize

/-!
Minimisation by golden sections, along a line and in several dimensions, and the last step of a least squares fit
(src/utility/NumericUtils/golden.c, linmin.c, powell.c, dpythag.c, dsvbksb.c). Arrays begin at 1. Memory allocation does
not fail.
-/

namespace Sgrid

section golden

variable {K : Type} [Field K] [LinearOrder K]

/-- `R` and `C` (golden.c:2-3). -/
def goldR : K := 61803399 / 100000000
def goldC : K := 1 - goldR

/-- The variables of golden (golden.c:10). -/
structure GoldState (K : Type) where
  x0 : K
  x1 : K
  x2 : K
  x3 : K
  f1 : K
  f2 : K
  deriving DecidableEq

/-- The state before the loop (golden.c:12-22). -/
def goldInit (f : K → K) (ax bx cx : K) : GoldState K :=
  let p := if |cx - bx| > |bx - ax| then (bx, bx + goldC * (cx - bx)) else (bx - goldC * (bx - ax), bx)
  ⟨ax, p.1, p.2, cx, f p.1, f p.2⟩

/-- The body of the loop (golden.c:24-30). The macros assign one variable after the other, so that the last argument is
computed with the new values. -/
def goldStep (f : K → K) (s : GoldState K) : GoldState K :=
  if s.f2 < s.f1 then
    let x0 := s.x1
    let x1 := s.x2
    let x2 := goldR * x1 + goldC * s.x3
    ⟨x0, x1, x2, s.x3, s.f2, f x2⟩
  else
    let x3 := s.x2
    let x2 := s.x1
    let x1 := goldR * x2 + goldC * s.x0
    ⟨s.x0, x1, x2, x3, f x1, s.f1⟩

/-- The loop (golden.c:23-31), `none` if it is not finished after `fuel` tests. -/
def goldLoop (f : K → K) (tol : K) : Nat → GoldState K → Option (GoldState K)
  | 0, _ => none
  | fuel + 1, s =>
    if |s.x3 - s.x0| > tol * (|s.x1| + |s.x2|) then goldLoop f tol fuel (goldStep f s) else some s

/-- golden (golden.c:7-39): `*xmin` and the value returned. -/
def golden (fuel : Nat) (f : K → K) (ax bx cx tol : K) : Option (K × K) :=
  (goldLoop f tol fuel (goldInit f ax bx cx)).map fun s => if s.f1 < s.f2 then (s.x1, s.f1) else (s.x2, s.f2)

end golden

noncomputable section

/-- dpythag (dpythag.c:5-12). -/
def dpythag (a b : ℝ) : ℝ :=
  let absa := |a|
  let absb := |b|
  if absa > absb then absa * Real.sqrt (1 + (absb / absa) * (absb / absa))
  else if absb = 0 then 0 else absb * Real.sqrt (1 + (absa / absb) * (absa / absb))

/-- dsvbksb (dsvbksb.c:4-23). -/
def svdBack (u : Mat ℝ) (w : RArr) (v : Mat ℝ) (m n : Nat) (b x : RArr) : RArr :=
  let tmp := upLoop 1 (n + 1) (fun j tmp =>
    aset tmp j (if w j ≠ 0 then upLoop 1 (m + 1) (fun i s => s + u i j * b i) 0 / w j else 0)) (fun _ => (0 : ℝ))
  upLoop 1 (n + 1) (fun j x => aset x j (upLoop 1 (n + 1) (fun jj s => s + v j jj * tmp jj) 0)) x

/-- f1dim (linmin.c:52-62); `xt` is new memory. -/
def f1dim (func : RArr → ℝ) (n : Nat) (pcom xicom xt : RArr) (x : ℝ) : ℝ :=
  func (upLoop 1 (n + 1) (fun j xt => aset xt j (pcom j + x * xicom j)) xt)

/-- The step (linmin.c:31-34). -/
def linMove (n : Nat) (xmin : ℝ) (p xi : RArr) : RArr × RArr :=
  upLoop 1 (n + 1) (fun j (s : RArr × RArr) =>
    let xi := aset s.2 j (s.2 j * xmin)
    (aset s.1 j (s.1 j + xi j), xi)) (p, xi)

/-- linmin (linmin.c:8-37): `p`, `xi` and `*fret`. `abort` is nrerror in brent, or a search in mnbrak that is not
finished after `fuel` passes. -/
def linmin (fuel : Nat) (func : RArr → ℝ) (n : Nat) (junk : RArr) (p xi : RArr) : Res (RArr × RArr × ℝ) :=
  let pcom := upLoop 1 (n + 1) (fun j a => aset a j (p j)) junk
  let xicom := upLoop 1 (n + 1) (fun j a => aset a j (xi j)) junk
  let f := f1dim func n pcom xicom junk
  let r := minBrak f 0 1 fuel
  if r.1 > fuel then .abort else
  (brentMin f r.2.a r.2.b r.2.c (2 / 10 ^ 4)).bind fun q =>
  let o := linMove n q.2.1 p xi
  .ok (o.1, o.2, q.2.2)

/-- The variables of the loop over the directions in powell (powell.c:20-31). -/
structure PowLine where
  p : RArr
  fret : ℝ
  ibig : Nat
  del : ℝ

/-- The loop over the directions (powell.c:20-31). -/
def powLines (fuel : Nat) (func : RArr → ℝ) (n : Nat) (junk : RArr) (xi : Mat ℝ) (p : RArr) (fret : ℝ) : Res PowLine :=
  forN n (fun i0 s =>
    let i := i0 + 1
    let xit := upLoop 1 (n + 1) (fun j a => aset a j (xi j i)) junk
    let fptt := s.fret
    (linmin fuel func n junk s.p xit).bind fun o =>
    .ok (if |fptt - o.2.2| > s.del then ⟨o.1, o.2.2, i, |fptt - o.2.2|⟩ else ⟨o.1, o.2.2, s.ibig, s.del⟩))
    ⟨p, fret, 0, 0⟩

/-- What lives through the passes of powell. -/
structure PowState where
  p : RArr
  xi : Mat ℝ
  pt : RArr
  fret : ℝ

/-- Replacing direction `ibig` (powell.c:49-52): `xi[j][ibig]=xi[j][n]; xi[j][n]=xit[j];`. Column 0 does not exist. -/
def powReplace (n ibig : Nat) (xit : RArr) (xi : Mat ℝ) : Res (Mat ℝ) :=
  if ibig = 0 then .ub
  else .ok (upLoop 1 (n + 1) (fun j xi => mset (mset xi j ibig (xi j n)) j n (xit j)) xi)

/-- One pass of powell (powell.c:20-54). -/
def powPass (fuel : Nat) (func : RArr → ℝ) (n : Nat) (junk : RArr) (ftol : ℝ) (iter : Nat) (s : PowState) :
    Res (PowState × Nat) ⊕ PowState :=
  let fp := s.fret
  match powLines fuel func n junk s.xi s.p s.fret with
  | .abort => .inl .abort
  | .ub => .inl .ub
  | .ok l =>
    if 2 * |fp - l.fret| ≤ ftol * (|fp| + |l.fret|) then .inl (.ok (⟨l.p, s.xi, s.pt, l.fret⟩, iter))
    else if iter = 200 then .inl .abort
    else
      let ptt := upLoop 1 (n + 1) (fun j a => aset a j (2 * l.p j - s.pt j)) junk
      let xit := upLoop 1 (n + 1) (fun j a => aset a j (l.p j - s.pt j)) junk
      let pt := upLoop 1 (n + 1) (fun j a => aset a j (l.p j)) s.pt
      let fptt := func ptt
      if fptt < fp then
        let t := 2 * (fp - 2 * l.fret + fptt) * ((fp - l.fret - l.del) * (fp - l.fret - l.del)) -
          l.del * ((fp - fptt) * (fp - fptt))
        if t < 0 then
          match (linmin fuel func n junk l.p xit).bind fun o =>
              (powReplace n l.ibig o.2.1 s.xi).bind fun xi => .ok (⟨o.1, xi, pt, o.2.2⟩ : PowState) with
          | .ok s => .inr s
          | .abort => .inl .abort
          | .ub => .inl .ub
        else .inr ⟨l.p, s.xi, pt, l.fret⟩
      else .inr ⟨l.p, s.xi, pt, l.fret⟩

/-- powell (powell.c:6-56): `p`, `xi`, `*fret` in the state, and `*iter`. -/
def powell (fuel : Nat) (func : RArr → ℝ) (n : Nat) (junk : RArr) (ftol : ℝ) (p : RArr) (xi : Mat ℝ) :
    Res (PowState × Nat) :=
  let pt := upLoop 1 (n + 1) (fun j a => aset a j (p j)) junk
  match forRet 200 (powPass fuel func n junk ftol) ⟨p, xi, pt, func p⟩ with
  | .inl r => r
  | .inr _ => .abort

end

end Sgrid
