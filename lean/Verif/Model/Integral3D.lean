import Mathlib.Algebra.Field.Basic

/-!
src/utility/NumericUtils/integral3D.c: an integral over a region in three dimensions with an integrator for one
dimension, which is called within itself.

The functions f1, f2, f3 are passed to the integrator and talk to each other through static variables.  An integrator is
any program that asks for values of its function, where each question may depend on the answers so far, and then
returns a number.  The function it calls may change the static variables.
-/

namespace Sgrid

/-- What an integrator does: return a number, or ask for the value of the function at x and go on. -/
inductive Quest (K : Type) where
  | done (v : K)
  | ask (x : K) (next : K → Quest K)

/-- The integrator with a function that changes a state. -/
def Quest.run {K σ : Type} (f : K → σ → K × σ) : Quest K → σ → K × σ
  | .done v, s => (v, s)
  | .ask x next, s => (next (f x s).1).run f (f x s).2

/-- An integrator, `int_meth(f, a, b, eps, max)` (integral3D.c:40-42). -/
abbrev Integrator (K : Type) := K → K → K → Int → Quest K

/-- The static variables (integral3D.c:20-31). -/
structure Static3D (K : Type) where
  xSav : K
  ySav : K
  sySav : K
  szSav : K
  maxySav : Int
  maxzSav : Int
  integrator : Integrator K
  nrfunc : K → K → K → K
  yLim1 : K → K
  yLim2 : K → K
  zLim1 : K → K → K
  zLim2 : K → K → K

/-- f3 (integral3D.c:82-85).  `touch` is what a call of the integrand does to the static variables. -/
def int3F3 {K : Type} (touch : Static3D K → Static3D K) (z : K) (s : Static3D K) : K × Static3D K :=
  (s.nrfunc s.xSav s.ySav z, touch s)

/-- f2 (integral3D.c:75-80). -/
def int3F2 {K : Type} (touch : Static3D K → Static3D K) (y : K) (s : Static3D K) : K × Static3D K :=
  let s := { s with ySav := y }
  (s.integrator (s.zLim1 s.xSav y) (s.zLim2 s.xSav y) s.szSav s.maxzSav).run (int3F3 touch) s

/-- f1 (integral3D.c:68-73). -/
def int3F1 {K : Type} (touch : Static3D K → Static3D K) (x : K) (s : Static3D K) : K × Static3D K :=
  let s := { s with xSav := x }
  (s.integrator (s.yLim1 x) (s.yLim2 x) s.sySav s.maxySav).run (int3F2 touch) s

/-- integral3D (integral3D.c:40-66): the result and the static variables after the call. -/
def integral3D {K : Type} (touch : Static3D K → Static3D K) (meth : Integrator K) (func : K → K → K → K) (x1 x2 : K)
    (y1 y2 : K → K) (z1 z2 : K → K → K) (sx sy sz : K) (maxx maxy maxz : Int) (s : Static3D K) : K × Static3D K :=
  let s := { s with
    sySav := sy, szSav := sz, maxySav := maxy, maxzSav := maxz, integrator := meth, nrfunc := func,
    yLim1 := y1, yLim2 := y2, zLim1 := z1, zLim2 := z2 }
  (s.integrator x1 x2 sx maxx).run (int3F1 touch) s

/-- An integrator for examples: one step of the trapezoidal rule (integral.c:65). -/
def trapezoidQuest {K : Type} [Field K] : Integrator K :=
  fun a b _ _ => .ask a fun fa => .ask b fun fb => .done ((b - a) * (fa + fb) / 2)

end Sgrid
