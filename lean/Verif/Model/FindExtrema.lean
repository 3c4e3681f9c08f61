import Mathlib.Algebra.Field.Basic
import Mathlib.Order.Defs.LinearOrder

/-!
src/utility/Coordinates/find_extrema.c:22-147: a point in a box where the derivatives of a function vanish.

The interpolation of the function and of its three derivatives with spectral coefficients are parameters, functions of
X, Y, Z.  So is the Newton solver, which is given the function and a first guess, and returns a point, `check` and the
number of steps.
-/

namespace Sgrid

variable {K : Type} [Field K] [LinearOrder K]

/-- Three numbers: `vec[1], vec[2], vec[3]`. -/
structure Vec3K (K : Type) where
  X : K
  Y : K
  Z : K
  deriving DecidableEq, Repr

/-- `box->bbox` (find_extrema.c:33-38). -/
structure BBox3 (K : Type) where
  X0 : K
  X1 : K
  Y0 : K
  Y1 : K
  Z0 : K
  Z1 : K

/-- The flags ux, uy, uz, ox, oy, oz, and X, Y, Z after they are moved into the box (find_extrema.c:43-49, 129-135). -/
structure ClampOut (K : Type) where
  ux : Nat
  uy : Nat
  uz : Nat
  ox : Nat
  oy : Nat
  oz : Nat
  p : Vec3K K

/-- find_extrema.c:43-49 and 129-135. -/
def clampBox (b : BBox3 K) (v : Vec3K K) : ClampOut K :=
  let ux := if v.X < b.X0 then 1 else 0
  let X := if v.X < b.X0 then b.X0 else v.X
  let uy := if v.Y < b.Y0 then 2 else 0
  let Y := if v.Y < b.Y0 then b.Y0 else v.Y
  let uz := if v.Z < b.Z0 then 4 else 0
  let Z := if v.Z < b.Z0 then b.Z0 else v.Z
  let ox := if X > b.X1 then 8 else 0
  let X := if X > b.X1 then b.X1 else X
  let oy := if Y > b.Y1 then 16 else 0
  let Y := if Y > b.Y1 then b.Y1 else Y
  let oz := if Z > b.Z1 then 32 else 0
  let Z := if Z > b.Z1 then b.Z1 else Z
  ⟨ux, uy, uz, ox, oy, oz, ⟨X, Y, Z⟩⟩

/-- f3vec_from_c1c2c3_VectorFuncP (find_extrema.c:23-72): fvec and par->status. -/
def f3vecFromCoeffs (b : BBox3 K) (D : Vec3K K → Vec3K K) (vec : Vec3K K) : Vec3K K × Nat :=
  let c := clampBox b vec
  let f1 := (D c.p).X
  let f2 := (D c.p).Y
  let f3 := (D c.p).Z
  let fv1 := if c.ux ≠ 0 then f1 * (vec.X - b.X0) else f1
  let fv2 := if c.uy ≠ 0 then f2 * (vec.Y - b.Y0) else f2
  let fv3 := if c.uz ≠ 0 then f3 * (vec.Z - b.Z0) else f3
  let fv1 := if c.ox ≠ 0 then -f1 * (vec.X - b.X1) else fv1
  let fv2 := if c.oy ≠ 0 then -f2 * (vec.Y - b.Y1) else fv2
  let fv3 := if c.oz ≠ 0 then -f3 * (vec.Z - b.Z1) else fv3
  (⟨fv1, fv2, fv3⟩, c.ox ||| c.oy ||| c.oz ||| c.ux ||| c.uy ||| c.uz)

/-- box_extremum_of_F (find_extrema.c:78-147): the result, X, Y, Z, and Fextr. -/
def boxExtremum (b : BBox3 K) (F : Vec3K K → K) (D : Vec3K K → Vec3K K)
    (newton : (Vec3K K → Vec3K K) → Vec3K K → Vec3K K × Bool × Int) (guess : Vec3K K) : Int × Vec3K K × K :=
  let r := newton (fun v => (f3vecFromCoeffs b D v).1) guess
  let stat := r.2.2
  let c := clampBox b r.1
  let status : Int := -((c.ox ||| c.oy ||| c.oz ||| c.ux ||| c.uy ||| c.uz : Nat) : Int)
  let status := if status = 0 then stat else status
  (status, c.p, F c.p)

end Sgrid
