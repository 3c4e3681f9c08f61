import Verif.Model.TransfDerivs
import Verif.Model.Integrals
import Mathlib.Analysis.SpecialFunctions.Sqrt

/-!
# Surface integrals

`spec_SurfaceIntegral` (`src/utility/Spectral/integrals.c:163-258`). Doubles are real numbers. The arrays of the metric
and of the derivatives of the coordinates are allocated if they are used.
-/

namespace Sgrid

/-- The metric in the coordinates of the box at a point (`src/utility/Spectral/integrals.c:233-240`): `J` is the
Jacobian matrix, `g` the metric. -/
def boxMetric {K : Type} [Field K] (J g : Nat → Nat → K) : Nat → Nat → K :=
  product3 (transpose3 J) (product3 g J)

/-- The determinant of the two-dimensional part of the metric
(`src/utility/Spectral/integrals.c:243-247`). -/
def det2 {K : Type} [Field K] (norm : Nat) (m : Nat → Nat → K) : Res K :=
  if norm = 1 then .ok (m 2 2 * m 3 3 - m 2 3 * m 3 2)
  else if norm = 2 then .ok (m 1 1 * m 3 3 - m 1 3 * m 3 1)
  else if norm = 3 then .ok (m 1 1 * m 2 2 - m 1 2 * m 2 1)
  else .abort

/-- The box as `spec_SurfaceIntegral` sees it: `trafo` is `x_of_X[1] != NULL`, `stored` is `dXdx != NULL`, `d 1`, `d 2`,
`d 3` are the variables `dXdx`, `dYdx`, `dZdx`, and `ig` is the variable of the metric if there is one. -/
structure SurfBox where
  trafo : Bool
  stored : Bool
  d : Nat → Nat
  ig : Option Nat

/-- The Jacobian matrix at a point (`src/utility/Spectral/integrals.c:212-231`); `r v` is the number of the variable
`v` at the point. -/
noncomputable def SurfBox.jac (b : SurfBox) (eps : ℝ) (r : Nat → ℝ) : Res (Nat → Nat → ℝ) :=
  if b.trafo then
    if b.stored then .ok (inverse3 eps fun i k => r (b.d i + (k - 1))) else .abort
  else .ok fun i k => if i = k then 1 else 0

/-- The metric at a point (`src/utility/Spectral/integrals.c:188-197,205-210`). -/
def SurfBox.metric (b : SurfBox) (r : Nat → ℝ) (i j : Nat) : ℝ :=
  match b.ig with
  | none => if i = j then 1 else 0
  | some ig =>
    match i, j with
    | 1, 1 => r ig
    | 1, 2 => r (ig + 1)
    | 1, 3 => r (ig + 2)
    | 2, 1 => r (ig + 1)
    | 2, 2 => r (ig + 3)
    | 2, 3 => r (ig + 4)
    | 3, 1 => r (ig + 2)
    | 3, 2 => r (ig + 4)
    | 3, 3 => r (ig + 5)
    | _, _ => 0

/-- The pass for the point `i` (`src/utility/Spectral/integrals.c:199-254`). -/
noncomputable def surfacePass (b : SurfBox) (eps : ℝ) (norm u U i : Nat) (mem : Arrays ℝ) : Res (Arrays ℝ) :=
  let r := fun v => mem v i
  (b.jac eps r).bind fun J => (det2 norm (boxMetric J (b.metric r))).bind fun det =>
    let sdetm2 := Real.sqrt |det|
    .ok (aset mem U (aset (mem U) i (mem u i * sdetm2)))

/-- The coordinate direction with number 1, 2, 3. -/
def axisOf (norm : Nat) : Axis := if norm = 1 then .one else if norm = 2 then .two else .three

/-- `spec_SurfaceIntegral` (`src/utility/Spectral/integrals.c:163-258`); `spec_2dIntegral` is called with the value of
`norm` that the loop has accepted. A box without points is not modelled. -/
noncomputable def specSurfaceIntegral (g : Nat → (Nat → ℝ) × (Nat → ℝ) × (Nat → ℝ)) (b : LBox ℝ)
    (meth : Axis → IMethod) (lo hi : Axis → ℝ) (sb : SurfBox) (eps : ℝ) (norm u U : Nat) (mem : Arrays ℝ) :
    Res (Arrays ℝ) :=
  (upLoop 0 (b.d.n1 * b.d.n2 * b.d.n3) (fun i (r : Res (Arrays ℝ)) => r.bind (surfacePass sb eps norm u U i)) (Res.ok mem)).bind
    (spec2dIntegral g b meth lo hi (axisOf norm) U U)

end Sgrid
