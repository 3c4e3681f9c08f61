import Verif.Model.Lines
import Verif.Model.Cheb
import Verif.Model.Fourier

/-!
# Integrals over lines, surfaces and boxes

src/utility/Spectral/integrals.c. Doubles are real numbers.
-/

namespace Sgrid

/-- `Index(i,j,k)` with the running index in the direction of the line. -/
def Dims.point (d : Dims) (ax : Axis) (i1 i2 i : Nat) : Nat :=
  match ax with
  | .one => d.idx i i1 i2
  | .two => d.idx i1 i i2
  | .three => d.idx i1 i2 i

/-- Body of the loops over lines in `spec_Integral1` (integrals.c:49-59, 64-69 and the same for the other
directions): `I` of the coefficients is written to all points of the line. -/
def lineIntegral {K : Type} (d : Dims) (ax : Axis) (I : (Nat → K) → K) (U : Nat) (i1 i2 : Nat)
    (s : LState K) : LState K :=
  let sum := I (fun i => s.mem U (d.point ax i1 i2 i))
  { s with mem := upLoop 0 (d.len ax) (fun i mem =>
      aset mem U (aset (mem U) (d.point ax i1 i2 i) sum)) s.mem }

/-- `imethod` (integrals.c:24-38). -/
inductive IMethod
  | cheb | four | none
  deriving DecidableEq

/-- The number computed from the coefficients of a line (integrals.c:50-55 and 65). -/
noncomputable def integralOf (m : IMethod) (a b : ℝ) (n : Nat) : Res ((Nat → ℝ) → ℝ) :=
  match m with
  | .cheb => .ok fun c => chebIntegral a b c n
  | .four => .ok fun c => fourIntegral a b c n
  | .none => .abort

/-- `spec_Integral1` (integrals.c:11-138); `lo`, `hi` are the limits in `bbox`. -/
noncomputable def specIntegral1 (g : Nat → (Nat → ℝ) × (Nat → ℝ) × (Nat → ℝ)) (b : LBox ℝ)
    (meth : Axis → IMethod) (lo hi : Axis → ℝ) (ax : Axis) (u U : Nat) (mem : Arrays ℝ) :
    Res (Arrays ℝ) :=
  (integralOf (meth ax) (lo ax) (hi ax) (b.d.len ax)).bind fun I =>
    .ok (forLinesStatic b.d ax (fun _ => 0, fun _ => 0, fun _ => 0) (lineIntegral b.d ax I U)
      (specAnalysis1 g b ax u U mem))

/-- `spec_2dIntegral` (integrals.c:142-161). -/
noncomputable def spec2dIntegral (g : Nat → (Nat → ℝ) × (Nat → ℝ) × (Nat → ℝ)) (b : LBox ℝ)
    (meth : Axis → IMethod) (lo hi : Axis → ℝ) (norm : Axis) (u U : Nat) (mem : Arrays ℝ) :
    Res (Arrays ℝ) :=
  match norm with
  | .one => (specIntegral1 g b meth lo hi .two u U mem).bind (specIntegral1 g b meth lo hi .three U U)
  | .two => (specIntegral1 g b meth lo hi .one u U mem).bind (specIntegral1 g b meth lo hi .three U U)
  | .three => (specIntegral1 g b meth lo hi .one u U mem).bind (specIntegral1 g b meth lo hi .two U U)

/-- `spec_3dIntegral` (integrals.c:262-269): the arrays and the returned `U[0]`. -/
noncomputable def spec3dIntegral (g : Nat → (Nat → ℝ) × (Nat → ℝ) × (Nat → ℝ)) (b : LBox ℝ)
    (meth : Axis → IMethod) (lo hi : Axis → ℝ) (u U : Nat) (mem : Arrays ℝ) : Res (Arrays ℝ × ℝ) :=
  (((specIntegral1 g b meth lo hi .one u U mem).bind (specIntegral1 g b meth lo hi .two U U)).bind
    (specIntegral1 g b meth lo hi .three U U)).bind fun mem => .ok (mem, mem U 0)

end Sgrid
