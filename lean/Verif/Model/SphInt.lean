import Verif.Model.Integrals

/-!
# Integrals over spheres in the coordinates SphericalDF

src/utility/Spectral/integrals.c:333-501. Doubles are real numbers. The variable `X` is allocated.
-/

namespace Sgrid
open Real

/-- The integral over theta from the coefficients `c` of a line (integrals.c:380-404, 473-493); the loop runs over
`n = 2 q`. -/
noncomputable def thetaSum (L : ℝ) (N : Nat) (c : Nat → ℝ) : ℝ :=
  let d : ℝ := 1 / (2 * (1 + N % 2 : Nat) * N)
  let PI2 := 2 * π
  let sum := 1 / π * c 0
  let sum := sum + 0.5 * (sin (PI2 * d) * c 1 + cos (PI2 * d) * c 2)
  let sum := upLoop 1 ((N / 2 + 1) / 2) (fun q sum =>
    let n := 2 * q
    let Re := c (2 * n - 1)
    let Im := c (2 * n)
    sum + 2 * (cos (PI2 * n * d) / ((1 - (n * n : Nat)) * π) * Re + sin (PI2 * n * d) / (((n * n : Nat) - 1) * π) * Im)) sum
  let sum := if N % 4 = 0 then sum + cos (PI2 * (N / 2 : Nat) * d) / ((1 - (N * N / 4 : Nat)) * π) * c (N - 1) else sum
  sum * (L / N)

/-- The work on one line (integrals.c:379-409, 468-498): `X` is the variable with the radius. -/
noncomputable def sphLine (d : Dims) (L : ℝ) (X U i k : Nat) (mem : Arrays ℝ) : Arrays ℝ :=
  let sum := thetaSum L d.n2 (fun j => mem U (d.idx i j k))
  upLoop 0 d.n2 (fun j mem => aset mem U (aset (mem U) (d.idx i j k) (sum * mem X (d.idx i j k) * mem X (d.idx i j k)))) mem

/-- `spec_sphericalDF2dIntegral` (integrals.c:339-412). -/
noncomputable def sphIntegral2d (g : Nat → (Nat → ℝ) × (Nat → ℝ) × (Nat → ℝ)) (b : LBox ℝ) (meth : Axis → IMethod)
    (lo hi : Axis → ℝ) (X u U : Nat) (mem : Arrays ℝ) : Res (Arrays ℝ) :=
  (specIntegral1 g b meth lo hi .three u U mem).bind fun mem =>
    let mem := specAnalysis1 g b .two U U mem
    if meth .two = .four then
      .ok (upLoop 0 b.d.n3 (fun k mem => upLoop 0 b.d.n1 (fun i mem => sphLine b.d (hi .two - lo .two) X U i k mem) mem) mem)
    else .abort

/-- `spec_sphericalDF3dIntegral` (integrals.c:416-422): the arrays and the returned `U[0]`. -/
noncomputable def sphIntegral3d (g : Nat → (Nat → ℝ) × (Nat → ℝ) × (Nat → ℝ)) (b : LBox ℝ) (meth : Axis → IMethod)
    (lo hi : Axis → ℝ) (X u U : Nat) (mem : Arrays ℝ) : Res (Arrays ℝ × ℝ) :=
  ((sphIntegral2d g b meth lo hi X u U mem).bind (specIntegral1 g b meth lo hi .one U U)).bind fun mem =>
    .ok (mem, mem U 0)

/-- `spec_sphericalDF2dIntegral_at_radial_index_i` (integrals.c:428-501). -/
noncomputable def sphIntegral2dAt (g : Nat → (Nat → ℝ) × (Nat → ℝ) × (Nat → ℝ)) (b : LBox ℝ) (meth : Axis → IMethod)
    (lo hi : Axis → ℝ) (X u U i : Nat) (mem : Arrays ℝ) : Res (Arrays ℝ) :=
  (specIntegral1 g b meth lo hi .three u U mem).bind fun mem =>
    let mem := specAnalysis1 g b .two U U mem
    if meth .two = .four then
      .ok (upLoop 0 b.d.n3 (fun k mem => sphLine b.d (hi .two - lo .two) X U i k mem) mem)
    else .abort

end Sgrid
