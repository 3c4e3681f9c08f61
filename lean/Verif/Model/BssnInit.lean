import Mathlib.Analysis.SpecialFunctions.Pow.Real
import Mathlib.Analysis.SpecialFunctions.Log.Basic

/-!
# From ADM to BSSN variables and back

src/physics/BSSN/BSSN_init.c and BSSN.c:63-169. Doubles are real numbers; the constants `0.333...` are `1/3`. All
variables have different arrays, and the loops over points read and write entries of one point only, so the loops
are functions of the values at a point. `FirstDerivsOf_Sab` and `FirstDerivsOf_S` are arguments (they are in
`Verif.Model.CartDerivs`).
-/

namespace Sgrid

/-- A symmetric tensor: components 11, 12, 13, 22, 23, 33. -/
@[ext] structure Sym3 where
  c11 : ℝ
  c12 : ℝ
  c13 : ℝ
  c22 : ℝ
  c23 : ℝ
  c33 : ℝ

/-- The ADM variables `gxx...`, `Kxx...`, `psi` and `alpha` at a point. -/
structure AdmPt where
  gb : Sym3
  K : Sym3
  psi : ℝ
  alpha : ℝ

/-- The BSSN variables at a point, without `G`. -/
structure BssnPt where
  gt : Sym3
  At : Sym3
  trK : ℝ
  phi : ℝ
  alphaD : ℝ

/-- `detgb` (BSSN_init.c:107-112) and the denominator of `detgtinv` (lines 189-194, 276-281). -/
def sdet (g : Sym3) : ℝ :=
  2 * g.c12 * g.c13 * g.c23 + g.c11 * g.c22 * g.c33 - g.c33 * (g.c12 * g.c12) - g.c22 * (g.c13 * g.c13) -
    g.c11 * (g.c23 * g.c23)

/-- `gtinv` (BSSN_init.c:196-224 and 283-311). -/
noncomputable def sinv (g : Sym3) : Sym3 :=
  let detinv := 1 / sdet g
  { c11 := detinv * (g.c22 * g.c33 - g.c23 * g.c23)
    c12 := detinv * (g.c13 * g.c23 - g.c12 * g.c33)
    c13 := detinv * (-(g.c13 * g.c22) + g.c12 * g.c23)
    c22 := detinv * (g.c11 * g.c33 - g.c13 * g.c13)
    c23 := detinv * (g.c12 * g.c13 - g.c11 * g.c23)
    c33 := detinv * (g.c11 * g.c22 - g.c12 * g.c12) }

/-- A factor times all components (e.g. BSSN_init.c:124-152). -/
def sscale (c : ℝ) (g : Sym3) : Sym3 := ⟨c * g.c11, c * g.c12, c * g.c13, c * g.c22, c * g.c23, c * g.c33⟩

/-- First loop of BSSN_init (BSSN_init.c:105-268); `usepsi` is 1. -/
noncomputable def bssnInit (alphaDensityWeight : ℝ) (a : AdmPt) : BssnPt :=
  let detgb := sdet a.gb
  let p := detgb ^ (-(1 / 3) : ℝ)
  let p0 := a.psi ^ (-4 : ℤ)
  let gt := sscale p a.gb
  let Kt := sscale (p * p0) a.K
  let alphaD := (p * p0) ^ (1.5 * alphaDensityWeight) * a.alpha
  let gi := sinv gt
  let phi := -0.25 * Real.log p
  let K := gi.c11 * Kt.c11 + gi.c22 * Kt.c22 + 2 * (gi.c12 * Kt.c12 + gi.c13 * Kt.c13 + gi.c23 * Kt.c23) +
    gi.c33 * Kt.c33
  let At : Sym3 :=
    { c11 := Kt.c11 - 1 / 3 * gt.c11 * K
      c12 := Kt.c12 - 1 / 3 * gt.c12 * K
      c13 := Kt.c13 - 1 / 3 * gt.c13 * K
      c22 := Kt.c22 - 1 / 3 * gt.c22 * K
      c23 := Kt.c23 - 1 / 3 * gt.c23 * K
      c33 := Kt.c33 - 1 / 3 * gt.c33 * K }
  ⟨gt, At, K, phi, alphaD⟩

/-- The derivatives of a symmetric tensor, `dgt k` with respect to coordinate `k` (0, 1, 2), the variables
`ADMvars_dgxxx` at a point (BSSN_init.c:60-78). -/
abbrev DSym3 := Fin 3 → Sym3

/-- `G` (BSSN_init.c:274-349). -/
noncomputable def bssnGamma (gt : Sym3) (d : DSym3) : Fin 3 → ℝ :=
  let gi := sinv gt
  let Gtdown1 := gi.c11 * (d 0).c11 + gi.c12 * ((d 1).c11 + (d 0).c12) + gi.c22 * (d 1).c12 +
    gi.c13 * ((d 2).c11 + (d 0).c13) + gi.c23 * ((d 2).c12 + (d 1).c13) + gi.c33 * (d 2).c13
  let Gtdown2 := gi.c11 * (d 0).c12 + gi.c12 * ((d 1).c12 + (d 0).c22) + gi.c22 * (d 1).c22 +
    gi.c13 * ((d 2).c12 + (d 0).c23) + gi.c23 * ((d 2).c22 + (d 1).c23) + gi.c33 * (d 2).c23
  let Gtdown3 := gi.c11 * (d 0).c13 + gi.c12 * ((d 1).c13 + (d 0).c23) + gi.c22 * (d 1).c23 +
    gi.c13 * ((d 2).c13 + (d 0).c33) + gi.c23 * ((d 2).c23 + (d 1).c33) + gi.c33 * (d 2).c33
  ![Gtdown1 * gi.c11 + Gtdown2 * gi.c12 + Gtdown3 * gi.c13,
    Gtdown1 * gi.c12 + Gtdown2 * gi.c22 + Gtdown3 * gi.c23,
    Gtdown1 * gi.c13 + Gtdown2 * gi.c23 + Gtdown3 * gi.c33]

/-- BSSN_init for a grid (BSSN_init.c:16-353): boxes, points; `dSab b` is `FirstDerivsOf_Sab` in box `b`. -/
noncomputable def bssnInitGrid (w : ℝ) (dSab : Nat → (Nat → Sym3) → Nat → DSym3) (a : Nat → Nat → AdmPt) :
    Nat → Nat → BssnPt × (Fin 3 → ℝ) := fun b ijk =>
  let gt i := (bssnInit w (a b i)).gt
  (bssnInit w (a b ijk), bssnGamma (gt ijk) (dSab b gt ijk))

/-- One component in BSSNtoADM (BSSN.c:102-103). -/
noncomputable def admComp (fg fK trK gt At : ℝ) : ℝ × ℝ := (fg * gt, fK * (At + trK * gt / 3))

/-- BSSNtoADM at a point (BSSN.c:93-105): `g` and `K`; `psi` stays as it is. -/
noncomputable def bssnToAdm (psi : ℝ) (b : BssnPt) : Sym3 × Sym3 :=
  let fg := Real.exp (4 * b.phi)
  let fK := fg * psi ^ 4
  let f := admComp fg fK b.trK
  (⟨(f b.gt.c11 b.At.c11).1, (f b.gt.c12 b.At.c12).1, (f b.gt.c13 b.At.c13).1, (f b.gt.c22 b.At.c22).1,
      (f b.gt.c23 b.At.c23).1, (f b.gt.c33 b.At.c33).1⟩,
    ⟨(f b.gt.c11 b.At.c11).2, (f b.gt.c12 b.At.c12).2, (f b.gt.c13 b.At.c13).2, (f b.gt.c22 b.At.c22).2,
      (f b.gt.c23 b.At.c23).2, (f b.gt.c33 b.At.c33).2⟩)

/-- `BSSN_alphaRHSterm` (BSSN.c:162-165). -/
def alphaRhsTerm (alpha K : ℝ) (beta dalpha : Fin 3 → ℝ) : ℝ :=
  alpha * alpha * K - (beta 0 * dalpha 0 + beta 1 * dalpha 1 + beta 2 * dalpha 2)

end Sgrid
