import Verif.Model.KerrData

/-!
# Model of a black hole in isotropic coordinates

`src/physics/SingleBH/SingleBHisotropic.c`. Numbers are elements of a field; the square root is part of the input.
-/

namespace Sgrid
namespace Iso
variable {𝔽 : Type} [Field 𝔽]

/-- Line 54. -/
def r2 (c : KerrPt 𝔽) : 𝔽 := c.x1 * c.x1 + c.x2 * c.x2 + c.x3 * c.x3

/-- Line 55. -/
def r (c : KerrPt 𝔽) : 𝔽 := c.sqrt (r2 c)

/-- Line 59. -/
def psi0 (c : KerrPt 𝔽) : 𝔽 := 1 + c.M / (2 * r c)

/-- Line 69. -/
def alpha (c : KerrPt 𝔽) : 𝔽 := (1 - c.M / (2 * r c)) / (1 + c.M / (2 * r c))

/-- Line 74. -/
def r3 (c : KerrPt 𝔽) : 𝔽 := r2 c * r c

/-- Lines 76-78, for the coordinate `x`. -/
def dpsiopsi (c : KerrPt 𝔽) (x : 𝔽) : 𝔽 := -c.M / (2 * r2 c) * x / r c / psi0 c

/-- Lines 82, 85 and 87, for the coordinate `x`. -/
def ddpsiopsiD (c : KerrPt 𝔽) (x : 𝔽) : 𝔽 := (3 * c.M / (2 * r3 c) * (x / r c) * (x / r c) - c.M / (2 * r3 c)) / psi0 c

/-- Lines 83, 84 and 86, for the coordinates `x` and `y`. -/
def ddpsiopsiO (c : KerrPt 𝔽) (x y : 𝔽) : 𝔽 := 3 * c.M / (2 * r3 c) * (x / r c) * (y / r c) / psi0 c

/-- Line 91. -/
def psi4 (c : KerrPt 𝔽) : 𝔽 := psi0 c ^ 4

/-- `SingleBHisotropic` at one point (lines 22-101). -/
def point (c : KerrPt 𝔽) : KS.Out 𝔽 where
  gb := fun n => (if c.conformalFactor then [1, 0, 0, 1, 0, 1] else [psi4 c, 0, 0, psi4 c, 0, psi4 c]).getD n 0
  K' := fun n => [0, 0, 0, 0, 0, 0].getD n 0
  psi := if c.conformalFactor then psi0 c else 1
  dpsiopsi := fun n => (if c.conformalFactor then [dpsiopsi c c.x1, dpsiopsi c c.x2, dpsiopsi c c.x3] else [0, 0, 0]).getD n 0
  ddpsiopsi := fun n =>
    (if c.conformalFactor then
      [ddpsiopsiD c c.x1, ddpsiopsiO c c.x1 c.x2, ddpsiopsiO c c.x1 c.x3, ddpsiopsiD c c.x2, ddpsiopsiO c c.x2 c.x3, ddpsiopsiD c c.x3]
    else [0, 0, 0, 0, 0, 0]).getD n 0
  alpha := alpha c
  beta := fun n => [0, 0, 0].getD n 0

/-- What lines 41-84 of `SingleBH.c` do afterwards at one point: `lapseOne` is `SingleBH_initial_lapse = one`, `shiftZero` is
`SingleBH_initial_shift = zero`. -/
def gauge (lapseOne shiftZero : Bool) (o : KS.Out 𝔽) : KS.Out 𝔽 :=
  { o with alpha := if lapseOne then 1 else o.alpha, beta := if shiftZero then fun _ => 0 else o.beta }

end Iso
end Sgrid
