import Verif.Model.IsotropicBH

/-!
# Model of the initial data for tests

`src/physics/TestID`: the gauge wave, the linear wave and the random noise at one point of one box, and the options for lapse and
shift in `TestID.c`. No point uses values of another point; only the noise depends on the order of the points, because the random
numbers are taken one after the other, and here they are input. Numbers are elements of a field; `sin`, `cos` and `sqrt` are what the
functions of these names stand for.
-/

namespace Sgrid

/-- What the code for the waves reads at one point: `x1[i]` (TestID_1dGaugeWave.c:24), the time `t` that is set to zero in line 13,
the parameter `TestID_amplitude` (line 14), `bbox[0]` and `bbox[1]` of the box (line 20), the constant `PI` and three functions. -/
structure WavePt (K : Type) where
  x1 : K
  t : K
  A : K
  bbox0 : K
  bbox1 : K
  pi : K
  sin : K → K
  cos : K → K
  sqrt : K → K

namespace TestID
variable {𝔽 : Type} [Field 𝔽]

/-- Line 20 of both files. -/
def Lx (c : WavePt 𝔽) : 𝔽 := c.bbox1 - c.bbox0

/-- Line 57 of both files. -/
def arg (c : WavePt 𝔽) : 𝔽 := 2 * c.pi * (c.x1 - c.t) / Lx c

/-- Line 58. -/
def Ac (c : WavePt 𝔽) : 𝔽 := c.A * c.cos (arg c)

/-- Line 59. -/
def As (c : WavePt 𝔽) : 𝔽 := c.A * c.sin (arg c)

/-- `TestID_1dGaugeWave` at one point (TestID_1dGaugeWave.c:24-84). -/
def gaugeWave (c : WavePt 𝔽) : KS.Out 𝔽 where
  gb := fun n => [1 + As c, 0, 0, 1, 0, 1].getD n 0
  K' := fun n => [c.pi * Ac c / (Lx c * c.sqrt (1 + As c)), 0, 0, 0, 0, 0].getD n 0
  psi := 1
  dpsiopsi := fun n => [0, 0, 0].getD n 0
  ddpsiopsi := fun n => [0, 0, 0, 0, 0, 0].getD n 0
  alpha := c.sqrt (1 + As c)
  beta := fun n => [0, 0, 0].getD n 0

/-- `TestID_1dLinearWave` at one point (TestID_1dLinearWave.c:24-86). -/
def linearWave (c : WavePt 𝔽) : KS.Out 𝔽 where
  gb := fun n => [1, 0, 0, 1 + As c, 0, 1 - As c].getD n 0
  K' := fun n => [0, 0, 0, c.pi * Ac c / Lx c, 0, -(c.pi * Ac c) / Lx c].getD n 0
  psi := 1
  dpsiopsi := fun n => [0, 0, 0].getD n 0
  ddpsiopsi := fun n => [0, 0, 0, 0, 0, 0].getD n 0
  alpha := 1
  beta := fun n => [0, 0, 0].getD n 0

/-- The macro `RND` (TestID_RandomNoise.c:7) for one value `rand` of the function `rand()`: `2.5e-7*A*( (2.0*rand())/RAND_MAX - 1.0 )/(n1*n1)`.
The product `n1*n1` of integers does not overflow for `n1 < 46341`. -/
def rnd (A randMax : 𝔽) (n1 : Nat) (rand : 𝔽) : 𝔽 := 1 / 4000000 * A * (2 * rand / randMax - 1) / (n1 * n1 : Nat)

/-- `TestID_RandomNoise` at one point (lines 30-93); `rand` are the sixteen random numbers in the order in which they are taken, and
`A` is one (line 16). -/
def randomNoise (randMax : 𝔽) (n1 : Nat) (rand : Nat → 𝔽) : KS.Out 𝔽 where
  gb := fun n => [1 + rnd 1 randMax n1 (rand 0), rnd 1 randMax n1 (rand 1), rnd 1 randMax n1 (rand 2), 1 + rnd 1 randMax n1 (rand 3),
    rnd 1 randMax n1 (rand 4), 1 + rnd 1 randMax n1 (rand 5)].getD n 0
  K' := fun n => [rnd 1 randMax n1 (rand 6), rnd 1 randMax n1 (rand 7), rnd 1 randMax n1 (rand 8), rnd 1 randMax n1 (rand 9),
    rnd 1 randMax n1 (rand 10), rnd 1 randMax n1 (rand 11)].getD n 0
  psi := 1
  dpsiopsi := fun n => [0, 0, 0].getD n 0
  ddpsiopsi := fun n => [0, 0, 0, 0, 0, 0].getD n 0
  alpha := 1 + rnd 1 randMax n1 (rand 12)
  beta := fun n => [rnd 1 randMax n1 (rand 13), rnd 1 randMax n1 (rand 14), rnd 1 randMax n1 (rand 15)].getD n 0

/-- What `TestID.c:44-85` does afterwards at one point: `lapseOne` is `TestID_initial_lapse = one`, `shiftZero` is
`TestID_initial_shift = zero`. -/
def gauge (lapseOne shiftZero : Bool) (o : KS.Out 𝔽) : KS.Out 𝔽 :=
  { o with alpha := if lapseOne then 1 else o.alpha, beta := if shiftZero then fun _ => 0 else o.beta }

end TestID
end Sgrid
