import Verif.Model.Basic
import Mathlib.Algebra.Order.Field.Basic

/-!
# Model of the scalar wave

`src/physics/ScalarWave/ScalarWave.c` and `src/physics/testwave/testwave.c`: right hand sides, energy density and initial data at one point
of a box. The derivatives are input. Numbers are elements of a field; `exp`, `log` and `sqrt` are what the functions of these names stand for.
Not modelled: the calls in lines 66-75 of ScalarWave.c for dissipation, boundary and filters.
-/

namespace Sgrid

/-- What `ScalarWave_evolve` reads at one point (ScalarWave.c:17-41). -/
structure SwPt (K : Type) where
  cpsi : K
  ppsi : K
  cpsidot : K
  ppsidot : K
  psixx : K
  psiyy : K
  psizz : K
  nonlin : K
  dt : K

namespace Sw
variable {𝔽 : Type} [Field 𝔽]

/-- Lines 48-49. -/
def rpsidot (c : SwPt 𝔽) : 𝔽 := c.psixx + c.psiyy + c.psizz - c.nonlin * c.cpsi * c.cpsi * c.cpsi / (1 + c.cpsi * c.cpsi)

/-- Line 50. -/
def rpsi (c : SwPt 𝔽) : 𝔽 := c.cpsidot

/-- `npsidot` (lines 52-61). -/
def npsidot [DecidableEq 𝔽] (c : SwPt 𝔽) : 𝔽 := if c.dt ≠ 0 then c.ppsidot + c.dt * rpsidot c else rpsidot c

/-- `npsi` (lines 52-61). -/
def npsi [DecidableEq 𝔽] (c : SwPt 𝔽) : 𝔽 := if c.dt ≠ 0 then c.ppsi + c.dt * rpsi c else rpsi c

/-- `rho` of `ScalarWave_analyze` (lines 279-281). -/
def rho (log : 𝔽 → 𝔽) (nonlin psi psidot psix psiy psiz : 𝔽) : 𝔽 :=
  1 / 2 * (psidot * psidot + psix * psix + psiy * psiy + psiz * psiz) + nonlin * (psi * psi - log (1 + psi * psi)) * (1 / 2)

/-- What `ScalarWave_startup` reads at one point (lines 87-96 and 191-201). -/
structure Init (K : Type) where
  A : K
  sigma : K
  r0 : K
  sigmax : K
  sigmay : K
  sigmaz : K
  x0 : K
  y0 : K
  z0 : K
  spherical : Bool
  x : K
  y : K
  z : K
  exp : K → K
  sqrt : K → K

/-- Line 203. -/
def r (c : Init 𝔽) : 𝔽 := c.sqrt (c.x * c.x + c.y * c.y + c.z * c.z)

/-- Lines 207 and 212-214. -/
def f (c : Init 𝔽) : 𝔽 :=
  if c.spherical then c.A * c.exp (-(r c - c.r0) * (r c - c.r0) / (2 * c.sigma * c.sigma))
  else c.A * c.exp (-(1 / 2) * ((c.x - c.x0) * (c.x - c.x0) / (c.sigmax * c.sigmax) + (c.y - c.y0) * (c.y - c.y0) / (c.sigmay * c.sigmay) +
    (c.z - c.z0) * (c.z - c.z0) / (c.sigmaz * c.sigmaz)))

/-- Lines 208 and 215-217. -/
def df (c : Init 𝔽) : 𝔽 :=
  if c.spherical then -1 / (c.sigma * c.sigma) * (r c - c.r0) * f c
  else -f c * ((c.x - c.x0) * (c.x / r c) / (c.sigmax * c.sigmax) + (c.y - c.y0) * (c.y / r c) / (c.sigmay * c.sigmay) +
    (c.z - c.z0) * (c.z / r c) / (c.sigmaz * c.sigmaz))

/-- Line 219. -/
def psi0 (c : Init 𝔽) : 𝔽 := f c / r c

/-- Line 220. -/
def psidot0 (c : Init 𝔽) : 𝔽 := df c / r c

/-- The field after lines 222-228: `u` is what was in the box before; `k` and `j` run over all points, and the first and the last point
in the first direction become zero. -/
def zeroEnds (n1 n2 n3 : Nat) (u : Nat → 𝔽) : Nat → 𝔽 :=
  (List.range n3).foldl (fun u k => (List.range n2).foldl (fun u j =>
    let u' := fun n => if n = n1 - 1 + n1 * j + n1 * n2 * k then 0 else u n
    fun n => if n = 0 + n1 * j + n1 * n2 * k then 0 else u' n) u) u

end Sw

namespace Testwave
variable {𝔽 : Type} [Field 𝔽]

/-- `krhs` of `testwave_evo` (testwave.c:41-42). -/
def krhs (u u11 u22 u33 : 𝔽) : 𝔽 := u11 + 0 * u22 + 0 * u33 - 0 * u * u * u / (1 + u * u)

/-- `f` of `testwave_startup` (testwave.c:148-159); the coordinate `x` is shifted by 0.2. -/
def f (exp : 𝔽 → 𝔽) (px py pz : 𝔽) : 𝔽 := exp (-10 * ((px - 1 / 5) * (px - 1 / 5) + py * py + pz * pz))

/-- `pk` (line 163). -/
def k (exp : 𝔽 → 𝔽) (px py pz : 𝔽) : 𝔽 := -(-2 * 10 * (px - 1 / 5) * f exp px py pz)

end Testwave
end Sgrid
