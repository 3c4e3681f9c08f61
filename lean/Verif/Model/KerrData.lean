import Verif.Model.Basic
import Mathlib.Algebra.Order.Field.Basic

/-!
# Black holes in Kerr-Schild coordinates

`SingleBHKS` (src/physics/SingleBH/SingleBHKS.c:17-588) and `Kerr3d` (src/physics/ScalarOnKerr/Kerr3d.c:17-880) at one point of one
box; the loops over boxes and points do the same everywhere, no point uses values of another point. The lines in the comments are
lines of these files. Each definition is one assignment of the C code. Numbers are in a field, and `sqrt` is what the function
of this name stands for.
-/

namespace Sgrid

/-- What the code reads at one point: the coordinates (SingleBHKS.c:33-35, Kerr3d.c:32-34), the parameters for mass and spin
(SingleBHKS.c:21-24, Kerr3d.c:21-24), and the parameter `SingleBH_ConformalFactor` (SingleBHKS.c:25). -/
structure KerrPt (K : Type) where
  x1 : K
  x2 : K
  x3 : K
  M : K
  Sx : K
  Sy : K
  Sz : K
  sqrt : K → K
  conformalFactor : Bool

namespace KS
variable {𝔽 : Type} [Field 𝔽]

/-- Lines 115-118. -/
def rho (c : KerrPt 𝔽) : 𝔽 := c.sqrt (c.x1 ^ 2 + c.x2 ^ 2 + c.x3 ^ 2)

/-- Lines 120-123. -/
def aS1 (c : KerrPt 𝔽) : 𝔽 := c.Sx

/-- Lines 125-128. -/
def aS2 (c : KerrPt 𝔽) : 𝔽 := c.Sy

/-- Lines 130-133. -/
def aS3 (c : KerrPt 𝔽) : 𝔽 := c.Sz

/-- Lines 135-138. -/
def adotx (c : KerrPt 𝔽) : 𝔽 := aS1 c * c.x1 + aS2 c * c.x2 + aS3 c * c.x3

/-- Lines 140-143. -/
def a2 (c : KerrPt 𝔽) : 𝔽 := aS1 c ^ 2 + aS2 c ^ 2 + aS3 c ^ 2

/-- Lines 145-148. -/
def Omega (c : KerrPt 𝔽) : 𝔽 := c.sqrt (rho c ^ 4 + a2 c ^ 2 + 4 * adotx c ^ 2 - 2 * a2 c * rho c ^ 2)

/-- Lines 150-153. -/
def r (c : KerrPt 𝔽) : 𝔽 := c.sqrt (1 / 2 * (-a2 c + Omega c + rho c ^ 2))

/-- Lines 155-159. -/
def dr1 (c : KerrPt 𝔽) : 𝔽 :=
  ((adotx c * aS1 c - 1 / 2 * a2 c * c.x1) / Omega c + 1 / 2 * (c.x1 + c.x1 * rho c ^ 2 / Omega c)) / r c

/-- Lines 161-165. -/
def dr2 (c : KerrPt 𝔽) : 𝔽 :=
  ((adotx c * aS2 c - 1 / 2 * a2 c * c.x2) / Omega c + 1 / 2 * (c.x2 + c.x2 * rho c ^ 2 / Omega c)) / r c

/-- Lines 167-171. -/
def dr3 (c : KerrPt 𝔽) : 𝔽 :=
  ((adotx c * aS3 c - 1 / 2 * a2 c * c.x3) / Omega c + 1 / 2 * (c.x3 + c.x3 * rho c ^ 2 / Omega c)) / r c

/-- Lines 173-176. -/
def acrossx1 (c : KerrPt 𝔽) : 𝔽 := -(aS3 c * c.x2) + aS2 c * c.x3

/-- Lines 178-181. -/
def acrossx2 (c : KerrPt 𝔽) : 𝔽 := aS3 c * c.x1 - aS1 c * c.x3

/-- Lines 183-186. -/
def acrossx3 (c : KerrPt 𝔽) : 𝔽 := -(aS2 c * c.x1) + aS1 c * c.x2

/-- Lines 188-191. -/
def ahat12 (c : KerrPt 𝔽) : 𝔽 := -aS3 c

/-- Lines 193-196. -/
def ahat13 (c : KerrPt 𝔽) : 𝔽 := aS2 c

/-- Lines 198-201. -/
def ahat23 (c : KerrPt 𝔽) : 𝔽 := -aS1 c

/-- Lines 203-206. -/
def H (c : KerrPt 𝔽) : 𝔽 := c.M * r c ^ 3 / (r c ^ 4 + adotx c ^ 2)

/-- Lines 208-212. -/
def dH1 (c : KerrPt 𝔽) : 𝔽 :=
  H c * ((-2) * adotx c * aS1 c * r c + dr1 c * (-r c ^ 4 + 3 * adotx c ^ 2)) / (r c ^ 5 + r c * adotx c ^ 2)

/-- Lines 214-218. -/
def dH2 (c : KerrPt 𝔽) : 𝔽 :=
  H c * ((-2) * adotx c * aS2 c * r c + dr2 c * (-r c ^ 4 + 3 * adotx c ^ 2)) / (r c ^ 5 + r c * adotx c ^ 2)

/-- Lines 220-224. -/
def dH3 (c : KerrPt 𝔽) : 𝔽 :=
  H c * ((-2) * adotx c * aS3 c * r c + dr3 c * (-r c ^ 4 + 3 * adotx c ^ 2)) / (r c ^ 5 + r c * adotx c ^ 2)

/-- Lines 226-229. -/
def l1 (c : KerrPt 𝔽) : 𝔽 := (adotx c * aS1 c - acrossx1 c * r c + c.x1 * r c ^ 2) / (a2 c * r c + r c ^ 3)

/-- Lines 231-234. -/
def l2 (c : KerrPt 𝔽) : 𝔽 := (adotx c * aS2 c - acrossx2 c * r c + c.x2 * r c ^ 2) / (a2 c * r c + r c ^ 3)

/-- Lines 236-239. -/
def l3 (c : KerrPt 𝔽) : 𝔽 := (adotx c * aS3 c - acrossx3 c * r c + c.x3 * r c ^ 2) / (a2 c * r c + r c ^ 3)

/-- Lines 241-247. -/
def dl11 (c : KerrPt 𝔽) : 𝔽 :=
  (aS1 c ^ 2 + r c ^ 2) / (a2 c * r c + r c ^ 3) + dr1 c * (2 * acrossx1 c * r c ^ 3 - adotx c * aS1 c * (a2 c + 3
    * r c ^ 2) + c.x1 * (-r c ^ 4 + a2 c * r c ^ 2)) / (2 * a2 c * r c ^ 4 + r c ^ 6 + a2 c ^ 2 * r c ^ 2)

/-- Lines 249-255. -/
def dl12 (c : KerrPt 𝔽) : 𝔽 :=
  (aS1 c * aS2 c - ahat12 c * r c) / (a2 c * r c + r c ^ 3) + dr2 c * (2 * acrossx1 c * r c ^ 3 - adotx c * aS1 c
    * (a2 c + 3 * r c ^ 2) + c.x1 * (-r c ^ 4 + a2 c * r c ^ 2)) / (2 * a2 c * r c ^ 4 + r c ^ 6 + a2 c ^ 2 * r c ^
    2)

/-- Lines 257-263. -/
def dl13 (c : KerrPt 𝔽) : 𝔽 :=
  (aS1 c * aS3 c - ahat13 c * r c) / (a2 c * r c + r c ^ 3) + dr3 c * (2 * acrossx1 c * r c ^ 3 - adotx c * aS1 c
    * (a2 c + 3 * r c ^ 2) + c.x1 * (-r c ^ 4 + a2 c * r c ^ 2)) / (2 * a2 c * r c ^ 4 + r c ^ 6 + a2 c ^ 2 * r c ^
    2)

/-- Lines 265-271. -/
def dl21 (c : KerrPt 𝔽) : 𝔽 :=
  (aS1 c * aS2 c + ahat12 c * r c) / (a2 c * r c + r c ^ 3) + dr1 c * (2 * acrossx2 c * r c ^ 3 - adotx c * aS2 c
    * (a2 c + 3 * r c ^ 2) + c.x2 * (-r c ^ 4 + a2 c * r c ^ 2)) / (2 * a2 c * r c ^ 4 + r c ^ 6 + a2 c ^ 2 * r c ^
    2)

/-- Lines 273-279. -/
def dl22 (c : KerrPt 𝔽) : 𝔽 :=
  (aS2 c ^ 2 + r c ^ 2) / (a2 c * r c + r c ^ 3) + dr2 c * (2 * acrossx2 c * r c ^ 3 - adotx c * aS2 c * (a2 c + 3
    * r c ^ 2) + c.x2 * (-r c ^ 4 + a2 c * r c ^ 2)) / (2 * a2 c * r c ^ 4 + r c ^ 6 + a2 c ^ 2 * r c ^ 2)

/-- Lines 281-287. -/
def dl23 (c : KerrPt 𝔽) : 𝔽 :=
  (aS2 c * aS3 c - ahat23 c * r c) / (a2 c * r c + r c ^ 3) + dr3 c * (2 * acrossx2 c * r c ^ 3 - adotx c * aS2 c
    * (a2 c + 3 * r c ^ 2) + c.x2 * (-r c ^ 4 + a2 c * r c ^ 2)) / (2 * a2 c * r c ^ 4 + r c ^ 6 + a2 c ^ 2 * r c ^
    2)

/-- Lines 289-295. -/
def dl31 (c : KerrPt 𝔽) : 𝔽 :=
  (aS1 c * aS3 c + ahat13 c * r c) / (a2 c * r c + r c ^ 3) + dr1 c * (2 * acrossx3 c * r c ^ 3 - adotx c * aS3 c
    * (a2 c + 3 * r c ^ 2) + c.x3 * (-r c ^ 4 + a2 c * r c ^ 2)) / (2 * a2 c * r c ^ 4 + r c ^ 6 + a2 c ^ 2 * r c ^
    2)

/-- Lines 297-303. -/
def dl32 (c : KerrPt 𝔽) : 𝔽 :=
  (aS2 c * aS3 c + ahat23 c * r c) / (a2 c * r c + r c ^ 3) + dr2 c * (2 * acrossx3 c * r c ^ 3 - adotx c * aS3 c
    * (a2 c + 3 * r c ^ 2) + c.x3 * (-r c ^ 4 + a2 c * r c ^ 2)) / (2 * a2 c * r c ^ 4 + r c ^ 6 + a2 c ^ 2 * r c ^
    2)

/-- Lines 305-311. -/
def dl33 (c : KerrPt 𝔽) : 𝔽 :=
  (aS3 c ^ 2 + r c ^ 2) / (a2 c * r c + r c ^ 3) + dr3 c * (2 * acrossx3 c * r c ^ 3 - adotx c * aS3 c * (a2 c + 3
    * r c ^ 2) + c.x3 * (-r c ^ 4 + a2 c * r c ^ 2)) / (2 * a2 c * r c ^ 4 + r c ^ 6 + a2 c ^ 2 * r c ^ 2)

/-- Lines 313-316. -/
def g11 (c : KerrPt 𝔽) : 𝔽 := 1 + 2 * H c * l1 c ^ 2

/-- Lines 318-321. -/
def g12 (c : KerrPt 𝔽) : 𝔽 := 2 * H c * l1 c * l2 c

/-- Lines 323-326. -/
def g13 (c : KerrPt 𝔽) : 𝔽 := 2 * H c * l1 c * l3 c

/-- Lines 328-331. -/
def g22 (c : KerrPt 𝔽) : 𝔽 := 1 + 2 * H c * l2 c ^ 2

/-- Lines 333-336. -/
def g23 (c : KerrPt 𝔽) : 𝔽 := 2 * H c * l2 c * l3 c

/-- Lines 338-341. -/
def g33 (c : KerrPt 𝔽) : 𝔽 := 1 + 2 * H c * l3 c ^ 2

/-- Lines 343-347. -/
def detgup (c : KerrPt 𝔽) : 𝔽 :=
  1 / (2 * g12 c * g13 c * g23 c - g33 c * g12 c ^ 2 + g22 c * (g11 c * g33 c - g13 c ^ 2) - g11 c * g23 c ^ 2)

/-- Lines 349-352. -/
def gup11 (c : KerrPt 𝔽) : 𝔽 := detgup c * (g22 c * g33 c - g23 c ^ 2)

/-- Lines 354-357. -/
def gup12 (c : KerrPt 𝔽) : 𝔽 := detgup c * (g13 c * g23 c - g12 c * g33 c)

/-- Lines 359-362. -/
def gup13 (c : KerrPt 𝔽) : 𝔽 := detgup c * (-(g13 c * g22 c) + g12 c * g23 c)

/-- Lines 364-367. -/
def gup22 (c : KerrPt 𝔽) : 𝔽 := detgup c * (g11 c * g33 c - g13 c ^ 2)

/-- Lines 369-372. -/
def gup23 (c : KerrPt 𝔽) : 𝔽 := detgup c * (g12 c * g13 c - g11 c * g23 c)

/-- Lines 374-377. -/
def gup33 (c : KerrPt 𝔽) : 𝔽 := detgup c * (g11 c * g22 c - g12 c ^ 2)

/-- Lines 379-382. -/
def alpha (c : KerrPt 𝔽) : 𝔽 := 1 / c.sqrt (1 + 2 * H c)

/-- Lines 384-387. -/
def beta1 (c : KerrPt 𝔽) : 𝔽 := 2 * H c * l1 c / (1 + 2 * H c)

/-- Lines 389-392. -/
def beta2 (c : KerrPt 𝔽) : 𝔽 := 2 * H c * l2 c / (1 + 2 * H c)

/-- Lines 394-397. -/
def beta3 (c : KerrPt 𝔽) : 𝔽 := 2 * H c * l3 c / (1 + 2 * H c)

/-- Lines 399-403. -/
def K11 (c : KerrPt 𝔽) : 𝔽 :=
  alpha c * (4 * H c ^ 2 * (l1 c * (dl12 c * l2 c + dl13 c * l3 c) + dl11 c * l1 c ^ 2) + 2 * (dH1 c * l1 c + H c
    * (dl11 c + dH1 c * l1 c ^ 3 + (dH2 c * l2 c + dH3 c * l3 c) * l1 c ^ 2)))

/-- Lines 405-411. -/
def K12 (c : KerrPt 𝔽) : 𝔽 :=
  alpha c * ((dl12 c + dl21 c) * H c + dH1 c * l2 c + dH2 c * (l1 c + 2 * H c * l1 c * l2 c ^ 2) + 2 * (l2 c *
    (dl13 c * l3 c * H c ^ 2 + H c * (dH3 c * l1 c * l3 c + dH1 c * l1 c ^ 2)) + H c ^ 2 * (l1 c * ((dl11 c +
    dl22 c) * l2 c + dl23 c * l3 c) + dl21 c * l1 c ^ 2 + dl12 c * l2 c ^ 2)))

/-- Lines 413-419. -/
def K13 (c : KerrPt 𝔽) : 𝔽 :=
  alpha c * (dH1 c * l3 c + l1 c * (dH3 c + 2 * dl32 c * l2 c * H c ^ 2) + H c * (dl13 c + dl31 c + 2 * dH3 c *
    l1 c * l3 c ^ 2) + 2 * (l3 c * (dl12 c * l2 c * H c ^ 2 + H c * (dH2 c * l1 c * l2 c + dH1 c * l1 c ^ 2)) + H c
    ^ 2 * ((dl11 c + dl33 c) * l1 c * l3 c + dl31 c * l1 c ^ 2 + dl13 c * l3 c ^ 2)))

/-- Lines 421-426. -/
def K22 (c : KerrPt 𝔽) : 𝔽 :=
  alpha c * (4 * H c ^ 2 * (dl21 c * l1 c * l2 c + dl22 c * l2 c ^ 2) + l3 c * (4 * dl23 c * l2 c * H c ^ 2 + 2 *
    dH3 c * H c * l2 c ^ 2) + 2 * (dH2 c * l2 c + H c * (dl22 c + dH2 c * l2 c ^ 3 + dH1 c * l1 c * l2 c ^ 2)))

/-- Lines 428-434. -/
def K23 (c : KerrPt 𝔽) : 𝔽 :=
  alpha c * ((dl23 c + dl32 c) * H c + dH2 c * l3 c + l2 c * (dH3 c + 2 * dl31 c * l1 c * H c ^ 2) + 2 * (l3 c *
    ((dl21 c * l1 c + dl22 c * l2 c) * H c ^ 2 + l2 c * (dH1 c * H c * l1 c + dl33 c * H c ^ 2)) + (dH2 c * H c *
    l3 c + dl32 c * H c ^ 2) * l2 c ^ 2 + (dH3 c * H c * l2 c + dl23 c * H c ^ 2) * l3 c ^ 2))

/-- Lines 436-441. -/
def K33 (c : KerrPt 𝔽) : 𝔽 :=
  alpha c * (4 * (dl31 c * l1 c + dl32 c * l2 c) * l3 c * H c ^ 2 + (2 * dH1 c * H c * l1 c + 4 * dl33 c * H c ^
    2) * l3 c ^ 2 + 2 * (dH3 c * l3 c + H c * (dl33 c + dH3 c * l3 c ^ 3 + dH2 c * l2 c * l3 c ^ 2)))

/-- Lines 448-451. -/
def psi_T (c : KerrPt 𝔽) : 𝔽 := 1 + 2 * c.M / r c

/-- Lines 453-456. -/
def dpsiopsi1_T (c : KerrPt 𝔽) : 𝔽 := (-2) * c.M * c.x1 / (r c ^ 3 * psi_T c)

/-- Lines 458-461. -/
def dpsiopsi2_T (c : KerrPt 𝔽) : 𝔽 := (-2) * c.M * c.x2 / (r c ^ 3 * psi_T c)

/-- Lines 463-466. -/
def dpsiopsi3_T (c : KerrPt 𝔽) : 𝔽 := (-2) * c.M * c.x3 / (r c ^ 3 * psi_T c)

/-- Lines 468-471. -/
def ddpsiopsi11_T (c : KerrPt 𝔽) : 𝔽 := c.M * ((-2) / r c ^ 3 + 6 * c.x1 ^ 2 / r c ^ 5) / psi_T c

/-- Lines 473-476. -/
def ddpsiopsi12_T (c : KerrPt 𝔽) : 𝔽 := 6 * c.M * c.x1 * c.x2 / (r c ^ 5 * psi_T c)

/-- Lines 478-481. -/
def ddpsiopsi13_T (c : KerrPt 𝔽) : 𝔽 := 6 * c.M * c.x1 * c.x3 / (r c ^ 5 * psi_T c)

/-- Lines 483-486. -/
def ddpsiopsi22_T (c : KerrPt 𝔽) : 𝔽 := c.M * ((-2) / r c ^ 3 + 6 * c.x2 ^ 2 / r c ^ 5) / psi_T c

/-- Lines 488-491. -/
def ddpsiopsi23_T (c : KerrPt 𝔽) : 𝔽 := 6 * c.M * c.x2 * c.x3 / (r c ^ 5 * psi_T c)

/-- Lines 493-496. -/
def ddpsiopsi33_T (c : KerrPt 𝔽) : 𝔽 := c.M * ((-2) / r c ^ 3 + 6 * c.x3 ^ 2 / r c ^ 5) / psi_T c

/-- Lines 501-504. -/
def psi_F (_c : KerrPt 𝔽) : 𝔽 := 1

/-- Lines 506-509. -/
def dpsiopsi1_F (_c : KerrPt 𝔽) : 𝔽 := 0

/-- Lines 511-514. -/
def dpsiopsi2_F (_c : KerrPt 𝔽) : 𝔽 := 0

/-- Lines 516-519. -/
def dpsiopsi3_F (_c : KerrPt 𝔽) : 𝔽 := 0

/-- Lines 521-524. -/
def ddpsiopsi11_F (_c : KerrPt 𝔽) : 𝔽 := 0

/-- Lines 526-529. -/
def ddpsiopsi12_F (_c : KerrPt 𝔽) : 𝔽 := 0

/-- Lines 531-534. -/
def ddpsiopsi13_F (_c : KerrPt 𝔽) : 𝔽 := 0

/-- Lines 536-539. -/
def ddpsiopsi22_F (_c : KerrPt 𝔽) : 𝔽 := 0

/-- Lines 541-544. -/
def ddpsiopsi23_F (_c : KerrPt 𝔽) : 𝔽 := 0

/-- Lines 546-549. -/
def ddpsiopsi33_F (_c : KerrPt 𝔽) : 𝔽 := 0

/-- Lines 446-552. -/
def psi (c : KerrPt 𝔽) : 𝔽 := if c.conformalFactor then psi_T c else psi_F c

/-- Lines 446-552. -/
def dpsiopsi1 (c : KerrPt 𝔽) : 𝔽 := if c.conformalFactor then dpsiopsi1_T c else dpsiopsi1_F c

/-- Lines 446-552. -/
def dpsiopsi2 (c : KerrPt 𝔽) : 𝔽 := if c.conformalFactor then dpsiopsi2_T c else dpsiopsi2_F c

/-- Lines 446-552. -/
def dpsiopsi3 (c : KerrPt 𝔽) : 𝔽 := if c.conformalFactor then dpsiopsi3_T c else dpsiopsi3_F c

/-- Lines 446-552. -/
def ddpsiopsi11 (c : KerrPt 𝔽) : 𝔽 := if c.conformalFactor then ddpsiopsi11_T c else ddpsiopsi11_F c

/-- Lines 446-552. -/
def ddpsiopsi12 (c : KerrPt 𝔽) : 𝔽 := if c.conformalFactor then ddpsiopsi12_T c else ddpsiopsi12_F c

/-- Lines 446-552. -/
def ddpsiopsi13 (c : KerrPt 𝔽) : 𝔽 := if c.conformalFactor then ddpsiopsi13_T c else ddpsiopsi13_F c

/-- Lines 446-552. -/
def ddpsiopsi22 (c : KerrPt 𝔽) : 𝔽 := if c.conformalFactor then ddpsiopsi22_T c else ddpsiopsi22_F c

/-- Lines 446-552. -/
def ddpsiopsi23 (c : KerrPt 𝔽) : 𝔽 := if c.conformalFactor then ddpsiopsi23_T c else ddpsiopsi23_F c

/-- Lines 446-552. -/
def ddpsiopsi33 (c : KerrPt 𝔽) : 𝔽 := if c.conformalFactor then ddpsiopsi33_T c else ddpsiopsi33_F c

/-- Lines 555-558. -/
def gb11 (c : KerrPt 𝔽) : 𝔽 := g11 c / psi c ^ 4

/-- Lines 560-563. -/
def gb12 (c : KerrPt 𝔽) : 𝔽 := g12 c / psi c ^ 4

/-- Lines 565-568. -/
def gb13 (c : KerrPt 𝔽) : 𝔽 := g13 c / psi c ^ 4

/-- Lines 570-573. -/
def gb22 (c : KerrPt 𝔽) : 𝔽 := g22 c / psi c ^ 4

/-- Lines 575-578. -/
def gb23 (c : KerrPt 𝔽) : 𝔽 := g23 c / psi c ^ 4

/-- Lines 580-583. -/
def gb33 (c : KerrPt 𝔽) : 𝔽 := g33 c / psi c ^ 4

/-- What the code writes at one point (lines 36-62): the components of the variables by their number. -/
structure Out (K : Type) where
  gb : Nat → K
  K' : Nat → K
  psi : K
  dpsiopsi : Nat → K
  ddpsiopsi : Nat → K
  alpha : K
  beta : Nat → K

/-- `SingleBHKS` at one point (lines 33-585). -/
def point (c : KerrPt 𝔽) : Out 𝔽 where
  gb := fun n => [gb11 c, gb12 c, gb13 c, gb22 c, gb23 c, gb33 c].getD n 0
  K' := fun n => [K11 c, K12 c, K13 c, K22 c, K23 c, K33 c].getD n 0
  psi := psi c
  dpsiopsi := fun n => [dpsiopsi1 c, dpsiopsi2 c, dpsiopsi3 c].getD n 0
  ddpsiopsi := fun n => [ddpsiopsi11 c, ddpsiopsi12 c, ddpsiopsi13 c, ddpsiopsi22 c, ddpsiopsi23 c, ddpsiopsi33 c].getD n 0
  alpha := alpha c
  beta := fun n => [beta1 c, beta2 c, beta3 c].getD n 0

end KS

namespace Kerr3d
variable {𝔽 : Type} [Field 𝔽] [DecidableEq 𝔽]

/-- Lines 168-171. -/
def rho (c : KerrPt 𝔽) : 𝔽 := c.sqrt (c.x1 ^ 2 + c.x2 ^ 2 + c.x3 ^ 2)

/-- Lines 173-176. -/
def aS1_0 (c : KerrPt 𝔽) : 𝔽 := c.Sx

/-- Lines 178-181. -/
def aS2_0 (c : KerrPt 𝔽) : 𝔽 := c.Sy

/-- Lines 183-186. -/
def aS3_0 (c : KerrPt 𝔽) : 𝔽 := c.Sz

/-- Lines 193-196. -/
def aS1 (c : KerrPt 𝔽) : 𝔽 := if c.M ≠ 0 then aS1_0 c / c.M else aS1_0 c

/-- Lines 198-201. -/
def aS2 (c : KerrPt 𝔽) : 𝔽 := if c.M ≠ 0 then aS2_0 c / c.M else aS2_0 c

/-- Lines 203-206. -/
def aS3 (c : KerrPt 𝔽) : 𝔽 := if c.M ≠ 0 then aS3_0 c / c.M else aS3_0 c

/-- Lines 212-215. -/
def adotx (c : KerrPt 𝔽) : 𝔽 := aS1 c * c.x1 + aS2 c * c.x2 + aS3 c * c.x3

/-- Lines 217-220. -/
def a2 (c : KerrPt 𝔽) : 𝔽 := aS1 c ^ 2 + aS2 c ^ 2 + aS3 c ^ 2

/-- Lines 222-225. -/
def Omega (c : KerrPt 𝔽) : 𝔽 := c.sqrt (rho c ^ 4 + a2 c ^ 2 + 4 * adotx c ^ 2 - 2 * a2 c * rho c ^ 2)

/-- Lines 227-230. -/
def r (c : KerrPt 𝔽) : 𝔽 := c.sqrt (1 / 2 * (-a2 c + Omega c + rho c ^ 2))

/-- Lines 232-236. -/
def dr1 (c : KerrPt 𝔽) : 𝔽 :=
  ((adotx c * aS1 c - 1 / 2 * a2 c * c.x1) / Omega c + 1 / 2 * (c.x1 + c.x1 * rho c ^ 2 / Omega c)) / r c

/-- Lines 238-242. -/
def dr2 (c : KerrPt 𝔽) : 𝔽 :=
  ((adotx c * aS2 c - 1 / 2 * a2 c * c.x2) / Omega c + 1 / 2 * (c.x2 + c.x2 * rho c ^ 2 / Omega c)) / r c

/-- Lines 244-248. -/
def dr3 (c : KerrPt 𝔽) : 𝔽 :=
  ((adotx c * aS3 c - 1 / 2 * a2 c * c.x3) / Omega c + 1 / 2 * (c.x3 + c.x3 * rho c ^ 2 / Omega c)) / r c

/-- Lines 250-253. -/
def acrossx1 (c : KerrPt 𝔽) : 𝔽 := -(aS3 c * c.x2) + aS2 c * c.x3

/-- Lines 255-258. -/
def acrossx2 (c : KerrPt 𝔽) : 𝔽 := aS3 c * c.x1 - aS1 c * c.x3

/-- Lines 260-263. -/
def acrossx3 (c : KerrPt 𝔽) : 𝔽 := -(aS2 c * c.x1) + aS1 c * c.x2

/-- Lines 265-268. -/
def ahat12 (c : KerrPt 𝔽) : 𝔽 := -aS3 c

/-- Lines 270-273. -/
def ahat13 (c : KerrPt 𝔽) : 𝔽 := aS2 c

/-- Lines 275-278. -/
def ahat23 (c : KerrPt 𝔽) : 𝔽 := -aS1 c

/-- Lines 280-283. -/
def H (c : KerrPt 𝔽) : 𝔽 := c.M * r c ^ 3 / (r c ^ 4 + adotx c ^ 2)

/-- Lines 285-289. -/
def dH1 (c : KerrPt 𝔽) : 𝔽 :=
  H c * ((-2) * adotx c * aS1 c * r c + dr1 c * (-r c ^ 4 + 3 * adotx c ^ 2)) / (r c ^ 5 + r c * adotx c ^ 2)

/-- Lines 291-295. -/
def dH2 (c : KerrPt 𝔽) : 𝔽 :=
  H c * ((-2) * adotx c * aS2 c * r c + dr2 c * (-r c ^ 4 + 3 * adotx c ^ 2)) / (r c ^ 5 + r c * adotx c ^ 2)

/-- Lines 297-301. -/
def dH3 (c : KerrPt 𝔽) : 𝔽 :=
  H c * ((-2) * adotx c * aS3 c * r c + dr3 c * (-r c ^ 4 + 3 * adotx c ^ 2)) / (r c ^ 5 + r c * adotx c ^ 2)

/-- Lines 303-306. -/
def l1 (c : KerrPt 𝔽) : 𝔽 := (adotx c * aS1 c - acrossx1 c * r c + c.x1 * r c ^ 2) / (a2 c * r c + r c ^ 3)

/-- Lines 308-311. -/
def l2 (c : KerrPt 𝔽) : 𝔽 := (adotx c * aS2 c - acrossx2 c * r c + c.x2 * r c ^ 2) / (a2 c * r c + r c ^ 3)

/-- Lines 313-316. -/
def l3 (c : KerrPt 𝔽) : 𝔽 := (adotx c * aS3 c - acrossx3 c * r c + c.x3 * r c ^ 2) / (a2 c * r c + r c ^ 3)

/-- Lines 318-324. -/
def dl11 (c : KerrPt 𝔽) : 𝔽 :=
  (aS1 c ^ 2 + r c ^ 2) / (a2 c * r c + r c ^ 3) + dr1 c * (2 * acrossx1 c * r c ^ 3 - adotx c * aS1 c * (a2 c + 3
    * r c ^ 2) + c.x1 * (-r c ^ 4 + a2 c * r c ^ 2)) / (2 * a2 c * r c ^ 4 + r c ^ 6 + a2 c ^ 2 * r c ^ 2)

/-- Lines 326-332. -/
def dl12 (c : KerrPt 𝔽) : 𝔽 :=
  (aS1 c * aS2 c - ahat12 c * r c) / (a2 c * r c + r c ^ 3) + dr2 c * (2 * acrossx1 c * r c ^ 3 - adotx c * aS1 c
    * (a2 c + 3 * r c ^ 2) + c.x1 * (-r c ^ 4 + a2 c * r c ^ 2)) / (2 * a2 c * r c ^ 4 + r c ^ 6 + a2 c ^ 2 * r c ^
    2)

/-- Lines 334-340. -/
def dl13 (c : KerrPt 𝔽) : 𝔽 :=
  (aS1 c * aS3 c - ahat13 c * r c) / (a2 c * r c + r c ^ 3) + dr3 c * (2 * acrossx1 c * r c ^ 3 - adotx c * aS1 c
    * (a2 c + 3 * r c ^ 2) + c.x1 * (-r c ^ 4 + a2 c * r c ^ 2)) / (2 * a2 c * r c ^ 4 + r c ^ 6 + a2 c ^ 2 * r c ^
    2)

/-- Lines 342-348. -/
def dl21 (c : KerrPt 𝔽) : 𝔽 :=
  (aS1 c * aS2 c + ahat12 c * r c) / (a2 c * r c + r c ^ 3) + dr1 c * (2 * acrossx2 c * r c ^ 3 - adotx c * aS2 c
    * (a2 c + 3 * r c ^ 2) + c.x2 * (-r c ^ 4 + a2 c * r c ^ 2)) / (2 * a2 c * r c ^ 4 + r c ^ 6 + a2 c ^ 2 * r c ^
    2)

/-- Lines 350-356. -/
def dl22 (c : KerrPt 𝔽) : 𝔽 :=
  (aS2 c ^ 2 + r c ^ 2) / (a2 c * r c + r c ^ 3) + dr2 c * (2 * acrossx2 c * r c ^ 3 - adotx c * aS2 c * (a2 c + 3
    * r c ^ 2) + c.x2 * (-r c ^ 4 + a2 c * r c ^ 2)) / (2 * a2 c * r c ^ 4 + r c ^ 6 + a2 c ^ 2 * r c ^ 2)

/-- Lines 358-364. -/
def dl23 (c : KerrPt 𝔽) : 𝔽 :=
  (aS2 c * aS3 c - ahat23 c * r c) / (a2 c * r c + r c ^ 3) + dr3 c * (2 * acrossx2 c * r c ^ 3 - adotx c * aS2 c
    * (a2 c + 3 * r c ^ 2) + c.x2 * (-r c ^ 4 + a2 c * r c ^ 2)) / (2 * a2 c * r c ^ 4 + r c ^ 6 + a2 c ^ 2 * r c ^
    2)

/-- Lines 366-372. -/
def dl31 (c : KerrPt 𝔽) : 𝔽 :=
  (aS1 c * aS3 c + ahat13 c * r c) / (a2 c * r c + r c ^ 3) + dr1 c * (2 * acrossx3 c * r c ^ 3 - adotx c * aS3 c
    * (a2 c + 3 * r c ^ 2) + c.x3 * (-r c ^ 4 + a2 c * r c ^ 2)) / (2 * a2 c * r c ^ 4 + r c ^ 6 + a2 c ^ 2 * r c ^
    2)

/-- Lines 374-380. -/
def dl32 (c : KerrPt 𝔽) : 𝔽 :=
  (aS2 c * aS3 c + ahat23 c * r c) / (a2 c * r c + r c ^ 3) + dr2 c * (2 * acrossx3 c * r c ^ 3 - adotx c * aS3 c
    * (a2 c + 3 * r c ^ 2) + c.x3 * (-r c ^ 4 + a2 c * r c ^ 2)) / (2 * a2 c * r c ^ 4 + r c ^ 6 + a2 c ^ 2 * r c ^
    2)

/-- Lines 382-388. -/
def dl33 (c : KerrPt 𝔽) : 𝔽 :=
  (aS3 c ^ 2 + r c ^ 2) / (a2 c * r c + r c ^ 3) + dr3 c * (2 * acrossx3 c * r c ^ 3 - adotx c * aS3 c * (a2 c + 3
    * r c ^ 2) + c.x3 * (-r c ^ 4 + a2 c * r c ^ 2)) / (2 * a2 c * r c ^ 4 + r c ^ 6 + a2 c ^ 2 * r c ^ 2)

/-- Lines 390-393. -/
def g11 (c : KerrPt 𝔽) : 𝔽 := 1 + 2 * H c * l1 c ^ 2

/-- Lines 395-398. -/
def g12 (c : KerrPt 𝔽) : 𝔽 := 2 * H c * l1 c * l2 c

/-- Lines 400-403. -/
def g13 (c : KerrPt 𝔽) : 𝔽 := 2 * H c * l1 c * l3 c

/-- Lines 405-408. -/
def g22 (c : KerrPt 𝔽) : 𝔽 := 1 + 2 * H c * l2 c ^ 2

/-- Lines 410-413. -/
def g23 (c : KerrPt 𝔽) : 𝔽 := 2 * H c * l2 c * l3 c

/-- Lines 415-418. -/
def g33 (c : KerrPt 𝔽) : 𝔽 := 1 + 2 * H c * l3 c ^ 2

/-- Lines 420-425. -/
def detgup (c : KerrPt 𝔽) : 𝔽 :=
  1 / (2 * g12 c * g13 c * g23 c + g11 c * g22 c * g33 c - g33 c * g12 c ^ 2 - g22 c * g13 c ^ 2 - g11 c * g23 c ^
    2)

/-- Lines 427-430. -/
def gup11 (c : KerrPt 𝔽) : 𝔽 := detgup c * (g22 c * g33 c - g23 c ^ 2)

/-- Lines 432-435. -/
def gup12 (c : KerrPt 𝔽) : 𝔽 := detgup c * (g13 c * g23 c - g12 c * g33 c)

/-- Lines 437-440. -/
def gup13 (c : KerrPt 𝔽) : 𝔽 := detgup c * (-(g13 c * g22 c) + g12 c * g23 c)

/-- Lines 442-445. -/
def gup22 (c : KerrPt 𝔽) : 𝔽 := detgup c * (g11 c * g33 c - g13 c ^ 2)

/-- Lines 447-450. -/
def gup23 (c : KerrPt 𝔽) : 𝔽 := detgup c * (g12 c * g13 c - g11 c * g23 c)

/-- Lines 452-455. -/
def gup33 (c : KerrPt 𝔽) : 𝔽 := detgup c * (g11 c * g22 c - g12 c ^ 2)

/-- Lines 457-460. -/
def alpha (c : KerrPt 𝔽) : 𝔽 := 1 / c.sqrt (1 + 2 * H c)

/-- Lines 462-465. -/
def beta1 (c : KerrPt 𝔽) : 𝔽 := 2 * H c * l1 c / (1 + 2 * H c)

/-- Lines 467-470. -/
def beta2 (c : KerrPt 𝔽) : 𝔽 := 2 * H c * l2 c / (1 + 2 * H c)

/-- Lines 472-475. -/
def beta3 (c : KerrPt 𝔽) : 𝔽 := 2 * H c * l3 c / (1 + 2 * H c)

/-- Lines 477-480. -/
def dalpha1 (c : KerrPt 𝔽) : 𝔽 := -(dH1 c / (c.sqrt (1 + 2 * H c) + 2 * H c * c.sqrt (1 + 2 * H c)))

/-- Lines 482-485. -/
def dalpha2 (c : KerrPt 𝔽) : 𝔽 := -(dH2 c / (c.sqrt (1 + 2 * H c) + 2 * H c * c.sqrt (1 + 2 * H c)))

/-- Lines 487-490. -/
def dalpha3 (c : KerrPt 𝔽) : 𝔽 := -(dH3 c / (c.sqrt (1 + 2 * H c) + 2 * H c * c.sqrt (1 + 2 * H c)))

/-- Lines 492-495. -/
def dbeta11 (c : KerrPt 𝔽) : 𝔽 :=
  2 * (dl11 c * H c + dH1 c * l1 c) / (1 + 2 * H c) - 4 * dH1 c * H c * l1 c / (1 + 4 * (H c + H c ^ 2))

/-- Lines 497-500. -/
def dbeta12 (c : KerrPt 𝔽) : 𝔽 :=
  2 * (dl12 c * H c + dH2 c * l1 c) / (1 + 2 * H c) - 4 * dH2 c * H c * l1 c / (1 + 4 * (H c + H c ^ 2))

/-- Lines 502-505. -/
def dbeta13 (c : KerrPt 𝔽) : 𝔽 :=
  2 * (dl13 c * H c + dH3 c * l1 c) / (1 + 2 * H c) - 4 * dH3 c * H c * l1 c / (1 + 4 * (H c + H c ^ 2))

/-- Lines 507-510. -/
def dbeta21 (c : KerrPt 𝔽) : 𝔽 :=
  2 * (dl21 c * H c + dH1 c * l2 c) / (1 + 2 * H c) - 4 * dH1 c * H c * l2 c / (1 + 4 * (H c + H c ^ 2))

/-- Lines 512-515. -/
def dbeta22 (c : KerrPt 𝔽) : 𝔽 :=
  2 * (dl22 c * H c + dH2 c * l2 c) / (1 + 2 * H c) - 4 * dH2 c * H c * l2 c / (1 + 4 * (H c + H c ^ 2))

/-- Lines 517-520. -/
def dbeta23 (c : KerrPt 𝔽) : 𝔽 :=
  2 * (dl23 c * H c + dH3 c * l2 c) / (1 + 2 * H c) - 4 * dH3 c * H c * l2 c / (1 + 4 * (H c + H c ^ 2))

/-- Lines 522-525. -/
def dbeta31 (c : KerrPt 𝔽) : 𝔽 :=
  2 * (dl31 c * H c + dH1 c * l3 c) / (1 + 2 * H c) - 4 * dH1 c * H c * l3 c / (1 + 4 * (H c + H c ^ 2))

/-- Lines 527-530. -/
def dbeta32 (c : KerrPt 𝔽) : 𝔽 :=
  2 * (dl32 c * H c + dH2 c * l3 c) / (1 + 2 * H c) - 4 * dH2 c * H c * l3 c / (1 + 4 * (H c + H c ^ 2))

/-- Lines 532-535. -/
def dbeta33 (c : KerrPt 𝔽) : 𝔽 :=
  2 * (dl33 c * H c + dH3 c * l3 c) / (1 + 2 * H c) - 4 * dH3 c * H c * l3 c / (1 + 4 * (H c + H c ^ 2))

/-- Lines 537-541. -/
def K11 (c : KerrPt 𝔽) : 𝔽 :=
  alpha c * (4 * H c ^ 2 * (l1 c * (dl12 c * l2 c + dl13 c * l3 c) + dl11 c * l1 c ^ 2) + 2 * (dH1 c * l1 c + H c
    * (dl11 c + dH1 c * l1 c ^ 3 + (dH2 c * l2 c + dH3 c * l3 c) * l1 c ^ 2)))

/-- Lines 543-549. -/
def K12 (c : KerrPt 𝔽) : 𝔽 :=
  alpha c * ((dl12 c + dl21 c) * H c + dH1 c * l2 c + dH2 c * (l1 c + 2 * H c * l1 c * l2 c ^ 2) + 2 * (l2 c *
    (dl13 c * l3 c * H c ^ 2 + H c * (dH3 c * l1 c * l3 c + dH1 c * l1 c ^ 2)) + H c ^ 2 * (l1 c * ((dl11 c +
    dl22 c) * l2 c + dl23 c * l3 c) + dl21 c * l1 c ^ 2 + dl12 c * l2 c ^ 2)))

/-- Lines 551-557. -/
def K13 (c : KerrPt 𝔽) : 𝔽 :=
  alpha c * (dH1 c * l3 c + l1 c * (dH3 c + 2 * dl32 c * l2 c * H c ^ 2) + H c * (dl13 c + dl31 c + 2 * dH3 c *
    l1 c * l3 c ^ 2) + 2 * (l3 c * (dl12 c * l2 c * H c ^ 2 + H c * (dH2 c * l1 c * l2 c + dH1 c * l1 c ^ 2)) + H c
    ^ 2 * ((dl11 c + dl33 c) * l1 c * l3 c + dl31 c * l1 c ^ 2 + dl13 c * l3 c ^ 2)))

/-- Lines 559-564. -/
def K22 (c : KerrPt 𝔽) : 𝔽 :=
  alpha c * (4 * H c ^ 2 * (dl21 c * l1 c * l2 c + dl22 c * l2 c ^ 2) + l3 c * (4 * dl23 c * l2 c * H c ^ 2 + 2 *
    dH3 c * H c * l2 c ^ 2) + 2 * (dH2 c * l2 c + H c * (dl22 c + dH2 c * l2 c ^ 3 + dH1 c * l1 c * l2 c ^ 2)))

/-- Lines 566-572. -/
def K23 (c : KerrPt 𝔽) : 𝔽 :=
  alpha c * ((dl23 c + dl32 c) * H c + dH2 c * l3 c + l2 c * (dH3 c + 2 * dl31 c * l1 c * H c ^ 2) + 2 * (l3 c *
    ((dl21 c * l1 c + dl22 c * l2 c) * H c ^ 2 + l2 c * (dH1 c * H c * l1 c + dl33 c * H c ^ 2)) + (dH2 c * H c *
    l3 c + dl32 c * H c ^ 2) * l2 c ^ 2 + (dH3 c * H c * l2 c + dl23 c * H c ^ 2) * l3 c ^ 2))

/-- Lines 574-579. -/
def K33 (c : KerrPt 𝔽) : 𝔽 :=
  alpha c * (4 * (dl31 c * l1 c + dl32 c * l2 c) * l3 c * H c ^ 2 + (2 * dH1 c * H c * l1 c + 4 * dl33 c * H c ^
    2) * l3 c ^ 2 + 2 * (dH3 c * l3 c + H c * (dl33 c + dH3 c * l3 c ^ 3 + dH2 c * l2 c * l3 c ^ 2)))

/-- Lines 581-586. -/
def TrK (c : KerrPt 𝔽) : 𝔽 :=
  gup11 c * K11 c + gup22 c * K22 c + 2 * (gup12 c * K12 c + gup13 c * K13 c + gup23 c * K23 c) + gup33 c * K33 c

/-- Lines 588-591. -/
def dg111 (c : KerrPt 𝔽) : 𝔽 := 4 * dl11 c * H c * l1 c + 2 * dH1 c * l1 c ^ 2

/-- Lines 593-596. -/
def dg112 (c : KerrPt 𝔽) : 𝔽 := 4 * dl12 c * H c * l1 c + 2 * dH2 c * l1 c ^ 2

/-- Lines 598-601. -/
def dg113 (c : KerrPt 𝔽) : 𝔽 := 4 * dl13 c * H c * l1 c + 2 * dH3 c * l1 c ^ 2

/-- Lines 603-606. -/
def dg121 (c : KerrPt 𝔽) : 𝔽 := 2 * (dH1 c * l1 c * l2 c + H c * (dl21 c * l1 c + dl11 c * l2 c))

/-- Lines 608-611. -/
def dg122 (c : KerrPt 𝔽) : 𝔽 := 2 * (dH2 c * l1 c * l2 c + H c * (dl22 c * l1 c + dl12 c * l2 c))

/-- Lines 613-616. -/
def dg123 (c : KerrPt 𝔽) : 𝔽 := 2 * (dH3 c * l1 c * l2 c + H c * (dl23 c * l1 c + dl13 c * l2 c))

/-- Lines 618-621. -/
def dg131 (c : KerrPt 𝔽) : 𝔽 := 2 * (dH1 c * l1 c * l3 c + H c * (dl31 c * l1 c + dl11 c * l3 c))

/-- Lines 623-626. -/
def dg132 (c : KerrPt 𝔽) : 𝔽 := 2 * (dH2 c * l1 c * l3 c + H c * (dl32 c * l1 c + dl12 c * l3 c))

/-- Lines 628-631. -/
def dg133 (c : KerrPt 𝔽) : 𝔽 := 2 * (dH3 c * l1 c * l3 c + H c * (dl33 c * l1 c + dl13 c * l3 c))

/-- Lines 633-636. -/
def dg221 (c : KerrPt 𝔽) : 𝔽 := 4 * dl21 c * H c * l2 c + 2 * dH1 c * l2 c ^ 2

/-- Lines 638-641. -/
def dg222 (c : KerrPt 𝔽) : 𝔽 := 4 * dl22 c * H c * l2 c + 2 * dH2 c * l2 c ^ 2

/-- Lines 643-646. -/
def dg223 (c : KerrPt 𝔽) : 𝔽 := 4 * dl23 c * H c * l2 c + 2 * dH3 c * l2 c ^ 2

/-- Lines 648-651. -/
def dg231 (c : KerrPt 𝔽) : 𝔽 := 2 * (dH1 c * l2 c * l3 c + H c * (dl31 c * l2 c + dl21 c * l3 c))

/-- Lines 653-656. -/
def dg232 (c : KerrPt 𝔽) : 𝔽 := 2 * (dH2 c * l2 c * l3 c + H c * (dl32 c * l2 c + dl22 c * l3 c))

/-- Lines 658-661. -/
def dg233 (c : KerrPt 𝔽) : 𝔽 := 2 * (dH3 c * l2 c * l3 c + H c * (dl33 c * l2 c + dl23 c * l3 c))

/-- Lines 663-666. -/
def dg331 (c : KerrPt 𝔽) : 𝔽 := 4 * dl31 c * H c * l3 c + 2 * dH1 c * l3 c ^ 2

/-- Lines 668-671. -/
def dg332 (c : KerrPt 𝔽) : 𝔽 := 4 * dl32 c * H c * l3 c + 2 * dH2 c * l3 c ^ 2

/-- Lines 673-676. -/
def dg333 (c : KerrPt 𝔽) : 𝔽 := 4 * dl33 c * H c * l3 c + 2 * dH3 c * l3 c ^ 2

/-- Lines 678-681. -/
def Gamdo111 (c : KerrPt 𝔽) : 𝔽 := 1 / 2 * dg111 c

/-- Lines 683-686. -/
def Gamdo112 (c : KerrPt 𝔽) : 𝔽 := 1 / 2 * dg112 c

/-- Lines 688-691. -/
def Gamdo113 (c : KerrPt 𝔽) : 𝔽 := 1 / 2 * dg113 c

/-- Lines 693-696. -/
def Gamdo122 (c : KerrPt 𝔽) : 𝔽 := dg122 c - 1 / 2 * dg221 c

/-- Lines 698-701. -/
def Gamdo123 (c : KerrPt 𝔽) : 𝔽 := 1 / 2 * (dg123 c + dg132 c - dg231 c)

/-- Lines 703-706. -/
def Gamdo133 (c : KerrPt 𝔽) : 𝔽 := dg133 c - 1 / 2 * dg331 c

/-- Lines 708-711. -/
def Gamdo211 (c : KerrPt 𝔽) : 𝔽 := (-(1 / 2)) * dg112 c + dg121 c

/-- Lines 713-716. -/
def Gamdo212 (c : KerrPt 𝔽) : 𝔽 := 1 / 2 * dg221 c

/-- Lines 718-721. -/
def Gamdo213 (c : KerrPt 𝔽) : 𝔽 := 1 / 2 * (dg123 c - dg132 c + dg231 c)

/-- Lines 723-726. -/
def Gamdo222 (c : KerrPt 𝔽) : 𝔽 := 1 / 2 * dg222 c

/-- Lines 728-731. -/
def Gamdo223 (c : KerrPt 𝔽) : 𝔽 := 1 / 2 * dg223 c

/-- Lines 733-736. -/
def Gamdo233 (c : KerrPt 𝔽) : 𝔽 := dg233 c - 1 / 2 * dg332 c

/-- Lines 738-741. -/
def Gamdo311 (c : KerrPt 𝔽) : 𝔽 := (-(1 / 2)) * dg113 c + dg131 c

/-- Lines 743-746. -/
def Gamdo312 (c : KerrPt 𝔽) : 𝔽 := 1 / 2 * (-dg123 c + dg132 c + dg231 c)

/-- Lines 748-751. -/
def Gamdo313 (c : KerrPt 𝔽) : 𝔽 := 1 / 2 * dg331 c

/-- Lines 753-756. -/
def Gamdo322 (c : KerrPt 𝔽) : 𝔽 := (-(1 / 2)) * dg223 c + dg232 c

/-- Lines 758-761. -/
def Gamdo323 (c : KerrPt 𝔽) : 𝔽 := 1 / 2 * dg332 c

/-- Lines 763-766. -/
def Gamdo333 (c : KerrPt 𝔽) : 𝔽 := 1 / 2 * dg333 c

/-- Lines 768-771. -/
def Gam111 (c : KerrPt 𝔽) : 𝔽 := Gamdo111 c * gup11 c + Gamdo211 c * gup12 c + Gamdo311 c * gup13 c

/-- Lines 773-776. -/
def Gam112 (c : KerrPt 𝔽) : 𝔽 := Gamdo112 c * gup11 c + Gamdo212 c * gup12 c + Gamdo312 c * gup13 c

/-- Lines 778-781. -/
def Gam113 (c : KerrPt 𝔽) : 𝔽 := Gamdo113 c * gup11 c + Gamdo213 c * gup12 c + Gamdo313 c * gup13 c

/-- Lines 783-786. -/
def Gam122 (c : KerrPt 𝔽) : 𝔽 := Gamdo122 c * gup11 c + Gamdo222 c * gup12 c + Gamdo322 c * gup13 c

/-- Lines 788-791. -/
def Gam123 (c : KerrPt 𝔽) : 𝔽 := Gamdo123 c * gup11 c + Gamdo223 c * gup12 c + Gamdo323 c * gup13 c

/-- Lines 793-796. -/
def Gam133 (c : KerrPt 𝔽) : 𝔽 := Gamdo133 c * gup11 c + Gamdo233 c * gup12 c + Gamdo333 c * gup13 c

/-- Lines 798-801. -/
def Gam211 (c : KerrPt 𝔽) : 𝔽 := Gamdo111 c * gup12 c + Gamdo211 c * gup22 c + Gamdo311 c * gup23 c

/-- Lines 803-806. -/
def Gam212 (c : KerrPt 𝔽) : 𝔽 := Gamdo112 c * gup12 c + Gamdo212 c * gup22 c + Gamdo312 c * gup23 c

/-- Lines 808-811. -/
def Gam213 (c : KerrPt 𝔽) : 𝔽 := Gamdo113 c * gup12 c + Gamdo213 c * gup22 c + Gamdo313 c * gup23 c

/-- Lines 813-816. -/
def Gam222 (c : KerrPt 𝔽) : 𝔽 := Gamdo122 c * gup12 c + Gamdo222 c * gup22 c + Gamdo322 c * gup23 c

/-- Lines 818-821. -/
def Gam223 (c : KerrPt 𝔽) : 𝔽 := Gamdo123 c * gup12 c + Gamdo223 c * gup22 c + Gamdo323 c * gup23 c

/-- Lines 823-826. -/
def Gam233 (c : KerrPt 𝔽) : 𝔽 := Gamdo133 c * gup12 c + Gamdo233 c * gup22 c + Gamdo333 c * gup23 c

/-- Lines 828-831. -/
def Gam311 (c : KerrPt 𝔽) : 𝔽 := Gamdo111 c * gup13 c + Gamdo211 c * gup23 c + Gamdo311 c * gup33 c

/-- Lines 833-836. -/
def Gam312 (c : KerrPt 𝔽) : 𝔽 := Gamdo112 c * gup13 c + Gamdo212 c * gup23 c + Gamdo312 c * gup33 c

/-- Lines 838-841. -/
def Gam313 (c : KerrPt 𝔽) : 𝔽 := Gamdo113 c * gup13 c + Gamdo213 c * gup23 c + Gamdo313 c * gup33 c

/-- Lines 843-846. -/
def Gam322 (c : KerrPt 𝔽) : 𝔽 := Gamdo122 c * gup13 c + Gamdo222 c * gup23 c + Gamdo322 c * gup33 c

/-- Lines 848-851. -/
def Gam323 (c : KerrPt 𝔽) : 𝔽 := Gamdo123 c * gup13 c + Gamdo223 c * gup23 c + Gamdo323 c * gup33 c

/-- Lines 853-856. -/
def Gam333 (c : KerrPt 𝔽) : 𝔽 := Gamdo133 c * gup13 c + Gamdo233 c * gup23 c + Gamdo333 c * gup33 c

/-- Lines 858-863. -/
def G1 (c : KerrPt 𝔽) : 𝔽 :=
  Gam111 c * gup11 c + Gam122 c * gup22 c + 2 * (Gam112 c * gup12 c + Gam113 c * gup13 c + Gam123 c * gup23 c) +
    Gam133 c * gup33 c

/-- Lines 865-870. -/
def G2 (c : KerrPt 𝔽) : 𝔽 :=
  Gam211 c * gup11 c + Gam222 c * gup22 c + 2 * (Gam212 c * gup12 c + Gam213 c * gup13 c + Gam223 c * gup23 c) +
    Gam233 c * gup33 c

/-- Lines 872-877. -/
def G3 (c : KerrPt 𝔽) : 𝔽 :=
  Gam311 c * gup11 c + Gam322 c * gup22 c + 2 * (Gam312 c * gup12 c + Gam313 c * gup13 c + Gam323 c * gup23 c) +
    Gam333 c * gup33 c

/-- What the code writes at one point (lines 35-94): the components of the variables by their number. -/
structure Out (K : Type) where
  alpha : K
  beta : Nat → K
  g : Nat → K
  K' : Nat → K
  TrK : K
  gup : Nat → K
  Gam : Nat → K
  G : Nat → K
  dalpha : Nat → K
  dbeta : Nat → K

/-- `Kerr3d` at one point (lines 32-879). -/
def point (c : KerrPt 𝔽) : Out 𝔽 where
  alpha := alpha c
  beta := fun n => [beta1 c, beta2 c, beta3 c].getD n 0
  g := fun n => [g11 c, g12 c, g13 c, g22 c, g23 c, g33 c].getD n 0
  K' := fun n => [K11 c, K12 c, K13 c, K22 c, K23 c, K33 c].getD n 0
  TrK := TrK c
  gup := fun n => [gup11 c, gup12 c, gup13 c, gup22 c, gup23 c, gup33 c].getD n 0
  Gam := fun n =>
    [Gam111 c, Gam112 c, Gam113 c, Gam122 c, Gam123 c, Gam133 c,
      Gam211 c, Gam212 c, Gam213 c, Gam222 c, Gam223 c, Gam233 c,
      Gam311 c, Gam312 c, Gam313 c, Gam322 c, Gam323 c, Gam333 c].getD n 0
  G := fun n => [G1 c, G2 c, G3 c].getD n 0
  dalpha := fun n => [dalpha1 c, dalpha2 c, dalpha3 c].getD n 0
  dbeta := fun n => [dbeta11 c, dbeta12 c, dbeta13 c, dbeta21 c, dbeta22 c, dbeta23 c, dbeta31 c, dbeta32 c, dbeta33 c].getD n 0

end Kerr3d
end Sgrid
