import Verif.Model.KerrData

/-!
# The four dimensional metric of a black hole in Kerr-Schild coordinates

`Kerr` (src/physics/ScalarOnKerr/Kerr.c:16-1433) at one point of one box; the loops over boxes and points do the same everywhere, no
point uses values of another point. The lines in the comments are lines of this file. Each definition is one assignment of the C
code, a name that ends with `_0` is a value that is overwritten later. Numbers are in a field, and `sqrt` is what the function of
this name stands for. The coordinates and parameters are in `KerrPt`.
-/

namespace Sgrid
namespace Kerr4
set_option linter.unusedSectionVars false
variable {𝔽 : Type} [Field 𝔽] [DecidableEq 𝔽]

/-- Lines 242-245. -/
def x0 (_c : KerrPt 𝔽) : 𝔽 := 0

/-- Lines 247-250. -/
def x1 (c : KerrPt 𝔽) : 𝔽 := c.x1

/-- Lines 252-255. -/
def x2 (c : KerrPt 𝔽) : 𝔽 := c.x2

/-- Lines 257-260. -/
def x3 (c : KerrPt 𝔽) : 𝔽 := c.x3

/-- Lines 262-265. -/
def rho (c : KerrPt 𝔽) : 𝔽 := c.sqrt (x1 c ^ 2 + x2 c ^ 2 + x3 c ^ 2)

/-- Lines 267-270. -/
def aS0_0 (_c : KerrPt 𝔽) : 𝔽 := 0

/-- Lines 272-275. -/
def aS1_0 (c : KerrPt 𝔽) : 𝔽 := c.Sx

/-- Lines 277-280. -/
def aS2_0 (c : KerrPt 𝔽) : 𝔽 := c.Sy

/-- Lines 282-285. -/
def aS3_0 (c : KerrPt 𝔽) : 𝔽 := c.Sz

/-- Lines 292-295. -/
def aS0 (c : KerrPt 𝔽) : 𝔽 := if c.M ≠ 0 then aS0_0 c / c.M else aS0_0 c

/-- Lines 297-300. -/
def aS1 (c : KerrPt 𝔽) : 𝔽 := if c.M ≠ 0 then aS1_0 c / c.M else aS1_0 c

/-- Lines 302-305. -/
def aS2 (c : KerrPt 𝔽) : 𝔽 := if c.M ≠ 0 then aS2_0 c / c.M else aS2_0 c

/-- Lines 307-310. -/
def aS3 (c : KerrPt 𝔽) : 𝔽 := if c.M ≠ 0 then aS3_0 c / c.M else aS3_0 c

/-- Lines 316-319. -/
def adotx (c : KerrPt 𝔽) : 𝔽 := aS1 c * x1 c + aS2 c * x2 c + aS3 c * x3 c

/-- Lines 321-324. -/
def a2 (c : KerrPt 𝔽) : 𝔽 := aS1 c ^ 2 + aS2 c ^ 2 + aS3 c ^ 2

/-- Lines 326-329. -/
def Omega (c : KerrPt 𝔽) : 𝔽 := c.sqrt (rho c ^ 4 + a2 c ^ 2 + 4 * adotx c ^ 2 - 2 * a2 c * rho c ^ 2)

/-- Lines 331-334. -/
def r (c : KerrPt 𝔽) : 𝔽 := c.sqrt (1 / 2 * (-a2 c + Omega c + rho c ^ 2))

/-- Lines 336-339. -/
def dr0_0 (c : KerrPt 𝔽) : 𝔽 :=
  ((adotx c * aS0 c - 1 / 2 * a2 c * x0 c) / Omega c + 1 / 2 * (x0 c + x0 c * rho c ^ 2 / Omega c)) / r c

/-- Lines 341-344. -/
def dr1 (c : KerrPt 𝔽) : 𝔽 :=
  ((adotx c * aS1 c - 1 / 2 * a2 c * x1 c) / Omega c + 1 / 2 * (x1 c + x1 c * rho c ^ 2 / Omega c)) / r c

/-- Lines 346-349. -/
def dr2 (c : KerrPt 𝔽) : 𝔽 :=
  ((adotx c * aS2 c - 1 / 2 * a2 c * x2 c) / Omega c + 1 / 2 * (x2 c + x2 c * rho c ^ 2 / Omega c)) / r c

/-- Lines 351-354. -/
def dr3 (c : KerrPt 𝔽) : 𝔽 :=
  ((adotx c * aS3 c - 1 / 2 * a2 c * x3 c) / Omega c + 1 / 2 * (x3 c + x3 c * rho c ^ 2 / Omega c)) / r c

/-- Lines 356-359. -/
def dr0 (_c : KerrPt 𝔽) : 𝔽 := 0

/-- Lines 361-364. -/
def acrossx0 (_c : KerrPt 𝔽) : 𝔽 := 0

/-- Lines 366-369. -/
def acrossx1 (c : KerrPt 𝔽) : 𝔽 := -(aS3 c * x2 c) + aS2 c * x3 c

/-- Lines 371-374. -/
def acrossx2 (c : KerrPt 𝔽) : 𝔽 := aS3 c * x1 c - aS1 c * x3 c

/-- Lines 376-379. -/
def acrossx3 (c : KerrPt 𝔽) : 𝔽 := -(aS2 c * x1 c) + aS1 c * x2 c

/-- Lines 381-384. -/
def ahat01 (_c : KerrPt 𝔽) : 𝔽 := 0

/-- Lines 386-389. -/
def ahat02 (_c : KerrPt 𝔽) : 𝔽 := 0

/-- Lines 391-394. -/
def ahat03 (_c : KerrPt 𝔽) : 𝔽 := 0

/-- Lines 396-399. -/
def ahat12 (c : KerrPt 𝔽) : 𝔽 := -aS3 c

/-- Lines 401-404. -/
def ahat13 (c : KerrPt 𝔽) : 𝔽 := aS2 c

/-- Lines 406-409. -/
def ahat23 (c : KerrPt 𝔽) : 𝔽 := -aS1 c

/-- Lines 411-414. -/
def H (c : KerrPt 𝔽) : 𝔽 := c.M * r c ^ 3 / (r c ^ 4 + adotx c ^ 2)

/-- Lines 416-420. -/
def dH0_0 (c : KerrPt 𝔽) : 𝔽 :=
  H c * ((-2) * adotx c * aS0 c * r c + dr0 c * (-r c ^ 4 + 3 * adotx c ^ 2)) / (r c ^ 5 + r c * adotx c ^ 2)

/-- Lines 422-426. -/
def dH1 (c : KerrPt 𝔽) : 𝔽 :=
  H c * ((-2) * adotx c * aS1 c * r c + dr1 c * (-r c ^ 4 + 3 * adotx c ^ 2)) / (r c ^ 5 + r c * adotx c ^ 2)

/-- Lines 428-432. -/
def dH2 (c : KerrPt 𝔽) : 𝔽 :=
  H c * ((-2) * adotx c * aS2 c * r c + dr2 c * (-r c ^ 4 + 3 * adotx c ^ 2)) / (r c ^ 5 + r c * adotx c ^ 2)

/-- Lines 434-438. -/
def dH3 (c : KerrPt 𝔽) : 𝔽 :=
  H c * ((-2) * adotx c * aS3 c * r c + dr3 c * (-r c ^ 4 + 3 * adotx c ^ 2)) / (r c ^ 5 + r c * adotx c ^ 2)

/-- Lines 440-443. -/
def dH0 (_c : KerrPt 𝔽) : 𝔽 := 0

/-- Lines 445-448. -/
def l0_0 (c : KerrPt 𝔽) : 𝔽 := (adotx c * aS0 c - acrossx0 c * r c + x0 c * r c ^ 2) / (a2 c * r c + r c ^ 3)

/-- Lines 450-453. -/
def l1 (c : KerrPt 𝔽) : 𝔽 := (adotx c * aS1 c - acrossx1 c * r c + x1 c * r c ^ 2) / (a2 c * r c + r c ^ 3)

/-- Lines 455-458. -/
def l2 (c : KerrPt 𝔽) : 𝔽 := (adotx c * aS2 c - acrossx2 c * r c + x2 c * r c ^ 2) / (a2 c * r c + r c ^ 3)

/-- Lines 460-463. -/
def l3 (c : KerrPt 𝔽) : 𝔽 := (adotx c * aS3 c - acrossx3 c * r c + x3 c * r c ^ 2) / (a2 c * r c + r c ^ 3)

/-- Lines 465-468. -/
def l0 (_c : KerrPt 𝔽) : 𝔽 := 1

/-- Lines 470-473. -/
def lup0 (c : KerrPt 𝔽) : 𝔽 := -l0 c

/-- Lines 475-478. -/
def lup1 (c : KerrPt 𝔽) : 𝔽 := l1 c

/-- Lines 480-483. -/
def lup2 (c : KerrPt 𝔽) : 𝔽 := l2 c

/-- Lines 485-488. -/
def lup3 (c : KerrPt 𝔽) : 𝔽 := l3 c

/-- Lines 490-496. -/
def dl00_0 (c : KerrPt 𝔽) : 𝔽 :=
  (aS0 c ^ 2 + r c ^ 2) / (a2 c * r c + r c ^ 3) + dr0 c * (2 * acrossx0 c * r c ^ 3 - adotx c * aS0 c * (a2 c + 3
    * r c ^ 2) + x0 c * (-r c ^ 4 + a2 c * r c ^ 2)) / (2 * a2 c * r c ^ 4 + r c ^ 6 + a2 c ^ 2 * r c ^ 2)

/-- Lines 498-504. -/
def dl01_0 (c : KerrPt 𝔽) : 𝔽 :=
  (aS0 c * aS1 c - ahat01 c * r c) / (a2 c * r c + r c ^ 3) + dr1 c * (2 * acrossx0 c * r c ^ 3 - adotx c * aS0 c
    * (a2 c + 3 * r c ^ 2) + x0 c * (-r c ^ 4 + a2 c * r c ^ 2)) / (2 * a2 c * r c ^ 4 + r c ^ 6 + a2 c ^ 2 * r c ^
    2)

/-- Lines 506-512. -/
def dl02_0 (c : KerrPt 𝔽) : 𝔽 :=
  (aS0 c * aS2 c - ahat02 c * r c) / (a2 c * r c + r c ^ 3) + dr2 c * (2 * acrossx0 c * r c ^ 3 - adotx c * aS0 c
    * (a2 c + 3 * r c ^ 2) + x0 c * (-r c ^ 4 + a2 c * r c ^ 2)) / (2 * a2 c * r c ^ 4 + r c ^ 6 + a2 c ^ 2 * r c ^
    2)

/-- Lines 514-520. -/
def dl03_0 (c : KerrPt 𝔽) : 𝔽 :=
  (aS0 c * aS3 c - ahat03 c * r c) / (a2 c * r c + r c ^ 3) + dr3 c * (2 * acrossx0 c * r c ^ 3 - adotx c * aS0 c
    * (a2 c + 3 * r c ^ 2) + x0 c * (-r c ^ 4 + a2 c * r c ^ 2)) / (2 * a2 c * r c ^ 4 + r c ^ 6 + a2 c ^ 2 * r c ^
    2)

/-- Lines 522-528. -/
def dl10_0 (c : KerrPt 𝔽) : 𝔽 :=
  (aS0 c * aS1 c + ahat01 c * r c) / (a2 c * r c + r c ^ 3) + dr0 c * (2 * acrossx1 c * r c ^ 3 - adotx c * aS1 c
    * (a2 c + 3 * r c ^ 2) + x1 c * (-r c ^ 4 + a2 c * r c ^ 2)) / (2 * a2 c * r c ^ 4 + r c ^ 6 + a2 c ^ 2 * r c ^
    2)

/-- Lines 530-536. -/
def dl11 (c : KerrPt 𝔽) : 𝔽 :=
  (aS1 c ^ 2 + r c ^ 2) / (a2 c * r c + r c ^ 3) + dr1 c * (2 * acrossx1 c * r c ^ 3 - adotx c * aS1 c * (a2 c + 3
    * r c ^ 2) + x1 c * (-r c ^ 4 + a2 c * r c ^ 2)) / (2 * a2 c * r c ^ 4 + r c ^ 6 + a2 c ^ 2 * r c ^ 2)

/-- Lines 538-544. -/
def dl12 (c : KerrPt 𝔽) : 𝔽 :=
  (aS1 c * aS2 c - ahat12 c * r c) / (a2 c * r c + r c ^ 3) + dr2 c * (2 * acrossx1 c * r c ^ 3 - adotx c * aS1 c
    * (a2 c + 3 * r c ^ 2) + x1 c * (-r c ^ 4 + a2 c * r c ^ 2)) / (2 * a2 c * r c ^ 4 + r c ^ 6 + a2 c ^ 2 * r c ^
    2)

/-- Lines 546-552. -/
def dl13 (c : KerrPt 𝔽) : 𝔽 :=
  (aS1 c * aS3 c - ahat13 c * r c) / (a2 c * r c + r c ^ 3) + dr3 c * (2 * acrossx1 c * r c ^ 3 - adotx c * aS1 c
    * (a2 c + 3 * r c ^ 2) + x1 c * (-r c ^ 4 + a2 c * r c ^ 2)) / (2 * a2 c * r c ^ 4 + r c ^ 6 + a2 c ^ 2 * r c ^
    2)

/-- Lines 554-560. -/
def dl20_0 (c : KerrPt 𝔽) : 𝔽 :=
  (aS0 c * aS2 c + ahat02 c * r c) / (a2 c * r c + r c ^ 3) + dr0 c * (2 * acrossx2 c * r c ^ 3 - adotx c * aS2 c
    * (a2 c + 3 * r c ^ 2) + x2 c * (-r c ^ 4 + a2 c * r c ^ 2)) / (2 * a2 c * r c ^ 4 + r c ^ 6 + a2 c ^ 2 * r c ^
    2)

/-- Lines 562-568. -/
def dl21 (c : KerrPt 𝔽) : 𝔽 :=
  (aS1 c * aS2 c + ahat12 c * r c) / (a2 c * r c + r c ^ 3) + dr1 c * (2 * acrossx2 c * r c ^ 3 - adotx c * aS2 c
    * (a2 c + 3 * r c ^ 2) + x2 c * (-r c ^ 4 + a2 c * r c ^ 2)) / (2 * a2 c * r c ^ 4 + r c ^ 6 + a2 c ^ 2 * r c ^
    2)

/-- Lines 570-576. -/
def dl22 (c : KerrPt 𝔽) : 𝔽 :=
  (aS2 c ^ 2 + r c ^ 2) / (a2 c * r c + r c ^ 3) + dr2 c * (2 * acrossx2 c * r c ^ 3 - adotx c * aS2 c * (a2 c + 3
    * r c ^ 2) + x2 c * (-r c ^ 4 + a2 c * r c ^ 2)) / (2 * a2 c * r c ^ 4 + r c ^ 6 + a2 c ^ 2 * r c ^ 2)

/-- Lines 578-584. -/
def dl23 (c : KerrPt 𝔽) : 𝔽 :=
  (aS2 c * aS3 c - ahat23 c * r c) / (a2 c * r c + r c ^ 3) + dr3 c * (2 * acrossx2 c * r c ^ 3 - adotx c * aS2 c
    * (a2 c + 3 * r c ^ 2) + x2 c * (-r c ^ 4 + a2 c * r c ^ 2)) / (2 * a2 c * r c ^ 4 + r c ^ 6 + a2 c ^ 2 * r c ^
    2)

/-- Lines 586-592. -/
def dl30_0 (c : KerrPt 𝔽) : 𝔽 :=
  (aS0 c * aS3 c + ahat03 c * r c) / (a2 c * r c + r c ^ 3) + dr0 c * (2 * acrossx3 c * r c ^ 3 - adotx c * aS3 c
    * (a2 c + 3 * r c ^ 2) + x3 c * (-r c ^ 4 + a2 c * r c ^ 2)) / (2 * a2 c * r c ^ 4 + r c ^ 6 + a2 c ^ 2 * r c ^
    2)

/-- Lines 594-600. -/
def dl31 (c : KerrPt 𝔽) : 𝔽 :=
  (aS1 c * aS3 c + ahat13 c * r c) / (a2 c * r c + r c ^ 3) + dr1 c * (2 * acrossx3 c * r c ^ 3 - adotx c * aS3 c
    * (a2 c + 3 * r c ^ 2) + x3 c * (-r c ^ 4 + a2 c * r c ^ 2)) / (2 * a2 c * r c ^ 4 + r c ^ 6 + a2 c ^ 2 * r c ^
    2)

/-- Lines 602-608. -/
def dl32 (c : KerrPt 𝔽) : 𝔽 :=
  (aS2 c * aS3 c + ahat23 c * r c) / (a2 c * r c + r c ^ 3) + dr2 c * (2 * acrossx3 c * r c ^ 3 - adotx c * aS3 c
    * (a2 c + 3 * r c ^ 2) + x3 c * (-r c ^ 4 + a2 c * r c ^ 2)) / (2 * a2 c * r c ^ 4 + r c ^ 6 + a2 c ^ 2 * r c ^
    2)

/-- Lines 610-616. -/
def dl33 (c : KerrPt 𝔽) : 𝔽 :=
  (aS3 c ^ 2 + r c ^ 2) / (a2 c * r c + r c ^ 3) + dr3 c * (2 * acrossx3 c * r c ^ 3 - adotx c * aS3 c * (a2 c + 3
    * r c ^ 2) + x3 c * (-r c ^ 4 + a2 c * r c ^ 2)) / (2 * a2 c * r c ^ 4 + r c ^ 6 + a2 c ^ 2 * r c ^ 2)

/-- Lines 618-621. -/
def dl00 (_c : KerrPt 𝔽) : 𝔽 := 0

/-- Lines 623-626. -/
def dl01 (_c : KerrPt 𝔽) : 𝔽 := 0

/-- Lines 628-631. -/
def dl02 (_c : KerrPt 𝔽) : 𝔽 := 0

/-- Lines 633-636. -/
def dl03 (_c : KerrPt 𝔽) : 𝔽 := 0

/-- Lines 638-641. -/
def dl10 (_c : KerrPt 𝔽) : 𝔽 := 0

/-- Lines 643-646. -/
def dl20 (_c : KerrPt 𝔽) : 𝔽 := 0

/-- Lines 648-651. -/
def dl30 (_c : KerrPt 𝔽) : 𝔽 := 0

/-- Lines 653-656. -/
def g00 (c : KerrPt 𝔽) : 𝔽 := -1 + 2 * H c * l0 c ^ 2

/-- Lines 658-661. -/
def g01 (c : KerrPt 𝔽) : 𝔽 := 2 * H c * l0 c * l1 c

/-- Lines 663-666. -/
def g02 (c : KerrPt 𝔽) : 𝔽 := 2 * H c * l0 c * l2 c

/-- Lines 668-671. -/
def g03 (c : KerrPt 𝔽) : 𝔽 := 2 * H c * l0 c * l3 c

/-- Lines 673-676. -/
def g11 (c : KerrPt 𝔽) : 𝔽 := 1 + 2 * H c * l1 c ^ 2

/-- Lines 678-681. -/
def g12 (c : KerrPt 𝔽) : 𝔽 := 2 * H c * l1 c * l2 c

/-- Lines 683-686. -/
def g13 (c : KerrPt 𝔽) : 𝔽 := 2 * H c * l1 c * l3 c

/-- Lines 688-691. -/
def g22 (c : KerrPt 𝔽) : 𝔽 := 1 + 2 * H c * l2 c ^ 2

/-- Lines 693-696. -/
def g23 (c : KerrPt 𝔽) : 𝔽 := 2 * H c * l2 c * l3 c

/-- Lines 698-701. -/
def g33 (c : KerrPt 𝔽) : 𝔽 := 1 + 2 * H c * l3 c ^ 2

/-- Lines 703-706. -/
def gup00 (c : KerrPt 𝔽) : 𝔽 := -1 - 2 * H c * lup0 c ^ 2

/-- Lines 708-711. -/
def gup01 (c : KerrPt 𝔽) : 𝔽 := (-2) * H c * lup0 c * lup1 c

/-- Lines 713-716. -/
def gup02 (c : KerrPt 𝔽) : 𝔽 := (-2) * H c * lup0 c * lup2 c

/-- Lines 718-721. -/
def gup03 (c : KerrPt 𝔽) : 𝔽 := (-2) * H c * lup0 c * lup3 c

/-- Lines 723-726. -/
def gup11 (c : KerrPt 𝔽) : 𝔽 := 1 - 2 * H c * lup1 c ^ 2

/-- Lines 728-731. -/
def gup12 (c : KerrPt 𝔽) : 𝔽 := (-2) * H c * lup1 c * lup2 c

/-- Lines 733-736. -/
def gup13 (c : KerrPt 𝔽) : 𝔽 := (-2) * H c * lup1 c * lup3 c

/-- Lines 738-741. -/
def gup22 (c : KerrPt 𝔽) : 𝔽 := 1 - 2 * H c * lup2 c ^ 2

/-- Lines 743-746. -/
def gup23 (c : KerrPt 𝔽) : 𝔽 := (-2) * H c * lup2 c * lup3 c

/-- Lines 748-751. -/
def gup33 (c : KerrPt 𝔽) : 𝔽 := 1 - 2 * H c * lup3 c ^ 2

/-- Lines 753-756. -/
def dg000 (c : KerrPt 𝔽) : 𝔽 := 4 * dl00 c * H c * l0 c + 2 * dH0 c * l0 c ^ 2

/-- Lines 758-761. -/
def dg001 (c : KerrPt 𝔽) : 𝔽 := 4 * dl01 c * H c * l0 c + 2 * dH1 c * l0 c ^ 2

/-- Lines 763-766. -/
def dg002 (c : KerrPt 𝔽) : 𝔽 := 4 * dl02 c * H c * l0 c + 2 * dH2 c * l0 c ^ 2

/-- Lines 768-771. -/
def dg003 (c : KerrPt 𝔽) : 𝔽 := 4 * dl03 c * H c * l0 c + 2 * dH3 c * l0 c ^ 2

/-- Lines 773-776. -/
def dg010 (c : KerrPt 𝔽) : 𝔽 := 2 * (dH0 c * l0 c * l1 c + H c * (dl10 c * l0 c + dl00 c * l1 c))

/-- Lines 778-781. -/
def dg011 (c : KerrPt 𝔽) : 𝔽 := 2 * (dH1 c * l0 c * l1 c + H c * (dl11 c * l0 c + dl01 c * l1 c))

/-- Lines 783-786. -/
def dg012 (c : KerrPt 𝔽) : 𝔽 := 2 * (dH2 c * l0 c * l1 c + H c * (dl12 c * l0 c + dl02 c * l1 c))

/-- Lines 788-791. -/
def dg013 (c : KerrPt 𝔽) : 𝔽 := 2 * (dH3 c * l0 c * l1 c + H c * (dl13 c * l0 c + dl03 c * l1 c))

/-- Lines 793-796. -/
def dg020 (c : KerrPt 𝔽) : 𝔽 := 2 * (dH0 c * l0 c * l2 c + H c * (dl20 c * l0 c + dl00 c * l2 c))

/-- Lines 798-801. -/
def dg021 (c : KerrPt 𝔽) : 𝔽 := 2 * (dH1 c * l0 c * l2 c + H c * (dl21 c * l0 c + dl01 c * l2 c))

/-- Lines 803-806. -/
def dg022 (c : KerrPt 𝔽) : 𝔽 := 2 * (dH2 c * l0 c * l2 c + H c * (dl22 c * l0 c + dl02 c * l2 c))

/-- Lines 808-811. -/
def dg023 (c : KerrPt 𝔽) : 𝔽 := 2 * (dH3 c * l0 c * l2 c + H c * (dl23 c * l0 c + dl03 c * l2 c))

/-- Lines 813-816. -/
def dg030 (c : KerrPt 𝔽) : 𝔽 := 2 * (dH0 c * l0 c * l3 c + H c * (dl30 c * l0 c + dl00 c * l3 c))

/-- Lines 818-821. -/
def dg031 (c : KerrPt 𝔽) : 𝔽 := 2 * (dH1 c * l0 c * l3 c + H c * (dl31 c * l0 c + dl01 c * l3 c))

/-- Lines 823-826. -/
def dg032 (c : KerrPt 𝔽) : 𝔽 := 2 * (dH2 c * l0 c * l3 c + H c * (dl32 c * l0 c + dl02 c * l3 c))

/-- Lines 828-831. -/
def dg033 (c : KerrPt 𝔽) : 𝔽 := 2 * (dH3 c * l0 c * l3 c + H c * (dl33 c * l0 c + dl03 c * l3 c))

/-- Lines 833-836. -/
def dg110 (c : KerrPt 𝔽) : 𝔽 := 4 * dl10 c * H c * l1 c + 2 * dH0 c * l1 c ^ 2

/-- Lines 838-841. -/
def dg111 (c : KerrPt 𝔽) : 𝔽 := 4 * dl11 c * H c * l1 c + 2 * dH1 c * l1 c ^ 2

/-- Lines 843-846. -/
def dg112 (c : KerrPt 𝔽) : 𝔽 := 4 * dl12 c * H c * l1 c + 2 * dH2 c * l1 c ^ 2

/-- Lines 848-851. -/
def dg113 (c : KerrPt 𝔽) : 𝔽 := 4 * dl13 c * H c * l1 c + 2 * dH3 c * l1 c ^ 2

/-- Lines 853-856. -/
def dg120 (c : KerrPt 𝔽) : 𝔽 := 2 * (dH0 c * l1 c * l2 c + H c * (dl20 c * l1 c + dl10 c * l2 c))

/-- Lines 858-861. -/
def dg121 (c : KerrPt 𝔽) : 𝔽 := 2 * (dH1 c * l1 c * l2 c + H c * (dl21 c * l1 c + dl11 c * l2 c))

/-- Lines 863-866. -/
def dg122 (c : KerrPt 𝔽) : 𝔽 := 2 * (dH2 c * l1 c * l2 c + H c * (dl22 c * l1 c + dl12 c * l2 c))

/-- Lines 868-871. -/
def dg123 (c : KerrPt 𝔽) : 𝔽 := 2 * (dH3 c * l1 c * l2 c + H c * (dl23 c * l1 c + dl13 c * l2 c))

/-- Lines 873-876. -/
def dg130 (c : KerrPt 𝔽) : 𝔽 := 2 * (dH0 c * l1 c * l3 c + H c * (dl30 c * l1 c + dl10 c * l3 c))

/-- Lines 878-881. -/
def dg131 (c : KerrPt 𝔽) : 𝔽 := 2 * (dH1 c * l1 c * l3 c + H c * (dl31 c * l1 c + dl11 c * l3 c))

/-- Lines 883-886. -/
def dg132 (c : KerrPt 𝔽) : 𝔽 := 2 * (dH2 c * l1 c * l3 c + H c * (dl32 c * l1 c + dl12 c * l3 c))

/-- Lines 888-891. -/
def dg133 (c : KerrPt 𝔽) : 𝔽 := 2 * (dH3 c * l1 c * l3 c + H c * (dl33 c * l1 c + dl13 c * l3 c))

/-- Lines 893-896. -/
def dg220 (c : KerrPt 𝔽) : 𝔽 := 4 * dl20 c * H c * l2 c + 2 * dH0 c * l2 c ^ 2

/-- Lines 898-901. -/
def dg221 (c : KerrPt 𝔽) : 𝔽 := 4 * dl21 c * H c * l2 c + 2 * dH1 c * l2 c ^ 2

/-- Lines 903-906. -/
def dg222 (c : KerrPt 𝔽) : 𝔽 := 4 * dl22 c * H c * l2 c + 2 * dH2 c * l2 c ^ 2

/-- Lines 908-911. -/
def dg223 (c : KerrPt 𝔽) : 𝔽 := 4 * dl23 c * H c * l2 c + 2 * dH3 c * l2 c ^ 2

/-- Lines 913-916. -/
def dg230 (c : KerrPt 𝔽) : 𝔽 := 2 * (dH0 c * l2 c * l3 c + H c * (dl30 c * l2 c + dl20 c * l3 c))

/-- Lines 918-921. -/
def dg231 (c : KerrPt 𝔽) : 𝔽 := 2 * (dH1 c * l2 c * l3 c + H c * (dl31 c * l2 c + dl21 c * l3 c))

/-- Lines 923-926. -/
def dg232 (c : KerrPt 𝔽) : 𝔽 := 2 * (dH2 c * l2 c * l3 c + H c * (dl32 c * l2 c + dl22 c * l3 c))

/-- Lines 928-931. -/
def dg233 (c : KerrPt 𝔽) : 𝔽 := 2 * (dH3 c * l2 c * l3 c + H c * (dl33 c * l2 c + dl23 c * l3 c))

/-- Lines 933-936. -/
def dg330 (c : KerrPt 𝔽) : 𝔽 := 4 * dl30 c * H c * l3 c + 2 * dH0 c * l3 c ^ 2

/-- Lines 938-941. -/
def dg331 (c : KerrPt 𝔽) : 𝔽 := 4 * dl31 c * H c * l3 c + 2 * dH1 c * l3 c ^ 2

/-- Lines 943-946. -/
def dg332 (c : KerrPt 𝔽) : 𝔽 := 4 * dl32 c * H c * l3 c + 2 * dH2 c * l3 c ^ 2

/-- Lines 948-951. -/
def dg333 (c : KerrPt 𝔽) : 𝔽 := 4 * dl33 c * H c * l3 c + 2 * dH3 c * l3 c ^ 2

/-- Lines 953-956. -/
def Gamdo000 (c : KerrPt 𝔽) : 𝔽 := 1 / 2 * dg000 c

/-- Lines 958-961. -/
def Gamdo001 (c : KerrPt 𝔽) : 𝔽 := 1 / 2 * dg001 c

/-- Lines 963-966. -/
def Gamdo002 (c : KerrPt 𝔽) : 𝔽 := 1 / 2 * dg002 c

/-- Lines 968-971. -/
def Gamdo003 (c : KerrPt 𝔽) : 𝔽 := 1 / 2 * dg003 c

/-- Lines 973-976. -/
def Gamdo011 (c : KerrPt 𝔽) : 𝔽 := dg011 c - 1 / 2 * dg110 c

/-- Lines 978-981. -/
def Gamdo012 (c : KerrPt 𝔽) : 𝔽 := 1 / 2 * (dg012 c + dg021 c - dg120 c)

/-- Lines 983-986. -/
def Gamdo013 (c : KerrPt 𝔽) : 𝔽 := 1 / 2 * (dg013 c + dg031 c - dg130 c)

/-- Lines 988-991. -/
def Gamdo022 (c : KerrPt 𝔽) : 𝔽 := dg022 c - 1 / 2 * dg220 c

/-- Lines 993-996. -/
def Gamdo023 (c : KerrPt 𝔽) : 𝔽 := 1 / 2 * (dg023 c + dg032 c - dg230 c)

/-- Lines 998-1001. -/
def Gamdo033 (c : KerrPt 𝔽) : 𝔽 := dg033 c - 1 / 2 * dg330 c

/-- Lines 1003-1006. -/
def Gamdo100 (c : KerrPt 𝔽) : 𝔽 := (-(1 / 2)) * dg001 c + dg010 c

/-- Lines 1008-1011. -/
def Gamdo101 (c : KerrPt 𝔽) : 𝔽 := 1 / 2 * dg110 c

/-- Lines 1013-1016. -/
def Gamdo102 (c : KerrPt 𝔽) : 𝔽 := 1 / 2 * (dg012 c - dg021 c + dg120 c)

/-- Lines 1018-1021. -/
def Gamdo103 (c : KerrPt 𝔽) : 𝔽 := 1 / 2 * (dg013 c - dg031 c + dg130 c)

/-- Lines 1023-1026. -/
def Gamdo111 (c : KerrPt 𝔽) : 𝔽 := 1 / 2 * dg111 c

/-- Lines 1028-1031. -/
def Gamdo112 (c : KerrPt 𝔽) : 𝔽 := 1 / 2 * dg112 c

/-- Lines 1033-1036. -/
def Gamdo113 (c : KerrPt 𝔽) : 𝔽 := 1 / 2 * dg113 c

/-- Lines 1038-1041. -/
def Gamdo122 (c : KerrPt 𝔽) : 𝔽 := dg122 c - 1 / 2 * dg221 c

/-- Lines 1043-1046. -/
def Gamdo123 (c : KerrPt 𝔽) : 𝔽 := 1 / 2 * (dg123 c + dg132 c - dg231 c)

/-- Lines 1048-1051. -/
def Gamdo133 (c : KerrPt 𝔽) : 𝔽 := dg133 c - 1 / 2 * dg331 c

/-- Lines 1053-1056. -/
def Gamdo200 (c : KerrPt 𝔽) : 𝔽 := (-(1 / 2)) * dg002 c + dg020 c

/-- Lines 1058-1061. -/
def Gamdo201 (c : KerrPt 𝔽) : 𝔽 := 1 / 2 * (-dg012 c + dg021 c + dg120 c)

/-- Lines 1063-1066. -/
def Gamdo202 (c : KerrPt 𝔽) : 𝔽 := 1 / 2 * dg220 c

/-- Lines 1068-1071. -/
def Gamdo203 (c : KerrPt 𝔽) : 𝔽 := 1 / 2 * (dg023 c - dg032 c + dg230 c)

/-- Lines 1073-1076. -/
def Gamdo211 (c : KerrPt 𝔽) : 𝔽 := (-(1 / 2)) * dg112 c + dg121 c

/-- Lines 1078-1081. -/
def Gamdo212 (c : KerrPt 𝔽) : 𝔽 := 1 / 2 * dg221 c

/-- Lines 1083-1086. -/
def Gamdo213 (c : KerrPt 𝔽) : 𝔽 := 1 / 2 * (dg123 c - dg132 c + dg231 c)

/-- Lines 1088-1091. -/
def Gamdo222 (c : KerrPt 𝔽) : 𝔽 := 1 / 2 * dg222 c

/-- Lines 1093-1096. -/
def Gamdo223 (c : KerrPt 𝔽) : 𝔽 := 1 / 2 * dg223 c

/-- Lines 1098-1101. -/
def Gamdo233 (c : KerrPt 𝔽) : 𝔽 := dg233 c - 1 / 2 * dg332 c

/-- Lines 1103-1106. -/
def Gamdo300 (c : KerrPt 𝔽) : 𝔽 := (-(1 / 2)) * dg003 c + dg030 c

/-- Lines 1108-1111. -/
def Gamdo301 (c : KerrPt 𝔽) : 𝔽 := 1 / 2 * (-dg013 c + dg031 c + dg130 c)

/-- Lines 1113-1116. -/
def Gamdo302 (c : KerrPt 𝔽) : 𝔽 := 1 / 2 * (-dg023 c + dg032 c + dg230 c)

/-- Lines 1118-1121. -/
def Gamdo303 (c : KerrPt 𝔽) : 𝔽 := 1 / 2 * dg330 c

/-- Lines 1123-1126. -/
def Gamdo311 (c : KerrPt 𝔽) : 𝔽 := (-(1 / 2)) * dg113 c + dg131 c

/-- Lines 1128-1131. -/
def Gamdo312 (c : KerrPt 𝔽) : 𝔽 := 1 / 2 * (-dg123 c + dg132 c + dg231 c)

/-- Lines 1133-1136. -/
def Gamdo313 (c : KerrPt 𝔽) : 𝔽 := 1 / 2 * dg331 c

/-- Lines 1138-1141. -/
def Gamdo322 (c : KerrPt 𝔽) : 𝔽 := (-(1 / 2)) * dg223 c + dg232 c

/-- Lines 1143-1146. -/
def Gamdo323 (c : KerrPt 𝔽) : 𝔽 := 1 / 2 * dg332 c

/-- Lines 1148-1151. -/
def Gamdo333 (c : KerrPt 𝔽) : 𝔽 := 1 / 2 * dg333 c

/-- Lines 1153-1157. -/
def Gam000 (c : KerrPt 𝔽) : 𝔽 :=
  Gamdo000 c * gup00 c + Gamdo100 c * gup01 c + Gamdo200 c * gup02 c + Gamdo300 c * gup03 c

/-- Lines 1159-1163. -/
def Gam001 (c : KerrPt 𝔽) : 𝔽 :=
  Gamdo001 c * gup00 c + Gamdo101 c * gup01 c + Gamdo201 c * gup02 c + Gamdo301 c * gup03 c

/-- Lines 1165-1169. -/
def Gam002 (c : KerrPt 𝔽) : 𝔽 :=
  Gamdo002 c * gup00 c + Gamdo102 c * gup01 c + Gamdo202 c * gup02 c + Gamdo302 c * gup03 c

/-- Lines 1171-1175. -/
def Gam003 (c : KerrPt 𝔽) : 𝔽 :=
  Gamdo003 c * gup00 c + Gamdo103 c * gup01 c + Gamdo203 c * gup02 c + Gamdo303 c * gup03 c

/-- Lines 1177-1181. -/
def Gam011 (c : KerrPt 𝔽) : 𝔽 :=
  Gamdo011 c * gup00 c + Gamdo111 c * gup01 c + Gamdo211 c * gup02 c + Gamdo311 c * gup03 c

/-- Lines 1183-1187. -/
def Gam012 (c : KerrPt 𝔽) : 𝔽 :=
  Gamdo012 c * gup00 c + Gamdo112 c * gup01 c + Gamdo212 c * gup02 c + Gamdo312 c * gup03 c

/-- Lines 1189-1193. -/
def Gam013 (c : KerrPt 𝔽) : 𝔽 :=
  Gamdo013 c * gup00 c + Gamdo113 c * gup01 c + Gamdo213 c * gup02 c + Gamdo313 c * gup03 c

/-- Lines 1195-1199. -/
def Gam022 (c : KerrPt 𝔽) : 𝔽 :=
  Gamdo022 c * gup00 c + Gamdo122 c * gup01 c + Gamdo222 c * gup02 c + Gamdo322 c * gup03 c

/-- Lines 1201-1205. -/
def Gam023 (c : KerrPt 𝔽) : 𝔽 :=
  Gamdo023 c * gup00 c + Gamdo123 c * gup01 c + Gamdo223 c * gup02 c + Gamdo323 c * gup03 c

/-- Lines 1207-1211. -/
def Gam033 (c : KerrPt 𝔽) : 𝔽 :=
  Gamdo033 c * gup00 c + Gamdo133 c * gup01 c + Gamdo233 c * gup02 c + Gamdo333 c * gup03 c

/-- Lines 1213-1217. -/
def Gam100 (c : KerrPt 𝔽) : 𝔽 :=
  Gamdo000 c * gup01 c + Gamdo100 c * gup11 c + Gamdo200 c * gup12 c + Gamdo300 c * gup13 c

/-- Lines 1219-1223. -/
def Gam101 (c : KerrPt 𝔽) : 𝔽 :=
  Gamdo001 c * gup01 c + Gamdo101 c * gup11 c + Gamdo201 c * gup12 c + Gamdo301 c * gup13 c

/-- Lines 1225-1229. -/
def Gam102 (c : KerrPt 𝔽) : 𝔽 :=
  Gamdo002 c * gup01 c + Gamdo102 c * gup11 c + Gamdo202 c * gup12 c + Gamdo302 c * gup13 c

/-- Lines 1231-1235. -/
def Gam103 (c : KerrPt 𝔽) : 𝔽 :=
  Gamdo003 c * gup01 c + Gamdo103 c * gup11 c + Gamdo203 c * gup12 c + Gamdo303 c * gup13 c

/-- Lines 1237-1241. -/
def Gam111 (c : KerrPt 𝔽) : 𝔽 :=
  Gamdo011 c * gup01 c + Gamdo111 c * gup11 c + Gamdo211 c * gup12 c + Gamdo311 c * gup13 c

/-- Lines 1243-1247. -/
def Gam112 (c : KerrPt 𝔽) : 𝔽 :=
  Gamdo012 c * gup01 c + Gamdo112 c * gup11 c + Gamdo212 c * gup12 c + Gamdo312 c * gup13 c

/-- Lines 1249-1253. -/
def Gam113 (c : KerrPt 𝔽) : 𝔽 :=
  Gamdo013 c * gup01 c + Gamdo113 c * gup11 c + Gamdo213 c * gup12 c + Gamdo313 c * gup13 c

/-- Lines 1255-1259. -/
def Gam122 (c : KerrPt 𝔽) : 𝔽 :=
  Gamdo022 c * gup01 c + Gamdo122 c * gup11 c + Gamdo222 c * gup12 c + Gamdo322 c * gup13 c

/-- Lines 1261-1265. -/
def Gam123 (c : KerrPt 𝔽) : 𝔽 :=
  Gamdo023 c * gup01 c + Gamdo123 c * gup11 c + Gamdo223 c * gup12 c + Gamdo323 c * gup13 c

/-- Lines 1267-1271. -/
def Gam133 (c : KerrPt 𝔽) : 𝔽 :=
  Gamdo033 c * gup01 c + Gamdo133 c * gup11 c + Gamdo233 c * gup12 c + Gamdo333 c * gup13 c

/-- Lines 1273-1277. -/
def Gam200 (c : KerrPt 𝔽) : 𝔽 :=
  Gamdo000 c * gup02 c + Gamdo100 c * gup12 c + Gamdo200 c * gup22 c + Gamdo300 c * gup23 c

/-- Lines 1279-1283. -/
def Gam201 (c : KerrPt 𝔽) : 𝔽 :=
  Gamdo001 c * gup02 c + Gamdo101 c * gup12 c + Gamdo201 c * gup22 c + Gamdo301 c * gup23 c

/-- Lines 1285-1289. -/
def Gam202 (c : KerrPt 𝔽) : 𝔽 :=
  Gamdo002 c * gup02 c + Gamdo102 c * gup12 c + Gamdo202 c * gup22 c + Gamdo302 c * gup23 c

/-- Lines 1291-1295. -/
def Gam203 (c : KerrPt 𝔽) : 𝔽 :=
  Gamdo003 c * gup02 c + Gamdo103 c * gup12 c + Gamdo203 c * gup22 c + Gamdo303 c * gup23 c

/-- Lines 1297-1301. -/
def Gam211 (c : KerrPt 𝔽) : 𝔽 :=
  Gamdo011 c * gup02 c + Gamdo111 c * gup12 c + Gamdo211 c * gup22 c + Gamdo311 c * gup23 c

/-- Lines 1303-1307. -/
def Gam212 (c : KerrPt 𝔽) : 𝔽 :=
  Gamdo012 c * gup02 c + Gamdo112 c * gup12 c + Gamdo212 c * gup22 c + Gamdo312 c * gup23 c

/-- Lines 1309-1313. -/
def Gam213 (c : KerrPt 𝔽) : 𝔽 :=
  Gamdo013 c * gup02 c + Gamdo113 c * gup12 c + Gamdo213 c * gup22 c + Gamdo313 c * gup23 c

/-- Lines 1315-1319. -/
def Gam222 (c : KerrPt 𝔽) : 𝔽 :=
  Gamdo022 c * gup02 c + Gamdo122 c * gup12 c + Gamdo222 c * gup22 c + Gamdo322 c * gup23 c

/-- Lines 1321-1325. -/
def Gam223 (c : KerrPt 𝔽) : 𝔽 :=
  Gamdo023 c * gup02 c + Gamdo123 c * gup12 c + Gamdo223 c * gup22 c + Gamdo323 c * gup23 c

/-- Lines 1327-1331. -/
def Gam233 (c : KerrPt 𝔽) : 𝔽 :=
  Gamdo033 c * gup02 c + Gamdo133 c * gup12 c + Gamdo233 c * gup22 c + Gamdo333 c * gup23 c

/-- Lines 1333-1337. -/
def Gam300 (c : KerrPt 𝔽) : 𝔽 :=
  Gamdo000 c * gup03 c + Gamdo100 c * gup13 c + Gamdo200 c * gup23 c + Gamdo300 c * gup33 c

/-- Lines 1339-1343. -/
def Gam301 (c : KerrPt 𝔽) : 𝔽 :=
  Gamdo001 c * gup03 c + Gamdo101 c * gup13 c + Gamdo201 c * gup23 c + Gamdo301 c * gup33 c

/-- Lines 1345-1349. -/
def Gam302 (c : KerrPt 𝔽) : 𝔽 :=
  Gamdo002 c * gup03 c + Gamdo102 c * gup13 c + Gamdo202 c * gup23 c + Gamdo302 c * gup33 c

/-- Lines 1351-1355. -/
def Gam303 (c : KerrPt 𝔽) : 𝔽 :=
  Gamdo003 c * gup03 c + Gamdo103 c * gup13 c + Gamdo203 c * gup23 c + Gamdo303 c * gup33 c

/-- Lines 1357-1361. -/
def Gam311 (c : KerrPt 𝔽) : 𝔽 :=
  Gamdo011 c * gup03 c + Gamdo111 c * gup13 c + Gamdo211 c * gup23 c + Gamdo311 c * gup33 c

/-- Lines 1363-1367. -/
def Gam312 (c : KerrPt 𝔽) : 𝔽 :=
  Gamdo012 c * gup03 c + Gamdo112 c * gup13 c + Gamdo212 c * gup23 c + Gamdo312 c * gup33 c

/-- Lines 1369-1373. -/
def Gam313 (c : KerrPt 𝔽) : 𝔽 :=
  Gamdo013 c * gup03 c + Gamdo113 c * gup13 c + Gamdo213 c * gup23 c + Gamdo313 c * gup33 c

/-- Lines 1375-1379. -/
def Gam322 (c : KerrPt 𝔽) : 𝔽 :=
  Gamdo022 c * gup03 c + Gamdo122 c * gup13 c + Gamdo222 c * gup23 c + Gamdo322 c * gup33 c

/-- Lines 1381-1385. -/
def Gam323 (c : KerrPt 𝔽) : 𝔽 :=
  Gamdo023 c * gup03 c + Gamdo123 c * gup13 c + Gamdo223 c * gup23 c + Gamdo323 c * gup33 c

/-- Lines 1387-1391. -/
def Gam333 (c : KerrPt 𝔽) : 𝔽 :=
  Gamdo033 c * gup03 c + Gamdo133 c * gup13 c + Gamdo233 c * gup23 c + Gamdo333 c * gup33 c

/-- Lines 1393-1400. -/
def G0 (c : KerrPt 𝔽) : 𝔽 :=
  Gam000 c * gup00 c + Gam011 c * gup11 c + Gam022 c * gup22 c + 2 * (Gam001 c * gup01 c + Gam002 c * gup02 c +
    Gam003 c * gup03 c + Gam012 c * gup12 c + Gam013 c * gup13 c + Gam023 c * gup23 c) + Gam033 c * gup33 c

/-- Lines 1402-1409. -/
def G1 (c : KerrPt 𝔽) : 𝔽 :=
  Gam100 c * gup00 c + Gam111 c * gup11 c + Gam122 c * gup22 c + 2 * (Gam101 c * gup01 c + Gam102 c * gup02 c +
    Gam103 c * gup03 c + Gam112 c * gup12 c + Gam113 c * gup13 c + Gam123 c * gup23 c) + Gam133 c * gup33 c

/-- Lines 1411-1418. -/
def G2 (c : KerrPt 𝔽) : 𝔽 :=
  Gam200 c * gup00 c + Gam211 c * gup11 c + Gam222 c * gup22 c + 2 * (Gam201 c * gup01 c + Gam202 c * gup02 c +
    Gam203 c * gup03 c + Gam212 c * gup12 c + Gam213 c * gup13 c + Gam223 c * gup23 c) + Gam233 c * gup33 c

/-- Lines 1420-1427. -/
def G3 (c : KerrPt 𝔽) : 𝔽 :=
  Gam300 c * gup00 c + Gam311 c * gup11 c + Gam322 c * gup22 c + 2 * (Gam301 c * gup01 c + Gam302 c * gup02 c +
    Gam303 c * gup03 c + Gam312 c * gup12 c + Gam313 c * gup13 c + Gam323 c * gup23 c) + Gam333 c * gup33 c

/-- What the code writes at one point (lines 35-102): the components of the variables by their number. -/
structure Out (K : Type) where
  g : Nat → K
  gup : Nat → K
  Gam : Nat → K
  G : Nat → K

/-- `Kerr` at one point (lines 30-1430). -/
def point (c : KerrPt 𝔽) : Out 𝔽 where
  g := fun n => [g00 c, g01 c, g02 c, g03 c, g11 c, g12 c, g13 c, g22 c, g23 c, g33 c].getD n 0
  gup := fun n => [gup00 c, gup01 c, gup02 c, gup03 c, gup11 c, gup12 c, gup13 c, gup22 c, gup23 c, gup33 c].getD n 0
  Gam := fun n =>
    [Gam000 c, Gam001 c, Gam002 c, Gam003 c, Gam011 c, Gam012 c, Gam013 c, Gam022 c, Gam023 c, Gam033 c,
      Gam100 c, Gam101 c, Gam102 c, Gam103 c, Gam111 c, Gam112 c, Gam113 c, Gam122 c, Gam123 c, Gam133 c,
      Gam200 c, Gam201 c, Gam202 c, Gam203 c, Gam211 c, Gam212 c, Gam213 c, Gam222 c, Gam223 c, Gam233 c,
      Gam300 c, Gam301 c, Gam302 c, Gam303 c, Gam311 c, Gam312 c, Gam313 c, Gam322 c, Gam323 c, Gam333 c].getD n 0
  G := fun n => [G0 c, G1 c, G2 c, G3 c].getD n 0

end Kerr4
end Sgrid
