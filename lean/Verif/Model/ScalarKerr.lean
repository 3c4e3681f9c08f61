import Verif.Model.Basic
import Mathlib.Algebra.Field.Basic

/-!
# The scalar field on the background of a black hole

`ScalarOnKerr_evolve_1stO` (src/physics/ScalarOnKerr/ScalarOnKerr.c:2317-2500) and `ScalarOnKerr_evolve` (lines 592-861) at one point of
one box, up to and including the assignments to the new variables. Both loops do the same at every point and use only values at this
point; the derivatives are computed before the loops (lines 2384-2412 and 672-706) and are input of the model, and so is the source.
What follows the loops (filters, boundary conditions) is not part of the model. Numbers are in a field.
-/

namespace Sgrid

/-- What `ScalarOnKerr_evolve_1stO` reads at one point (lines 2328-2412): the components of the variables by their number; `pre` are the
values of the previous time step in the order Pi, psi, phix, phiy, phiz. -/
structure ScalarPt (K : Type) where
  dt : K
  Pi : K
  dPi : Nat → K
  dpsi : Nat → K
  phi : Nat → K
  dphi : Nat → K
  alpha : K
  beta : Nat → K
  gup : Nat → K
  TrK : K
  G : Nat → K
  dalpha : Nat → K
  dbeta : Nat → K
  rho : K
  pre : Nat → K

/-- What the functions write at one point. -/
structure ScalarOut (K : Type) where
  Pi : K
  psi : K
  phi : Nat → K

variable {𝔽 : Type} [Field 𝔽]

namespace ScalarFirst

/-- Line 2422. -/
def beta_dPi (c : ScalarPt 𝔽) : 𝔽 := c.beta 0 * c.dPi 0 + c.beta 1 * c.dPi 1 + c.beta 2 * c.dPi 2

/-- Lines 2423-2427. -/
def ag_dphi (c : ScalarPt 𝔽) : 𝔽 :=
  c.alpha * (c.gup 0 * c.dphi 0 + c.gup 3 * c.dphi 4 + c.gup 5 * c.dphi 8 + c.gup 1 * (c.dphi 1 + c.dphi 3) +
    c.gup 2 * (c.dphi 2 + c.dphi 6) + c.gup 4 * (c.dphi 5 + c.dphi 7))

/-- Line 2429. -/
def aG_phi (c : ScalarPt 𝔽) : 𝔽 := c.alpha * (c.G 0 * c.phi 0 + c.G 1 * c.phi 1 + c.G 2 * c.phi 2)

/-- Lines 2432-2436. -/
def g_phi_da (c : ScalarPt 𝔽) : 𝔽 :=
  c.gup 0 * c.phi 0 * c.dalpha 0 + c.gup 3 * c.phi 1 * c.dalpha 1 + c.gup 5 * c.phi 2 * c.dalpha 2 +
    c.gup 1 * (c.phi 0 * c.dalpha 1 + c.phi 1 * c.dalpha 0) + c.gup 2 * (c.phi 0 * c.dalpha 2 + c.phi 2 * c.dalpha 0) +
    c.gup 4 * (c.phi 1 * c.dalpha 2 + c.phi 2 * c.dalpha 1)

/-- Line 2438. -/
def aKPi (c : ScalarPt 𝔽) : 𝔽 := c.alpha * c.TrK * c.Pi

/-- Line 2441. -/
def beta_dpsi (c : ScalarPt 𝔽) : 𝔽 := c.beta 0 * c.dpsi 0 + c.beta 1 * c.dpsi 1 + c.beta 2 * c.dpsi 2

/-- Line 2444. -/
def b_dphix (c : ScalarPt 𝔽) : 𝔽 := c.beta 0 * c.dphi 0 + c.beta 1 * c.dphi 1 + c.beta 2 * c.dphi 2

/-- Line 2445. -/
def b_dphiy (c : ScalarPt 𝔽) : 𝔽 := c.beta 0 * c.dphi 3 + c.beta 1 * c.dphi 4 + c.beta 2 * c.dphi 5

/-- Line 2446. -/
def b_dphiz (c : ScalarPt 𝔽) : 𝔽 := c.beta 0 * c.dphi 6 + c.beta 1 * c.dphi 7 + c.beta 2 * c.dphi 8

/-- Line 2447. -/
def phi_dbx (c : ScalarPt 𝔽) : 𝔽 := c.phi 0 * c.dbeta 0 + c.phi 1 * c.dbeta 3 + c.phi 2 * c.dbeta 6

/-- Line 2448. -/
def phi_dby (c : ScalarPt 𝔽) : 𝔽 := c.phi 0 * c.dbeta 1 + c.phi 1 * c.dbeta 4 + c.phi 2 * c.dbeta 7

/-- Line 2449. -/
def phi_dbz (c : ScalarPt 𝔽) : 𝔽 := c.phi 0 * c.dbeta 2 + c.phi 1 * c.dbeta 5 + c.phi 2 * c.dbeta 8

/-- Lines 2452-2453. -/
def rPi (c : ScalarPt 𝔽) : 𝔽 := beta_dPi c - ag_dphi c + aG_phi c - g_phi_da c + aKPi c + c.alpha * c.rho

/-- Line 2454. -/
def rpsi (c : ScalarPt 𝔽) : 𝔽 := beta_dpsi c - c.alpha * c.Pi

/-- Line 2455. -/
def rphix (c : ScalarPt 𝔽) : 𝔽 := b_dphix c + phi_dbx c - c.alpha * c.dPi 0 - c.Pi * c.dalpha 0

/-- Line 2456. -/
def rphiy (c : ScalarPt 𝔽) : 𝔽 := b_dphiy c + phi_dby c - c.alpha * c.dPi 1 - c.Pi * c.dalpha 1

/-- Line 2457. -/
def rphiz (c : ScalarPt 𝔽) : 𝔽 := b_dphiz c + phi_dbz c - c.alpha * c.dPi 2 - c.Pi * c.dalpha 2

/-- The right hand side of `phi` by its number. -/
def rphi (c : ScalarPt 𝔽) (n : Nat) : 𝔽 := [rphix c, rphiy c, rphiz c].getD n 0

/-- `ScalarOnKerr_evolve_1stO` at one point (lines 2459-2476). -/
def point [DecidableEq 𝔽] (c : ScalarPt 𝔽) : ScalarOut 𝔽 :=
  if c.dt ≠ 0 then ⟨c.pre 0 + c.dt * rPi c, c.pre 1 + c.dt * rpsi c, fun n => c.pre (2 + n) + c.dt * rphi c n⟩
  else ⟨rPi c, rpsi c, rphi c⟩

end ScalarFirst

/-- What `ScalarOnKerr_evolve` reads at one point (lines 605-706): the parameters `ScalarOnKerr_1stOrder_inSpace` and `ScalarOnKerr_Pi_def`
(lines 598-599), the components of the variables by their number, and what is in the memory of the local variables psixy, psixz,
psiyx, psiyz, psizx, psizy (line 720) before they are set. -/
structure ScalarPt4 (K : Type) where
  firstorder : Bool
  scheelsPi : Bool
  dt : K
  Pi : K
  dPi : Nat → K
  dpsi : Nat → K
  ddpsi : Nat → K
  phi : Nat → K
  dphi : Nat → K
  alpha : K
  beta : Nat → K
  dalpha : Nat → K
  dbeta : Nat → K
  gup : Nat → K
  G : Nat → K
  rho : K
  pre : Nat → K
  junk : Nat → K

namespace ScalarSecond

/-- Lines 726, 744. -/
def psix (c : ScalarPt4 𝔽) : 𝔽 := if c.firstorder then c.phi 0 else c.dpsi 0

/-- Lines 727, 745. -/
def psiy (c : ScalarPt4 𝔽) : 𝔽 := if c.firstorder then c.phi 1 else c.dpsi 1

/-- Lines 728, 746; line 728 reads phix instead of phiz. -/
def psiz (c : ScalarPt4 𝔽) : 𝔽 := if c.firstorder then c.phi 0 else c.dpsi 2

/-- Lines 729, 747. -/
def psixx (c : ScalarPt4 𝔽) : 𝔽 := if c.firstorder then c.dphi 0 else c.ddpsi 0

/-- Line 730, not set otherwise. -/
def psixy (c : ScalarPt4 𝔽) : 𝔽 := if c.firstorder then c.dphi 1 else c.junk 0

/-- Line 731, not set otherwise. -/
def psixz (c : ScalarPt4 𝔽) : 𝔽 := if c.firstorder then c.dphi 2 else c.junk 1

/-- Line 732, not set otherwise. -/
def psiyx (c : ScalarPt4 𝔽) : 𝔽 := if c.firstorder then c.dphi 3 else c.junk 2

/-- Lines 733, 750. -/
def psiyy (c : ScalarPt4 𝔽) : 𝔽 := if c.firstorder then c.dphi 4 else c.ddpsi 3

/-- Line 734, not set otherwise. -/
def psiyz (c : ScalarPt4 𝔽) : 𝔽 := if c.firstorder then c.dphi 5 else c.junk 3

/-- Line 735, not set otherwise. -/
def psizx (c : ScalarPt4 𝔽) : 𝔽 := if c.firstorder then c.dphi 6 else c.junk 4

/-- Line 736, not set otherwise. -/
def psizy (c : ScalarPt4 𝔽) : 𝔽 := if c.firstorder then c.dphi 7 else c.junk 5

/-- Lines 737, 752. -/
def psizz (c : ScalarPt4 𝔽) : 𝔽 := if c.firstorder then c.dphi 8 else c.ddpsi 5

/-- Lines 738, 748. -/
def psixy_s (c : ScalarPt4 𝔽) : 𝔽 := if c.firstorder then 1 / 2 * (c.dphi 1 + c.dphi 3) else c.ddpsi 1

/-- Lines 739, 749. -/
def psixz_s (c : ScalarPt4 𝔽) : 𝔽 := if c.firstorder then 1 / 2 * (c.dphi 2 + c.dphi 6) else c.ddpsi 2

/-- Lines 740, 751. -/
def psiyz_s (c : ScalarPt4 𝔽) : 𝔽 := if c.firstorder then 1 / 2 * (c.dphi 5 + c.dphi 7) else c.ddpsi 4

/-- Lines 757, 776. -/
def A (c : ScalarPt4 𝔽) : 𝔽 := if c.scheelsPi then c.alpha else -1

/-- Lines 758-760, 777. -/
def dA (c : ScalarPt4 𝔽) (n : Nat) : 𝔽 := if c.scheelsPi then c.dalpha n else 0

/-- Lines 761-763, 777. -/
def B (c : ScalarPt4 𝔽) (n : Nat) : 𝔽 := if c.scheelsPi then c.beta n else 0

/-- Lines 764-772, 778. -/
def dB (c : ScalarPt4 𝔽) (n : Nat) : 𝔽 := if c.scheelsPi then c.dbeta n else 0

/-- Line 782. -/
def psidot (c : ScalarPt4 𝔽) : 𝔽 := B c 0 * psix c + B c 1 * psiy c + B c 2 * psiz c - A c * c.Pi

/-- Lines 783-784. -/
def psidotx (c : ScalarPt4 𝔽) : 𝔽 :=
  B c 0 * psixx c + B c 1 * psiyx c + B c 2 * psizx c - A c * c.dPi 0 - c.Pi * dA c 0 + dB c 0 * psix c + dB c 3 * psiy c + dB c 6 * psiz c

/-- Lines 785-786. -/
def psidoty (c : ScalarPt4 𝔽) : 𝔽 :=
  B c 0 * psixy c + B c 1 * psiyy c + B c 2 * psizy c - A c * c.dPi 1 - c.Pi * dA c 1 + dB c 1 * psix c + dB c 4 * psiy c + dB c 7 * psiz c

/-- Lines 787-788. -/
def psidotz (c : ScalarPt4 𝔽) : 𝔽 :=
  B c 0 * psixz c + B c 1 * psiyz c + B c 2 * psizz c - A c * c.dPi 2 - c.Pi * dA c 2 + dB c 2 * psix c + dB c 5 * psiy c + dB c 8 * psiz c

/-- Lines 792-794. -/
def g_ddpsi (c : ScalarPt4 𝔽) : 𝔽 :=
  2 * (c.gup 1 * psidotx c + c.gup 2 * psidoty c + c.gup 3 * psidotz c) + c.gup 4 * psixx c + c.gup 7 * psiyy c + c.gup 9 * psizz c +
    2 * (c.gup 5 * psixy_s c + c.gup 6 * psixz_s c + c.gup 8 * psiyz_s c)

/-- Line 797. -/
def gG_dpsi (c : ScalarPt4 𝔽) : 𝔽 := c.G 0 * psidot c + c.G 1 * psix c + c.G 2 * psiy c + c.G 3 * psiz c

/-- Line 803. -/
def psidotdot (c : ScalarPt4 𝔽) : 𝔽 := -(g_ddpsi c - gG_dpsi c - c.rho) / c.gup 0

/-- Line 808. -/
def rPi (c : ScalarPt4 𝔽) : 𝔽 := -psidotdot c / A c + (B c 0 * psidotx c + B c 1 * psidoty c + B c 2 * psidotz c) / A c

/-- Line 809. -/
def rpsi (c : ScalarPt4 𝔽) : 𝔽 := B c 0 * c.dpsi 0 + B c 1 * c.dpsi 1 + B c 2 * c.dpsi 2 - A c * c.Pi

/-- Line 811. -/
def rphi (c : ScalarPt4 𝔽) (n : Nat) : 𝔽 := [psidotx c, psidoty c, psidotz c].getD n 0

/-- `ScalarOnKerr_evolve` at one point (lines 814-835); what is written to phi is of interest only if `firstorder` is set. -/
def point [DecidableEq 𝔽] (c : ScalarPt4 𝔽) : ScalarOut 𝔽 :=
  if c.dt ≠ 0 then ⟨c.pre 0 + c.dt * rPi c, c.pre 1 + c.dt * rpsi c, fun n => c.pre (2 + n) + c.dt * rphi c n⟩
  else ⟨rPi c, rpsi c, rphi c⟩

end ScalarSecond
end Sgrid
