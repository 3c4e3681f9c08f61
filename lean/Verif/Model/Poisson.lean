import Mathlib.Algebra.Field.Basic
import Mathlib.Tactic.Ring

/-!
# The example modules Poisson, Poisson2 and Poisson3

The equations and their linearisations at one point: src/physics/Poisson/Poisson.c:465-618 (F_Poisson, J_Poisson; the part under `b==0 & 0`
is not in the model), src/physics/Poisson2/Poisson2.c:255-334 and 364-398, src/physics/Poisson3/Poisson3.c:330-425,
src/physics/Poisson3/Poisson3_BCs.c:17-152. The derivatives, which `D_and_DD_of_S`, `allDerivsOf_S` or `FirstAndSecondDerivsOf_S` put into
the lists of variables, are input: `all n` is entry `n` of `VLuAll` (or of `VLluAll`) at the point. Numbers are in a field.
-/

namespace Sgrid

variable {K : Type} [Field K]

namespace Poisson1

/-- `FPsi[i]` (Poisson.c:529); `d` is `vluDerivs`, `rhs` is `vlrhs` (lines 475-485). -/
def FPsi (d rhs : Nat → K) : K := d 3 + d 6 + d 8 - rhs 0

/-- `FChi[i]` (Poisson.c:530). -/
def FChi (d rhs : Nat → K) : K := d 12 + d 15 + d 17 - rhs 1

/-- `JdPsi[i]` (Poisson.c:612); `d` is `vlduDerivs`. -/
def JPsi (d : Nat → K) : K := d 3 + d 6 + d 8

/-- `JdChi[i]` (Poisson.c:613). -/
def JChi (d : Nat → K) : K := d 12 + d 15 + d 17

end Poisson1

namespace Poisson2

/-- `FPsi[i]` (Poisson2.c:286). -/
def FPsi (all : Nat → K) : K := all 4 + all 7 + all 9 - all 20

/-- `FChi[i]` (Poisson2.c:287). -/
def FChi (all : Nat → K) : K := all 14 + all 17 + all 19 - all 21

/-- `JlPsi[i]` (Poisson2.c:327); `lall` is `VLluAll`. -/
def JPsi (lall : Nat → K) : K := lall 4 + lall 7 + lall 9

/-- `JlChi[i]` (Poisson2.c:328). -/
def JChi (lall : Nat → K) : K := lall 14 + lall 17 + lall 19

/-- `Poisson2_set_BCs` on the plane `i=0` for variable `vind` (Poisson2.c:390-391); also `set_BCs` of Poisson.c with SphericalDF
(Poisson.c:671-672). -/
def bcInner (psi : K) (vind nonlin : Nat) : K := psi - 1 * (vind + 1) * nonlin

/-- `Poisson2_set_BCs` on the plane `i=n1-1` (Poisson2.c:393-394); also Poisson.c:674-675. -/
def bcOuter (psi : K) (vind nonlin : Nat) : K := psi - 1 / 2 * (vind + 1) * nonlin

end Poisson2

namespace Poisson3

/-- `FPsi[i]` (Poisson3.c:363): `Chi` comes from `VLu`. -/
def FPsi (Chi : K) (all : Nat → K) : K := Chi * all 4 + all 7 + Chi * Chi * all 9 - all 20

/-- `FChi[i]` (Poisson3.c:364). -/
def FChi (all : Nat → K) : K := all 14 + all 1 * all 17 + all 19 - all 21

/-- `JlPsi[i]` (Poisson3.c:418-419): `lChi` comes from `VLlu`, `Chi` is entry 10 of `VLuAll`. -/
def JPsi (lChi : K) (all lall : Nat → K) : K :=
  all 10 * lall 4 + lChi * all 4 + lall 7 + all 10 * all 10 * lall 9 + 2 * lChi * all 9

/-- `JlChi[i]` (Poisson3.c:420). -/
def JChi (all lall : Nat → K) : K := lall 14 + all 1 * lall 17 + lall 1 * all 17 + lall 19

/-- `FPsi[ind]` on the outer boundary (Poisson3_BCs.c:69) with the function chosen in lines 119-125; `psiBC` is `Poisson3_Psi_outerBC`. The
coordinates y and z are exchanged in lines 53-55, which makes no difference, since it depends only on the radius. -/
def outerBC (psi psiBC : K) (vind nonlin : Nat) : K := psi - (if nonlin ≠ 0 then (if vind = 0 then psiBC else 1) else 0)

/-- The place of the first derivatives of variable `vind` in `vluAll`: `vindDerivs` starts with 1 and is increased by `3 + 6*ncomp + 1` for
variables with `ncomp = 1` (Poisson3_BCs.c:100, 147-150). -/
def derivIndex : Nat → Nat
  | 0 => 1
  | vind + 1 => derivIndex vind + 3 + (6 * 1 + 1)

end Poisson3

end Sgrid
