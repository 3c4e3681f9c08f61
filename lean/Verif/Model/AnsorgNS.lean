import Verif.Model.ComplexFun
import Verif.Model.CoordTrafo

/-!
src/utility/Coordinates/coordtrans_AnsorgNS0.c to coordtrans_AnsorgNS3.c: the first step of the Ansorg
coordinates, from (A, B, phi) in one of the four domains to (X, R, phi), with the tables of the first and
second derivatives that the code returns beside the point.

Doubles are real numbers and the macros PI, PIh, PIq are π, π/2, π/4.  The functions behind the pointers
`Coordinates_AnsorgNS_sigmap` (domains 0 and 1) or `Coordinates_AnsorgNS_sigmam` (domains 2 and 3) and their
derivatives are the fields of `AnsSig`, as functions of B and phi for a fixed box and `ind`.  The local
variables of the four functions are computed by the same text; only the tables differ, and those of the
domains 1 and 2 are the same.  Every local variable is a definition here.
-/

namespace Sgrid
open Real

/-- The surface function sigma and its derivatives (coordtrans_AnsorgNS0.c:19-24, coordtrans_AnsorgNS2.c:19-24). -/
structure AnsSig where
  /-- `sigmap(box, ind, B, phi)` -/
  sig : ℝ → ℝ → ℝ
  /-- `dsigmap_dB` -/
  dB : ℝ → ℝ → ℝ
  /-- `dsigmap_dphi` -/
  dphi : ℝ → ℝ → ℝ
  /-- `ddsigmap_dBdB` -/
  dBB : ℝ → ℝ → ℝ
  /-- `ddsigmap_dBdphi` -/
  dBphi : ℝ → ℝ → ℝ
  /-- `ddsigmap_dphidphi` -/
  dphiphi : ℝ → ℝ → ℝ

/-- `AbstanhWsBphi` (coordtrans_AnsorgNS0.c:37). -/
noncomputable def nsAbstanhWsBphi (S : AnsSig) (B phi : ℝ) : ℝ := Abstanh (1 / 4 * S.sig B phi) (1 / 4 * π * B)

/-- `d1AbstanhWsBphi` (coordtrans_AnsorgNS0.c:38). -/
noncomputable def nsd1AbstanhWsBphi (S : AnsSig) (B phi : ℝ) : ℝ :=
  dAbstanhdx (1 / 4 * S.sig B phi) (1 / 4 * π * B)

/-- `d2AbstanhWsBphi` (coordtrans_AnsorgNS0.c:39). -/
noncomputable def nsd2AbstanhWsBphi (S : AnsSig) (B phi : ℝ) : ℝ :=
  dAbstanhdy (1 / 4 * S.sig B phi) (1 / 4 * π * B)

/-- `d1d1AbstanhWsBphi` (coordtrans_AnsorgNS0.c:40). -/
noncomputable def nsd1d1AbstanhWsBphi (S : AnsSig) (B phi : ℝ) : ℝ :=
  ddAbstanhdxdx (1 / 4 * S.sig B phi) (1 / 4 * π * B)

/-- `d1d2AbstanhWsBphi` (coordtrans_AnsorgNS0.c:41). -/
noncomputable def nsd1d2AbstanhWsBphi (S : AnsSig) (B phi : ℝ) : ℝ :=
  ddAbstanhdxdy (1 / 4 * S.sig B phi) (1 / 4 * π * B)

/-- `d2d2AbstanhWsBphi` (coordtrans_AnsorgNS0.c:42). -/
noncomputable def nsd2d2AbstanhWsBphi (S : AnsSig) (B phi : ℝ) : ℝ :=
  ddAbstanhdydy (1 / 4 * S.sig B phi) (1 / 4 * π * B)

/-- `ArgtanhWsBphi` (coordtrans_AnsorgNS0.c:43). -/
noncomputable def nsArgtanhWsBphi (S : AnsSig) (B phi : ℝ) : ℝ := Argtanh (1 / 4 * S.sig B phi) (1 / 4 * π * B)

/-- `d1ArgtanhWsBphi` (coordtrans_AnsorgNS0.c:44). -/
noncomputable def nsd1ArgtanhWsBphi (S : AnsSig) (B phi : ℝ) : ℝ :=
  dArgtanhdx (1 / 4 * S.sig B phi) (1 / 4 * π * B)

/-- `d2ArgtanhWsBphi` (coordtrans_AnsorgNS0.c:45). -/
noncomputable def nsd2ArgtanhWsBphi (S : AnsSig) (B phi : ℝ) : ℝ :=
  dArgtanhdy (1 / 4 * S.sig B phi) (1 / 4 * π * B)

/-- `d1d1ArgtanhWsBphi` (coordtrans_AnsorgNS0.c:46). -/
noncomputable def nsd1d1ArgtanhWsBphi (S : AnsSig) (B phi : ℝ) : ℝ :=
  ddArgtanhdxdx (1 / 4 * S.sig B phi) (1 / 4 * π * B)

/-- `d1d2ArgtanhWsBphi` (coordtrans_AnsorgNS0.c:47). -/
noncomputable def nsd1d2ArgtanhWsBphi (S : AnsSig) (B phi : ℝ) : ℝ :=
  ddArgtanhdxdy (1 / 4 * S.sig B phi) (1 / 4 * π * B)

/-- `d2d2ArgtanhWsBphi` (coordtrans_AnsorgNS0.c:48). -/
noncomputable def nsd2d2ArgtanhWsBphi (S : AnsSig) (B phi : ℝ) : ℝ :=
  ddArgtanhdydy (1 / 4 * S.sig B phi) (1 / 4 * π * B)

/-- `AbstanhWs1phi` (coordtrans_AnsorgNS0.c:49). -/
noncomputable def nsAbstanhWs1phi (S : AnsSig) (phi : ℝ) : ℝ := Abstanh (1 / 4 * S.sig 1 phi) (1 / 4 * π)

/-- `ArgtanhWs1phi` (coordtrans_AnsorgNS0.c:50). -/
noncomputable def nsArgtanhWs1phi (S : AnsSig) (phi : ℝ) : ℝ := Argtanh (1 / 4 * S.sig 1 phi) (1 / 4 * π)

/-- `AbsCpOfBphi` (coordtrans_AnsorgNS0.c:51). -/
noncomputable def nsAbsCpOfBphi (S : AnsSig) (B phi : ℝ) : ℝ := √(nsAbstanhWsBphi S B phi)

/-- `ArgCpOfBphi` (coordtrans_AnsorgNS0.c:52). -/
noncomputable def nsArgCpOfBphi (S : AnsSig) (B phi : ℝ) : ℝ := nsArgtanhWsBphi S B phi / 2

/-- `ReCpOfBphi` (coordtrans_AnsorgNS0.c:53). -/
noncomputable def nsReCpOfBphi (S : AnsSig) (B phi : ℝ) : ℝ := nsAbsCpOfBphi S B phi * cos (nsArgCpOfBphi S B phi)

/-- `ImCpOfBphi` (coordtrans_AnsorgNS0.c:54). -/
noncomputable def nsImCpOfBphi (S : AnsSig) (B phi : ℝ) : ℝ := nsAbsCpOfBphi S B phi * sin (nsArgCpOfBphi S B phi)

/-- `AbsCpOf1phi` (coordtrans_AnsorgNS0.c:55). -/
noncomputable def nsAbsCpOf1phi (S : AnsSig) (phi : ℝ) : ℝ := √(nsAbstanhWs1phi S phi)

/-- `ArgCpOf1phi` (coordtrans_AnsorgNS0.c:56). -/
noncomputable def nsArgCpOf1phi (S : AnsSig) (phi : ℝ) : ℝ := nsArgtanhWs1phi S phi / 2

/-- `ReCpOf1phi` (coordtrans_AnsorgNS0.c:57). -/
noncomputable def nsReCpOf1phi (S : AnsSig) (phi : ℝ) : ℝ := nsAbsCpOf1phi S phi * cos (nsArgCpOf1phi S phi)

/-- `ImCpOf1phi` (coordtrans_AnsorgNS0.c:58). -/
noncomputable def nsImCpOf1phi (S : AnsSig) (phi : ℝ) : ℝ := nsAbsCpOf1phi S phi * sin (nsArgCpOf1phi S phi)

/-- `d1AbsCpOfBphi` (coordtrans_AnsorgNS0.c:59). -/
noncomputable def nsd1AbsCpOfBphi (S : AnsSig) (B phi : ℝ) : ℝ :=
  (nsd1AbstanhWsBphi S B phi * S.dB B phi / 4 + nsd2AbstanhWsBphi S B phi * π / 4) / (2 * √(nsAbstanhWsBphi S B phi))

/-- `d1ArgCpOfBphi` (coordtrans_AnsorgNS0.c:60). -/
noncomputable def nsd1ArgCpOfBphi (S : AnsSig) (B phi : ℝ) : ℝ :=
  (nsd1ArgtanhWsBphi S B phi * S.dB B phi / 4 + nsd2ArgtanhWsBphi S B phi * π / 4) / 2

/-- `d1ReCpOfBphi` (coordtrans_AnsorgNS0.c:61). -/
noncomputable def nsd1ReCpOfBphi (S : AnsSig) (B phi : ℝ) : ℝ :=
  nsd1AbsCpOfBphi S B phi * cos (nsArgCpOfBphi S B phi) - nsAbsCpOfBphi S B phi * nsd1ArgCpOfBphi S B phi *
    sin (nsArgCpOfBphi S B phi)

/-- `d1ImCpOfBphi` (coordtrans_AnsorgNS0.c:62). -/
noncomputable def nsd1ImCpOfBphi (S : AnsSig) (B phi : ℝ) : ℝ :=
  nsAbsCpOfBphi S B phi * nsd1ArgCpOfBphi S B phi * cos (nsArgCpOfBphi S B phi) + nsd1AbsCpOfBphi S B phi *
    sin (nsArgCpOfBphi S B phi)

/-- `d2AbsCpOfBphi` (coordtrans_AnsorgNS0.c:63). -/
noncomputable def nsd2AbsCpOfBphi (S : AnsSig) (B phi : ℝ) : ℝ :=
  nsd1AbstanhWsBphi S B phi * S.dphi B phi / (8 * √(nsAbstanhWsBphi S B phi))

/-- `d2ArgCpOfBphi` (coordtrans_AnsorgNS0.c:64). -/
noncomputable def nsd2ArgCpOfBphi (S : AnsSig) (B phi : ℝ) : ℝ := nsd1ArgtanhWsBphi S B phi * S.dphi B phi / 8

/-- `d2ReCpOfBphi` (coordtrans_AnsorgNS0.c:65). -/
noncomputable def nsd2ReCpOfBphi (S : AnsSig) (B phi : ℝ) : ℝ :=
  nsd2AbsCpOfBphi S B phi * cos (nsArgCpOfBphi S B phi) - nsAbsCpOfBphi S B phi * nsd2ArgCpOfBphi S B phi *
    sin (nsArgCpOfBphi S B phi)

/-- `d2ImCpOfBphi` (coordtrans_AnsorgNS0.c:66). -/
noncomputable def nsd2ImCpOfBphi (S : AnsSig) (B phi : ℝ) : ℝ :=
  nsAbsCpOfBphi S B phi * nsd2ArgCpOfBphi S B phi * cos (nsArgCpOfBphi S B phi) + nsd2AbsCpOfBphi S B phi *
    sin (nsArgCpOfBphi S B phi)

/-- `d1d1AbsCpOfBphi` (coordtrans_AnsorgNS0.c:67). -/
noncomputable def nsd1d1AbsCpOfBphi (S : AnsSig) (B phi : ℝ) : ℝ :=
  (nsd1AbstanhWsBphi S B phi * S.dBB B phi / 4 + S.dB B phi * (nsd1d1AbstanhWsBphi S B phi * S.dB B phi / 4 +
    nsd1d2AbstanhWsBphi S B phi * π / 4) / 4 + π * (nsd1d2AbstanhWsBphi S B phi * S.dB B phi / 4 +
    nsd2d2AbstanhWsBphi S B phi * π / 4) / 4) / (2 * √(nsAbstanhWsBphi S B phi)) - (nsd1AbstanhWsBphi S B phi *
    S.dB B phi / 4 + nsd2AbstanhWsBphi S B phi * π / 4) * (nsd1AbstanhWsBphi S B phi * S.dB B phi / 4 +
    nsd2AbstanhWsBphi S B phi * π / 4) / (4 * (nsAbstanhWsBphi S B phi) ^ (3 / 2 : ℝ))

/-- `d1d1ArgCpOfBphi` (coordtrans_AnsorgNS0.c:68). -/
noncomputable def nsd1d1ArgCpOfBphi (S : AnsSig) (B phi : ℝ) : ℝ :=
  (nsd1ArgtanhWsBphi S B phi * S.dBB B phi / 4 + S.dB B phi * (nsd1d1ArgtanhWsBphi S B phi * S.dB B phi / 4 +
    nsd1d2ArgtanhWsBphi S B phi * π / 4) / 4 + π * (nsd1d2ArgtanhWsBphi S B phi * S.dB B phi / 4 +
    nsd2d2ArgtanhWsBphi S B phi * π / 4) / 4) / 2

/-- `d1d1ReCpOfBphi` (coordtrans_AnsorgNS0.c:69). -/
noncomputable def nsd1d1ReCpOfBphi (S : AnsSig) (B phi : ℝ) : ℝ :=
  nsd1d1AbsCpOfBphi S B phi * cos (nsArgCpOfBphi S B phi) - nsAbsCpOfBphi S B phi * cos (nsArgCpOfBphi S B phi) *
    (nsd1ArgCpOfBphi S B phi * nsd1ArgCpOfBphi S B phi) - 2 * nsd1AbsCpOfBphi S B phi * nsd1ArgCpOfBphi S B phi *
    sin (nsArgCpOfBphi S B phi) - nsAbsCpOfBphi S B phi * nsd1d1ArgCpOfBphi S B phi * sin (nsArgCpOfBphi S B phi)

/-- `d1d1ImCpOfBphi` (coordtrans_AnsorgNS0.c:70). -/
noncomputable def nsd1d1ImCpOfBphi (S : AnsSig) (B phi : ℝ) : ℝ :=
  2 * nsd1AbsCpOfBphi S B phi * nsd1ArgCpOfBphi S B phi * cos (nsArgCpOfBphi S B phi) + nsAbsCpOfBphi S B phi *
    nsd1d1ArgCpOfBphi S B phi * cos (nsArgCpOfBphi S B phi) + nsd1d1AbsCpOfBphi S B phi *
    sin (nsArgCpOfBphi S B phi) - nsAbsCpOfBphi S B phi * (nsd1ArgCpOfBphi S B phi * nsd1ArgCpOfBphi S B phi) *
    sin (nsArgCpOfBphi S B phi)

/-- `d1d2AbsCpOfBphi` (coordtrans_AnsorgNS0.c:71). -/
noncomputable def nsd1d2AbsCpOfBphi (S : AnsSig) (B phi : ℝ) : ℝ :=
  (-(nsd1AbstanhWsBphi S B phi * S.dphi B phi * (nsd1AbstanhWsBphi S B phi * S.dB B phi / 4 +
    nsd2AbstanhWsBphi S B phi * π / 4))) / (16 * (nsAbstanhWsBphi S B phi) ^ (3 / 2 : ℝ)) +
    (nsd1AbstanhWsBphi S B phi * S.dBphi B phi / 4 + nsd1d1AbstanhWsBphi S B phi * S.dB B phi * S.dphi B phi / 16 +
    nsd1d2AbstanhWsBphi S B phi * S.dphi B phi * π / 16) / (2 * √(nsAbstanhWsBphi S B phi))

/-- `d1d2ArgCpOfBphi` (coordtrans_AnsorgNS0.c:72). -/
noncomputable def nsd1d2ArgCpOfBphi (S : AnsSig) (B phi : ℝ) : ℝ :=
  (nsd1ArgtanhWsBphi S B phi * S.dBphi B phi / 4 + nsd1d1ArgtanhWsBphi S B phi * S.dB B phi * S.dphi B phi / 16 +
    nsd1d2ArgtanhWsBphi S B phi * S.dphi B phi * π / 16) / 2

/-- `d1d2ReCpOfBphi` (coordtrans_AnsorgNS0.c:73). -/
noncomputable def nsd1d2ReCpOfBphi (S : AnsSig) (B phi : ℝ) : ℝ :=
  nsd1d2AbsCpOfBphi S B phi * cos (nsArgCpOfBphi S B phi) - nsAbsCpOfBphi S B phi * nsd1ArgCpOfBphi S B phi *
    nsd2ArgCpOfBphi S B phi * cos (nsArgCpOfBphi S B phi) - nsAbsCpOfBphi S B phi * nsd1d2ArgCpOfBphi S B phi *
    sin (nsArgCpOfBphi S B phi) - nsd1ArgCpOfBphi S B phi * nsd2AbsCpOfBphi S B phi * sin (nsArgCpOfBphi S B phi) -
    nsd1AbsCpOfBphi S B phi * nsd2ArgCpOfBphi S B phi * sin (nsArgCpOfBphi S B phi)

/-- `d1d2ImCpOfBphi` (coordtrans_AnsorgNS0.c:74). -/
noncomputable def nsd1d2ImCpOfBphi (S : AnsSig) (B phi : ℝ) : ℝ :=
  nsAbsCpOfBphi S B phi * nsd1d2ArgCpOfBphi S B phi * cos (nsArgCpOfBphi S B phi) + nsd1ArgCpOfBphi S B phi *
    nsd2AbsCpOfBphi S B phi * cos (nsArgCpOfBphi S B phi) + nsd1AbsCpOfBphi S B phi * nsd2ArgCpOfBphi S B phi *
    cos (nsArgCpOfBphi S B phi) + nsd1d2AbsCpOfBphi S B phi * sin (nsArgCpOfBphi S B phi) - nsAbsCpOfBphi S B phi *
    nsd1ArgCpOfBphi S B phi * nsd2ArgCpOfBphi S B phi * sin (nsArgCpOfBphi S B phi)

/-- `d2d2AbsCpOfBphi` (coordtrans_AnsorgNS0.c:75). -/
noncomputable def nsd2d2AbsCpOfBphi (S : AnsSig) (B phi : ℝ) : ℝ :=
  nsd1AbstanhWsBphi S B phi * S.dphiphi B phi / (8 * √(nsAbstanhWsBphi S B phi)) + nsd1d1AbstanhWsBphi S B phi *
    (S.dphi B phi * S.dphi B phi) / (32 * √(nsAbstanhWsBphi S B phi)) - nsd1AbstanhWsBphi S B phi *
    nsd1AbstanhWsBphi S B phi * (S.dphi B phi * S.dphi B phi) / (64 * (nsAbstanhWsBphi S B phi) ^ (3 / 2 : ℝ))

/-- `d2d2ArgCpOfBphi` (coordtrans_AnsorgNS0.c:76). -/
noncomputable def nsd2d2ArgCpOfBphi (S : AnsSig) (B phi : ℝ) : ℝ :=
  nsd1ArgtanhWsBphi S B phi * S.dphiphi B phi / 8 + nsd1d1ArgtanhWsBphi S B phi * (S.dphi B phi * S.dphi B phi) / 32

/-- `d2d2ReCpOfBphi` (coordtrans_AnsorgNS0.c:77). -/
noncomputable def nsd2d2ReCpOfBphi (S : AnsSig) (B phi : ℝ) : ℝ :=
  nsd2d2AbsCpOfBphi S B phi * cos (nsArgCpOfBphi S B phi) - nsAbsCpOfBphi S B phi * cos (nsArgCpOfBphi S B phi) *
    (nsd2ArgCpOfBphi S B phi * nsd2ArgCpOfBphi S B phi) - 2 * nsd2AbsCpOfBphi S B phi * nsd2ArgCpOfBphi S B phi *
    sin (nsArgCpOfBphi S B phi) - nsAbsCpOfBphi S B phi * nsd2d2ArgCpOfBphi S B phi * sin (nsArgCpOfBphi S B phi)

/-- `d2d2ImCpOfBphi` (coordtrans_AnsorgNS0.c:78). -/
noncomputable def nsd2d2ImCpOfBphi (S : AnsSig) (B phi : ℝ) : ℝ :=
  2 * nsd2AbsCpOfBphi S B phi * nsd2ArgCpOfBphi S B phi * cos (nsArgCpOfBphi S B phi) + nsAbsCpOfBphi S B phi *
    nsd2d2ArgCpOfBphi S B phi * cos (nsArgCpOfBphi S B phi) + nsd2d2AbsCpOfBphi S B phi *
    sin (nsArgCpOfBphi S B phi) - nsAbsCpOfBphi S B phi * (nsd2ArgCpOfBphi S B phi * nsd2ArgCpOfBphi S B phi) *
    sin (nsArgCpOfBphi S B phi)

/-- `XRphi` in domain 0 (coordtrans_AnsorgNS0.c:81-84). -/
noncomputable def ns0X (S : AnsSig) (A B phi : ℝ) : Fin 3 → ℝ
  | 0 => A * (1 - B) + (1 - A) * (-(B * nsReCpOf1phi S phi) + nsReCpOfBphi S B phi) + B * cos ((1 - A) *
      nsArgCpOf1phi S phi)
  | 1 => (1 - A) * (-(B * nsImCpOf1phi S phi) + nsImCpOfBphi S B phi) + B * sin ((1 - A) * nsArgCpOf1phi S phi)
  | 2 => phi

/-- `dXRphi` in domain 0 (coordtrans_AnsorgNS0.c:86-95). -/
noncomputable def ns0DX (S : AnsSig) (A B phi : ℝ) : Fin 3 → Fin 3 → ℝ
  | 0, 0 => 1 + B * (-1 + nsReCpOf1phi S phi) - 1 * nsReCpOfBphi S B phi + nsArgCpOf1phi S phi * B *
      sin (nsArgCpOf1phi S phi - 1 * A * nsArgCpOf1phi S phi)
  | 0, 1 => nsd1ReCpOfBphi S B phi - 1 * nsReCpOf1phi S phi + A * (-1 - 1 * nsd1ReCpOfBphi S B phi +
      nsReCpOf1phi S phi) + cos (nsArgCpOf1phi S phi - 1 * A * nsArgCpOf1phi S phi)
  | 0, 2 => nsd2ReCpOfBphi S B phi - 1 * A * nsd2ReCpOfBphi S B phi
  | 1, 0 => B * nsImCpOf1phi S phi - 1 * nsImCpOfBphi S B phi - 1 * nsArgCpOf1phi S phi * B *
      cos (nsArgCpOf1phi S phi - 1 * A * nsArgCpOf1phi S phi)
  | 1, 1 => (-1) * (-1 + A) * (nsd1ImCpOfBphi S B phi - 1 * nsImCpOf1phi S phi) + sin (nsArgCpOf1phi S phi - 1 * A *
      nsArgCpOf1phi S phi)
  | 1, 2 => nsd2ImCpOfBphi S B phi - 1 * A * nsd2ImCpOfBphi S B phi
  | 2, 0 => 0
  | 2, 1 => 0
  | 2, 2 => 1

/-- `ddXRphi` in domain 0 (coordtrans_AnsorgNS0.c:97-115). -/
noncomputable def ns0DDX (S : AnsSig) (A B phi : ℝ) : Fin 3 → Pair → ℝ
  | 0, .xx => (-1) * B * cos (nsArgCpOf1phi S phi - 1 * A * nsArgCpOf1phi S phi) * (nsArgCpOf1phi S phi *
      nsArgCpOf1phi S phi)
  | 0, .xy => -1 - 1 * nsd1ReCpOfBphi S B phi + nsReCpOf1phi S phi + nsArgCpOf1phi S phi * sin (nsArgCpOf1phi S phi -
      1 * A * nsArgCpOf1phi S phi)
  | 0, .xz => (-1) * nsd2ReCpOfBphi S B phi
  | 0, .yy => nsd1d1ReCpOfBphi S B phi - 1 * A * nsd1d1ReCpOfBphi S B phi
  | 0, .yz => nsd1d2ReCpOfBphi S B phi - 1 * A * nsd1d2ReCpOfBphi S B phi
  | 0, .zz => nsd2d2ReCpOfBphi S B phi - 1 * A * nsd2d2ReCpOfBphi S B phi
  | 1, .xx => (-1) * B * (nsArgCpOf1phi S phi * nsArgCpOf1phi S phi) * sin (nsArgCpOf1phi S phi - 1 * A *
      nsArgCpOf1phi S phi)
  | 1, .xy => (-1) * nsd1ImCpOfBphi S B phi + nsImCpOf1phi S phi - 1 * nsArgCpOf1phi S phi *
      cos (nsArgCpOf1phi S phi - 1 * A * nsArgCpOf1phi S phi)
  | 1, .xz => (-1) * nsd2ImCpOfBphi S B phi
  | 1, .yy => nsd1d1ImCpOfBphi S B phi - 1 * A * nsd1d1ImCpOfBphi S B phi
  | 1, .yz => nsd1d2ImCpOfBphi S B phi - 1 * A * nsd1d2ImCpOfBphi S B phi
  | 1, .zz => nsd2d2ImCpOfBphi S B phi - 1 * A * nsd2d2ImCpOfBphi S B phi
  | 2, .xx => 0
  | 2, .xy => 0
  | 2, .xz => 0
  | 2, .yy => 0
  | 2, .yz => 0
  | 2, .zz => 0

/-- `XRphi` in domain 1 or 2 (coordtrans_AnsorgNS1.c:81-84, coordtrans_AnsorgNS2.c:81-84). -/
noncomputable def ns1X (S : AnsSig) (A B phi : ℝ) : Fin 3 → ℝ
  | 0 => (1 - A) * (-(B * nsReCpOf1phi S phi) + nsReCpOfBphi S B phi) + B * cos ((1 - A) * nsArgCpOf1phi S phi + A *
      (π / 4))
  | 1 => (1 - A) * (-(B * nsImCpOf1phi S phi) + nsImCpOfBphi S B phi) + B * sin ((1 - A) * nsArgCpOf1phi S phi + A *
      (π / 4))
  | 2 => phi

/-- `dXRphi` in domain 1 or 2 (coordtrans_AnsorgNS1.c:86-95, coordtrans_AnsorgNS2.c:86-95). -/
noncomputable def ns1DX (S : AnsSig) (A B phi : ℝ) : Fin 3 → Fin 3 → ℝ
  | 0, 0 => B * nsReCpOf1phi S phi - 1 * nsReCpOfBphi S B phi + B * (nsArgCpOf1phi S phi - 1 * (π / 4)) *
      sin (nsArgCpOf1phi S phi - 1 * A * nsArgCpOf1phi S phi + A * (π / 4))
  | 0, 1 => (-1) * (-1 + A) * (nsd1ReCpOfBphi S B phi - 1 * nsReCpOf1phi S phi) + cos (nsArgCpOf1phi S phi - 1 * A *
      nsArgCpOf1phi S phi + A * (π / 4))
  | 0, 2 => nsd2ReCpOfBphi S B phi - 1 * A * nsd2ReCpOfBphi S B phi
  | 1, 0 => B * nsImCpOf1phi S phi - 1 * nsImCpOfBphi S B phi + B * ((-1) * nsArgCpOf1phi S phi + π / 4) *
      cos (nsArgCpOf1phi S phi - 1 * A * nsArgCpOf1phi S phi + A * (π / 4))
  | 1, 1 => (-1) * (-1 + A) * (nsd1ImCpOfBphi S B phi - 1 * nsImCpOf1phi S phi) + sin (nsArgCpOf1phi S phi - 1 * A *
      nsArgCpOf1phi S phi + A * (π / 4))
  | 1, 2 => nsd2ImCpOfBphi S B phi - 1 * A * nsd2ImCpOfBphi S B phi
  | 2, 0 => 0
  | 2, 1 => 0
  | 2, 2 => 1

/-- `ddXRphi` in domain 1 or 2 (coordtrans_AnsorgNS1.c:97-115, coordtrans_AnsorgNS2.c:97-115). -/
noncomputable def ns1DDX (S : AnsSig) (A B phi : ℝ) : Fin 3 → Pair → ℝ
  | 0, .xx => (-1) * B * cos (nsArgCpOf1phi S phi - 1 * A * nsArgCpOf1phi S phi + A * (π / 4)) * (((-1) *
      nsArgCpOf1phi S phi + π / 4) * ((-1) * nsArgCpOf1phi S phi + π / 4))
  | 0, .xy => (-1) * nsd1ReCpOfBphi S B phi + nsReCpOf1phi S phi + (nsArgCpOf1phi S phi - 1 * (π / 4)) *
      sin (nsArgCpOf1phi S phi - 1 * A * nsArgCpOf1phi S phi + A * (π / 4))
  | 0, .xz => (-1) * nsd2ReCpOfBphi S B phi
  | 0, .yy => nsd1d1ReCpOfBphi S B phi - 1 * A * nsd1d1ReCpOfBphi S B phi
  | 0, .yz => nsd1d2ReCpOfBphi S B phi - 1 * A * nsd1d2ReCpOfBphi S B phi
  | 0, .zz => nsd2d2ReCpOfBphi S B phi - 1 * A * nsd2d2ReCpOfBphi S B phi
  | 1, .xx => (-1) * B * (((-1) * nsArgCpOf1phi S phi + π / 4) * ((-1) * nsArgCpOf1phi S phi + π / 4)) *
      sin (nsArgCpOf1phi S phi - 1 * A * nsArgCpOf1phi S phi + A * (π / 4))
  | 1, .xy => (-1) * nsd1ImCpOfBphi S B phi + nsImCpOf1phi S phi + ((-1) * nsArgCpOf1phi S phi + π / 4) *
      cos (nsArgCpOf1phi S phi - 1 * A * nsArgCpOf1phi S phi + A * (π / 4))
  | 1, .xz => (-1) * nsd2ImCpOfBphi S B phi
  | 1, .yy => nsd1d1ImCpOfBphi S B phi - 1 * A * nsd1d1ImCpOfBphi S B phi
  | 1, .yz => nsd1d2ImCpOfBphi S B phi - 1 * A * nsd1d2ImCpOfBphi S B phi
  | 1, .zz => nsd2d2ImCpOfBphi S B phi - 1 * A * nsd2d2ImCpOfBphi S B phi
  | 2, .xx => 0
  | 2, .xy => 0
  | 2, .xz => 0
  | 2, .yy => 0
  | 2, .yz => 0
  | 2, .zz => 0

/-- `XRphi` in domain 3 (coordtrans_AnsorgNS3.c:81-84). -/
noncomputable def ns3X (S : AnsSig) (A B phi : ℝ) : Fin 3 → ℝ
  | 0 => (1 - A) * (-(B * nsReCpOf1phi S phi) + nsReCpOfBphi S B phi) + B * cos ((1 - A) * nsArgCpOf1phi S phi + A *
      (π / 2))
  | 1 => A * (1 - B) + (1 - A) * (-(B * nsImCpOf1phi S phi) + nsImCpOfBphi S B phi) + B * sin ((1 - A) *
      nsArgCpOf1phi S phi + A * (π / 2))
  | 2 => phi

/-- `dXRphi` in domain 3 (coordtrans_AnsorgNS3.c:86-95). -/
noncomputable def ns3DX (S : AnsSig) (A B phi : ℝ) : Fin 3 → Fin 3 → ℝ
  | 0, 0 => B * nsReCpOf1phi S phi - 1 * nsReCpOfBphi S B phi + B * (nsArgCpOf1phi S phi - 1 * (π / 2)) *
      sin (nsArgCpOf1phi S phi - 1 * A * nsArgCpOf1phi S phi + A * (π / 2))
  | 0, 1 => (-1) * (-1 + A) * (nsd1ReCpOfBphi S B phi - 1 * nsReCpOf1phi S phi) + cos (nsArgCpOf1phi S phi - 1 * A *
      nsArgCpOf1phi S phi + A * (π / 2))
  | 0, 2 => nsd2ReCpOfBphi S B phi - 1 * A * nsd2ReCpOfBphi S B phi
  | 1, 0 => 1 - 1 * B + B * nsImCpOf1phi S phi - 1 * nsImCpOfBphi S B phi + B * ((-1) * nsArgCpOf1phi S phi + π /
      2) * cos (nsArgCpOf1phi S phi - 1 * A * nsArgCpOf1phi S phi + A * (π / 2))
  | 1, 1 => nsd1ImCpOfBphi S B phi - 1 * nsImCpOf1phi S phi + A * (-1 - 1 * nsd1ImCpOfBphi S B phi +
      nsImCpOf1phi S phi) + sin (nsArgCpOf1phi S phi - 1 * A * nsArgCpOf1phi S phi + A * (π / 2))
  | 1, 2 => nsd2ImCpOfBphi S B phi - 1 * A * nsd2ImCpOfBphi S B phi
  | 2, 0 => 0
  | 2, 1 => 0
  | 2, 2 => 1

/-- `ddXRphi` in domain 3 (coordtrans_AnsorgNS3.c:97-115). -/
noncomputable def ns3DDX (S : AnsSig) (A B phi : ℝ) : Fin 3 → Pair → ℝ
  | 0, .xx => (-1) * B * cos (nsArgCpOf1phi S phi - 1 * A * nsArgCpOf1phi S phi + A * (π / 2)) * (((-1) *
      nsArgCpOf1phi S phi + π / 2) * ((-1) * nsArgCpOf1phi S phi + π / 2))
  | 0, .xy => (-1) * nsd1ReCpOfBphi S B phi + nsReCpOf1phi S phi + (nsArgCpOf1phi S phi - 1 * (π / 2)) *
      sin (nsArgCpOf1phi S phi - 1 * A * nsArgCpOf1phi S phi + A * (π / 2))
  | 0, .xz => (-1) * nsd2ReCpOfBphi S B phi
  | 0, .yy => nsd1d1ReCpOfBphi S B phi - 1 * A * nsd1d1ReCpOfBphi S B phi
  | 0, .yz => nsd1d2ReCpOfBphi S B phi - 1 * A * nsd1d2ReCpOfBphi S B phi
  | 0, .zz => nsd2d2ReCpOfBphi S B phi - 1 * A * nsd2d2ReCpOfBphi S B phi
  | 1, .xx => (-1) * B * (((-1) * nsArgCpOf1phi S phi + π / 2) * ((-1) * nsArgCpOf1phi S phi + π / 2)) *
      sin (nsArgCpOf1phi S phi - 1 * A * nsArgCpOf1phi S phi + A * (π / 2))
  | 1, .xy => -1 - 1 * nsd1ImCpOfBphi S B phi + nsImCpOf1phi S phi + ((-1) * nsArgCpOf1phi S phi + π / 2) *
      cos (nsArgCpOf1phi S phi - 1 * A * nsArgCpOf1phi S phi + A * (π / 2))
  | 1, .xz => (-1) * nsd2ImCpOfBphi S B phi
  | 1, .yy => nsd1d1ImCpOfBphi S B phi - 1 * A * nsd1d1ImCpOfBphi S B phi
  | 1, .yz => nsd1d2ImCpOfBphi S B phi - 1 * A * nsd1d2ImCpOfBphi S B phi
  | 1, .zz => nsd2d2ImCpOfBphi S B phi - 1 * A * nsd2d2ImCpOfBphi S B phi
  | 2, .xx => 0
  | 2, .xy => 0
  | 2, .xz => 0
  | 2, .yy => 0
  | 2, .yz => 0
  | 2, .zz => 0

end Sgrid
