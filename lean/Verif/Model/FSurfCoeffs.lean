import Verif.Model.SphHarm
import Verif.Model.Lines

/-!
# The coefficients of the surfaces of cubed spheres

The integrals in src/utility/Coordinates/FSurf_CubedSpheres.c. The surface integral `spec_2dIntegral(box,1,u,u)` is a
parameter `int2`: what it makes of the `n1*n2*n3` numbers of an array.
-/

namespace Sgrid
open Real

/-- The loops over `l` and `m` with the running index `i` (FSurf_CubedSpheres.c:260-274, 341-382, 402-410). -/
def lmLoop1 {σ : Type} (lmax : Nat) (body : Nat → Nat → Nat → σ → σ) (s : σ) : Nat × σ :=
  upLoop 0 (lmax + 1) (fun l (q : Nat × σ) =>
    upLoop 0 (l + 1) (fun m (q : Nat × σ) => (q.1 + 1, body l m q.1 q.2)) q) (0, s)

/-- `Index(i%n1,j,k) + Ng*(i/n1)` (FSurf_CubedSpheres.c:269-270, 368-369). -/
def segIndex (d : Dims) (i j k : Nat) : Nat := d.idx (i % d.n1) j k + d.n1 * d.n2 * d.n3 * (i / d.n1)

/-- `FSurf_CubSph_set_Ylm` (FSurf_CubedSpheres.c:220-281): the arrays and, as there, the tables, which are used again
at the next point. -/
noncomputable def fsurfSetYlm (b : CubBox) (d : Dims) (S1 lmax : Nat) (Yp Zp Re Im : Nat → ℝ) :
    Res ((Nat → ℝ) × (Nat → ℝ)) :=
  let nYs := lmax * (lmax + 1) / 2 + lmax + 1
  let N1 := d.n1 * S1
  if nYs > N1 then .abort
  else
    (forN d.n3 (fun k s => forN d.n2 (fun j (s : ((Nat → ℝ) × (Nat → ℝ)) × ((Nat → ℝ) × (Nat → ℝ))) =>
      let ijk := d.idx 0 j k
      let A := Yp ijk
      let B := Zp ijk
      let tp := thetaPhiOfAB b A B
      (setYlmTabs lmax tp.1 tp.2 s.2.1 s.2.2).bind fun t =>
        .ok ((lmLoop1 lmax (fun l m i (s : (Nat → ℝ) × (Nat → ℝ)) =>
          let Y := ylmFromTabs t.1 t.2 l m
          let Ijk := segIndex d i j k
          (aset s.1 Ijk Y.1, aset s.2 Ijk Y.2)) s.1).2, t)) s)
      ((Re, Im), (fun _ => 0, fun _ => 0))).bind fun s => .ok s.1

/-- The factor `Jac * sin(Theta)` (FSurf_CubedSpheres.c:360-363). -/
noncomputable def fsurfFac (b : CubBox) (A B : ℝ) : ℝ :=
  let d := dThetaPhiOfAB b A B
  |d 0 * d 3 - d 1 * d 2| * sin (thetaPhiOfAB b A B).1

/-- The integrands (FSurf_CubedSpheres.c:336-383). -/
noncomputable def fsurfIntegrands (b : CubBox) (d : Dims) (s lmax : Nat) (Yp Zp Rv : Nat → ℝ) (Iv : Option (Nat → ℝ))
    (Y : (Nat → ℝ) × (Nat → ℝ)) (t : (Nat → ℝ) × (Nat → ℝ)) : (Nat → ℝ) × (Nat → ℝ) :=
  upLoop 0 d.n3 (fun k t => upLoop 0 d.n2 (fun j t =>
    (lmLoop1 lmax (fun _ _ i (t : (Nat → ℝ) × (Nat → ℝ)) =>
      let ijk := d.idx s j k
      let A := Yp ijk
      let B := Zp ijk
      let R := Rv ijk
      let I := Iv.elim 0 fun v => v ijk
      let fac := fsurfFac b A B
      let R := R * fac
      let I := I * fac
      let Ijk := segIndex d i j k
      let RYlm := Y.1 Ijk
      let IYlm := Y.2 Ijk
      (aset t.1 Ijk (RYlm * R + IYlm * I), aset t.2 Ijk (RYlm * I - IYlm * R))) t).2) t) t

/-- `spec_2dIntegral(box, 1, u+os, u+os)` (FSurf_CubedSpheres.c:391). -/
def segInt (int2 : (Nat → ℝ) → Res (Nat → ℝ)) (Ng os : Nat) (u : Nat → ℝ) : Res (Nat → ℝ) :=
  (int2 fun p => u (os + p)).bind fun U => .ok fun q => if os ≤ q ∧ q < os + Ng then U (q - os) else u q

/-- `FSurf_CubSph_get_Ylm_integrals` (FSurf_CubedSpheres.c:288-417): the new contents of `Integ`. `Iv` is `none` if
`Im_vind <= 0`; `box->nnodes` is `n1*n2*n3`. -/
noncomputable def fsurfIntegrals (b : CubBox) (d : Dims) (int2 : (Nat → ℝ) → Res (Nat → ℝ)) (s lmax : Nat)
    (Yp Zp Rv : Nat → ℝ) (Iv : Option (Nat → ℝ)) (Integ : Nat → ℝ) : Res (Nat → ℝ) :=
  let Ng := d.n1 * d.n2 * d.n3
  let nYs := lmax * (lmax + 1) / 2 + lmax + 1
  if d.n1 = 0 then .ub
  else
    let S1 := nYs / d.n1
    let S1 := if nYs % d.n1 ≠ 0 then S1 + 1 else S1
    (fsurfSetYlm b d S1 lmax Yp Zp (fun _ => 0) (fun _ => 0)).bind fun Y =>
      let t := fsurfIntegrands b d s lmax Yp Zp Rv Iv Y (fun _ => 0, fun _ => 0)
      (forN S1 (fun seg (t : (Nat → ℝ) × (Nat → ℝ)) =>
        let os := Ng * seg
        (segInt int2 Ng os t.1).bind fun R => (segInt int2 Ng os t.2).bind fun I => .ok (R, I)) t).bind fun t =>
      if nYs ≥ Ng / 4 then .abort
      else if d.n1 = 1 then .ub
      else
        let offset := (Ng / 2 * s) / (d.n1 - 1)
        .ok (lmLoop1 lmax (fun _ _ i (q : Nat × (Nat → ℝ)) =>
          let Ijk := (i % d.n1) + Ng * (i / d.n1)
          let ijk := q.1
          (ijk + 2, aset (aset q.2 ijk (t.1 Ijk)) (ijk + 1) (t.2 Ijk))) (offset, Integ)).2.2

/-- `FSurf_CubSph_set_Ylm_coeffs` (FSurf_CubedSpheres.c:421-449): `co i` is the array of box `bi_dom0+i`. -/
def fsurfSetCoeffs (Ng : Nat) (co : Nat → Nat → ℝ) : Nat → Nat → ℝ :=
  upLoop 0 Ng (fun ijk co =>
    let sum := upLoop 0 6 (fun ii sum => sum + co ii ijk) 0
    upLoop 0 6 (fun ii co => aset co ii (aset (co ii) ijk sum)) co) co

end Sgrid
