import Mathlib.Analysis.SpecialFunctions.Pow.Real
import Mathlib.Analysis.SpecialFunctions.Trigonometric.Basic
import Verif.Model.Loop
import Verif.Model.PureLoop
import Verif.Model.CubedSphere

/-!
# Spherical harmonics and the surfaces of cubed spheres

src/utility/Spectral/SphericalHarmonics.c and src/utility/Coordinates/FSurf_CubedSpheres.c. Doubles are real
numbers. Arrays are functions of the index; the theorems say which entries are set and which are read.
-/

namespace Sgrid
open Real

/-- `ind_lm(l,m)` (SphericalHarmonics.c:13). -/
def indLm (l m : Nat) : Nat := l * (l + 1) / 2 + m

/-- `P_m^m` in `PLegendre` (SphericalHarmonics.c:25-35). -/
noncomputable def plegMM (m : Nat) (x : ℝ) : ℝ :=
  if 0 < m then
    let somx2 := √((1 - x) * (1 + x))
    (upLoop 1 (m + 1) (fun _ (s : ℝ × ℝ) => (s.1 * (-s.2 * somx2), s.2 + 2)) (1, 1)).1
  else 1

/-- One pass of the recursion (SphericalHarmonics.c:48-50 and 84-86); the pair is `Pmm`, `Pmp1_m`. -/
noncomputable def plegStep (m : Nat) (x : ℝ) (k : Nat) (s : ℝ × ℝ) : ℝ × ℝ :=
  (s.2, (x * (2 * k - 1) * s.2 - (k + m - 1) * s.1) / (k - m))

/-- `PLegendre` (SphericalHarmonics.c:17-53). -/
noncomputable def pLegendre (l m : ℤ) (x : ℝ) : Res ℝ :=
  if m < 0 ∨ l < m ∨ 1 < |x| then .abort
  else
    let L := l.toNat
    let M := m.toNat
    let Pmm := plegMM M x
    if L = M then .ok Pmm
    else
      let Pmp1 := x * (2 * M + 1) * Pmm
      if L = M + 1 then .ok Pmp1
      else .ok (upLoop (M + 2) (L + 1) (plegStep M x) (Pmm, Pmp1)).2

/-- `set_PlmTab_for_l_GE_m` (SphericalHarmonics.c:64-90). -/
noncomputable def setPlmFor (lmax m : Nat) (x : ℝ) (P : Nat → ℝ) : Res (Nat → ℝ) :=
  if lmax < m then .abort
  else (pLegendre m m x).bind fun Pmm =>
    let P := aset P (indLm m m) Pmm
    if m = lmax then .ok P
    else
      let Pmp1 := x * (2 * m + 1) * Pmm
      let P := aset P (indLm (m + 1) m) Pmp1
      .ok (upLoop (m + 2) (lmax + 1) (fun k (s : (Nat → ℝ) × ℝ × ℝ) =>
        let q := plegStep m x k s.2
        (aset s.1 (indLm k m) q.2, q)) (P, Pmm, Pmp1)).1

/-- `set_PlmTab` (SphericalHarmonics.c:93-97). -/
noncomputable def setPlmTab (lmax : Nat) (x : ℝ) (P : Nat → ℝ) : Res (Nat → ℝ) :=
  forN (lmax + 1) (fun m P => setPlmFor lmax m x P) P

/-- `Plm_from_Tab` (SphericalHarmonics.c:100-103). -/
def plmFromTab (P : Nat → ℝ) (l m : Nat) : ℝ := P (indLm l m)

/-- The loops over `l` and `m` in `set_YlmTabs` (SphericalHarmonics.c:116-130). The state of the inner loop
is `ReYtab`, `ImYtab`, `fac`. -/
noncomputable def setYlmLoops (lmax : Nat) (ph : ℝ) (t : (Nat → ℝ) × (Nat → ℝ)) : (Nat → ℝ) × (Nat → ℝ) :=
  upLoop 0 (lmax + 1) (fun l (t : (Nat → ℝ) × (Nat → ℝ)) =>
    let s := upLoop 0 (l + 1) (fun m (s : (Nat → ℝ) × (Nat → ℝ) × ℝ) =>
      let i := indLm l m
      let sfac := s.1 i * √s.2.2
      (aset s.1 i (sfac * cos (m * ph)), aset s.2.1 i (sfac * sin (m * ph)),
        s.2.2 / ((l + m + 1) * (l - m)))) (t.1, t.2, (2 * l + 1) * (1 / (4 * π)))
    (s.1, s.2.1)) t

/-- `set_YlmTabs` (SphericalHarmonics.c:107-131). -/
noncomputable def setYlmTabs (lmax : Nat) (th ph : ℝ) (Re Im : Nat → ℝ) : Res ((Nat → ℝ) × (Nat → ℝ)) :=
  (setPlmTab lmax (cos th) Re).bind fun Re => .ok (setYlmLoops lmax ph (Re, Im))

/-- `Ylm_from_Tabs` (SphericalHarmonics.c:134-154). -/
def ylmFromTabs (Re Im : Nat → ℝ) (l : Nat) (m : ℤ) : ℝ × ℝ :=
  let mm := m.natAbs
  let i := indLm l mm
  if m < 0 then
    let pm := ((1 - 2 * (mm % 2 : ℕ) : ℤ) : ℝ)
    (pm * Re i, pm * Im i * (-1))
  else (Re i, Im i)

/-- The loop over `l` and `m` with the running index `i` in steps of two, used at
SphericalHarmonics.c:271-272 and 301-302; `body l m i`. -/
def lmLoop {σ : Type} (lmax : Nat) (body : Nat → Nat → Nat → σ → σ) (i : Nat) (s : σ) : Nat × σ :=
  upLoop 0 (lmax + 1) (fun l (q : Nat × σ) =>
    upLoop 0 (l + 1) (fun m (q : Nat × σ) => (q.1 + 2, body l m q.1 q.2)) q) (i, s)

/-- `SphHarm_dphi_forRealFunc` (SphericalHarmonics.c:266-281). -/
def sphDphi (c cd : Nat → ℝ) (lmax : Nat) : Nat → ℝ :=
  (lmLoop lmax (fun _ m i cd =>
    let Rc := c i
    let Ic := c (i + 1)
    let Icd := m * Rc
    let Rcd := -m * Ic
    aset (aset cd i Rcd) (i + 1) Icd) 0 cd).2

/-- `SphHarm_sin_theta_dtheta_forRealFunc` (SphericalHarmonics.c:293-335). The array is read at the index `i-2l`,
which is never negative. -/
noncomputable def sphSinDtheta (c cs : Nat → ℝ) (lmax : Nat) : Nat → ℝ :=
  (lmLoop lmax (fun l m i cs =>
    let elm : ℝ := (l : ℝ) * l - m * m
    let elm := elm / ((2 * l + 1) * (2 * l - 1))
    let elm := √|elm|
    let lp1 := l + 1
    let elp1m : ℝ := (lp1 : ℝ) * lp1 - m * m
    let elp1m := elp1m / ((2 * lp1 + 1) * (2 * lp1 - 1))
    let elp1m := √elp1m
    let Rclp1 := c (i + 2 * lp1)
    let Iclp1 := c (i + 2 * lp1 + 1)
    let Rclm1 := c (i - 2 * l)
    let Iclm1 := c (i - 2 * l + 1)
    let Rcld := ((l : ℝ) - 1) * elm * Rclm1 - (lp1 + 1) * elp1m * Rclp1
    let Icld := ((l : ℝ) - 1) * elm * Iclm1 - (lp1 + 1) * elp1m * Iclp1
    aset (aset cs i Rcld) (i + 1) Icld) 0 cs).2

/-- The sum over `l` and `m` in `FSurf_CubSph_sigma01_func` (FSurf_CubedSpheres.c:37-75) and in
`FSurf_CubSph_sigma01_derivs` (115-171), where it is made for two arrays: the state is `sm`, index, sum. -/
noncomputable def surfSum (lmax : Nat) (co Re Im : Nat → ℝ) (ijk : Nat) : ℝ :=
  (upLoop 0 (lmax + 1) (fun l (q : Nat × ℝ) =>
    (upLoop 0 (l + 1) (fun m (s : ℝ × Nat × ℝ) =>
      let sm := s.1
      let Rclm := co s.2.1
      let Iclm := co (s.2.1 + 1)
      let Y := ylmFromTabs Re Im l m
      let Re_Ylm := Y.1
      let Im_Ylm := Y.2
      let Re_Ylmm := sm * Re_Ylm
      let Im_Ylmm := -sm * Im_Ylm
      let Rclmm := sm * Rclm
      let Iclmm := -sm * Iclm
      (-sm, s.2.1 + 2, if m = 0 then s.2.2 + Rclm * Re_Ylm
        else s.2.2 + (Rclm * Re_Ylm - Iclm * Im_Ylm + Rclmm * Re_Ylmm - Iclmm * Im_Ylmm))) (1, q)).2)
    (ijk, 0)).2

/-- `FSurf_CubSph_sigma01_func` (FSurf_CubedSpheres.c:19-79): `N` is `box->nnodes`, `co` the array
`box->v[isigma01_co]`, the tables start with the zeros of `calloc`. -/
noncomputable def fsurfSigma (b : CubBox) (N lmax : Nat) (co : Nat → ℝ) (si : Nat) (A B : ℝ) : Res ℝ :=
  let offset := if si ≠ 0 then N / 2 else 0
  let nYs := lmax * (lmax + 1) / 2 + lmax + 1
  let tp := thetaPhiOfAB b A B
  (setYlmTabs lmax tp.1 tp.2 (fun _ => 0) (fun _ => 0)).bind fun t =>
    if nYs ≥ N / 4 then .abort else .ok (surfSum lmax co t.1 t.2 offset)

/-- `FSurf_CubSph_sigma01_derivs` (FSurf_CubedSpheres.c:82-188): `*dsigdA` and `*dsigdB`. -/
noncomputable def fsurfDerivs (b : CubBox) (N lmax : Nat) (co : Nat → ℝ) (si : Nat) (A B : ℝ) : Res (ℝ × ℝ) :=
  let offset := if si ≠ 0 then N / 2 else 0
  let B := if A = 0 ∧ B = 0 then 1e-10 else B
  let tp := thetaPhiOfAB b A B
  let d := dThetaPhiOfAB b A B
  (setYlmTabs lmax tp.1 tp.2 (fun _ => 0) (fun _ => 0)).bind fun t =>
    let csdth := sphSinDtheta (fun i => co (offset + i)) (fun _ => 0) lmax
    let cdphi := sphDphi (fun i => co (offset + i)) (fun _ => 0) lmax
    let ft := surfSum lmax csdth t.1 t.2 0
    let fp := surfSum lmax cdphi t.1 t.2 0
    let fth := ft / sin tp.1
    .ok (fth * d 0 + fp * d 2, fth * d 1 + fp * d 3)

end Sgrid
