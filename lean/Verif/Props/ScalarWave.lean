import Verif.Model.ScalarWave
import Verif.Props.IsotropicBH
import Mathlib.Analysis.SpecialFunctions.Log.Deriv
import Mathlib.Analysis.SpecialFunctions.ExpDeriv

/-!
# C125 and C126: the scalar wave
-/

namespace Sgrid
open Finset
open scoped ContDiff

/-! ## Functions of time and space -/

section
variable {u v : ℝ × (Fin 3 → ℝ) → ℝ}

/-- The derivative with respect to time. -/
noncomputable def Spec.dt (u : ℝ × (Fin 3 → ℝ) → ℝ) : ℝ × (Fin 3 → ℝ) → ℝ := fun z => fderiv ℝ u z (1, 0)

/-- The derivative with respect to the coordinate `i`. -/
noncomputable def Spec.dx (i : Fin 3) (u : ℝ × (Fin 3 → ℝ) → ℝ) : ℝ × (Fin 3 → ℝ) → ℝ := fun z => fderiv ℝ u z (0, Pi.single i 1)

theorem dt_smooth (h : ContDiff ℝ ∞ u) : ContDiff ℝ ∞ (Spec.dt u) := (contDiff_infty_iff_fderiv.1 h).2.clm_apply contDiff_const

theorem dx_smooth (i : Fin 3) (h : ContDiff ℝ ∞ u) : ContDiff ℝ ∞ (Spec.dx i u) := (contDiff_infty_iff_fderiv.1 h).2.clm_apply contDiff_const

theorem dt_dx (i : Fin 3) (h : ContDiff ℝ ∞ u) : Spec.dt (Spec.dx i u) = Spec.dx i (Spec.dt u) := by
  have h1 := contDiff_infty_iff_fderiv.1 h
  have h2 : Differentiable ℝ (fderiv ℝ u) := h1.2.differentiable (by simp)
  funext x
  have e : ∀ v w : ℝ × (Fin 3 → ℝ), fderiv ℝ (fun z => fderiv ℝ u z v) x w = fderiv ℝ (fderiv ℝ u) x w v := by
    intro v w
    rw [fderiv_clm_apply (h2 x) (differentiableAt_const _)]
    simp
  unfold Spec.dt Spec.dx
  rw [e, e]
  exact (h.contDiffAt (x := x)).isSymmSndFDerivAt (by
    rw [minSmoothness_of_isRCLikeNormedField]
    exact WithTop.coe_le_coe.2 (le_top : (2 : ℕ∞) ≤ ⊤)) _ _

theorem dt_mul (hu : Differentiable ℝ u) (hv : Differentiable ℝ v) (z) : Spec.dt (fun z => u z * v z) z = Spec.dt u z * v z + u z * Spec.dt v z := by
  unfold Spec.dt
  have e : fderiv ℝ (fun z => u z * v z) z = u z • fderiv ℝ v z + v z • fderiv ℝ u z := fderiv_mul (hu z) (hv z)
  rw [e]
  simp only [add_apply, smul_apply, smul_eq_mul]
  ring

theorem dx_mul (i : Fin 3) (hu : Differentiable ℝ u) (hv : Differentiable ℝ v) (z) :
    Spec.dx i (fun z => u z * v z) z = Spec.dx i u z * v z + u z * Spec.dx i v z := by
  unfold Spec.dx
  have e : fderiv ℝ (fun z => u z * v z) z = u z • fderiv ℝ v z + v z • fderiv ℝ u z := fderiv_mul (hu z) (hv z)
  rw [e]
  simp only [add_apply, smul_apply, smul_eq_mul]
  ring

/-- The derivative with respect to time is what the name says. -/
theorem dt_eq (hu : Differentiable ℝ u) (t : ℝ) (x : Fin 3 → ℝ) : HasDerivAt (fun s => u (s, x)) (Spec.dt u (t, x)) t := by
  have e : HasDerivAt (fun s : ℝ => (s, x)) ((1 : ℝ), (0 : Fin 3 → ℝ)) t := (hasDerivAt_id t).prodMk (hasDerivAt_const t x)
  exact (hu (t, x)).hasFDerivAt.comp_hasDerivAt t e

end

/-! ## C125 -/

/-- What `ScalarWave_evolve` reads if the field is `u` and its derivative with respect to time is `∂_t u`. -/
noncomputable def Spec.swPt (nonlin : ℝ) (u : ℝ × (Fin 3 → ℝ) → ℝ) (z : ℝ × (Fin 3 → ℝ)) : SwPt ℝ where
  cpsi := u z
  ppsi := 0
  cpsidot := Spec.dt u z
  ppsidot := 0
  psixx := Spec.dx 0 (Spec.dx 0 u) z
  psiyy := Spec.dx 1 (Spec.dx 1 u) z
  psizz := Spec.dx 2 (Spec.dx 2 u) z
  nonlin := nonlin
  dt := 0

/-- A solution of the equations of the code: the derivative of `ψ̇` is the right hand side. -/
def Spec.SwSolution (nonlin : ℝ) (u : ℝ × (Fin 3 → ℝ) → ℝ) : Prop := ∀ z, Spec.dt (Spec.dt u) z = Sw.npsidot (Spec.swPt nonlin u z)

/-- The energy density that the code computes. -/
noncomputable def Spec.swRho (nonlin : ℝ) (u : ℝ × (Fin 3 → ℝ) → ℝ) (z : ℝ × (Fin 3 → ℝ)) : ℝ :=
  Sw.rho Real.log nonlin (u z) (Spec.dt u z) (Spec.dx 0 u z) (Spec.dx 1 u z) (Spec.dx 2 u z)

section
variable {nonlin : ℝ} {u : ℝ × (Fin 3 → ℝ) → ℝ}

/-- The potential `V(ψ) = n (ψ² - log(1+ψ²)) / 2`. -/
noncomputable def Spec.swV (nonlin p : ℝ) : ℝ := nonlin * (p * p - Real.log (1 + p * p)) * (1 / 2)

theorem swV_deriv (nonlin p : ℝ) : HasDerivAt (Spec.swV nonlin) (nonlin * p * p * p / (1 + p * p)) p := by
  have h0 : 1 + p * p ≠ 0 := by nlinarith [mul_self_nonneg p]
  have e1 : HasDerivAt (fun p : ℝ => p * p) (1 * p + p * 1) p := (hasDerivAt_id p).mul (hasDerivAt_id p)
  have e2 : HasDerivAt (fun p : ℝ => Real.log (1 + p * p)) ((1 * p + p * 1) / (1 + p * p)) p := (e1.const_add 1).log h0
  have e3 : HasDerivAt (Spec.swV nonlin) (nonlin * (1 * p + p * 1 - (1 * p + p * 1) / (1 + p * p)) * (1 / 2)) p := ((e1.sub e2).const_mul nonlin).mul_const (1 / 2)
  convert e3 using 1
  field_simp
  ring

/-- **C125.** The code evolves `∂_t² ψ = Δψ - V'(ψ)` with `V = n (ψ² - log(1+ψ²)) / 2`. -/
theorem C125_equation (hu : Spec.SwSolution nonlin u) (z) : Spec.dt (Spec.dt u) z = ∑ i, Spec.dx i (Spec.dx i u) z - deriv (Spec.swV nonlin) (u z) := by
  rw [hu z, (swV_deriv nonlin (u z)).deriv, Fin.sum_univ_three]
  unfold Sw.npsidot
  exact if_neg (by simp [Spec.swPt])

/-- **C125.** The energy density of the code is conserved: `∂_t ρ = ∂_i (ψ̇ ∂_i ψ)`. -/
theorem C125_energy (h : ContDiff ℝ ∞ u) (hu : Spec.SwSolution nonlin u) (z) :
    Spec.dt (Spec.swRho nonlin u) z = ∑ i, Spec.dx i (fun z => Spec.dt u z * Spec.dx i u z) z := by
  have du : Differentiable ℝ u := h.differentiable (by simp)
  have dtu : Differentiable ℝ (Spec.dt u) := (dt_smooth h).differentiable (by simp)
  have dxu : ∀ i, Differentiable ℝ (Spec.dx i u) := fun i => (dx_smooth i h).differentiable (by simp)
  obtain ⟨t, x⟩ := z
  have e0 := C125_equation hu (t, x)
  have ev : ∀ {v : ℝ × (Fin 3 → ℝ) → ℝ}, Differentiable ℝ v →
      HasDerivAt (fun s => v (s, x) * v (s, x)) (Spec.dt v (t, x) * v (t, x) + v (t, x) * Spec.dt v (t, x)) t := fun hv => (dt_eq hv t x).mul (dt_eq hv t x)
  have e1 : HasDerivAt (fun s => Spec.swRho nonlin u (s, x))
      (1 / 2 * (Spec.dt (Spec.dt u) (t, x) * Spec.dt u (t, x) + Spec.dt u (t, x) * Spec.dt (Spec.dt u) (t, x) +
        (Spec.dt (Spec.dx 0 u) (t, x) * Spec.dx 0 u (t, x) + Spec.dx 0 u (t, x) * Spec.dt (Spec.dx 0 u) (t, x)) +
        (Spec.dt (Spec.dx 1 u) (t, x) * Spec.dx 1 u (t, x) + Spec.dx 1 u (t, x) * Spec.dt (Spec.dx 1 u) (t, x)) +
        (Spec.dt (Spec.dx 2 u) (t, x) * Spec.dx 2 u (t, x) + Spec.dx 2 u (t, x) * Spec.dt (Spec.dx 2 u) (t, x))) +
        deriv (Spec.swV nonlin) (u (t, x)) * Spec.dt u (t, x)) t := by
    refine HasDerivAt.add (HasDerivAt.const_mul _ (((ev dtu).add (ev (dxu 0))).add (ev (dxu 1)) |>.add (ev (dxu 2)))) ?_
    have := (swV_deriv nonlin (u (t, x))).comp t (dt_eq du t x)
    rw [← (swV_deriv nonlin (u (t, x))).deriv] at this
    exact this
  have hr : Differentiable ℝ (Spec.swRho nonlin u) := by
    have hp : ∀ z, 1 + u z * u z ≠ 0 := fun z => by nlinarith [mul_self_nonneg (u z)]
    have d0 := dxu 0
    have d1 := dxu 1
    have d2 := dxu 2
    unfold Spec.swRho Sw.rho
    have hl : Differentiable ℝ fun z => Real.log (1 + u z * u z) := fun z => ((((du z).mul (du z)).const_add 1).log (hp z))
    fun_prop
  have e2 := (dt_eq hr t x).unique e1
  rw [e2, Fin.sum_univ_three]
  simp only [dx_mul _ dtu (dxu _), dt_dx _ h]
  rw [Fin.sum_univ_three] at e0
  rw [e0]
  ring

/-- **C125.** For a non-negative parameter the energy density is not negative, and it is zero only for constant `ψ` with `V = 0`. -/
theorem C125_positive (hn : 0 ≤ nonlin) (p q a b c : ℝ) : 0 ≤ Sw.rho Real.log nonlin p q a b c ∧
    (Sw.rho Real.log nonlin p q a b c = 0 → q = 0 ∧ a = 0 ∧ b = 0 ∧ c = 0 ∧ (nonlin = 0 ∨ p = 0)) := by
  have hl : Real.log (1 + p * p) ≤ p * p := by
    have := Real.log_le_sub_one_of_pos (show 0 < 1 + p * p by nlinarith [mul_self_nonneg p])
    linarith
  have h1 : 0 ≤ nonlin * (p * p - Real.log (1 + p * p)) := mul_nonneg hn (by linarith)
  have hq := mul_self_nonneg q
  have ha := mul_self_nonneg a
  have hb := mul_self_nonneg b
  have hc := mul_self_nonneg c
  unfold Sw.rho
  refine ⟨by nlinarith, fun h => ⟨?_, ?_, ?_, ?_, ?_⟩⟩
  · exact mul_self_eq_zero.1 (by nlinarith)
  · exact mul_self_eq_zero.1 (by nlinarith)
  · exact mul_self_eq_zero.1 (by nlinarith)
  · exact mul_self_eq_zero.1 (by nlinarith)
  · have h2 : nonlin * (p * p - Real.log (1 + p * p)) = 0 := by nlinarith
    rcases mul_eq_zero.1 h2 with h3 | h3
    · exact Or.inl h3
    · right
      by_contra hp
      have h4 : 1 + p * p ≠ 1 := by
        intro h5
        exact hp (mul_self_eq_zero.1 (by linarith))
      have := Real.log_lt_sub_one_of_pos (show 0 < 1 + p * p by nlinarith [mul_self_nonneg p]) h4
      linarith

end

/-- **C125.** With `dt ≠ 0` a step of Euler's method is made. -/
theorem C125_step {𝔽 : Type} [Field 𝔽] [DecidableEq 𝔽] (c : SwPt 𝔽) (h : c.dt ≠ 0) :
    Sw.npsidot c = c.ppsidot + c.dt * Sw.npsidot { c with dt := 0 } ∧ Sw.npsi c = c.ppsi + c.dt * Sw.npsi { c with dt := 0 } ∧
      Sw.npsi { c with dt := 0 } = c.cpsidot := by
  unfold Sw.npsidot Sw.npsi
  simp only [ne_eq, h, not_false_eq_true, if_true, not_true, if_false]
  exact ⟨rfl, rfl, rfl⟩

example : Sw.npsidot ({ cpsi := 2, ppsi := 1, cpsidot := 3, ppsidot := 4, psixx := 1, psiyy := 2, psizz := 3, nonlin := 5, dt := 0 } : SwPt ℚ) = -2 := by
  decide +kernel
example : Sw.npsidot ({ cpsi := 2, ppsi := 1, cpsidot := 3, ppsidot := 4, psixx := 1, psiyy := 2, psizz := 3, nonlin := 5, dt := 2 } : SwPt ℚ) = 0 := by
  decide +kernel
example : Sw.rho (fun _ => (0 : ℚ)) 2 3 1 2 4 5 = 32 := by decide +kernel

/-! ## C126 -/

/-- What `ScalarWave_startup` reads at the point `x`. -/
noncomputable def Spec.swInit (p : Sw.Init ℝ) (x : Fin 3 → ℝ) : Sw.Init ℝ := { p with x := x 0, y := x 1, z := x 2, exp := Real.exp, sqrt := Real.sqrt }

/-- The Gaussian. -/
noncomputable def Spec.swGauss (p : Sw.Init ℝ) (r : ℝ) : ℝ := p.A * Real.exp (-(r - p.r0) * (r - p.r0) / (2 * p.sigma * p.sigma))

theorem swGauss_contDiff (p : Sw.Init ℝ) : ContDiff ℝ ∞ (Spec.swGauss p) := by
  unfold Spec.swGauss
  fun_prop

theorem swGauss_deriv (p : Sw.Init ℝ) (r : ℝ) : HasDerivAt (Spec.swGauss p) (-1 / (p.sigma * p.sigma) * (r - p.r0) * Spec.swGauss p r) r := by
  have e1 : HasDerivAt (fun r : ℝ => r - p.r0) 1 r := (hasDerivAt_id r).sub_const _
  have e2 : HasDerivAt (fun r : ℝ => -(r - p.r0) * (r - p.r0) / (2 * p.sigma * p.sigma)) ((-1 * (r - p.r0) + -(r - p.r0) * 1) / (2 * p.sigma * p.sigma)) r :=
    (e1.neg.mul e1).div_const _
  have e3 : HasDerivAt (Spec.swGauss p) (p.A * (Real.exp (-(r - p.r0) * (r - p.r0) / (2 * p.sigma * p.sigma)) * ((-1 * (r - p.r0) + -(r - p.r0) * 1) / (2 * p.sigma * p.sigma)))) r :=
    (e2.exp).const_mul p.A
  convert e3 using 1
  unfold Spec.swGauss
  ring

section
variable {φ : ℝ → ℝ} {t : ℝ}

local notation "D" => Spec.isoDomain 0
local notation "C" => Spec.isoCalc 0

theorem ingoing_contDiffOn (h : ContDiff ℝ ∞ φ) : ContDiffOn ℝ ∞ (fun x => φ (Spec.radius x + t)) (Spec.isoDomain 0) :=
  h.comp_contDiffOn (contDiffOn_radius.add contDiffOn_const)

/-- A function of `r + t`. -/
noncomputable def Spec.ingoing (h : ContDiff ℝ ∞ φ) (t : ℝ) : Spec.smoothOn (Spec.isoDomain 0) := Spec.restrict (fun x => φ (Spec.radius x + t)) (ingoing_contDiffOn h)

theorem d_radius (i : Fin 3) (x : Spec.isoDomain 0) : Spec.pd i Spec.radius x = x.1 i * (Spec.radius x)⁻¹ := by
  have h1 := congrArg ((C).d i) (ir_sq (M := 0))
  have h3 := kd_sum' (Spec.iso_ix 0) i
  simp only [Spec.Calculus.mul, Spec.Calculus.sum, id_coord] at h1
  simp only [Fin.sum_univ_three] at h1 h3
  have h4 := congrArg (Spec.valueAt x) h1
  have h5 := congrArg (Spec.valueAt x) h3
  simp only [map_add, map_mul] at h4 h5
  have e : Spec.valueAt x ((C).d i (Spec.iso_ir 0)) = Spec.pd i Spec.radius x := calculusOn_d (isoDomain_open 0) _ _ i x
  have vr : Spec.valueAt x (Spec.iso_ir 0) = Spec.radius x := rfl
  have vx : Spec.valueAt x (Spec.iso_ix 0 i) = x.1 i := rfl
  rw [e, vr] at h4
  rw [vx] at h5
  have hr := radius_pos x.2
  field_simp
  linarith

theorem d_ingoing (h : ContDiff ℝ ∞ φ) (h' : ContDiff ℝ ∞ (deriv φ)) (i : Fin 3) :
    (C).d i (Spec.ingoing h t) = Spec.ingoing h' t * Spec.iso_ix 0 i * Spec.iso_is 0 := by
  refine smoothOn_ext fun x => ?_
  refine (calculusOn_d (isoDomain_open 0) _ _ i x).trans ?_
  have hr : DifferentiableAt ℝ Spec.radius x.1 :=
    (contDiffOn_radius (M := 0)).differentiableOn (by simp) |>.differentiableAt ((isoDomain_open 0).mem_nhds x.2)
  have e1 : HasFDerivAt (fun x => Spec.radius x + t) (fderiv ℝ Spec.radius x.1) x.1 := hr.hasFDerivAt.add_const t
  have hd : DifferentiableAt ℝ φ (Spec.radius x.1 + t) := (h.differentiable (by simp)).differentiableAt
  have e2 : HasFDerivAt (fun x => φ (Spec.radius x + t)) (deriv φ (Spec.radius x.1 + t) • fderiv ℝ Spec.radius x.1) x.1 := hd.hasDerivAt.comp_hasFDerivAt x.1 e1
  unfold Spec.pd
  rw [e2.fderiv]
  show deriv φ (Spec.radius x.1 + t) * Spec.pd i Spec.radius x.1 = deriv φ (Spec.radius x.1 + t) * x.1 i * (Spec.radius x.1)⁻¹
  rw [d_radius, mul_assoc]

/-- The Laplacian of `φ(r+t)/r` is `φ''(r+t)/r`. -/
theorem laplace_ingoing (h : ContDiff ℝ ∞ φ) (h' : ContDiff ℝ ∞ (deriv φ)) (h'' : ContDiff ℝ ∞ (deriv (deriv φ))) :
    ∑ i, (C).d i ((C).d i (Spec.ingoing h t * Spec.iso_is 0)) = Spec.ingoing h'' t * Spec.iso_is 0 := by
  have hs := is_sq (M := 0)
  have e : ∀ i, (C).d i ((C).d i (Spec.ingoing h t * Spec.iso_is 0)) =
      Spec.ingoing h'' t * (Spec.iso_ix 0 i * Spec.iso_ix 0 i) * Spec.iso_is 0 ^ 3 + Spec.ingoing h' t * Spec.iso_is 0 ^ 2 -
        3 * (Spec.ingoing h' t * (Spec.iso_ix 0 i * Spec.iso_ix 0 i) * Spec.iso_is 0 ^ 4) - Spec.ingoing h t * Spec.iso_is 0 ^ 3 +
        3 * (Spec.ingoing h t * (Spec.iso_ix 0 i * Spec.iso_ix 0 i) * Spec.iso_is 0 ^ 5) := by
    intro i
    have hk : (Spec.kd i i : Spec.smoothOn (Spec.isoDomain 0)) = 1 := if_pos rfl
    rw [Spec.Calculus.mul, d_ingoing h h', id_is, show Spec.iso_is 0 ^ 3 = Spec.iso_is 0 * (Spec.iso_is 0 * Spec.iso_is 0) by ring]
    simp only [Spec.Calculus.add, Spec.Calculus.neg, Spec.Calculus.mul, d_ingoing h h', d_ingoing h' h'', id_is, id_coord, hk]
    ring
  simp only [e, Fin.sum_univ_three] at hs ⊢
  linear_combination (Spec.ingoing h'' t * Spec.iso_is 0 - 3 * Spec.ingoing h' t * Spec.iso_is 0 ^ 2 + 3 * Spec.ingoing h t * Spec.iso_is 0 ^ 3) * hs

/-- **C126.** The spherical data are those of the ingoing wave `g(r+t)/r` at `t = 0`, and this is a solution of the equation of the code
without nonlinear term. -/
theorem C126_spherical (p : Sw.Init ℝ) (hp : p.spherical = true) (x : Spec.isoDomain 0) :
    Sw.psi0 (Spec.swInit p x) = Spec.swGauss p (Spec.radius x) / Spec.radius x ∧
    HasDerivAt (fun t => Spec.swGauss p (Spec.radius x + t) / Spec.radius x) (Sw.psidot0 (Spec.swInit p x)) 0 ∧
    ∀ t, ∃ u : Spec.smoothOn (Spec.isoDomain 0), (∀ y, Spec.valueAt y u = Spec.swGauss p (Spec.radius y + t) / Spec.radius y) ∧
      ∀ c : SwPt ℝ, c.nonlin = 0 → c.dt = 0 →
        c.psixx = Spec.valueAt x ((Spec.calculusOn (isoDomain_open 0)).d 0 ((Spec.calculusOn (isoDomain_open 0)).d 0 u)) →
        c.psiyy = Spec.valueAt x ((Spec.calculusOn (isoDomain_open 0)).d 1 ((Spec.calculusOn (isoDomain_open 0)).d 1 u)) →
        c.psizz = Spec.valueAt x ((Spec.calculusOn (isoDomain_open 0)).d 2 ((Spec.calculusOn (isoDomain_open 0)).d 2 u)) →
        HasDerivAt (deriv fun t => Spec.swGauss p (Spec.radius x + t) / Spec.radius x) (Sw.npsidot c) t := by
  have hr : Sw.r (Spec.swInit p x) = Spec.radius x := by
    show √(x.1 0 * x.1 0 + x.1 1 * x.1 1 + x.1 2 * x.1 2) = √(∑ i, x.1 i * x.1 i)
    rw [Fin.sum_univ_three]
  have hf : Sw.f (Spec.swInit p x) = Spec.swGauss p (Spec.radius x) := by
    unfold Sw.f
    rw [hr, show (Spec.swInit p x).spherical = true from hp, if_pos rfl]
    rfl
  have h := swGauss_contDiff p
  have hd : ∀ {φ : ℝ → ℝ}, ContDiff ℝ ∞ φ → ContDiff ℝ ∞ (deriv φ) := fun h => (contDiff_infty_iff_deriv.1 h).2
  have shift : ∀ {φ : ℝ → ℝ}, ContDiff ℝ ∞ φ → ∀ t, HasDerivAt (fun t => φ (Spec.radius x + t) / Spec.radius x) (deriv φ (Spec.radius x + t) / Spec.radius x) t := by
    intro φ hφ t
    have e : HasDerivAt (fun t => Spec.radius x + t) 1 t := (hasDerivAt_id t).const_add _
    have e2 : HasDerivAt (fun t => φ (Spec.radius x + t)) (deriv φ (Spec.radius x + t) * 1) t :=
      ((hφ.differentiable (by simp)).differentiableAt (x := Spec.radius x + t)).hasDerivAt.comp t e
    rw [mul_one] at e2
    exact e2.div_const _
  refine ⟨?_, ?_, fun t => ⟨Spec.ingoing h t * Spec.iso_is 0, fun y => ?_, fun c h0 hdt h1 h2 h3 => ?_⟩⟩
  · unfold Sw.psi0
    rw [hf, hr]
  · refine HasDerivAt.congr_deriv (shift h 0) ?_
    unfold Sw.psidot0 Sw.df
    rw [add_zero, (swGauss_deriv p _).deriv, hf, hr, show (Spec.swInit p x).spherical = true from hp, if_pos rfl]
    rfl
  · rw [map_mul, div_eq_mul_inv]
    rfl
  · have e1 : (deriv fun t => Spec.swGauss p (Spec.radius x + t) / Spec.radius x) = fun t => deriv (Spec.swGauss p) (Spec.radius x + t) / Spec.radius x :=
      funext fun t => (shift h t).deriv
    rw [e1]
    refine HasDerivAt.congr_deriv (shift (hd h) t) ?_
    have e2 : Sw.npsidot c = c.psixx + c.psiyy + c.psizz := by
      unfold Sw.npsidot Sw.rpsidot
      rw [h0, hdt]
      simp
    have e3 := congrArg (Spec.valueAt x) (laplace_ingoing (t := t) h (hd h) (hd (hd h)))
    rw [Fin.sum_univ_three, map_add, map_add, map_mul] at e3
    rw [e2, h1, h2, h3, e3, div_eq_mul_inv]
    rfl

end

/-- **C126.** Otherwise `ψ = f/r` and `ψ̇ = (∂f/∂r)/r` with an ellipsoidal Gaussian `f`. -/
theorem C126_ellipsoidal (p : Sw.Init ℝ) (hp : p.spherical = false) (x : Fin 3 → ℝ) (hx : Sw.r (Spec.swInit p x) ≠ 0) :
    HasDerivAt (fun s => Sw.f (Spec.swInit p fun i => x i + s * (x i / Sw.r (Spec.swInit p x))))
        (Sw.psidot0 (Spec.swInit p x) * Sw.r (Spec.swInit p x)) 0 ∧
      Sw.psi0 (Spec.swInit p x) * Sw.r (Spec.swInit p x) = Sw.f (Spec.swInit p x) := by
  refine ⟨?_, ?_⟩
  · have hf : ∀ y : Fin 3 → ℝ, Sw.f (Spec.swInit p y) = p.A * Real.exp (-(1 / 2) * ((y 0 - p.x0) * (y 0 - p.x0) / (p.sigmax * p.sigmax) +
        (y 1 - p.y0) * (y 1 - p.y0) / (p.sigmay * p.sigmay) + (y 2 - p.z0) * (y 2 - p.z0) / (p.sigmaz * p.sigmaz))) := by
      intro y
      unfold Sw.f
      rw [show (Spec.swInit p y).spherical = false from hp]
      rfl
    have hd : Sw.psidot0 (Spec.swInit p x) * Sw.r (Spec.swInit p x) = Sw.df (Spec.swInit p x) := div_mul_cancel₀ _ hx
    rw [hd]
    have hdf : Sw.df (Spec.swInit p x) = -Sw.f (Spec.swInit p x) * ((x 0 - p.x0) * (x 0 / Sw.r (Spec.swInit p x)) / (p.sigmax * p.sigmax) +
        (x 1 - p.y0) * (x 1 / Sw.r (Spec.swInit p x)) / (p.sigmay * p.sigmay) + (x 2 - p.z0) * (x 2 / Sw.r (Spec.swInit p x)) / (p.sigmaz * p.sigmaz)) := by
      unfold Sw.df
      rw [show (Spec.swInit p x).spherical = false from hp]
      rfl
    have lin : ∀ a b v w : ℝ, HasDerivAt (fun s : ℝ => (a + s * v - b) * (a + s * v - b) / w) ((v * (a - b) + (a - b) * v) / w) 0 := by
      intro a b v w
      have e : HasDerivAt (fun s : ℝ => a + s * v - b) v 0 := by
        have := (((hasDerivAt_id (0 : ℝ)).mul_const v).const_add a).sub_const b
        rwa [one_mul] at this
      have e2 := (e.mul e).div_const w
      simpa using e2
    simp only [hf]
    have e := ((((lin (x 0) p.x0 (x 0 / Sw.r (Spec.swInit p x)) (p.sigmax * p.sigmax)).add (lin (x 1) p.y0 (x 1 / Sw.r (Spec.swInit p x)) (p.sigmay * p.sigmay))).add
      (lin (x 2) p.z0 (x 2 / Sw.r (Spec.swInit p x)) (p.sigmaz * p.sigmaz))).const_mul (-(1 / 2))).exp.const_mul p.A
    refine HasDerivAt.congr_deriv e ?_
    rw [hdf, hf]
    simp only [Pi.add_apply, zero_mul, add_zero]
    ring
  · exact div_mul_cancel₀ _ hx

/-- **C126.** `testwave` starts with `k = -∂u/∂x` for the Gaussian `u`, a wave that moves to the right, and its equation is `∂_t k = u_xx`. -/
theorem C126_testwave (x y z : ℝ) : HasDerivAt (fun x => Testwave.f Real.exp x y z) (-Testwave.k Real.exp x y z) x ∧
    HasDerivAt (fun t => Testwave.f Real.exp (x - t) y z) (Testwave.k Real.exp x y z) 0 ∧ ∀ u u11 u22 u33 : ℝ, Testwave.krhs u u11 u22 u33 = u11 := by
  have e : HasDerivAt (fun x => Testwave.f Real.exp x y z) (-Testwave.k Real.exp x y z) x := by
    have e1 : HasDerivAt (fun x : ℝ => x - 1 / 5) 1 x := (hasDerivAt_id x).sub_const _
    have e2 := ((((e1.mul e1).add_const (y * y)).add_const (z * z)).const_mul (-10)).exp
    refine HasDerivAt.congr_deriv e2 ?_
    simp only [Pi.mul_apply]
    unfold Testwave.k Testwave.f
    ring
  refine ⟨e, ?_, fun u u11 u22 u33 => ?_⟩
  · have e3 : HasDerivAt (fun t : ℝ => x - t) (-1) 0 := (hasDerivAt_id (0 : ℝ)).const_sub x
    have e4 : HasDerivAt (fun x => Testwave.f Real.exp x y z) (-Testwave.k Real.exp x y z) (x - 0) := by rwa [sub_zero]
    have e5 := e4.comp (0 : ℝ) e3
    rw [mul_neg_one, neg_neg] at e5
    exact e5
  · unfold Testwave.krhs
    simp

section
variable {𝔽 : Type} [Field 𝔽]

/-- A loop that sets points to zero. -/
theorem sw_foldl_zero {α : Type} (l : List α) (step : (Nat → 𝔽) → α → Nat → 𝔽) (P : α → Nat → Prop)
    (h : ∀ u a n, (P a n → step u a n = 0) ∧ (¬P a n → step u a n = u n)) (u : Nat → 𝔽) (n : Nat) :
    ((∃ a ∈ l, P a n) → l.foldl step u n = 0) ∧ ((∀ a ∈ l, ¬P a n) → l.foldl step u n = u n) := by
  induction l generalizing u with
  | nil => exact ⟨fun ⟨_, h, _⟩ => absurd h (by simp), fun _ => rfl⟩
  | cons a l ih =>
    obtain ⟨i1, i2⟩ := ih (step u a)
    constructor
    · rintro ⟨b, hb, hP⟩
      by_cases hl : ∃ b ∈ l, P b n
      · exact i1 hl
      · have hl' : ∀ b ∈ l, ¬P b n := fun b hb hP => hl ⟨b, hb, hP⟩
        rcases List.mem_cons.1 hb with rfl | hb
        · exact (i2 hl').trans ((h u b n).1 hP)
        · exact absurd hP (hl' b hb)
    · intro hn
      exact (i2 fun b hb => hn b (List.mem_cons_of_mem _ hb)).trans ((h u a n).2 (hn a List.mem_cons_self))

/-- **C126.** At the end the first and the last point in the first direction are zero, and all other points of the box are unchanged. -/
theorem C126_ends {n1 n2 n3 i j k : Nat} (hi : i < n1) (hj : j < n2) (hk : k < n3) (u : Nat → 𝔽) :
    Sw.zeroEnds n1 n2 n3 u (i + n1 * (j + n2 * k)) = if i = 0 ∨ i = n1 - 1 then 0 else u (i + n1 * (j + n2 * k)) := by
  have h1 : ∀ k' (u : Nat → 𝔽) j' n, ((n = n1 - 1 + n1 * j' + n1 * n2 * k' ∨ n = 0 + n1 * j' + n1 * n2 * k') →
        (if n = 0 + n1 * j' + n1 * n2 * k' then 0 else if n = n1 - 1 + n1 * j' + n1 * n2 * k' then 0 else u n) = 0) ∧
      (¬(n = n1 - 1 + n1 * j' + n1 * n2 * k' ∨ n = 0 + n1 * j' + n1 * n2 * k') →
        (if n = 0 + n1 * j' + n1 * n2 * k' then 0 else if n = n1 - 1 + n1 * j' + n1 * n2 * k' then 0 else u n) = u n) := by
    intro k' u j' n
    constructor
    · rintro (h | h)
      · split
        · rfl
        · rfl
      · rw [if_pos h]
    · intro h
      rw [if_neg fun e => h (Or.inr e), if_neg fun e => h (Or.inl e)]
  have h2 := sw_foldl_zero (List.range n3) (fun u k => (List.range n2).foldl (fun u j =>
      let u' := fun n => if n = n1 - 1 + n1 * j + n1 * n2 * k then 0 else u n
      fun n => if n = 0 + n1 * j + n1 * n2 * k then 0 else u' n) u)
    (fun k n => ∃ j ∈ List.range n2, n = n1 - 1 + n1 * j + n1 * n2 * k ∨ n = 0 + n1 * j + n1 * n2 * k)
    (fun u k n => by
      have h3 := sw_foldl_zero (List.range n2) (fun (u : Nat → 𝔽) j =>
        let u' := fun n => if n = n1 - 1 + n1 * j + n1 * n2 * k then 0 else u n
        fun n => if n = 0 + n1 * j + n1 * n2 * k then 0 else u' n)
        (fun j n => n = n1 - 1 + n1 * j + n1 * n2 * k ∨ n = 0 + n1 * j + n1 * n2 * k) (h1 k) u n
      exact ⟨h3.1, fun h => h3.2 fun j hj hP => h ⟨j, hj, hP⟩⟩) u (i + n1 * (j + n2 * k))
  unfold Sw.zeroEnds
  split <;> rename_i h0
  · refine h2.1 ⟨k, List.mem_range.2 hk, j, List.mem_range.2 hj, ?_⟩
    rcases h0 with rfl | rfl
    · right
      ring
    · left
      ring
  · refine h2.2 ?_
    rintro k' - ⟨j', -, h⟩
    apply h0
    have key : ∀ i', i' < n1 → i + n1 * (j + n2 * k) = i' + n1 * j' + n1 * n2 * k' → i = i' := by
      intro i' hi' e
      have e2 : i + n1 * (j + n2 * k) = i' + n1 * (j' + n2 * k') := by rw [e]; ring
      have e3 := congrArg (· % n1) e2
      simpa [Nat.add_mul_mod_self_left, Nat.mod_eq_of_lt hi, Nat.mod_eq_of_lt hi'] using e3
    rcases h with h | h
    · exact Or.inr (key (n1 - 1) (by omega) h)
    · exact Or.inl (key 0 (by omega) h)

end

example : (List.range 12).map (Sw.zeroEnds 3 2 2 fun n => (n : ℚ) + 1) = [0, 2, 0, 0, 5, 0, 0, 8, 0, 0, 11, 0] := by decide +kernel

/-- Numbers for the examples. -/
def exSwInit (s : Bool) : Sw.Init ℚ where
  A := 2
  sigma := 2
  r0 := 1
  sigmax := 1
  sigmay := 2
  sigmaz := 3
  x0 := 1
  y0 := 0
  z0 := 0
  spherical := s
  x := 1
  y := 2
  z := 2
  exp := fun y => if y = -1 / 2 then 3 / 5 else if y = -13 / 18 then 1 / 2 else 0
  sqrt := fun y => if y = 9 then 3 else 0

example : Sw.psi0 (exSwInit true) = 2 / 5 ∧ Sw.psidot0 (exSwInit true) = -1 / 5 := by decide +kernel
example : Sw.psi0 (exSwInit false) = 1 / 3 ∧ Sw.psidot0 (exSwInit false) = -13 / 81 := by decide +kernel

end Sgrid
