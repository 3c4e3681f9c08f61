import Verif.Model.AnsorgNS
import Verif.Props.AnsorgXR
import Verif.Props.ComplexFun
import Mathlib.Analysis.Calculus.Deriv.Prod
import Mathlib.Analysis.Calculus.FDeriv.Partial
import Mathlib.Analysis.SpecialFunctions.Pow.Real
import Mathlib.Tactic.Positivity

/-!
Property C151: the tables of first and second derivatives in coordtrans_AnsorgNS0.c to
coordtrans_AnsorgNS3.c are the derivatives of the transformations that stand beside them.
-/

namespace Sgrid

open Real Filter Topology

namespace Spec

/-- At the point `(x, y)` the function `f` has the derivative `(f1, f2)`: along every path through this
point it changes at the rate `f1 * U + f2 * W`. -/
def PlaneDeriv (f : ℝ → ℝ → ℝ) (f1 f2 x y : ℝ) : Prop :=
  ∀ (b q : ℝ → ℝ) (t U W : ℝ), HasDerivAt b U t → HasDerivAt q W t → b t = x → q t = y →
    HasDerivAt (fun s => f (b s) (q s)) (f1 * U + f2 * W) t

/-- The derivatives of the surface function are what their names say at the point `(B, phi)`. -/
def SigmaDerivs (S : AnsSig) (B phi : ℝ) : Prop :=
  PlaneDeriv S.sig (S.dB B phi) (S.dphi B phi) B phi ∧
  PlaneDeriv S.dB (S.dBB B phi) (S.dBphi B phi) B phi ∧
  PlaneDeriv S.dphi (S.dBphi B phi) (S.dphiphi B phi) B phi

end Spec

/-- Continuous partial derivatives give the derivative along every path. -/
theorem planeDeriv_of_partials {F F1 F2 : ℝ → ℝ → ℝ} {x y : ℝ} (hy : sin (2 * y) ≠ 0)
    (h1 : ∀ x y, sin (2 * y) ≠ 0 → HasDerivAt (fun x => F x y) (F1 x y) x)
    (h2 : ∀ x y, sin (2 * y) ≠ 0 → HasDerivAt (fun y => F x y) (F2 x y) y)
    (c1 : ContinuousAt (fun q : ℝ × ℝ => F1 q.1 q.2) (x, y))
    (c2 : ContinuousAt (fun q : ℝ × ℝ => F2 q.1 q.2) (x, y)) :
    Spec.PlaneDeriv F (F1 x y) (F2 x y) x y := by
  intro b q t U W hb hq rfl rfl
  have hev : ∀ᶠ v : ℝ × ℝ in 𝓝 (b t, q t), sin (2 * v.2) ≠ 0 := by
    have hc : ContinuousAt (fun v : ℝ × ℝ => sin (2 * v.2)) (b t, q t) := by fun_prop
    exact hc.eventually_ne hy
  have key := hasStrictFDerivAt_uncurry_coprod (𝕜 := ℝ) (u := (b t, q t)) (f := F)
    (f₁ := fun x y => ContinuousLinearMap.toSpanSingleton ℝ (F1 x y))
    (f₂ := fun x y => ContinuousLinearMap.toSpanSingleton ℝ (F2 x y))
    (hev.mono fun v hv => (h1 v.1 v.2 hv).hasFDerivAt)
    (hev.mono fun v hv => (h2 v.1 v.2 hv).hasFDerivAt)
    ((ContinuousLinearMap.toSpanSingletonCLE (𝕜 := ℝ) (E := ℝ)).continuous.continuousAt.comp c1)
    ((ContinuousLinearMap.toSpanSingletonCLE (𝕜 := ℝ) (E := ℝ)).continuous.continuousAt.comp c2)
  have hbq : HasDerivAt (fun s => (b s, q s)) (U, W) t := HasDerivAt.prodMk hb hq
  have h := HasFDerivAt.comp_hasDerivAt (f := fun s => (b s, q s)) t key.hasFDerivAt hbq
  refine (h.congr_deriv ?_)
  simp [Function.HasUncurry.uncurry, mul_comm]

/-- What the denominators of the derivatives of Abstanh need. -/
theorem abstanh_denoms {x y : ℝ} (hy : sin (2 * y) ≠ 0) :
    cos (2 * y) + cosh (2 * x) ≠ 0 ∧ cos (2 * y) - cosh (2 * x) ≠ 0 ∧
    √(1 - 2 * cos (2 * y) / (cos (2 * y) + cosh (2 * x))) ≠ 0 ∧
    cos (2 * y * 2) - cosh (2 * x * 2) ≠ 0 := by
  obtain ⟨hp, hm⟩ := cosh_cos_pos x y (fun h => hy h.2)
  refine ⟨by linarith, by linarith, ?_, ?_⟩
  · rw [abstanh_sqrt x y (fun h => hy h.2)]
    exact (Real.sqrt_pos.2 (div_pos hm hp)).ne'
  · rw [cos_sub_cosh4, add_comm (cos (2 * y))]
    have := mul_pos hm hp
    intro h
    linarith

theorem abstanh_plane {x y : ℝ} (hy : sin (2 * y) ≠ 0) :
    Spec.PlaneDeriv Abstanh (dAbstanhdx x y) (dAbstanhdy x y) x y ∧
    Spec.PlaneDeriv dAbstanhdx (ddAbstanhdxdx x y) (ddAbstanhdxdy x y) x y ∧
    Spec.PlaneDeriv dAbstanhdy (ddAbstanhdxdy x y) (ddAbstanhdydy x y) x y := by
  obtain ⟨d1, d2, d3, d4⟩ := abstanh_denoms (x := x) hy
  have n1 : (cos (2 * y) + cosh (2 * x)) * (cos (2 * y) + cosh (2 * x)) *
      √(1 - 2 * cos (2 * y) / (cos (2 * y) + cosh (2 * x))) ≠ 0 := mul_ne_zero (mul_ne_zero d1 d1) d3
  have n2 : (cos (2 * y) - cosh (2 * x)) * (cos (2 * y) + cosh (2 * x)) ^ 3 *
      √(1 - 2 * cos (2 * y) / (cos (2 * y) + cosh (2 * x))) ≠ 0 :=
    mul_ne_zero (mul_ne_zero d2 (pow_ne_zero _ d1)) d3
  have n3 := mul_ne_zero d4 d4
  have c1 : ContinuousAt (fun q : ℝ × ℝ => dAbstanhdx q.1 q.2) (x, y) := by
    unfold dAbstanhdx
    fun_prop (disch := first | exact d1 | exact n1)
  have c2 : ContinuousAt (fun q : ℝ × ℝ => dAbstanhdy q.1 q.2) (x, y) := by
    unfold dAbstanhdy
    fun_prop (disch := first | exact d1 | exact n1)
  have c3 : ContinuousAt (fun q : ℝ × ℝ => ddAbstanhdxdx q.1 q.2) (x, y) := by
    unfold ddAbstanhdxdx
    fun_prop (disch := first | exact d1 | exact n2)
  have c4 : ContinuousAt (fun q : ℝ × ℝ => ddAbstanhdxdy q.1 q.2) (x, y) := by
    unfold ddAbstanhdxdy
    fun_prop (disch := first | exact d1 | exact n3)
  have c5 : ContinuousAt (fun q : ℝ × ℝ => ddAbstanhdydy q.1 q.2) (x, y) := by
    unfold ddAbstanhdydy
    fun_prop (disch := first | exact d1 | exact n3)
  refine ⟨planeDeriv_of_partials hy (fun x y h => C77_dAbstanhdx x y fun h' => h h'.2)
      (fun x y h => C77_dAbstanhdy x y fun h' => h h'.2) c1 c2,
    planeDeriv_of_partials hy (fun x y h => C77_ddAbstanhdxdx x y fun h' => h h'.2)
      (fun x y h => (C77_ddAbstanhdxdy x y fun h' => h h'.2).1) c3 c4,
    planeDeriv_of_partials hy (fun x y h => (C77_ddAbstanhdxdy x y fun h' => h h'.2).2)
      (fun x y h => C77_ddAbstanhdydy x y fun h' => h h'.2) c4 c5⟩

theorem argtanh_plane {x y : ℝ} (hy : sin (2 * y) ≠ 0) :
    Spec.PlaneDeriv Argtanh (dArgtanhdx x y) (dArgtanhdy x y) x y ∧
    Spec.PlaneDeriv dArgtanhdx (ddArgtanhdxdx x y) (ddArgtanhdxdy x y) x y ∧
    Spec.PlaneDeriv dArgtanhdy (ddArgtanhdxdy x y) (ddArgtanhdydy x y) x y := by
  have n1 : sinh (2 * x) * sinh (2 * x) + sin (2 * y) * sin (2 * y) ≠ 0 := r2_ne_zero (fun h => hy h.2)
  have c1 : ContinuousAt (fun q : ℝ × ℝ => dArgtanhdx q.1 q.2) (x, y) := by
    unfold dArgtanhdx dArgdx
    fun_prop (disch := exact n1)
  have c2 : ContinuousAt (fun q : ℝ × ℝ => dArgtanhdy q.1 q.2) (x, y) := by
    unfold dArgtanhdy dArgdy
    fun_prop (disch := exact n1)
  have c3 : ContinuousAt (fun q : ℝ × ℝ => ddArgtanhdxdx q.1 q.2) (x, y) := by
    unfold ddArgtanhdxdx dArgdx ddArgdxdx
    fun_prop (disch := first | exact n1 | exact mul_ne_zero n1 n1)
  have c4 : ContinuousAt (fun q : ℝ × ℝ => ddArgtanhdxdy q.1 q.2) (x, y) := by
    unfold ddArgtanhdxdy ddArgdxdy
    fun_prop (disch := first | exact n1 | exact mul_ne_zero n1 n1)
  have c5 : ContinuousAt (fun q : ℝ × ℝ => ddArgtanhdydy q.1 q.2) (x, y) := by
    unfold ddArgtanhdydy dArgdy ddArgdydy
    fun_prop (disch := first | exact n1 | exact mul_ne_zero n1 n1)
  refine ⟨planeDeriv_of_partials hy (fun x y h => C77_dArgtanhdx x y fun h' => h h'.2)
      (fun x y h => C77_dArgtanhdy x y (Or.inr h)) c1 c2,
    planeDeriv_of_partials hy (fun x y h => C77_ddArgtanhdxdx x y fun h' => h h'.2)
      (fun x y h => (C77_ddArgtanhdxdy x y fun h' => h h'.2).1) c3 c4,
    planeDeriv_of_partials hy (fun x y h => (C77_ddArgtanhdxdy x y fun h' => h h'.2).2)
      (fun x y h => C77_ddArgtanhdydy x y fun h' => h h'.2) c4 c5⟩

/-- The quantity a to the power 3/2 in terms of the square root. -/
theorem rpow_three_halves {a : ℝ} (h : 0 < a) : a ^ (3 / 2 : ℝ) = √a ^ 3 := by
  rw [Real.sqrt_eq_rpow, ← Real.rpow_natCast, ← Real.rpow_mul h.le]
  norm_num

section locals

variable {S : AnsSig} {b q : ℝ → ℝ} {t U W : ℝ}

/-- A function of the argument of tanh along a path. -/
theorem ns_inner {F : ℝ → ℝ → ℝ} {F1 F2 : ℝ} (hb : HasDerivAt b U t) (hq : HasDerivAt q W t)
    (hS : Spec.SigmaDerivs S (b t) (q t))
    (hF : Spec.PlaneDeriv F F1 F2 (1 / 4 * S.sig (b t) (q t)) (1 / 4 * π * b t)) :
    HasDerivAt (fun s => F (1 / 4 * S.sig (b s) (q s)) (1 / 4 * π * b s))
      (F1 * (1 / 4 * (S.dB (b t) (q t) * U + S.dphi (b t) (q t) * W)) + F2 * (1 / 4 * π * U)) t :=
  hF _ _ t _ _ ((hS.1 b q t U W hb hq rfl rfl).const_mul _) (hb.const_mul _) rfl rfl

variable (hb : HasDerivAt b U t) (hq : HasDerivAt q W t) (hS : Spec.SigmaDerivs S (b t) (q t))
  (h0 : sin (2 * (1 / 4 * π * b t)) ≠ 0)

include h0 in
theorem ns_abs_pos : 0 < nsAbstanhWsBphi S (b t) (q t) := abstanh_pos _ _ (fun h => h0 h.2)

include hb hq hS h0

theorem ns_AbsCp : HasDerivAt (fun s => nsAbsCpOfBphi S (b s) (q s))
    (nsd1AbsCpOfBphi S (b t) (q t) * U + nsd2AbsCpOfBphi S (b t) (q t) * W) t := by
  have h := ns_inner hb hq hS (abstanh_plane h0).1
  have hp : 0 < nsAbstanhWsBphi S (b t) (q t) := ns_abs_pos h0
  refine (h.sqrt hp.ne').congr_deriv ?_
  have hr : √(nsAbstanhWsBphi S (b t) (q t)) ≠ 0 := (Real.sqrt_pos.2 hp).ne'
  simp only [nsd1AbsCpOfBphi, nsd2AbsCpOfBphi, nsd1AbstanhWsBphi, nsd2AbstanhWsBphi]
  change _ / (2 * √(nsAbstanhWsBphi S (b t) (q t))) = _
  field_simp
  ring

theorem ns_ArgCp : HasDerivAt (fun s => nsArgCpOfBphi S (b s) (q s))
    (nsd1ArgCpOfBphi S (b t) (q t) * U + nsd2ArgCpOfBphi S (b t) (q t) * W) t := by
  have h := ns_inner hb hq hS (argtanh_plane h0).1
  refine (h.div_const 2).congr_deriv ?_
  simp only [nsd1ArgCpOfBphi, nsd2ArgCpOfBphi, nsd1ArgtanhWsBphi, nsd2ArgtanhWsBphi]
  ring

theorem ns_d1AbsCp : HasDerivAt (fun s => nsd1AbsCpOfBphi S (b s) (q s))
    (nsd1d1AbsCpOfBphi S (b t) (q t) * U + nsd1d2AbsCpOfBphi S (b t) (q t) * W) t := by
  have hA : HasDerivAt (fun s => nsAbstanhWsBphi S (b s) (q s)) _ t := ns_inner hb hq hS (abstanh_plane h0).1
  have h1 : HasDerivAt (fun s => nsd1AbstanhWsBphi S (b s) (q s)) _ t :=
    ns_inner hb hq hS (abstanh_plane h0).2.1
  have h2 : HasDerivAt (fun s => nsd2AbstanhWsBphi S (b s) (q s)) _ t :=
    ns_inner hb hq hS (abstanh_plane h0).2.2
  have hB := hS.2.1 b q t U W hb hq rfl rfl
  have hp : 0 < nsAbstanhWsBphi S (b t) (q t) := ns_abs_pos h0
  have hR := hA.sqrt hp.ne'
  have hr : √(nsAbstanhWsBphi S (b t) (q t)) ≠ 0 := (Real.sqrt_pos.2 hp).ne'
  unfold nsd1AbsCpOfBphi
  apply HasDerivAt.congr_deriv
  · path_deriv
  simp only [nsd1d1AbsCpOfBphi, nsd1d2AbsCpOfBphi, nsd1AbstanhWsBphi, nsd2AbstanhWsBphi, nsd1d1AbstanhWsBphi,
    nsd1d2AbstanhWsBphi, nsd2d2AbstanhWsBphi, rpow_three_halves hp]
  field_simp
  ring

theorem ns_d2AbsCp : HasDerivAt (fun s => nsd2AbsCpOfBphi S (b s) (q s))
    (nsd1d2AbsCpOfBphi S (b t) (q t) * U + nsd2d2AbsCpOfBphi S (b t) (q t) * W) t := by
  have hA : HasDerivAt (fun s => nsAbstanhWsBphi S (b s) (q s)) _ t := ns_inner hb hq hS (abstanh_plane h0).1
  have h1 : HasDerivAt (fun s => nsd1AbstanhWsBphi S (b s) (q s)) _ t :=
    ns_inner hb hq hS (abstanh_plane h0).2.1
  have hB := hS.2.2 b q t U W hb hq rfl rfl
  have hp : 0 < nsAbstanhWsBphi S (b t) (q t) := ns_abs_pos h0
  have hR := hA.sqrt hp.ne'
  have hr : √(nsAbstanhWsBphi S (b t) (q t)) ≠ 0 := (Real.sqrt_pos.2 hp).ne'
  unfold nsd2AbsCpOfBphi
  apply HasDerivAt.congr_deriv
  · path_deriv
  simp only [nsd2d2AbsCpOfBphi, nsd1d2AbsCpOfBphi, nsd1AbstanhWsBphi, nsd2AbstanhWsBphi, nsd1d1AbstanhWsBphi,
    nsd1d2AbstanhWsBphi, rpow_three_halves hp]
  field_simp
  ring

theorem ns_d1ArgCp : HasDerivAt (fun s => nsd1ArgCpOfBphi S (b s) (q s))
    (nsd1d1ArgCpOfBphi S (b t) (q t) * U + nsd1d2ArgCpOfBphi S (b t) (q t) * W) t := by
  have h1 : HasDerivAt (fun s => nsd1ArgtanhWsBphi S (b s) (q s)) _ t :=
    ns_inner hb hq hS (argtanh_plane h0).2.1
  have h2 : HasDerivAt (fun s => nsd2ArgtanhWsBphi S (b s) (q s)) _ t :=
    ns_inner hb hq hS (argtanh_plane h0).2.2
  have hB := hS.2.1 b q t U W hb hq rfl rfl
  unfold nsd1ArgCpOfBphi
  apply HasDerivAt.congr_deriv
  · path_deriv
  simp only [nsd1d1ArgCpOfBphi, nsd1d2ArgCpOfBphi, nsd1ArgtanhWsBphi, nsd1d1ArgtanhWsBphi,
    nsd1d2ArgtanhWsBphi, nsd2d2ArgtanhWsBphi]
  ring

theorem ns_d2ArgCp : HasDerivAt (fun s => nsd2ArgCpOfBphi S (b s) (q s))
    (nsd1d2ArgCpOfBphi S (b t) (q t) * U + nsd2d2ArgCpOfBphi S (b t) (q t) * W) t := by
  have h1 : HasDerivAt (fun s => nsd1ArgtanhWsBphi S (b s) (q s)) _ t :=
    ns_inner hb hq hS (argtanh_plane h0).2.1
  have hB := hS.2.2 b q t U W hb hq rfl rfl
  unfold nsd2ArgCpOfBphi
  apply HasDerivAt.congr_deriv
  · path_deriv
  simp only [nsd2d2ArgCpOfBphi, nsd1d2ArgCpOfBphi, nsd1ArgtanhWsBphi, nsd1d1ArgtanhWsBphi,
    nsd1d2ArgtanhWsBphi]
  ring

/-- Real and imaginary part of the curve and their derivatives along a path. -/
theorem ns_Cp :
    HasDerivAt (fun s => nsReCpOfBphi S (b s) (q s))
      (nsd1ReCpOfBphi S (b t) (q t) * U + nsd2ReCpOfBphi S (b t) (q t) * W) t ∧
    HasDerivAt (fun s => nsImCpOfBphi S (b s) (q s))
      (nsd1ImCpOfBphi S (b t) (q t) * U + nsd2ImCpOfBphi S (b t) (q t) * W) t ∧
    HasDerivAt (fun s => nsd1ReCpOfBphi S (b s) (q s))
      (nsd1d1ReCpOfBphi S (b t) (q t) * U + nsd1d2ReCpOfBphi S (b t) (q t) * W) t ∧
    HasDerivAt (fun s => nsd1ImCpOfBphi S (b s) (q s))
      (nsd1d1ImCpOfBphi S (b t) (q t) * U + nsd1d2ImCpOfBphi S (b t) (q t) * W) t ∧
    HasDerivAt (fun s => nsd2ReCpOfBphi S (b s) (q s))
      (nsd1d2ReCpOfBphi S (b t) (q t) * U + nsd2d2ReCpOfBphi S (b t) (q t) * W) t ∧
    HasDerivAt (fun s => nsd2ImCpOfBphi S (b s) (q s))
      (nsd1d2ImCpOfBphi S (b t) (q t) * U + nsd2d2ImCpOfBphi S (b t) (q t) * W) t := by
  have hA := ns_AbsCp hb hq hS h0
  have hP := ns_ArgCp hb hq hS h0
  have hA1 := ns_d1AbsCp hb hq hS h0
  have hA2 := ns_d2AbsCp hb hq hS h0
  have hP1 := ns_d1ArgCp hb hq hS h0
  have hP2 := ns_d2ArgCp hb hq hS h0
  refine ⟨?_, ?_, ?_, ?_, ?_, ?_⟩
  · unfold nsReCpOfBphi
    apply HasDerivAt.congr_deriv
    · path_deriv
    simp only [nsd1ReCpOfBphi, nsd2ReCpOfBphi]
    ring
  · unfold nsImCpOfBphi
    apply HasDerivAt.congr_deriv
    · path_deriv
    simp only [nsd1ImCpOfBphi, nsd2ImCpOfBphi]
    ring
  · unfold nsd1ReCpOfBphi
    apply HasDerivAt.congr_deriv
    · path_deriv
    simp only [nsd1d1ReCpOfBphi, nsd1d2ReCpOfBphi]
    ring
  · unfold nsd1ImCpOfBphi
    apply HasDerivAt.congr_deriv
    · path_deriv
    simp only [nsd1d1ImCpOfBphi, nsd1d2ImCpOfBphi]
    ring
  · unfold nsd2ReCpOfBphi
    apply HasDerivAt.congr_deriv
    · path_deriv
    simp only [nsd1d2ReCpOfBphi, nsd2d2ReCpOfBphi]
    ring
  · unfold nsd2ImCpOfBphi
    apply HasDerivAt.congr_deriv
    · path_deriv
    simp only [nsd1d2ImCpOfBphi, nsd2d2ImCpOfBphi]
    ring

end locals

namespace Spec

/-- At B = 1 the surface function does not depend on the angle; this is a point on the axis. -/
def RoundEnd (S : AnsSig) : Prop := ∀ phi psi, S.sig 1 phi = S.sig 1 psi

/-- The points with 0 < B < 2 where the surface function is differentiable as claimed. -/
def AnsorgPoint (S : AnsSig) (_A B phi : ℝ) : Prop := SigmaDerivs S B phi ∧ 0 < B ∧ B < 2

end Spec

theorem sin_ne_zero_of_B {B : ℝ} (h0 : 0 < B) (h2 : B < 2) : sin (2 * (1 / 4 * π * B)) ≠ 0 := by
  have hpi := Real.pi_pos
  refine (Real.sin_pos_of_pos_of_lt_pi ?_ ?_).ne'
  · positivity
  · nlinarith

theorem ns_round_end {S : AnsSig} (h : Spec.RoundEnd S) : ∃ r m g, (∀ p, nsReCpOf1phi S p = r) ∧
    (∀ p, nsImCpOf1phi S p = m) ∧ ∀ p, nsArgCpOf1phi S p = g := by
  refine ⟨nsReCpOf1phi S 0, nsImCpOf1phi S 0, nsArgCpOf1phi S 0, fun p => ?_, fun p => ?_, fun p => ?_⟩ <;>
    simp only [nsReCpOf1phi, nsImCpOf1phi, nsArgCpOf1phi, nsAbsCpOf1phi, nsAbstanhWs1phi, nsArgtanhWs1phi, h p 0]

/-- **C151.** The first derivatives in domain 0. -/
theorem C151_ns0_first (S : AnsSig) (h1 : Spec.RoundEnd S) :
    Spec.Jacobian (ns0X S) (ns0DX S) (Spec.AnsorgPoint S) := by
  intro a b q t V ⟨ha, hb, hq⟩ ⟨hS, hB0, hB2⟩ i
  obtain ⟨r, m, g, hr, hm, hg⟩ := ns_round_end h1
  obtain ⟨hRe, hIm, -⟩ := ns_Cp hb hq hS (sin_ne_zero_of_B hB0 hB2)
  fin_cases i <;> simp only [ns0X, hr, hm, hg, Fin.zero_eta, Fin.mk_one, Fin.reduceFinMk]
  all_goals
    apply HasDerivAt.congr_deriv
    · path_deriv
    simp only [Fin.sum_univ_three, ns0DX, hr, hm, hg]
    ring_nf

/-- **C151.** The second derivatives in domain 0. -/
theorem C151_ns0_second (S : AnsSig) (h1 : Spec.RoundEnd S) :
    Spec.Hessian (ns0DX S) (ns0DDX S) (Spec.AnsorgPoint S) := by
  intro a b q t V ⟨ha, hb, hq⟩ ⟨hS, hB0, hB2⟩ i k
  obtain ⟨r, m, g, hr, hm, hg⟩ := ns_round_end h1
  obtain ⟨hRe, hIm, hR1, hI1, hR2, hI2⟩ := ns_Cp hb hq hS (sin_ne_zero_of_B hB0 hB2)
  fin_cases i <;> fin_cases k <;> simp only [ns0DX, hr, hm, hg, Fin.zero_eta, Fin.mk_one, Fin.reduceFinMk]
  all_goals
    apply HasDerivAt.congr_deriv
    · path_deriv
    simp only [Fin.sum_univ_three, ns0DDX, Spec.pair, hr, hm, hg]
    ring_nf

/-- **C151.** The first derivatives in domain 1, and of domain 2 with its own surface function. -/
theorem C151_ns1_first (S : AnsSig) (h1 : Spec.RoundEnd S) :
    Spec.Jacobian (ns1X S) (ns1DX S) (Spec.AnsorgPoint S) := by
  intro a b q t V ⟨ha, hb, hq⟩ ⟨hS, hB0, hB2⟩ i
  obtain ⟨r, m, g, hr, hm, hg⟩ := ns_round_end h1
  obtain ⟨hRe, hIm, -⟩ := ns_Cp hb hq hS (sin_ne_zero_of_B hB0 hB2)
  fin_cases i <;> simp only [ns1X, hr, hm, hg, Fin.zero_eta, Fin.mk_one, Fin.reduceFinMk]
  all_goals
    apply HasDerivAt.congr_deriv
    · path_deriv
    simp only [Fin.sum_univ_three, ns1DX, hr, hm, hg]
    ring_nf

/-- **C151.** The second derivatives in domain 1, and of domain 2 with its own surface function. -/
theorem C151_ns1_second (S : AnsSig) (h1 : Spec.RoundEnd S) :
    Spec.Hessian (ns1DX S) (ns1DDX S) (Spec.AnsorgPoint S) := by
  intro a b q t V ⟨ha, hb, hq⟩ ⟨hS, hB0, hB2⟩ i k
  obtain ⟨r, m, g, hr, hm, hg⟩ := ns_round_end h1
  obtain ⟨hRe, hIm, hR1, hI1, hR2, hI2⟩ := ns_Cp hb hq hS (sin_ne_zero_of_B hB0 hB2)
  fin_cases i <;> fin_cases k <;> simp only [ns1DX, hr, hm, hg, Fin.zero_eta, Fin.mk_one, Fin.reduceFinMk]
  all_goals
    apply HasDerivAt.congr_deriv
    · path_deriv
    simp only [Fin.sum_univ_three, ns1DDX, Spec.pair, hr, hm, hg]
    ring_nf

/-- **C151.** The first derivatives in domain 3. -/
theorem C151_ns3_first (S : AnsSig) (h1 : Spec.RoundEnd S) :
    Spec.Jacobian (ns3X S) (ns3DX S) (Spec.AnsorgPoint S) := by
  intro a b q t V ⟨ha, hb, hq⟩ ⟨hS, hB0, hB2⟩ i
  obtain ⟨r, m, g, hr, hm, hg⟩ := ns_round_end h1
  obtain ⟨hRe, hIm, -⟩ := ns_Cp hb hq hS (sin_ne_zero_of_B hB0 hB2)
  fin_cases i <;> simp only [ns3X, hr, hm, hg, Fin.zero_eta, Fin.mk_one, Fin.reduceFinMk]
  all_goals
    apply HasDerivAt.congr_deriv
    · path_deriv
    simp only [Fin.sum_univ_three, ns3DX, hr, hm, hg]
    ring_nf

/-- **C151.** The second derivatives in domain 3. -/
theorem C151_ns3_second (S : AnsSig) (h1 : Spec.RoundEnd S) :
    Spec.Hessian (ns3DX S) (ns3DDX S) (Spec.AnsorgPoint S) := by
  intro a b q t V ⟨ha, hb, hq⟩ ⟨hS, hB0, hB2⟩ i k
  obtain ⟨r, m, g, hr, hm, hg⟩ := ns_round_end h1
  obtain ⟨hRe, hIm, hR1, hI1, hR2, hI2⟩ := ns_Cp hb hq hS (sin_ne_zero_of_B hB0 hB2)
  fin_cases i <;> fin_cases k <;> simp only [ns3DX, hr, hm, hg, Fin.zero_eta, Fin.mk_one, Fin.reduceFinMk]
  all_goals
    apply HasDerivAt.congr_deriv
    · path_deriv
    simp only [Fin.sum_univ_three, ns3DDX, Spec.pair, hr, hm, hg]
    ring_nf

/-- The square of the curve is tanh of (sigma + i π B)/4. -/
theorem ns_square (S : AnsSig) {B : ℝ} (phi : ℝ) (h0 : 0 < B) (h2 : B < 2) :
    (⟨nsReCpOfBphi S B phi, nsImCpOfBphi S B phi⟩ : ℂ) ^ 2 =
      Complex.tanh (Spec.z (1 / 4 * S.sig B phi) (1 / 4 * π * B)) := by
  have hs := sin_ne_zero_of_B h0 h2
  obtain ⟨d1, -, -, -⟩ := abstanh_denoms (x := 1 / 4 * S.sig B phi) hs
  have hc : Complex.cosh (Spec.z (1 / 4 * S.sig B phi) (1 / 4 * π * B)) ≠ 0 := by
    intro h
    rw [cosh_z] at h
    have hi := congrArg Complex.im h
    have hr := congrArg Complex.re h
    simp only [Complex.zero_im, Complex.zero_re] at hi hr
    rw [Real.sin_two_mul] at hs
    rcases mul_eq_zero.1 hr with h' | h'
    · exact (Real.cosh_pos _).ne' h'
    · exact hs (by rw [h', mul_zero])
  have ht : Complex.tanh (Spec.z (1 / 4 * S.sig B phi) (1 / 4 * π * B)) ≠ 0 := by
    rw [C77_tanh _ _ hc]
    intro h
    have hi := congrArg Complex.im h
    simp only [Complex.zero_im, Imtanh] at hi
    rcases div_eq_zero_iff.1 hi with h' | h'
    · exact hs h'
    · exact d1 h'
  rw [← Complex.norm_mul_exp_arg_mul_I (Complex.tanh _), ← C77_abstanh _ _ hc, ← C77_argtanh _ _ hc ht]
  have hp := abstanh_pos (1 / 4 * S.sig B phi) (1 / 4 * π * B) (fun h => hs h.2)
  simp only [nsReCpOfBphi, nsImCpOfBphi, nsAbsCpOfBphi, nsArgCpOfBphi, nsAbstanhWsBphi, nsArgtanhWsBphi]
  generalize Abstanh (1 / 4 * S.sig B phi) (1 / 4 * π * B) = r at *
  generalize Argtanh (1 / 4 * S.sig B phi) (1 / 4 * π * B) = a
  have e1 := Real.cos_two_mul (a / 2)
  have e2 := Real.sin_two_mul (a / 2)
  have e3 := Real.sin_sq_add_cos_sq (a / 2)
  have e4 := Real.mul_self_sqrt hp.le
  rw [show 2 * (a / 2) = a by ring] at e1 e2
  apply Complex.ext
  · rw [Complex.re_ofReal_mul, Complex.exp_ofReal_mul_I_re]
    simp only [pow_two, Complex.mul_re]
    linear_combination (cos (a / 2) ^ 2 - sin (a / 2) ^ 2) * e4 - r * e1 - r * e3
  · rw [Complex.im_ofReal_mul, Complex.exp_ofReal_mul_I_im]
    simp only [pow_two, Complex.mul_im]
    linear_combination (2 * cos (a / 2) * sin (a / 2)) * e4 - r * e2

/-- At B = 1 the curve is on the unit circle. -/
theorem ns_unit (S : AnsSig) (phi : ℝ) : nsReCpOf1phi S phi = cos (nsArgCpOf1phi S phi) ∧
    nsImCpOf1phi S phi = sin (nsArgCpOf1phi S phi) := by
  have h : nsAbsCpOf1phi S phi = 1 := by
    simp only [nsAbsCpOf1phi, nsAbstanhWs1phi, Abstanh]
    rw [show 2 * (1 / 4 * π) = π / 2 by ring, Real.cos_pi_div_two, sub_zero, add_zero,
      div_self (Real.cosh_pos _).ne', Real.sqrt_one, Real.sqrt_one]
  simp only [nsReCpOf1phi, nsImCpOf1phi, h, one_mul, and_self]

/-- **C151.** The inner end A = 0 of every domain is the surface: there the square of X + i R is
tanh of (sigma + i π B)/4. -/
theorem C151_surface (S : AnsSig) {B : ℝ} (phi : ℝ) (h0 : 0 < B) (h2 : B < 2) :
    (⟨ns0X S 0 B phi 0, ns0X S 0 B phi 1⟩ : ℂ) ^ 2 =
      Complex.tanh (((S.sig B phi : ℂ) + Complex.I * (π * B)) / 4) ∧
    (⟨ns1X S 0 B phi 0, ns1X S 0 B phi 1⟩ : ℂ) ^ 2 =
      Complex.tanh (((S.sig B phi : ℂ) + Complex.I * (π * B)) / 4) ∧
    (⟨ns3X S 0 B phi 0, ns3X S 0 B phi 1⟩ : ℂ) ^ 2 =
      Complex.tanh (((S.sig B phi : ℂ) + Complex.I * (π * B)) / 4) := by
  have hz : ((S.sig B phi : ℂ) + Complex.I * (π * B)) / 4 = Spec.z (1 / 4 * S.sig B phi) (1 / 4 * π * B) := by
    simp only [Spec.z]
    push_cast
    ring
  have hq := ns_square S phi h0 h2
  obtain ⟨u1, u2⟩ := ns_unit S phi
  rw [hz, ← hq]
  refine ⟨?_, ?_, ?_⟩
  · congr 2 <;> simp only [ns0X, u1, u2, sub_zero, one_mul, zero_mul] <;> ring
  · congr 2 <;> simp only [ns1X, u1, u2, sub_zero, one_mul, zero_mul, add_zero] <;> ring
  · congr 2 <;> simp only [ns3X, u1, u2, sub_zero, one_mul, zero_mul, add_zero] <;> ring

/-- **C151.** The outer end A = 1: the point X + i R = 1 in domain 0 and i in domain 3, and in the domains 1
and 2 the segment of length B in the direction π/4 where they meet. -/
theorem C151_end (S : AnsSig) (B phi : ℝ) :
    (ns0X S 1 B phi 0 = 1 ∧ ns0X S 1 B phi 1 = 0) ∧
    (ns1X S 1 B phi 0 = B * (√2 / 2) ∧ ns1X S 1 B phi 1 = B * (√2 / 2)) ∧
    (ns3X S 1 B phi 0 = 0 ∧ ns3X S 1 B phi 1 = 1) := by
  simp only [ns0X, ns1X, ns3X, sub_self, zero_mul, one_mul, zero_add, add_zero, Real.cos_zero, Real.sin_zero,
    Real.cos_pi_div_four, Real.sin_pi_div_four, Real.cos_pi_div_two, Real.sin_pi_div_two]
  refine ⟨⟨?_, ?_⟩, ⟨trivial, trivial⟩, ?_, ?_⟩ <;> ring

/-- **C151.** The side B = 1 of every domain is an arc of the unit circle: the angle runs evenly from half the argument
of tanh of (sigma + i π)/4 to the angle 0, π/4 or π/2. -/
theorem C151_side (S : AnsSig) (A phi a : ℝ)
    (ha : a = Complex.arg (Complex.tanh (((S.sig 1 phi : ℂ) + Complex.I * π) / 4)) / 2) :
    (ns0X S A 1 phi 0 = cos ((1 - A) * a) ∧ ns0X S A 1 phi 1 = sin ((1 - A) * a)) ∧
    (ns1X S A 1 phi 0 = cos ((1 - A) * a + A * (π / 4)) ∧ ns1X S A 1 phi 1 = sin ((1 - A) * a + A * (π / 4))) ∧
    (ns3X S A 1 phi 0 = cos ((1 - A) * a + A * (π / 2)) ∧ ns3X S A 1 phi 1 = sin ((1 - A) * a + A * (π / 2))) := by
  have hz : ((S.sig 1 phi : ℂ) + Complex.I * π) / 4 = Spec.z (1 / 4 * S.sig 1 phi) (1 / 4 * π) := by
    simp only [Spec.z]
    push_cast
    ring
  have hs : sin (2 * (1 / 4 * π)) ≠ 0 := by
    rw [show 2 * (1 / 4 * π) = π / 2 by ring, Real.sin_pi_div_two]; exact one_ne_zero
  obtain ⟨d1, -, -, -⟩ := abstanh_denoms (x := 1 / 4 * S.sig 1 phi) hs
  have hc : Complex.cosh (Spec.z (1 / 4 * S.sig 1 phi) (1 / 4 * π)) ≠ 0 := by
    intro h
    rw [cosh_z] at h
    have hr := congrArg Complex.re h
    simp only [Complex.zero_re] at hr
    rw [Real.sin_two_mul] at hs
    rcases mul_eq_zero.1 hr with h' | h'
    · exact (Real.cosh_pos _).ne' h'
    · exact hs (by rw [h', mul_zero])
  have ht : Complex.tanh (Spec.z (1 / 4 * S.sig 1 phi) (1 / 4 * π)) ≠ 0 := by
    rw [C77_tanh _ _ hc]
    intro h
    have hi := congrArg Complex.im h
    simp only [Complex.zero_im, Imtanh] at hi
    rcases div_eq_zero_iff.1 hi with h' | h'
    · exact hs h'
    · exact d1 h'
  have hg : nsArgCpOf1phi S phi = a := by
    rw [ha, hz, ← C77_argtanh _ _ hc ht]; rfl
  have hRe : nsReCpOfBphi S 1 phi = nsReCpOf1phi S phi := by
    simp only [nsReCpOfBphi, nsReCpOf1phi, nsAbsCpOfBphi, nsAbsCpOf1phi, nsArgCpOfBphi, nsArgCpOf1phi,
      nsAbstanhWsBphi, nsAbstanhWs1phi, nsArgtanhWsBphi, nsArgtanhWs1phi, mul_one]
  have hIm : nsImCpOfBphi S 1 phi = nsImCpOf1phi S phi := by
    simp only [nsImCpOfBphi, nsImCpOf1phi, nsAbsCpOfBphi, nsAbsCpOf1phi, nsArgCpOfBphi, nsArgCpOf1phi,
      nsAbstanhWsBphi, nsAbstanhWs1phi, nsArgtanhWsBphi, nsArgtanhWs1phi, mul_one]
  refine ⟨⟨?_, ?_⟩, ⟨?_, ?_⟩, ?_, ?_⟩ <;> simp only [ns0X, ns1X, ns3X, hRe, hIm, hg] <;> ring

/-- A surface of constant sigma satisfies all hypotheses. -/
example (c A B phi : ℝ) (h0 : 0 < B) (h1 : B ≤ 1) :
    let S : AnsSig := ⟨fun _ _ => c, fun _ _ => 0, fun _ _ => 0, fun _ _ => 0, fun _ _ => 0, fun _ _ => 0⟩
    Spec.RoundEnd S ∧ Spec.AnsorgPoint S A B phi := by
  refine ⟨fun _ _ => rfl, ⟨?_, ?_, ?_⟩, h0, by linarith⟩ <;>
    intro b q t U W _ _ _ _ <;> simpa using hasDerivAt_const t _

end Sgrid
