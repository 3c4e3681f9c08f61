import Verif.Model.TestID
import Verif.Props.PlaneWave
import Verif.Props.AdmConstraints
import Mathlib.Analysis.SpecialFunctions.Trigonometric.Basic
import Mathlib.Analysis.SpecialFunctions.Trigonometric.Deriv
import Mathlib.Analysis.SpecialFunctions.Sqrt

/-!
# C122 - C124: the initial data for tests
-/

namespace Sgrid
open Finset
open scoped ContDiff

/-- What the code for the waves reads at the point `x` at time `t`, for the amplitude `A` in a box from `b0` to `b1`. -/
noncomputable def Spec.wavePt (A b0 b1 t : ℝ) (x : Fin 3 → ℝ) : WavePt ℝ where
  x1 := x 0
  t := t
  A := A
  bbox0 := b0
  bbox1 := b1
  pi := Real.pi
  sin := Real.sin
  cos := Real.cos
  sqrt := Real.sqrt

/-- The fields are what a program writes at each point of a set; there is no matter. -/
structure Spec.Written {U : Set (Fin 3 → ℝ)} (o : U → KS.Out ℝ) (F : Spec.AdmFields (Spec.smoothOn U)) : Prop where
  g : ∀ x (i j : Fin 3), (o x).gb (Spec.sym2 i j) = Spec.valueAt x (F.g i j)
  K : ∀ x (i j : Fin 3), (o x).K' (Spec.sym2 i j) = Spec.valueAt x (F.K i j)
  ψ : ∀ x, (o x).psi = Spec.valueAt x F.ψ
  α : ∀ x, (o x).alpha = Spec.valueAt x F.α
  β : ∀ x (i : Fin 3), (o x).beta i = Spec.valueAt x (F.β i)
  ρ : F.ρ = 0
  j : ∀ i, F.j i = 0
  stress : ∀ i j, F.S i j = 0

section
variable {φ : ℝ → ℝ} {t : ℝ} {x : Fin 3 → ℝ}

theorem pd_wave (h : DifferentiableAt ℝ φ (x 0 - t)) (i : Fin 3) : Spec.pd i (fun x => φ (x 0 - t)) x = if i = 0 then deriv φ (x 0 - t) else 0 := by
  unfold Spec.pd
  have e : HasFDerivAt (fun x : Fin 3 → ℝ => x 0 - t) (ContinuousLinearMap.proj 0 : (Fin 3 → ℝ) →L[ℝ] ℝ) x :=
    (hasFDerivAt_apply 0 x).sub_const t
  have e2 := h.hasDerivAt.comp_hasFDerivAt x e
  have e3 : HasFDerivAt (fun x : Fin 3 → ℝ => φ (x 0 - t)) (deriv φ (x 0 - t) • (ContinuousLinearMap.proj 0 : (Fin 3 → ℝ) →L[ℝ] ℝ)) x := e2
  rw [e3.fderiv]
  show deriv φ (x 0 - t) * (Pi.single i (1 : ℝ) : Fin 3 → ℝ) 0 = _
  split <;> rename_i hi
  · subst hi
    simp
  · rw [Pi.single_eq_of_ne (Ne.symm hi), mul_zero]

theorem time_wave (h : DifferentiableAt ℝ φ (x 0 - t)) : HasDerivAt (fun s => φ (x 0 - s)) (-deriv φ (x 0 - t)) t := by
  have e : HasDerivAt (fun s : ℝ => x 0 - s) (-1) t := (hasDerivAt_id t).const_sub (x 0)
  have e2 : HasDerivAt (fun s => φ (x 0 - s)) (deriv φ (x 0 - t) * -1) t := h.hasDerivAt.comp t e
  rwa [mul_neg_one] at e2

end

namespace Spec

/-- The perturbation of the metric as a function of `x - t`. -/
noncomputable def bump (A b0 b1 y : ℝ) : ℝ := A * Real.sin (2 * Real.pi * y / (b1 - b0))

/-- The points where the metric of the gauge wave is positive. -/
def gaugeDomain (A b0 b1 t : ℝ) : Set (Fin 3 → ℝ) := {x | 0 < 1 + bump A b0 b1 (x 0 - t)}

/-- The points where the metric of the linear wave is positive. -/
def linearDomain (A b0 b1 t : ℝ) : Set (Fin 3 → ℝ) := {x | 0 < 1 + bump A b0 b1 (x 0 - t) ∧ 0 < 1 - bump A b0 b1 (x 0 - t)}

end Spec

section
variable {A b0 b1 t : ℝ}

theorem bump_contDiff : ContDiff ℝ ∞ (Spec.bump A b0 b1) := by
  unfold Spec.bump
  fun_prop

theorem bump_contDiff' : ContDiff ℝ ∞ (fun x : Fin 3 → ℝ => Spec.bump A b0 b1 (x 0 - t)) :=
  bump_contDiff.comp ((contDiff_apply ℝ ℝ (0 : Fin 3)).sub contDiff_const)

theorem bump_deriv (y : ℝ) : deriv (Spec.bump A b0 b1) y = 2 * (Real.pi * (A * Real.cos (2 * Real.pi * y / (b1 - b0))) / (b1 - b0)) := by
  have e : HasDerivAt (fun y : ℝ => 2 * Real.pi * y / (b1 - b0)) (2 * Real.pi * 1 / (b1 - b0)) y :=
    ((hasDerivAt_id y).const_mul (2 * Real.pi)).div_const (b1 - b0)
  have e2 : HasDerivAt (Spec.bump A b0 b1) (A * (Real.cos (2 * Real.pi * y / (b1 - b0)) * (2 * Real.pi * 1 / (b1 - b0)))) y := (e.sin).const_mul A
  rw [e2.deriv]
  ring

theorem gaugeDomain_open (A b0 b1 t : ℝ) : IsOpen (Spec.gaugeDomain A b0 b1 t) :=
  isOpen_lt continuous_const (continuous_const.add bump_contDiff'.continuous)

theorem linearDomain_open (A b0 b1 t : ℝ) : IsOpen (Spec.linearDomain A b0 b1 t) :=
  (isOpen_lt continuous_const (continuous_const.add bump_contDiff'.continuous)).inter
    (isOpen_lt continuous_const (continuous_const.sub bump_contDiff'.continuous))

/-- With an amplitude below one these are all points. -/
theorem gaugeDomain_eq (hA : |A| < 1) : Spec.gaugeDomain A b0 b1 t = Set.univ ∧ Spec.linearDomain A b0 b1 t = Set.univ := by
  have e : ∀ y, |Spec.bump A b0 b1 y| < 1 := by
    intro y
    unfold Spec.bump
    rw [abs_mul]
    calc |A| * |Real.sin _| ≤ |A| * 1 := mul_le_mul_of_nonneg_left (Real.abs_sin_le_one _) (abs_nonneg A)
      _ < 1 := by rwa [mul_one]
  constructor
  · refine Set.eq_univ_of_forall fun x => ?_
    have := (abs_lt.1 (e (x 0 - t))).1
    show 0 < 1 + Spec.bump A b0 b1 (x 0 - t)
    linarith
  · refine Set.eq_univ_of_forall fun x => ?_
    have := abs_lt.1 (e (x 0 - t))
    exact ⟨by linarith [this.1], by linarith [this.2]⟩

/-! ## The gauge wave -/

theorem gauge_contDiffOn : ContDiffOn ℝ ∞ (fun x => 1 + Spec.bump A b0 b1 (x 0 - t)) (Spec.gaugeDomain A b0 b1 t) :=
  (contDiff_const.add bump_contDiff').contDiffOn

theorem gauge_contDiffOn_sqrt : ContDiffOn ℝ ∞ (fun x => √(1 + Spec.bump A b0 b1 (x 0 - t))) (Spec.gaugeDomain A b0 b1 t) :=
  gauge_contDiffOn.sqrt fun _ hx => ne_of_gt hx

namespace Spec

/-- The extrinsic curvature as a function of `x - t`. -/
noncomputable def gaugeK (A b0 b1 y : ℝ) : ℝ := Real.pi * (A * Real.cos (2 * Real.pi * y / (b1 - b0))) / ((b1 - b0) * √(1 + bump A b0 b1 y))

end Spec

theorem gauge_contDiffOn_K : ContDiffOn ℝ ∞ (fun x => Spec.gaugeK A b0 b1 (x 0 - t)) (Spec.gaugeDomain A b0 b1 t) := by
  have e : (fun x : Fin 3 → ℝ => Spec.gaugeK A b0 b1 (x 0 - t)) =
      fun x => Real.pi * (A * Real.cos (2 * Real.pi * (x 0 - t) / (b1 - b0))) / (b1 - b0) / √(1 + Spec.bump A b0 b1 (x 0 - t)) := by
    funext x
    unfold Spec.gaugeK
    rw [div_div]
  rw [e]
  exact ContDiffOn.div (ContDiff.contDiffOn (by fun_prop)) gauge_contDiffOn_sqrt fun _ hx => (Real.sqrt_pos.2 hx).ne'

namespace Spec
variable (A b0 b1 t)

/-- `1 + A sin`. -/
noncomputable def gw_f : smoothOn (gaugeDomain A b0 b1 t) := restrict (fun x => 1 + bump A b0 b1 (x 0 - t)) gauge_contDiffOn

/-- Its square root. -/
noncomputable def gw_a : smoothOn (gaugeDomain A b0 b1 t) := restrict (fun x => √(1 + bump A b0 b1 (x 0 - t))) gauge_contDiffOn_sqrt

/-- The inverse of the square root. -/
noncomputable def gw_w : smoothOn (gaugeDomain A b0 b1 t) :=
  restrict (fun x => (√(1 + bump A b0 b1 (x 0 - t)))⁻¹) (gauge_contDiffOn_sqrt.inv fun _ hx => (Real.sqrt_pos.2 hx).ne')

/-- The extrinsic curvature. -/
noncomputable def gw_k : smoothOn (gaugeDomain A b0 b1 t) := restrict (fun x => gaugeK A b0 b1 (x 0 - t)) gauge_contDiffOn_K

/-- The calculus on the domain. -/
noncomputable abbrev gwCalc : Calculus (smoothOn (gaugeDomain A b0 b1 t)) := calculusOn (gaugeDomain_open A b0 b1 t)

end Spec

theorem gw_aw : Spec.gw_a A b0 b1 t * Spec.gw_w A b0 b1 t = 1 := smoothOn_ext fun x => by
  rw [map_mul, map_one]
  exact mul_inv_cancel₀ (Real.sqrt_pos.2 x.2).ne'

theorem gw_aa : Spec.gw_a A b0 b1 t * Spec.gw_a A b0 b1 t = Spec.gw_f A b0 b1 t := smoothOn_ext fun x => by
  rw [map_mul]
  exact Real.mul_self_sqrt x.2.le

theorem gw_fw : Spec.gw_f A b0 b1 t * Spec.gw_w A b0 b1 t ^ 2 = 1 := by
  have h := gw_aw (A := A) (b0 := b0) (b1 := b1) (t := t)
  rw [← gw_aa]
  linear_combination (Spec.gw_a A b0 b1 t * Spec.gw_w A b0 b1 t + 1) * h

theorem gw_diff (y : ℝ) : DifferentiableAt ℝ (fun y => 1 + Spec.bump A b0 b1 y) y :=
  ((contDiff_const.add bump_contDiff).differentiable (by simp)).differentiableAt

theorem gw_deriv (y : ℝ) : deriv (fun y => 1 + Spec.bump A b0 b1 y) y = deriv (Spec.bump A b0 b1) y := deriv_const_add _

theorem gw_df (i : Fin 3) (x : Spec.gaugeDomain A b0 b1 t) : Spec.valueAt x ((Spec.gwCalc A b0 b1 t).d i (Spec.gw_f A b0 b1 t)) =
    if i = 0 then deriv (Spec.bump A b0 b1) (x.1 0 - t) else 0 := by
  have e := pd_wave (t := t) (x := x.1) (gw_diff (A := A) (b0 := b0) (b1 := b1) _) i
  rw [gw_deriv] at e
  exact (calculusOn_d (gaugeDomain_open A b0 b1 t) _ _ i x).trans e

theorem gw_hf (i : Fin 3) (hi : i ≠ 0) : (Spec.gwCalc A b0 b1 t).d i (Spec.gw_f A b0 b1 t) = 0 := smoothOn_ext fun x => by
  rw [gw_df, if_neg hi, map_zero]

theorem gw_hk : 2 * (Spec.gw_a A b0 b1 t * Spec.gw_k A b0 b1 t) = (Spec.gwCalc A b0 b1 t).d 0 (Spec.gw_f A b0 b1 t) := smoothOn_ext fun x => by
  have h : √(1 + Spec.bump A b0 b1 (x.1 0 - t)) ≠ 0 := (Real.sqrt_pos.2 x.2).ne'
  rw [gw_df, if_pos rfl, bump_deriv, map_mul, map_mul, map_ofNat]
  congr 1
  show √(1 + Spec.bump A b0 b1 (x.1 0 - t)) * (_ / (_ * √(1 + Spec.bump A b0 b1 (x.1 0 - t)))) = _
  rw [← div_div]
  exact mul_div_cancel₀ _ h

theorem gw_kdiff (x : Spec.gaugeDomain A b0 b1 t) : DifferentiableAt ℝ (Spec.gaugeK A b0 b1) (x.1 0 - t) := by
  have h : √(1 + Spec.bump A b0 b1 (x.1 0 - t)) ≠ 0 := (Real.sqrt_pos.2 x.2).ne'
  have e : Spec.gaugeK A b0 b1 = fun y => Real.pi * (A * Real.cos (2 * Real.pi * y / (b1 - b0))) / (b1 - b0) / √(1 + Spec.bump A b0 b1 y) := by
    funext y
    unfold Spec.gaugeK
    rw [div_div]
  rw [e]
  exact DifferentiableAt.div (by fun_prop) ((gw_diff _).sqrt (ne_of_gt x.2)) h

theorem gw_dk (x : Spec.gaugeDomain A b0 b1 t) : Spec.valueAt x ((Spec.gwCalc A b0 b1 t).d 0 (Spec.gw_k A b0 b1 t)) = deriv (Spec.gaugeK A b0 b1) (x.1 0 - t) :=
  (calculusOn_d (gaugeDomain_open A b0 b1 t) _ _ 0 x).trans ((pd_wave (t := t) (x := x.1) (gw_kdiff x) 0).trans (if_pos rfl))

/-- The metric of the gauge wave. -/
noncomputable abbrev Spec.gwMetric (A b0 b1 t : ℝ) : Spec.Metric (Spec.smoothOn (Spec.gaugeDomain A b0 b1 t)) :=
  Spec.gaugeMetric (gw_fw (A := A) (b0 := b0) (b1 := b1) (t := t))

/-- The fields of the gauge wave are what `TestID_1dGaugeWave` writes with `t` in line 13. -/
abbrev Spec.GaugeData (A b0 b1 t : ℝ) (F : Spec.AdmFields (Spec.smoothOn (Spec.gaugeDomain A b0 b1 t))) : Prop :=
  Spec.Written (fun x => TestID.gaugeWave (Spec.wavePt A b0 b1 t x)) F

section
variable {F : Spec.AdmFields (Spec.smoothOn (Spec.gaugeDomain A b0 b1 t))} (hF : Spec.GaugeData A b0 b1 t F)
include hF

theorem GaugeData_ψ : F.ψ = 1 := smoothOn_ext fun x => by
  rw [← hF.ψ, map_one]
  rfl

theorem GaugeData_g : F.g = Spec.diag (Spec.gw_f A b0 b1 t) 1 1 := by
  funext i j
  refine smoothOn_ext fun x => ?_
  rw [← hF.g]
  fin_cases i <;> fin_cases j <;> rfl

theorem GaugeData_K : F.K = Spec.diag (Spec.gw_k A b0 b1 t) 0 0 := by
  funext i j
  refine smoothOn_ext fun x => ?_
  rw [← hF.K]
  fin_cases i <;> fin_cases j <;> rfl

theorem GaugeData_α : F.α = Spec.gw_a A b0 b1 t := smoothOn_ext fun x => by
  rw [← hF.α]
  rfl

theorem GaugeData_β : F.β = fun _ => 0 := by
  funext i
  refine smoothOn_ext fun x => ?_
  rw [← hF.β, map_zero]
  fin_cases i <;> rfl

theorem GaugeData_metric (i j : Fin 3) : (Spec.gwMetric A b0 b1 t).g i j = F.ψ ^ 4 * F.g i j := by
  rw [GaugeData_ψ hF, GaugeData_g hF, one_pow, one_mul]
  rfl

end

variable (A b0 b1 t) in
/-- **C122.** What the code writes are smooth fields. -/
theorem C122_fields : ∃ F, Spec.GaugeData A b0 b1 t F := by
  refine ⟨⟨1, Spec.gw_a A b0 b1 t, fun _ => 0, Spec.diag (Spec.gw_f A b0 b1 t) 1 1, Spec.diag (Spec.gw_k A b0 b1 t) 0 0, 0, fun _ => 0, fun _ _ => 0⟩,
    fun x i j => ?_, fun x i j => ?_, fun x => rfl, fun x => rfl, fun x i => ?_, rfl, fun _ => rfl, fun _ _ => rfl⟩
  · fin_cases i <;> fin_cases j <;> rfl
  · fin_cases i <;> fin_cases j <;> rfl
  · fin_cases i <;> rfl

section
variable {F : Spec.AdmFields (Spec.smoothOn (Spec.gaugeDomain A b0 b1 t))}

/-- **C122.** From these fields the code for the constraints computes zero for the Hamiltonian and momentum constraints. -/
theorem C122_constraints (hF : Spec.GaugeData A b0 b1 t F) (x : Spec.gaugeDomain A b0 b1 t) {c : AdmConPt ℝ}
    (h : Spec.AdmInput (Spec.calculusOn (gaugeDomain_open A b0 b1 t)) (Spec.valueAt x) F c) (hn : c.rhoNull = c.sNull) :
    ∃ o, admPoint c = .ok o ∧ o.ham = 0 ∧ ∀ a : Fin 3, o.mom a = 0 := by
  obtain ⟨o, ho, h1⟩ := C112_ham h (GaugeData_metric hF) (fun h => hn ▸ h)
  obtain ⟨o', ho', h2⟩ := C112_mom h (GaugeData_metric hF) (fun h => hn ▸ h)
  obtain rfl : o = o' := by rw [ho] at ho'; injection ho'
  refine ⟨o, ho, ?_, fun a => ?_⟩
  · have hr : Spec.trace (Spec.gwMetric A b0 b1 t) (Spec.ricci (Spec.gwCalc A b0 b1 t) (Spec.gwMetric A b0 b1 t)) = 0 := by
      unfold Spec.trace
      exact sum_eq_zero fun a _ => sum_eq_zero fun b _ => by rw [gauge_ricci _ _ gw_hf, mul_zero]
    rw [h1, hr, GaugeData_K hF, gauge_trace, gauge_square, hF.ρ, map_zero, zero_add, sub_self, map_zero, mul_zero, sub_zero]
  · rw [h2, hF.j, map_zero, mul_zero, sub_zero, GaugeData_K hF, gauge_trace, gauge_momentum _ _ gw_aw gw_hf gw_aa gw_hk, map_zero]

/-- **C122.** The data at later times are the solution of Einstein's equations: the derivatives with respect to time of the metric and
of the extrinsic curvature are what the evolution equations say. -/
theorem C122_evolution (hF : Spec.GaugeData A b0 b1 t F) : ∃ γ : Spec.Metric (Spec.smoothOn (Spec.gaugeDomain A b0 b1 t)),
    (∀ i j, γ.g i j = F.ψ ^ 4 * F.g i j) ∧ ∀ (x : Spec.gaugeDomain A b0 b1 t) (i j : Fin 3),
      HasDerivAt (fun s => (TestID.gaugeWave (Spec.wavePt A b0 b1 s x)).gb (Spec.sym2 i j))
        (Spec.valueAt x (-2 * (F.α * F.K i j) + Spec.lie2 (Spec.calculusOn (gaugeDomain_open A b0 b1 t)) F.β F.g i j)) t ∧
      HasDerivAt (fun s => (TestID.gaugeWave (Spec.wavePt A b0 b1 s x)).K' (Spec.sym2 i j))
        (Spec.valueAt x (-Spec.hessian (Spec.calculusOn (gaugeDomain_open A b0 b1 t)) γ F.α i j +
          F.α * (Spec.ricci (Spec.calculusOn (gaugeDomain_open A b0 b1 t)) γ i j -
            2 * (∑ k, ∑ d, γ.inv k d * (F.K i k * F.K d j)) + F.K i j * Spec.trace γ F.K) +
          Spec.lie2 (Spec.calculusOn (gaugeDomain_open A b0 b1 t)) F.β F.K i j)) t := by
  refine ⟨Spec.gwMetric A b0 b1 t, GaugeData_metric hF, fun x i j => ?_⟩
  have hl : ∀ T, Spec.lie2 (Spec.calculusOn (gaugeDomain_open A b0 b1 t)) F.β T i j = 0 := by
    intro T
    rw [GaugeData_β hF]
    unfold Spec.lie2
    simp [Spec.Calculus.zero]
  have c0 : ∀ r : ℝ, HasDerivAt (fun _ : ℝ => r) 0 t := fun r => hasDerivAt_const t r
  constructor
  · rw [hl, add_zero, GaugeData_K hF, GaugeData_α hF]
    have e0 : HasDerivAt (fun s => (TestID.gaugeWave (Spec.wavePt A b0 b1 s x)).gb 0)
        (Spec.valueAt x (-2 * (Spec.gw_a A b0 b1 t * Spec.gw_k A b0 b1 t))) t := by
      rw [neg_mul, gw_hk, map_neg, gw_df, if_pos rfl, ← gw_deriv]
      exact time_wave (gw_diff _)
    have e1 : Spec.valueAt x (-2 * (Spec.gw_a A b0 b1 t * 0)) = 0 := by rw [mul_zero, mul_zero, map_zero]
    fin_cases i <;> fin_cases j <;> first | exact e0 | (refine HasDerivAt.congr_deriv (c0 _) e1.symm)
  · rw [hl, add_zero, GaugeData_K hF, GaugeData_α hF, gauge_evolution _ _ gw_aw gw_hf gw_aa gw_hk]
    have e0 : HasDerivAt (fun s => (TestID.gaugeWave (Spec.wavePt A b0 b1 s x)).K' 0)
        (Spec.valueAt x (-(Spec.gwCalc A b0 b1 t).d 0 (Spec.gw_k A b0 b1 t))) t := by
      rw [map_neg, gw_dk]
      exact time_wave (gw_kdiff x)
    fin_cases i <;> fin_cases j <;> first | exact e0 | exact (c0 _)

end

/-- **C122.** With the default amplitude one the metric is degenerate: every box contains a point where `g_xx` is zero. -/
theorem C122_default (hb : b0 < b1) : ∃ x : Fin 3 → ℝ, b0 ≤ x 0 ∧ x 0 ≤ b1 ∧ (TestID.gaugeWave (Spec.wavePt 1 b0 b1 0 x)).gb 0 = 0 ∧
    (TestID.gaugeWave (Spec.wavePt 1 b0 b1 0 x)).alpha = 0 := by
  have hL : 0 < b1 - b0 := by linarith
  let n : ℤ := ⌈b0 / (b1 - b0) - 3 / 4⌉
  let y : ℝ := (b1 - b0) * (3 / 4 + n)
  have h1 : b0 / (b1 - b0) - 3 / 4 ≤ n := Int.le_ceil _
  have h2 : (n : ℝ) < b0 / (b1 - b0) - 3 / 4 + 1 := Int.ceil_lt_add_one _
  have e : (b1 - b0) * (b0 / (b1 - b0)) = b0 := mul_div_cancel₀ _ hL.ne'
  have hs : Real.sin (2 * Real.pi * (y - 0) / (b1 - b0)) = -1 := by
    have e2 : 2 * Real.pi * (y - 0) / (b1 - b0) = -(Real.pi / 2) + ((n + 1 : ℤ) : ℝ) * (2 * Real.pi) := by
      show 2 * Real.pi * ((b1 - b0) * (3 / 4 + n) - 0) / (b1 - b0) = _
      push_cast
      field_simp
      ring
    rw [e2, Real.sin_add_int_mul_two_pi, Real.sin_neg, Real.sin_pi_div_two]
  have hg : (TestID.gaugeWave (Spec.wavePt 1 b0 b1 0 fun _ => y)).gb 0 = 0 := by
    show 1 + 1 * Real.sin (2 * Real.pi * (y - 0) / (b1 - b0)) = 0
    rw [hs]
    norm_num
  refine ⟨fun _ => y, ?_, ?_, hg, ?_⟩
  · show b0 ≤ (b1 - b0) * (3 / 4 + n)
    nlinarith
  · show (b1 - b0) * (3 / 4 + n) ≤ b1
    nlinarith
  · show √((TestID.gaugeWave (Spec.wavePt 1 b0 b1 0 fun _ => y)).gb 0) = 0
    rw [hg, Real.sqrt_zero]

/-! ## The linear wave -/

theorem linear_contDiffOn : ContDiffOn ℝ ∞ (fun x => Spec.bump A b0 b1 (x 0 - t)) (Spec.linearDomain A b0 b1 t) := bump_contDiff'.contDiffOn

namespace Spec

/-- The extrinsic curvature as a function of `x - t`. -/
noncomputable def linearK (A b0 b1 y : ℝ) : ℝ := Real.pi * (A * Real.cos (2 * Real.pi * y / (b1 - b0))) / (b1 - b0)

variable (A b0 b1 t)

/-- `A sin`. -/
noncomputable def lw_s : smoothOn (linearDomain A b0 b1 t) := restrict (fun x => bump A b0 b1 (x 0 - t)) linear_contDiffOn

/-- `1 / (1 + A sin)`. -/
noncomputable def lw_v : smoothOn (linearDomain A b0 b1 t) :=
  restrict (fun x => (1 + bump A b0 b1 (x 0 - t))⁻¹) ((contDiffOn_const.add linear_contDiffOn).inv fun _ hx => hx.1.ne')

/-- `1 / (1 - A sin)`. -/
noncomputable def lw_w : smoothOn (linearDomain A b0 b1 t) :=
  restrict (fun x => (1 - bump A b0 b1 (x 0 - t))⁻¹) ((contDiffOn_const.sub linear_contDiffOn).inv fun _ hx => hx.2.ne')

/-- The extrinsic curvature. -/
noncomputable def lw_k : smoothOn (linearDomain A b0 b1 t) :=
  restrict (fun x => linearK A b0 b1 (x 0 - t)) (ContDiff.contDiffOn (by unfold linearK; fun_prop))

/-- The calculus on the domain. -/
noncomputable abbrev lwCalc : Calculus (smoothOn (linearDomain A b0 b1 t)) := calculusOn (linearDomain_open A b0 b1 t)

end Spec

theorem lw_sv : (1 + Spec.lw_s A b0 b1 t) * Spec.lw_v A b0 b1 t = 1 := smoothOn_ext fun x => by
  rw [map_mul, map_add, map_one]
  exact mul_inv_cancel₀ x.2.1.ne'

theorem lw_sw : (1 - Spec.lw_s A b0 b1 t) * Spec.lw_w A b0 b1 t = 1 := smoothOn_ext fun x => by
  rw [map_mul, map_sub, map_one]
  exact mul_inv_cancel₀ x.2.2.ne'

theorem bump_diff (y : ℝ) : DifferentiableAt ℝ (Spec.bump A b0 b1) y := (bump_contDiff.differentiable (by simp)).differentiableAt

theorem lw_ds (i : Fin 3) (x : Spec.linearDomain A b0 b1 t) : Spec.valueAt x ((Spec.lwCalc A b0 b1 t).d i (Spec.lw_s A b0 b1 t)) =
    if i = 0 then deriv (Spec.bump A b0 b1) (x.1 0 - t) else 0 :=
  (calculusOn_d (linearDomain_open A b0 b1 t) _ _ i x).trans (pd_wave (t := t) (x := x.1) (bump_diff _) i)

theorem lw_hs (i : Fin 3) (hi : i ≠ 0) : (Spec.lwCalc A b0 b1 t).d i (Spec.lw_s A b0 b1 t) = 0 := smoothOn_ext fun x => by
  rw [lw_ds, if_neg hi, map_zero]

theorem lw_hk : 2 * Spec.lw_k A b0 b1 t = (Spec.lwCalc A b0 b1 t).d 0 (Spec.lw_s A b0 b1 t) := smoothOn_ext fun x => by
  rw [lw_ds, if_pos rfl, bump_deriv, map_mul, map_ofNat]
  rfl

theorem lw_kdiff (y : ℝ) : DifferentiableAt ℝ (Spec.linearK A b0 b1) y := by
  unfold Spec.linearK
  fun_prop

theorem lw_kderiv (y : ℝ) : deriv (Spec.linearK A b0 b1) y = -(2 * Real.pi ^ 2 * (A * Real.sin (2 * Real.pi * y / (b1 - b0))) / (b1 - b0) ^ 2) := by
  have e : HasDerivAt (fun y : ℝ => 2 * Real.pi * y / (b1 - b0)) (2 * Real.pi * 1 / (b1 - b0)) y :=
    ((hasDerivAt_id y).const_mul (2 * Real.pi)).div_const (b1 - b0)
  have e2 : HasDerivAt (Spec.linearK A b0 b1)
      (Real.pi * (A * (-Real.sin (2 * Real.pi * y / (b1 - b0)) * (2 * Real.pi * 1 / (b1 - b0)))) / (b1 - b0)) y :=
    ((e.cos.const_mul A).const_mul Real.pi).div_const (b1 - b0)
  rw [e2.deriv]
  generalize b1 - b0 = L
  ring

theorem lw_dk (x : Spec.linearDomain A b0 b1 t) :
    Spec.valueAt x ((Spec.lwCalc A b0 b1 t).d 0 (Spec.lw_k A b0 b1 t)) = deriv (Spec.linearK A b0 b1) (x.1 0 - t) :=
  (calculusOn_d (linearDomain_open A b0 b1 t) _ _ 0 x).trans ((pd_wave (t := t) (x := x.1) (lw_kdiff _) 0).trans (if_pos rfl))

/-- The metric of the linear wave. -/
noncomputable abbrev Spec.lwMetric (A b0 b1 t : ℝ) : Spec.Metric (Spec.smoothOn (Spec.linearDomain A b0 b1 t)) :=
  Spec.linearMetric (lw_sv (A := A) (b0 := b0) (b1 := b1) (t := t)) lw_sw

/-- The fields of the linear wave are what `TestID_1dLinearWave` writes with `t` in line 13. -/
abbrev Spec.LinearData (A b0 b1 t : ℝ) (F : Spec.AdmFields (Spec.smoothOn (Spec.linearDomain A b0 b1 t))) : Prop :=
  Spec.Written (fun x => TestID.linearWave (Spec.wavePt A b0 b1 t x)) F

/-- By how much Einstein's equations are not satisfied at a point. With `θ = 2π(x-t)/L` this is
`(πA/L)² (cos² θ ((1 + A sin θ)⁻² + (1 - A sin θ)⁻²) - 4 sin² θ / (1 - A² sin² θ))`. -/
noncomputable def Spec.lwError (A b0 b1 t : ℝ) (x : Fin 3 → ℝ) : ℝ :=
  (Real.pi * A / (b1 - b0)) ^ 2 * (Real.cos (2 * Real.pi * (x 0 - t) / (b1 - b0)) ^ 2 *
    ((1 + A * Real.sin (2 * Real.pi * (x 0 - t) / (b1 - b0)))⁻¹ ^ 2 + (1 - A * Real.sin (2 * Real.pi * (x 0 - t) / (b1 - b0)))⁻¹ ^ 2) -
    4 * Real.sin (2 * Real.pi * (x 0 - t) / (b1 - b0)) ^ 2 / (1 - A ^ 2 * Real.sin (2 * Real.pi * (x 0 - t) / (b1 - b0)) ^ 2))

theorem lw_error (x : Spec.linearDomain A b0 b1 t) :
    Spec.valueAt x (Spec.linearError (Spec.lwCalc A b0 b1 t) (Spec.lw_s A b0 b1 t) (Spec.lw_v A b0 b1 t) (Spec.lw_w A b0 b1 t) (Spec.lw_k A b0 b1 t)) =
      Spec.lwError A b0 b1 t x := by
  have h1 : 1 + A * Real.sin (2 * Real.pi * (x.1 0 - t) / (b1 - b0)) ≠ 0 := x.2.1.ne'
  have h2 : 1 - A * Real.sin (2 * Real.pi * (x.1 0 - t) / (b1 - b0)) ≠ 0 := x.2.2.ne'
  unfold Spec.linearError Spec.lwError
  simp only [map_add, map_mul, map_pow, map_ofNat, lw_dk, lw_kderiv]
  show (Real.pi * (A * Real.cos (2 * Real.pi * (x.1 0 - t) / (b1 - b0))) / (b1 - b0)) ^ 2 *
      ((1 + A * Real.sin (2 * Real.pi * (x.1 0 - t) / (b1 - b0)))⁻¹ ^ 2 + (1 - A * Real.sin (2 * Real.pi * (x.1 0 - t) / (b1 - b0)))⁻¹ ^ 2) +
    2 * (A * Real.sin (2 * Real.pi * (x.1 0 - t) / (b1 - b0)) * ((1 + A * Real.sin (2 * Real.pi * (x.1 0 - t) / (b1 - b0)))⁻¹ *
      (1 - A * Real.sin (2 * Real.pi * (x.1 0 - t) / (b1 - b0)))⁻¹) * _) = _
  generalize Real.sin (2 * Real.pi * (x.1 0 - t) / (b1 - b0)) = σ at *
  generalize Real.cos (2 * Real.pi * (x.1 0 - t) / (b1 - b0)) = κ at *
  rw [show 1 - A ^ 2 * σ ^ 2 = (1 + A * σ) * (1 - A * σ) by ring, div_eq_mul_inv (4 * σ ^ 2), mul_inv]
  generalize (1 + A * σ)⁻¹ = v
  generalize (1 - A * σ)⁻¹ = w
  generalize b1 - b0 = L
  ring

/-- **C123.** This is of second order in the amplitude. -/
theorem C123_order (hA : |A| ≤ 1 / 2) (x : Fin 3 → ℝ) : |Spec.lwError A b0 b1 t x| ≤ 4 / 3 * (2 * Real.pi * A / (b1 - b0)) ^ 2 := by
  unfold Spec.lwError
  have hσ := Real.sin_sq_add_cos_sq (2 * Real.pi * (x 0 - t) / (b1 - b0))
  generalize Real.sin (2 * Real.pi * (x 0 - t) / (b1 - b0)) = σ at *
  generalize Real.cos (2 * Real.pi * (x 0 - t) / (b1 - b0)) = κ at *
  have hA2 : A ^ 2 ≤ 1 / 4 := by
    have := sq_le_sq' (by linarith [abs_nonneg A]) hA
    rw [sq_abs] at this
    linarith
  have hs : σ ^ 2 ≤ 1 := by nlinarith [sq_nonneg κ]
  have hc : κ ^ 2 ≤ 1 := by nlinarith [sq_nonneg σ]
  have hq : (A * σ) ^ 2 ≤ 1 / 4 := by
    rw [mul_pow]
    nlinarith [sq_nonneg A, sq_nonneg σ]
  have ha := abs_le_of_sq_le_sq' (show (A * σ) ^ 2 ≤ (1 / 2) ^ 2 by linarith) (by norm_num)
  have h1 : 0 < 1 + A * σ := by linarith [ha.1]
  have h2 : 0 < 1 - A * σ := by linarith [ha.2]
  have h3 : 3 / 4 ≤ 1 - A ^ 2 * σ ^ 2 := by
    rw [← mul_pow]
    linarith
  rw [show (1 + A * σ)⁻¹ ^ 2 + (1 - A * σ)⁻¹ ^ 2 = 2 * (1 + (A * σ) ^ 2) / (1 - A ^ 2 * σ ^ 2) ^ 2 by
    rw [show 1 - A ^ 2 * σ ^ 2 = (1 + A * σ) * (1 - A * σ) by ring]
    field_simp
    ring]
  have h4 : 2 * (1 + (A * σ) ^ 2) / (1 - A ^ 2 * σ ^ 2) ^ 2 ≤ 40 / 9 := by
    rw [div_le_div_iff₀ (by positivity) (by norm_num)]
    nlinarith
  have h5 : 0 ≤ 2 * (1 + (A * σ) ^ 2) / (1 - A ^ 2 * σ ^ 2) ^ 2 := by positivity
  have h6 : 4 * σ ^ 2 / (1 - A ^ 2 * σ ^ 2) ≤ 16 / 3 := by
    rw [div_le_div_iff₀ (by linarith) (by norm_num)]
    nlinarith
  have h7 : 0 ≤ 4 * σ ^ 2 / (1 - A ^ 2 * σ ^ 2) := div_nonneg (by positivity) (by linarith)
  have h8 : κ ^ 2 * (2 * (1 + (A * σ) ^ 2) / (1 - A ^ 2 * σ ^ 2) ^ 2) ≤ 1 * (40 / 9) := mul_le_mul hc h4 h5 zero_le_one
  have h9 : 0 ≤ κ ^ 2 * (2 * (1 + (A * σ) ^ 2) / (1 - A ^ 2 * σ ^ 2) ^ 2) := mul_nonneg (sq_nonneg κ) h5
  rw [abs_mul, abs_of_nonneg (sq_nonneg _), show 4 / 3 * (2 * Real.pi * A / (b1 - b0)) ^ 2 = (Real.pi * A / (b1 - b0)) ^ 2 * (16 / 3) by ring]
  exact mul_le_mul_of_nonneg_left (abs_le.2 ⟨by linarith, by linarith⟩) (sq_nonneg _)

/-- **C123.** The order is not higher: where the wave passes zero the error is `2 (πA/L)²`. -/
theorem C123_sharp (x : Fin 3 → ℝ) (hx : x 0 = t) : Spec.lwError A b0 b1 t x = 2 * (Real.pi * A / (b1 - b0)) ^ 2 := by
  unfold Spec.lwError
  rw [hx, sub_self, mul_zero, zero_div, Real.sin_zero, Real.cos_zero]
  norm_num
  ring

section
variable {F : Spec.AdmFields (Spec.smoothOn (Spec.linearDomain A b0 b1 t))} (hF : Spec.LinearData A b0 b1 t F)
include hF

theorem LinearData_ψ : F.ψ = 1 := smoothOn_ext fun x => by
  rw [← hF.ψ, map_one]
  rfl

theorem LinearData_g : F.g = Spec.diag 1 (1 + Spec.lw_s A b0 b1 t) (1 - Spec.lw_s A b0 b1 t) := by
  funext i j
  refine smoothOn_ext fun x => ?_
  rw [← hF.g]
  fin_cases i <;> fin_cases j <;> rfl

theorem LinearData_K : F.K = Spec.diag 0 (Spec.lw_k A b0 b1 t) (-Spec.lw_k A b0 b1 t) := by
  funext i j
  refine smoothOn_ext fun x => ?_
  rw [← hF.K]
  fin_cases i <;> fin_cases j <;> first | rfl | exact neg_div _ _

theorem LinearData_α : F.α = 1 := smoothOn_ext fun x => by
  rw [← hF.α, map_one]
  rfl

theorem LinearData_β : F.β = fun _ => 0 := by
  funext i
  refine smoothOn_ext fun x => ?_
  rw [← hF.β, map_zero]
  fin_cases i <;> rfl

theorem LinearData_metric (i j : Fin 3) : (Spec.lwMetric A b0 b1 t).g i j = F.ψ ^ 4 * F.g i j := by
  rw [LinearData_ψ hF, LinearData_g hF, one_pow, one_mul]
  rfl

end

variable (A b0 b1 t) in
/-- **C123.** What the code writes are smooth fields. -/
theorem C123_fields : ∃ F, Spec.LinearData A b0 b1 t F := by
  refine ⟨⟨1, 1, fun _ => 0, Spec.diag 1 (1 + Spec.lw_s A b0 b1 t) (1 - Spec.lw_s A b0 b1 t), Spec.diag 0 (Spec.lw_k A b0 b1 t) (-Spec.lw_k A b0 b1 t),
    0, fun _ => 0, fun _ _ => 0⟩,
    fun x i j => ?_, fun x i j => ?_, fun x => rfl, fun x => rfl, fun x i => ?_, rfl, fun _ => rfl, fun _ _ => rfl⟩
  · fin_cases i <;> fin_cases j <;> rfl
  · fin_cases i <;> fin_cases j <;> first | rfl | exact neg_div _ _
  · fin_cases i <;> rfl

section
variable {F : Spec.AdmFields (Spec.smoothOn (Spec.linearDomain A b0 b1 t))}

/-- **C123.** From these fields the code for the constraints computes twice the error for the Hamiltonian constraint and the error for
the first component of the momentum constraint. -/
theorem C123_constraints (hF : Spec.LinearData A b0 b1 t F) (x : Spec.linearDomain A b0 b1 t) {c : AdmConPt ℝ}
    (h : Spec.AdmInput (Spec.calculusOn (linearDomain_open A b0 b1 t)) (Spec.valueAt x) F c) (hn : c.rhoNull = c.sNull) :
    ∃ o, admPoint c = .ok o ∧ o.ham = 2 * Spec.lwError A b0 b1 t x ∧ o.mom 0 = Spec.lwError A b0 b1 t x ∧ o.mom 1 = 0 ∧ o.mom 2 = 0 := by
  obtain ⟨o, ho, h1⟩ := C112_ham h (LinearData_metric hF) (fun h => hn ▸ h)
  obtain ⟨o', ho', h2⟩ := C112_mom h (LinearData_metric hF) (fun h => hn ▸ h)
  obtain rfl : o = o' := by rw [ho] at ho'; injection ho'
  have hm : ∀ a : Fin 3, o.mom a = if a = 0 then Spec.lwError A b0 b1 t x else 0 := by
    intro a
    rw [h2, hF.j, map_zero, mul_zero, sub_zero, LinearData_K hF, linear_trace, linear_momentum _ _ _ lw_hs lw_hk]
    split
    · exact lw_error x
    · exact map_zero _
  refine ⟨o, ho, ?_, hm 0, hm 1, hm 2⟩
  rw [h1, LinearData_K hF, linear_ham _ _ _ lw_hs lw_hk, hF.ρ, map_zero, mul_zero, sub_zero, map_mul, map_ofNat, lw_error]

/-- **C123.** The evolution equations hold for the data at later times, but for the error in `K_xx`. -/
theorem C123_evolution (hF : Spec.LinearData A b0 b1 t F) : ∃ γ : Spec.Metric (Spec.smoothOn (Spec.linearDomain A b0 b1 t)),
    (∀ i j, γ.g i j = F.ψ ^ 4 * F.g i j) ∧ ∀ (x : Spec.linearDomain A b0 b1 t) (i j : Fin 3),
      HasDerivAt (fun s => (TestID.linearWave (Spec.wavePt A b0 b1 s x)).gb (Spec.sym2 i j))
        (Spec.valueAt x (-2 * (F.α * F.K i j) + Spec.lie2 (Spec.calculusOn (linearDomain_open A b0 b1 t)) F.β F.g i j)) t ∧
      HasDerivAt (fun s => (TestID.linearWave (Spec.wavePt A b0 b1 s x)).K' (Spec.sym2 i j))
        (Spec.valueAt x (-Spec.hessian (Spec.calculusOn (linearDomain_open A b0 b1 t)) γ F.α i j +
          F.α * (Spec.ricci (Spec.calculusOn (linearDomain_open A b0 b1 t)) γ i j -
            2 * (∑ k, ∑ d, γ.inv k d * (F.K i k * F.K d j)) + F.K i j * Spec.trace γ F.K) +
          Spec.lie2 (Spec.calculusOn (linearDomain_open A b0 b1 t)) F.β F.K i j) -
            if i = 0 ∧ j = 0 then Spec.lwError A b0 b1 t x else 0) t := by
  refine ⟨Spec.lwMetric A b0 b1 t, LinearData_metric hF, fun x i j => ?_⟩
  have hl : ∀ T, Spec.lie2 (Spec.calculusOn (linearDomain_open A b0 b1 t)) F.β T i j = 0 := by
    intro T
    rw [LinearData_β hF]
    unfold Spec.lie2
    simp [Spec.Calculus.zero]
  have c0 : ∀ r : ℝ, HasDerivAt (fun _ : ℝ => r) 0 t := fun r => hasDerivAt_const t r
  constructor
  · rw [hl, add_zero, LinearData_K hF, LinearData_α hF, one_mul]
    have e1 : HasDerivAt (fun s => (TestID.linearWave (Spec.wavePt A b0 b1 s x)).gb 3) (Spec.valueAt x (-2 * Spec.lw_k A b0 b1 t)) t := by
      rw [neg_mul, lw_hk, map_neg, lw_ds, if_pos rfl]
      exact (time_wave (bump_diff _)).const_add 1
    have e2 : HasDerivAt (fun s => (TestID.linearWave (Spec.wavePt A b0 b1 s x)).gb 5) (Spec.valueAt x (-2 * -Spec.lw_k A b0 b1 t)) t := by
      rw [neg_mul_neg, lw_hk, lw_ds, if_pos rfl]
      have := (time_wave (t := t) (x := x.1) (bump_diff (A := A) (b0 := b0) (b1 := b1) _)).const_sub 1
      rwa [neg_neg] at this
    have e3 : Spec.valueAt x (-2 * 0) = 0 := by rw [mul_zero, map_zero]
    fin_cases i <;> fin_cases j <;> first | exact e1 | exact e2 | (refine HasDerivAt.congr_deriv (c0 _) e3.symm)
  · rw [hl, add_zero, LinearData_K hF, LinearData_α hF, linear_evolution _ _ _ lw_hs lw_hk]
    have e1 : HasDerivAt (fun s => (TestID.linearWave (Spec.wavePt A b0 b1 s x)).K' 3)
        (Spec.valueAt x (-(Spec.lwCalc A b0 b1 t).d 0 (Spec.lw_k A b0 b1 t)) - 0) t := by
      rw [map_neg, lw_dk, sub_zero]
      exact time_wave (lw_kdiff _)
    have e2 : HasDerivAt (fun s => (TestID.linearWave (Spec.wavePt A b0 b1 s x)).K' 5)
        (Spec.valueAt x ((Spec.lwCalc A b0 b1 t).d 0 (Spec.lw_k A b0 b1 t)) - 0) t := by
      rw [lw_dk, sub_zero]
      have := (time_wave (t := t) (x := x.1) (lw_kdiff (A := A) (b0 := b0) (b1 := b1) _)).neg
      rw [neg_neg] at this
      refine this.congr_of_eventuallyEq (Filter.Eventually.of_forall fun s => ?_)
      exact neg_div _ _
    have e3 : Spec.valueAt x (0 : Spec.smoothOn (Spec.linearDomain A b0 b1 t)) - 0 = 0 := by rw [map_zero, sub_zero]
    have e4 := sub_eq_zero.2 (lw_error x)
    fin_cases i <;> fin_cases j <;>
      first | exact e1 | exact e2 | (refine HasDerivAt.congr_deriv (c0 _) e3.symm) | (refine HasDerivAt.congr_deriv (c0 _) e4.symm)

end

/-! ## Random noise -/

section
variable {randMax : ℝ} {n1 : Nat}

/-- The bound of the noise. -/
theorem rnd_le (hn : 0 < n1) (hm : 0 < randMax) {r : ℝ} (h : 0 ≤ r ∧ r ≤ randMax) : |TestID.rnd 1 randMax n1 r| ≤ 1 / 4000000 / (n1 : ℝ) ^ 2 := by
  unfold TestID.rnd
  have hn' : (0 : ℝ) < n1 := by exact_mod_cast hn
  have e : |2 * r / randMax - 1| ≤ 1 := by
    rw [abs_le]
    constructor
    · have : 0 ≤ 2 * r / randMax := div_nonneg (by linarith [h.1]) hm.le
      linarith
    · have : 2 * r / randMax ≤ 2 := by
        rw [div_le_iff₀ hm]
        linarith [h.2]
      linarith
  rw [abs_div, abs_mul, mul_one, abs_of_pos (show (0 : ℝ) < 1 / 4000000 by norm_num), Nat.cast_mul, abs_of_pos (mul_pos hn' hn'), ← pow_two]
  exact div_le_div_of_nonneg_right (by linarith) (by positivity)

/-- **C124.** All components differ from those of flat space by at most `2.5·10⁻⁷/n1²`. -/
theorem C124_bound (hn : 0 < n1) (hm : 0 < randMax) {rand : Nat → ℝ} (h : ∀ n, 0 ≤ rand n ∧ rand n ≤ randMax) (i j : Fin 3) :
    |(TestID.randomNoise randMax n1 rand).gb (Spec.sym2 i j) - (if i = j then 1 else 0)| ≤ 1 / 4000000 / (n1 : ℝ) ^ 2 ∧
      |(TestID.randomNoise randMax n1 rand).K' (Spec.sym2 i j)| ≤ 1 / 4000000 / (n1 : ℝ) ^ 2 ∧
      |(TestID.randomNoise randMax n1 rand).alpha - 1| ≤ 1 / 4000000 / (n1 : ℝ) ^ 2 ∧
      |(TestID.randomNoise randMax n1 rand).beta i| ≤ 1 / 4000000 / (n1 : ℝ) ^ 2 ∧ (TestID.randomNoise randMax n1 rand).psi = 1 := by
  have b : ∀ n, |TestID.rnd 1 randMax n1 (rand n)| ≤ 1 / 4000000 / (n1 : ℝ) ^ 2 := fun n => rnd_le hn hm (h n)
  have b0 : ∀ n, |TestID.rnd 1 randMax n1 (rand n) - 0| ≤ 1 / 4000000 / (n1 : ℝ) ^ 2 := fun n => by rw [sub_zero]; exact b n
  have b1 : ∀ n, |1 + TestID.rnd 1 randMax n1 (rand n) - 1| ≤ 1 / 4000000 / (n1 : ℝ) ^ 2 := fun n => by rw [add_sub_cancel_left]; exact b n
  refine ⟨?_, ?_, b1 12, ?_, rfl⟩
  · fin_cases i <;> fin_cases j <;> first | exact b0 _ | exact b1 _
  · fin_cases i <;> fin_cases j <;> exact b _
  · fin_cases i <;> exact b _

/-- **C124.** The metric is positive definite. -/
theorem C124_positive (hn : 0 < n1) (hm : 0 < randMax) {rand : Nat → ℝ} (h : ∀ n, 0 ≤ rand n ∧ rand n ≤ randMax) (v : Fin 3 → ℝ) (hv : v ≠ 0) :
    0 < ∑ i : Fin 3, ∑ j : Fin 3, (TestID.randomNoise randMax n1 rand).gb (Spec.sym2 i j) * v i * v j := by
  have hn' : (1 : ℝ) ≤ n1 := by exact_mod_cast hn
  have b : ∀ i j : Fin 3, |(TestID.randomNoise randMax n1 rand).gb (Spec.sym2 i j) - (if i = j then 1 else 0)| ≤ 1 / 4000000 := by
    intro i j
    refine (C124_bound hn hm h i j).1.trans (div_le_self (by norm_num) ?_)
    nlinarith
  have hp : 0 < v 0 ^ 2 + v 1 ^ 2 + v 2 ^ 2 := by
    by_contra h0
    refine hv (funext fun i => ?_)
    have h0' : v 0 ^ 2 + v 1 ^ 2 + v 2 ^ 2 ≤ 0 := not_lt.1 h0
    have e : v i ^ 2 = 0 := by
      fin_cases i
      · show v 0 ^ 2 = 0
        nlinarith [sq_nonneg (v 0), sq_nonneg (v 1), sq_nonneg (v 2)]
      · show v 1 ^ 2 = 0
        nlinarith [sq_nonneg (v 0), sq_nonneg (v 1), sq_nonneg (v 2)]
      · show v 2 ^ 2 = 0
        nlinarith [sq_nonneg (v 0), sq_nonneg (v 1), sq_nonneg (v 2)]
    exact pow_eq_zero_iff two_ne_zero |>.1 e
  have key : ∀ i j : Fin 3, (if i = j then v i * v j else 0) - 1 / 4000000 * ((v i ^ 2 + v j ^ 2) / 2) ≤
      (TestID.randomNoise randMax n1 rand).gb (Spec.sym2 i j) * v i * v j := by
    intro i j
    have e1 := abs_le.1 (b i j)
    have e2 : |v i * v j| ≤ (v i ^ 2 + v j ^ 2) / 2 := by
      rw [abs_le]
      constructor
      · nlinarith [sq_nonneg (v i + v j)]
      · nlinarith [sq_nonneg (v i - v j)]
    have e3 : |((TestID.randomNoise randMax n1 rand).gb (Spec.sym2 i j) - (if i = j then 1 else 0)) * (v i * v j)| ≤ 1 / 4000000 * ((v i ^ 2 + v j ^ 2) / 2) := by
      rw [abs_mul]
      exact mul_le_mul (b i j) e2 (abs_nonneg _) (by norm_num)
    have e4 := (abs_le.1 e3).1
    split <;> rename_i hij
    · rw [if_pos hij] at e4
      linarith
    · rw [if_neg hij] at e4
      linarith
  have h00 := key 0 0
  have h01 := key 0 1
  have h02 := key 0 2
  have h10 := key 1 0
  have h11 := key 1 1
  have h12 := key 1 2
  have h20 := key 2 0
  have h21 := key 2 1
  have h22 := key 2 2
  simp only [Fin.reduceEq, if_true, if_false] at h00 h01 h02 h10 h11 h12 h20 h21 h22
  simp only [Fin.sum_univ_three]
  nlinarith

end

/-- **C122 - C124.** The options for the gauge change lapse and shift and nothing else. -/
theorem C124_gauge {𝔽 : Type} [Field 𝔽] (l s : Bool) (o : KS.Out 𝔽) :
    (TestID.gauge l s o).gb = o.gb ∧ (TestID.gauge l s o).K' = o.K' ∧ (TestID.gauge l s o).psi = o.psi ∧
      (TestID.gauge l s o).alpha = (if l then 1 else o.alpha) ∧ ∀ n, (TestID.gauge l s o).beta n = if s then 0 else o.beta n := by
  refine ⟨rfl, rfl, rfl, rfl, fun n => ?_⟩
  cases s <;> rfl

/-- A point of the examples: the numbers stand in for the functions. -/
def exWave : WavePt ℚ where
  x1 := 3
  t := 0
  A := 5 / 4
  bbox0 := 1
  bbox1 := 5
  pi := 3
  sin := fun y => if y = 9 / 2 then 3 / 5 else 0
  cos := fun y => if y = 9 / 2 then 4 / 5 else 0
  sqrt := fun y => if y = 7 / 4 then 4 / 3 else 0

example : (List.range 6).map (TestID.gaugeWave exWave).gb = [7 / 4, 0, 0, 1, 0, 1] ∧ (TestID.gaugeWave exWave).K' 0 = 9 / 16 ∧
    (TestID.gaugeWave exWave).alpha = 4 / 3 := by decide +kernel
example : (List.range 6).map (TestID.linearWave exWave).gb = [1, 0, 0, 7 / 4, 0, 1 / 4] ∧
    (List.range 6).map (TestID.linearWave exWave).K' = [0, 0, 0, 3 / 4, 0, -3 / 4] := by decide +kernel
example : (TestID.randomNoise (10 : ℚ) 5 fun n => n).gb 0 = 1 - 1 / 100000000 ∧ (TestID.randomNoise (10 : ℚ) 5 fun n => n).K' 4 = 1 / 100000000 := by
  decide +kernel

end
end Sgrid
