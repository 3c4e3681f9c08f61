import Verif.Props.BssnStep
import Mathlib.Analysis.SpecialFunctions.ExpDeriv
import Mathlib.Analysis.SpecialFunctions.Log.Deriv

/-!
# C114: the BSSN equations for smooth fields
-/

namespace Sgrid
open scoped ContDiff

noncomputable instance : Invertible (3 : Spec.smooth) where
  invOf := ⟨fun _ => 1 / 3, mem_smooth.2 contDiff_const⟩
  invOf_mul_self := by
    refine Subtype.ext (funext fun x => ?_)
    rw [show (3 : Spec.smooth) = 1 + 1 + 1 by norm_num]
    show (1 / 3 : ℝ) * (1 + 1 + 1) = 1
    norm_num
  mul_invOf_self := by
    refine Subtype.ext (funext fun x => ?_)
    rw [show (3 : Spec.smooth) = 1 + 1 + 1 by norm_num]
    show (1 + 1 + 1) * (1 / 3 : ℝ) = 1
    norm_num

/-- The derivative of `e^{k f}`. -/
theorem pd_exp (k : ℝ) (f h : Spec.smooth) (hh : ∀ x, h.1 x = Real.exp (k * f.1 x)) (i : Fin 3) (x : Fin 3 → ℝ) :
    (Spec.smoothCalculus.d i h).1 x = k * h.1 x * (Spec.smoothCalculus.d i f).1 x := by
  have hf : Differentiable ℝ f.1 := (mem_smooth.1 f.2).differentiable (by simp)
  have e : h.1 = fun x => Real.exp (k * f.1 x) := funext hh
  show fderiv ℝ h.1 x (Pi.single i 1) = k * h.1 x * fderiv ℝ f.1 x (Pi.single i 1)
  have hd : DifferentiableAt ℝ (fun x => k * f.1 x) x := (hf x).const_mul k
  rw [e, fderiv_exp hd, fderiv_const_mul (hf x)]
  simp only [smul_apply, smul_eq_mul]
  ring

/-- **C114.** Smooth fields on `ℝ³` with `ψ > 0` fulfil the assumptions of the theorems: the physical metric is `e^{4φ} ψ⁴ g_{ab}`, and what
the code computes with `exp` and `log` is its factor. -/
theorem C114_smooth (F : Spec.BssnFields Spec.smooth) (g : Fin 3 → Fin 3 → Spec.smooth) (hs : ∀ a b, g a b = g b a)
    (hd : ∀ x, (Spec.det3 g).1 x ≠ 0) (hψ : ∀ x, 0 < F.ψ.1 x) (hℓ : ∀ x, F.ℓ.1 x = Real.log (F.ψ.1 x)) (hA : ∀ a b, F.At a b = F.At b a) :
    ∃ (γ : Spec.Metric Spec.smooth) (E Em : Spec.smooth), γ.g = g ∧ (∀ x, E.1 x = Real.exp (4 * F.φ.1 x) * F.ψ.1 x ^ 4) ∧
      (∀ x, Em.1 x = Real.exp (-4 * (F.φ.1 x + Real.log (F.ψ.1 x)))) ∧
      ((∀ a, F.G a = Spec.contracted Spec.smoothCalculus γ a) → Spec.BssnGeometry Spec.smoothCalculus F γ E Em) := by
  obtain ⟨γ, hγ⟩ := C112_metric g hs hd
  have hsm : ContDiff ℝ ∞ (F.φ + F.ℓ).1 := mem_smooth.1 (F.φ + F.ℓ).2
  let E : Spec.smooth := ⟨fun x => Real.exp (4 * (F.φ + F.ℓ).1 x), mem_smooth.2 ((contDiff_const.mul hsm).exp)⟩
  let Em : Spec.smooth := ⟨fun x => Real.exp (-4 * (F.φ + F.ℓ).1 x), mem_smooth.2 ((contDiff_const.mul hsm).exp)⟩
  have hsum : ∀ x, (F.φ + F.ℓ).1 x = F.φ.1 x + F.ℓ.1 x := fun x => rfl
  refine ⟨γ, E, Em, hγ, fun x => ?_, fun x => ?_, fun hG => ⟨fun a => ?_, ?_, fun a => ?_, hA, hG⟩⟩
  · show Real.exp (4 * (F.φ + F.ℓ).1 x) = _
    rw [hsum, hℓ, mul_add, Real.exp_add]
    congr 1
    rw [show (4 : ℝ) * Real.log (F.ψ.1 x) = ((4 : ℕ) : ℝ) * Real.log (F.ψ.1 x) by norm_num, Real.exp_nat_mul, Real.exp_log (hψ x)]
  · show Real.exp (-4 * (F.φ + F.ℓ).1 x) = _
    rw [hsum, hℓ]
  · refine Subtype.ext (funext fun x => ?_)
    have h := pd_exp 1 F.ℓ F.ψ (fun x => by rw [one_mul, hℓ, Real.exp_log (hψ x)]) a x
    rw [h]
    show _ = F.ψ.1 x * (Spec.smoothCalculus.d a F.ℓ).1 x
    ring
  · refine Subtype.ext (funext fun x => ?_)
    show Real.exp (4 * (F.φ + F.ℓ).1 x) * Real.exp (-4 * (F.φ + F.ℓ).1 x) = 1
    rw [← Real.exp_add]
    simp
  · refine Subtype.ext (funext fun x => ?_)
    have h := pd_exp 4 (F.φ + F.ℓ) E (fun x => rfl) a x
    rw [h, show (4 : Spec.smooth) = 1 + 1 + 1 + 1 by norm_num]
    show _ = (1 + 1 + 1 + 1) * E.1 x * (Spec.smoothCalculus.d a (F.φ + F.ℓ)).1 x
    ring

/-- A point with the metric `diag(1, 2, 1)` with `∂₁ g₂₂ = 2`, `A = diag(1, -2, 0)`, `K = 3`, `α = 2`, `β = (1, 0, 0)`, and no
derivatives of the others. -/
def bssnEx : BssnArgs ℚ where
  cur := fun n => [1, 0, 0, 2, 0, 1, 0, 1, 0, 0, -2, 0, 0, 3, 1 / 2, 0, 0, 2, 1].getD n 0
  pre := fun n => [1, 0, 0, 2, 0, 1, 0, 1, 0, 0, -2, 0, 0, 3, 1 / 2, 0, 0, 2, 1].getD n 0
  ps := fun n => if n = 0 then 1 else 0
  K0 := 0
  dg := fun n => if n = 9 then 2 else 0
  ddg := fun _ => 0
  dA := fun _ => 0
  dphi := fun _ => 0
  ddphi := fun _ => 0
  dG := fun _ => 0
  dK := fun _ => 0
  dalp := fun _ => 0
  ddalp := fun _ => 0
  dbeta := fun _ => 0
  ddbeta := fun _ => 0
  alphaRHS := 0
  oldDens := 0
  dt := 0
  time := 0
  noForceK := true
  evolveGamma := true
  nonconstantlapse := true
  oploglapse := true
  oploglapse2 := false
  oplogwithshift := false
  harmoniclapse := false
  subtractK0 := false
  addliealpha := false
  addalphaRHSterm := false
  gamma0 := true
  gamma2 := false
  recomputeAzz := false
  recomputegzz := false
  subtractA := false
  normalizedetg := false
  gReplaced := false
  gentlePhi := false
  densitized := false
  densWithoutShift := false
  YoTermFactor := 0
  RtoRminusHfactor := 1
  alphaDensityWeight := 0
  lapsepsipower := 0
  lapseharmonicf := 2
  shiftpsipower := 0
  shiftalphapower := 0
  shiftgammacoeff := 3 / 4
  shiftdriver := 1
  shiftStop := -1
  exp := fun _ => 1
  log := fun _ => 0
  pow := fun _ _ => 1

/-- The right hand sides at this point: `∂_t g_{22} = -2·2·(-2) + 1·2 = 10`, `∂_t φ = -2·3/6`, `∂_t K = 2·(1 + 4/4 + 9/3)`. -/
example : (match bssnRhs bssnEx with
    | .ok o => (List.range 25).map o.new
    | _ => []) = [-4, 0, 0, 10, 0, 0, -1, 25 / 6, 0, 0, -35 / 3, 0, 8 / 3, 10, 2, 0, 0, -12, 0, 0, 0, 2, 0, 0, 0] := by
  decide +kernel

/-- The linear step with `dt = 1/8`, and the trace of `A` subtracted: `A_{11}/g_{11} + A_{22}/g_{22} + A_{33}/g_{33} = 0`. -/
example : (match bssnRhs { bssnEx with dt := 1 / 8 } with
    | .ok o => [o.new 0, o.new 3, o.new 5, o.new 6, o.new 7, o.new 13]
    | _ => []) = [1 / 2, 13 / 4, 1, -1 / 8, 73 / 48, 17 / 4] ∧
    (match bssnRhs { bssnEx with dt := 1 / 8, subtractA := true } with
    | .ok o => o.new 7 / o.new 0 + o.new 10 / o.new 3 + o.new 12 / o.new 5
    | _ => 1) = 0 := by
  refine ⟨?_, ?_⟩ <;> decide +kernel

/-- **C116.** With `recomputegzz` the determinant of the new metric `diag(1/2, 13/4, 1)` is `13/8`, though `gzz` was recomputed from
`det g = 1`. -/
theorem C116_counterexample :
    (match bssnRhs { bssnEx with dt := 1 / 8, recomputegzz := true } with
    | .ok o => [Spec.det3 (fun a b => o.new (Spec.sym2 a b)), o.new 0, o.new 3, o.new 5]
    | _ => []) = [13 / 8, 1 / 2, 13 / 4, 1] := by
  decide +kernel

end Sgrid
