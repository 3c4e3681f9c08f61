import Verif.Props.Geometry
import Mathlib.Analysis.Calculus.FDeriv.Symmetric
import Mathlib.Analysis.Calculus.ContDiff.Operations
import Mathlib.Algebra.Ring.Subring.Basic

/-!
# Smooth functions of three coordinates

The functions on `ℝ³` with all partial derivatives are an instance of `Spec.Calculus`, so that the theorems about tensors hold
for smooth fields.
-/

namespace Sgrid
open scoped ContDiff

/-- The smooth functions of three coordinates. -/
def Spec.smooth : Subring ((Fin 3 → ℝ) → ℝ) where
  carrier := {f | ContDiff ℝ ∞ f}
  mul_mem' := by
    intro a b ha hb
    rw [Set.mem_ofPred_eq] at *
    exact ha.mul hb
  one_mem' := by
    rw [Set.mem_ofPred_eq]
    exact contDiff_const
  add_mem' := by
    intro a b ha hb
    rw [Set.mem_ofPred_eq] at *
    exact ha.add hb
  zero_mem' := by
    rw [Set.mem_ofPred_eq]
    exact contDiff_const
  neg_mem' := by
    intro a ha
    rw [Set.mem_ofPred_eq] at *
    exact ha.neg

theorem mem_smooth {f : (Fin 3 → ℝ) → ℝ} : f ∈ Spec.smooth ↔ ContDiff ℝ ∞ f := by
  show f ∈ {f | ContDiff ℝ ∞ f} ↔ _
  rw [Set.mem_ofPred_eq]

/-- The partial derivative with respect to the coordinate `i`. -/
noncomputable def Spec.pd (i : Fin 3) (f : (Fin 3 → ℝ) → ℝ) : (Fin 3 → ℝ) → ℝ := fun x => fderiv ℝ f x (Pi.single i 1)

theorem pd_smooth (i : Fin 3) {f : (Fin 3 → ℝ) → ℝ} (h : ContDiff ℝ ∞ f) : ContDiff ℝ ∞ (Spec.pd i f) :=
  (contDiff_infty_iff_fderiv.1 h).2.clm_apply contDiff_const

theorem pd_comm (i j : Fin 3) {f : (Fin 3 → ℝ) → ℝ} (h : ContDiff ℝ ∞ f) :
    Spec.pd i (Spec.pd j f) = Spec.pd j (Spec.pd i f) := by
  have h1 := contDiff_infty_iff_fderiv.1 h
  have h2 : Differentiable ℝ (fderiv ℝ f) := h1.2.differentiable (by simp)
  funext x
  have e : ∀ i j : Fin 3, Spec.pd i (Spec.pd j f) x = fderiv ℝ (fderiv ℝ f) x (Pi.single i 1) (Pi.single j 1) := by
    intro i j
    unfold Spec.pd
    rw [fderiv_clm_apply (h2 x) (differentiableAt_const _)]
    simp
  rw [e, e]
  exact (h.contDiffAt (x := x)).isSymmSndFDerivAt (by
    rw [minSmoothness_of_isRCLikeNormedField]
    exact WithTop.coe_le_coe.2 (le_top : (2 : ℕ∞) ≤ ⊤)) _ _

/-- The calculus of smooth functions. -/
noncomputable def Spec.smoothCalculus : Spec.Calculus Spec.smooth where
  d := fun i f => ⟨Spec.pd i f.1, mem_smooth.2 (pd_smooth i (mem_smooth.1 f.2))⟩
  add := fun i f g => by
    have hf : Differentiable ℝ f.1 := (mem_smooth.1 f.2).differentiable (by simp)
    have hg : Differentiable ℝ g.1 := (mem_smooth.1 g.2).differentiable (by simp)
    refine Subtype.ext (funext fun x => ?_)
    show fderiv ℝ (f.1 + g.1) x _ = fderiv ℝ f.1 x _ + fderiv ℝ g.1 x _
    rw [fderiv_add (hf x) (hg x)]
    rfl
  mul := fun i f g => by
    have hf : Differentiable ℝ f.1 := (mem_smooth.1 f.2).differentiable (by simp)
    have hg : Differentiable ℝ g.1 := (mem_smooth.1 g.2).differentiable (by simp)
    refine Subtype.ext (funext fun x => ?_)
    show fderiv ℝ (f.1 * g.1) x _ = fderiv ℝ f.1 x _ * g.1 x + f.1 x * fderiv ℝ g.1 x _
    rw [fderiv_mul (hf x) (hg x)]
    simp only [add_apply, smul_apply, smul_eq_mul]
    ring
  comm := fun i j f => Subtype.ext (pd_comm i j (mem_smooth.1 f.2))

/-- The value at a point. -/
noncomputable def Spec.smoothAt (x : Fin 3 → ℝ) : Spec.smooth →+* ℝ where
  toFun := fun f => f.1 x
  map_one' := rfl
  map_mul' := fun _ _ => rfl
  map_zero' := rfl
  map_add' := fun _ _ => rfl

noncomputable instance : Invertible (2 : Spec.smooth) where
  invOf := ⟨fun _ => 1 / 2, mem_smooth.2 contDiff_const⟩
  invOf_mul_self := by
    refine Subtype.ext (funext fun x => ?_)
    rw [show (2 : Spec.smooth) = 1 + 1 by norm_num]
    show (1 / 2 : ℝ) * (1 + 1) = 1
    norm_num
  mul_invOf_self := by
    refine Subtype.ext (funext fun x => ?_)
    rw [show (2 : Spec.smooth) = 1 + 1 by norm_num]
    show (1 + 1) * (1 / 2 : ℝ) = 1
    norm_num

/-- The determinant of a tensor. -/
def Spec.det3 {A : Type} [CommRing A] (g : Fin 3 → Fin 3 → A) : A :=
  g 0 0 * (g 1 1 * g 2 2 - g 1 2 * g 2 1) - g 0 1 * (g 1 0 * g 2 2 - g 1 2 * g 2 0) + g 0 2 * (g 1 0 * g 2 1 - g 1 1 * g 2 0)

/-- A symmetric tensor with an invertible determinant is a metric. -/
def Spec.metricOf {A : Type} [CommRing A] (g : Fin 3 → Fin 3 → A) (D : A) (hs : ∀ a b, g a b = g b a)
    (hD : Spec.det3 g * D = 1) : Spec.Metric A where
  g := g
  inv := fun a b => D * (g (b + 1) (a + 1) * g (b + 2) (a + 2) - g (b + 1) (a + 2) * g (b + 2) (a + 1))
  symm := hs
  isymm := fun a b => by
    rw [hs (b + 1) (a + 1), hs (b + 2) (a + 2), hs (b + 1) (a + 2), hs (b + 2) (a + 1)]
    ring
  mul_inv := by
    have h10 := hs 1 0
    have h20 := hs 2 0
    have h21 := hs 2 1
    unfold Spec.det3 at hD
    intro a c
    fin_cases a <;> fin_cases c <;> simp [Fin.sum_univ_three, h10, h20, h21] <;> simp only [h10, h20, h21] at hD <;>
      first | linear_combination hD | ring

/-- **C112.** A symmetric tensor of smooth functions with a determinant without zeros is a metric. -/
theorem C112_metric (g : Fin 3 → Fin 3 → Spec.smooth) (hs : ∀ a b, g a b = g b a) (hd : ∀ x, (Spec.det3 g).1 x ≠ 0) :
    ∃ γ : Spec.Metric Spec.smooth, γ.g = g := by
  refine ⟨Spec.metricOf g ⟨fun x => ((Spec.det3 g).1 x)⁻¹, mem_smooth.2 ((mem_smooth.1 (Spec.det3 g).2).inv hd)⟩ hs ?_, rfl⟩
  refine Subtype.ext (funext fun x => ?_)
  show (Spec.det3 g).1 x * ((Spec.det3 g).1 x)⁻¹ = 1
  exact mul_inv_cancel₀ (hd x)

end Sgrid
