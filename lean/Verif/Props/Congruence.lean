import Verif.Props.Conformal
import Mathlib.Tactic.FinCases

/-!
# Congruences of Kerr-Schild type

A unit vector field `l` on flat space whose derivatives are `∂_i l_j = α (δ_{ij} - l_i l_j) + β ε_{ijk} l_k`. The functions `α` and
`β` then satisfy the equations that follow from the symmetry of the second derivatives, in particular `α` is harmonic.
-/

namespace Sgrid
open Finset

variable {A : Type} [CommRing A]

/-- The tensor `ε_{ijk} l_k`. -/
def Spec.crossMat (l : Fin 3 → A) : Fin 3 → Fin 3 → A
  | 0, 0 => 0
  | 0, 1 => l 2
  | 0, 2 => -l 1
  | 1, 0 => -l 2
  | 1, 1 => 0
  | 1, 2 => l 0
  | 2, 0 => l 1
  | 2, 1 => -l 0
  | 2, 2 => 0

/-- Kronecker's symbol. -/
def Spec.kd (i j : Fin 3) : A := if i = j then 1 else 0

/-- A unit vector field with expansion `α` and twist `β` and without shear and acceleration. -/
structure Spec.Congruence (C : Spec.Calculus A) (l : Fin 3 → A) (α β : A) : Prop where
  unit : ∑ i, l i * l i = 1
  dl : ∀ i j, C.d i (l j) = α * (Spec.kd i j - l i * l j) + β * Spec.crossMat l i j

theorem cross_symm (l : Fin 3 → A) (i j : Fin 3) : Spec.crossMat l i j = -Spec.crossMat l j i := by
  fin_cases i <;> fin_cases j <;> simp [Spec.crossMat]

theorem kd_symm (i j : Fin 3) : (Spec.kd i j : A) = Spec.kd j i := by
  unfold Spec.kd
  simp [eq_comm]

theorem kd_sum (v : Fin 3 → A) (j : Fin 3) : ∑ i, Spec.kd i j * v i = v j := by
  fin_cases j <;> simp [Spec.kd, Fin.sum_univ_three]

theorem kd_sum' (v : Fin 3 → A) (j : Fin 3) : ∑ i, Spec.kd j i * v i = v j := by
  simp only [kd_symm j, kd_sum]

theorem kd_trace : ∑ i, (Spec.kd i i : A) = 3 := by
  simp [Spec.kd]

theorem cross_left (l : Fin 3 → A) (j : Fin 3) : ∑ i, l i * Spec.crossMat l i j = 0 := by
  fin_cases j <;> simp [Spec.crossMat, Fin.sum_univ_three] <;> ring

theorem cross_right (l : Fin 3 → A) (i : Fin 3) : ∑ j, Spec.crossMat l i j * l j = 0 := by
  fin_cases i <;> simp [Spec.crossMat, Fin.sum_univ_three] <;> ring

theorem cross_diag (l : Fin 3 → A) (i : Fin 3) : Spec.crossMat l i i = 0 := by
  fin_cases i <;> rfl

theorem calc_kd (C : Spec.Calculus A) (k i j : Fin 3) : C.d k (Spec.kd i j) = 0 := by
  unfold Spec.kd
  split
  · exact C.one k
  · exact C.zero k

namespace Spec.Congruence
variable {C : Spec.Calculus A} {l : Fin 3 → A} {α β : A}

/-- `W_{ik} W_{jk} = δ_{ij} - l_i l_j`. -/
theorem cross_sq (h : Spec.Congruence C l α β) (i j : Fin 3) :
    ∑ k, Spec.crossMat l i k * Spec.crossMat l j k = Spec.kd i j - l i * l j := by
  have hu := h.unit
  simp only [Fin.sum_univ_three] at hu
  fin_cases i <;> fin_cases j <;> simp [Spec.crossMat, Fin.sum_univ_three, Spec.kd] <;> first | linear_combination hu | ring1

theorem geodesic (h : Spec.Congruence C l α β) (j : Fin 3) : ∑ i, l i * C.d i (l j) = 0 := by
  have h1 := h.unit
  have h2 := cross_left l j
  have h3 := kd_sum l j
  simp only [h.dl, Fin.sum_univ_three] at h1 h2 h3 ⊢
  linear_combination α * h3 - α * l j * h1 + β * h2

theorem divergence (h : Spec.Congruence C l α β) : ∑ i, C.d i (l i) = 2 * α := by
  have h1 := h.unit
  have h2 := kd_trace (A := A)
  simp only [h.dl, cross_diag, Fin.sum_univ_three] at h1 h2 ⊢
  linear_combination α * h2 - α * h1

/-- The curl of `l` is `2 β l`. -/
theorem curl (h : Spec.Congruence C l α β) (k : Fin 3) : ∑ i, C.d i (Spec.crossMat l k i) = 2 * β * l k := by
  have h1 : C.d 1 (l 2) - C.d 2 (l 1) = 2 * β * l 0 := by
    rw [h.dl, h.dl]
    simp only [Spec.kd, Spec.crossMat]
    simp
    ring
  have h2 : C.d 2 (l 0) - C.d 0 (l 2) = 2 * β * l 1 := by
    rw [h.dl, h.dl]
    simp only [Spec.kd, Spec.crossMat]
    simp
    ring
  have h3 : C.d 0 (l 1) - C.d 1 (l 0) = 2 * β * l 2 := by
    rw [h.dl, h.dl]
    simp only [Spec.kd, Spec.crossMat]
    simp
    ring
  fin_cases k <;> simp [Spec.crossMat, Fin.sum_univ_three, C.zero, C.neg]
  · linear_combination h1
  · linear_combination h2
  · linear_combination h3

theorem two_d (C : Spec.Calculus A) (i : Fin 3) (x : A) : C.d i (2 * x) = 2 * C.d i x := by
  rw [two_mul, C.add, two_mul]

variable [Invertible (2 : A)]

theorem half_cancel {x y : A} (h : 2 * x = 2 * y) : x = y := by
  have h2 : (⅟2 : A) * 2 = 1 := invOf_mul_self 2
  linear_combination ⅟2 * h - (x - y) * h2

/-- The derivative of `β` along `l`. -/
theorem beta_l (h : Spec.Congruence C l α β) : ∑ k, l k * C.d k β = -(2 * α * β) := by
  have h1 : ∑ k, C.d k (∑ i, C.d i (Spec.crossMat l k i)) = 0 := by
    simp only [C.sum, Fin.sum_univ_three, cross_diag, C.zero, cross_symm l 1 0, cross_symm l 2 0, cross_symm l 2 1, C.neg, C.add]
    rw [C.comm 1 0, C.comm 2 0, C.comm 2 1]
    ring
  have h2 := h.divergence
  simp only [h.curl, mul_assoc, two_d] at h1
  simp only [C.mul] at h1
  simp only [Fin.sum_univ_three] at h1 h2 ⊢
  refine half_cancel ?_
  linear_combination h1 - 2 * β * h2

theorem alpha_grad' (h : Spec.Congruence C l α β) (k : Fin 3) :
    C.d k α = -(∑ i, l i * C.d i α + 2 * α ^ 2 - 2 * β ^ 2) * l k + ∑ i, Spec.crossMat l k i * C.d i β := by
  have h1 : 2 * C.d k α = ∑ i, C.d i (C.d k (l i)) := by
    rw [← two_d, ← h.divergence, C.sum]
    exact sum_congr rfl fun i _ => C.comm _ _ _
  have h2 := h.curl k
  have h3 := h.geodesic k
  have h4 := h.divergence
  have h5 := kd_sum' (fun i => C.d i α) k
  simp only [h.dl k, C.add, C.mul, C.sub, calc_kd, Fin.sum_univ_three] at h1 h2 h3 h4 h5 ⊢
  linear_combination h1 + h5 + β * h2 - α * h3 - α * l k * h4

/-- The derivative of `α` along `l`. -/
theorem alpha_l (h : Spec.Congruence C l α β) : ∑ k, l k * C.d k α = β ^ 2 - α ^ 2 := by
  have h0 := fun k => h.alpha_grad' k
  have h1 := h.unit
  have h2 := cross_left l
  have e : ∀ x : A, x = ∑ i, l i * C.d i α → 2 * x = 2 * (β ^ 2 - α ^ 2) := by
    intro x hx
    rw [← hx] at h0
    simp only [Fin.sum_univ_three] at h0 h1 h2 hx
    linear_combination hx + l 0 * h0 0 + l 1 * h0 1 + l 2 * h0 2 - (x + 2 * α ^ 2 - 2 * β ^ 2) * h1 +
      C.d 0 β * h2 0 + C.d 1 β * h2 1 + C.d 2 β * h2 2
  exact half_cancel (e _ rfl)

/-- The gradient of `α`. -/
theorem alpha_grad (h : Spec.Congruence C l α β) (k : Fin 3) :
    C.d k α = (β ^ 2 - α ^ 2) * l k + ∑ i, Spec.crossMat l k i * C.d i β := by
  have h0 := h.alpha_grad' k
  rw [h.alpha_l] at h0
  linear_combination h0

/-- The gradient of `β`. -/
theorem beta_grad (h : Spec.Congruence C l α β) (k : Fin 3) :
    C.d k β = -(2 * α * β) * l k - ∑ i, Spec.crossMat l k i * C.d i α := by
  have h1 := h.beta_l
  have h2 := cross_right l k
  have h3 : ∀ j, ∑ i, Spec.crossMat l k i * Spec.crossMat l i j = -(Spec.kd k j - l k * l j) := by
    intro j
    rw [← h.cross_sq k j, ← sum_neg_distrib]
    exact sum_congr rfl fun i _ => by rw [cross_symm l i j]; ring
  have h4 := kd_sum' (fun i => C.d i β) k
  simp only [h.alpha_grad]
  simp only [Fin.sum_univ_three] at h1 h2 h3 h4 ⊢
  linear_combination -h4 + l k * h1 + (β ^ 2 - α ^ 2) * h2 + C.d 0 β * h3 0 + C.d 1 β * h3 1 + C.d 2 β * h3 2

end Spec.Congruence
end Sgrid
