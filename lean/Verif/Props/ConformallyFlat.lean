import Verif.Props.Congruence
import Verif.Props.Conformal

/-!
# Conformally flat metrics

The curvature of `ψ⁴ δ_{ij}` and the second covariant derivatives of a function.
-/

namespace Sgrid
open Finset

variable {A : Type} [CommRing A] [Invertible (2 : A)]

/-- The metric `ψ⁴ δ_{ij}` with `u = 1/ψ`. -/
def Spec.flatMetric (ψ u : A) (h : ψ * u = 1) : Spec.Metric A where
  g := fun i j => ψ ^ 4 * Spec.kd i j
  inv := fun i j => u ^ 4 * Spec.kd i j
  symm := fun i j => by simp only [Spec.kd, eq_comm]
  isymm := fun i j => by simp only [Spec.kd, eq_comm]
  mul_inv := fun i j => by
    have e : ψ ^ 4 * u ^ 4 = 1 := by rw [← mul_pow, h, one_pow]
    fin_cases i <;> fin_cases j <;> simp [Fin.sum_univ_three, Spec.kd, e]

section
variable (C : Spec.Calculus A) {ψ u : A} (h : ψ * u = 1)
include h

theorem flat_du (i : Fin 3) : C.d i u = -(u ^ 2 * C.d i ψ) := by
  have e := congrArg (C.d i) h
  rw [C.mul, C.one] at e
  linear_combination u * e - C.d i u * h

theorem flat_christoffel (c a b : Fin 3) : Spec.christoffel C (Spec.flatMetric ψ u h) c a b =
    2 * u * (Spec.kd c b * C.d a ψ + Spec.kd c a * C.d b ψ - Spec.kd a b * C.d c ψ) := by
  have h2 : (⅟2 : A) * 2 = 1 := invOf_mul_self 2
  have e : u ^ 4 * ψ ^ 3 = u := by linear_combination u * (ψ ^ 2 * u ^ 2 + ψ * u + 1) * h
  have dk : ∀ i a b, C.d i (ψ ^ 4 * Spec.kd a b) = 4 * ψ ^ 3 * C.d i ψ * Spec.kd a b := by
    intro i a b
    have d0 : C.d i (Spec.kd a b : A) = 0 := by
      unfold Spec.kd
      split
      · exact C.one _
      · exact C.zero _
    rw [show ψ ^ 4 = ψ * ψ * (ψ * ψ) by ring]
    simp only [C.mul, d0]
    ring
  unfold Spec.christoffel Spec.christoffelLow
  show ∑ d, u ^ 4 * Spec.kd c d * (⅟2 * (C.d a (ψ ^ 4 * Spec.kd b d) + C.d b (ψ ^ 4 * Spec.kd a d) - C.d d (ψ ^ 4 * Spec.kd a b))) = _
  simp only [dk]
  fin_cases a <;> fin_cases b <;> fin_cases c <;>
    simp only [Fin.zero_eta, Fin.mk_one, Fin.reduceFinMk, Fin.sum_univ_three, Spec.kd, Fin.reduceEq, if_true, if_false] <;>
    first
      | ring1
      | linear_combination (2 * u ^ 4 * ψ ^ 3 * C.d 0 ψ) * h2 + 2 * C.d 0 ψ * e
      | linear_combination (2 * u ^ 4 * ψ ^ 3 * C.d 1 ψ) * h2 + 2 * C.d 1 ψ * e
      | linear_combination (2 * u ^ 4 * ψ ^ 3 * C.d 2 ψ) * h2 + 2 * C.d 2 ψ * e
      | linear_combination -(2 * u ^ 4 * ψ ^ 3 * C.d 0 ψ) * h2 - 2 * C.d 0 ψ * e
      | linear_combination -(2 * u ^ 4 * ψ ^ 3 * C.d 1 ψ) * h2 - 2 * C.d 1 ψ * e
      | linear_combination -(2 * u ^ 4 * ψ ^ 3 * C.d 2 ψ) * h2 - 2 * C.d 2 ψ * e

theorem flat_hessian (f : A) (a b : Fin 3) : Spec.hessian C (Spec.flatMetric ψ u h) f a b = C.d a (C.d b f) -
    2 * u * (C.d a ψ * C.d b f + C.d b ψ * C.d a f - Spec.kd a b * ∑ c, C.d c ψ * C.d c f) := by
  unfold Spec.hessian
  simp only [flat_christoffel]
  fin_cases a <;> fin_cases b <;>
    simp only [Fin.zero_eta, Fin.mk_one, Fin.reduceFinMk, Fin.sum_univ_three, Spec.kd, Fin.reduceEq, if_true, if_false] <;> ring

theorem flat_ricci (a b : Fin 3) : Spec.ricci C (Spec.flatMetric ψ u h) a b = -(2 * u * C.d a (C.d b ψ)) + 6 * u ^ 2 * C.d a ψ * C.d b ψ -
    Spec.kd a b * (2 * u * (∑ c, C.d c (C.d c ψ)) + 2 * u ^ 2 * ∑ c, C.d c ψ * C.d c ψ) := by
  have d0 : ∀ i a b, C.d i (Spec.kd a b : A) = 0 := by
    intro i a b
    unfold Spec.kd
    split
    · exact C.one _
    · exact C.zero _
  have d2 : ∀ i, C.d i (2 : A) = 0 := by
    intro i
    rw [← one_add_one_eq_two, C.add, C.one, add_zero]
  unfold Spec.ricci
  simp only [flat_christoffel, C.mul, C.add, C.sub, d0, d2, flat_du C h]
  have c1 := C.comm 1 0 ψ
  have c2 := C.comm 2 0 ψ
  have c3 := C.comm 2 1 ψ
  fin_cases a <;> fin_cases b <;>
    simp only [Fin.zero_eta, Fin.mk_one, Fin.reduceFinMk, Fin.sum_univ_three, Spec.kd, Fin.reduceEq, if_true, if_false, c1, c2, c3] <;> ring

end
end Sgrid
