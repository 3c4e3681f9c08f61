import Verif.Props.KerrSchild
import Verif.Props.AdmConstraints
import Verif.Props.BssnRhs
import Verif.Props.BssnGamma

/-!
# Kerr-Schild data satisfy the constraints

The scalar curvature of the metric `δ_{ij} + φ l_i l_j`, the extrinsic curvature for which the metric does not depend on time with
the lapse `1/√(1+φ)` and the shift `φ/(1+φ) l`, and the Hamiltonian and momentum constraints.
-/

namespace Sgrid
open Finset

variable {A : Type} [CommRing A] [Invertible (2 : A)]

/-- The extrinsic curvature of Kerr-Schild data with lapse `N`. -/
def Spec.ksK (C : Spec.Calculus A) (l : Fin 3 → A) (φ N : A) (i j : Fin 3) : A :=
  N * (⅟2 * (l i * C.d j φ + l j * C.d i φ + φ * (C.d i (l j) + C.d j (l i)) + φ * l i * l j * ∑ c, l c * C.d c φ))

namespace Spec.KerrSchild
variable {C : Spec.Calculus A} {l : Fin 3 → A} {α β φ t m N : A}

local notation "V" => v C l β m
local notation "W" => Spec.crossMat l

theorem dphi_l (h : Spec.KerrSchild C l α β φ t m) : ∑ i, l i * C.d i φ = m * (β ^ 2 - α ^ 2) := by
  have hu := h.unit
  have hv := h.lv
  simp only [h.dphi]
  simp only [Fin.sum_univ_three] at hu hv ⊢
  linear_combination m * (β ^ 2 - α ^ 2) * hu + hv

/-- The derivative of `φ' = l_i ∂_i φ`. -/
theorem dp (h : Spec.KerrSchild C l α β φ t m) (a : Fin 3) : C.d a (m * (β ^ 2 - α ^ 2)) =
    -(4 * m * α * β ^ 2 + 2 * α * (m * (β ^ 2 - α ^ 2))) * l a - 2 * β * (∑ c, W a c * V c) - 2 * α * V a := by
  have h1 := h.dphi
  simp only [h.phi, C.mul, h.dm] at h1
  have h2 := h.beta_grad a
  have h3 := cross_right l a
  have h4 := h1 a
  rw [C.mul, h.dm, C.sub, pow_two, pow_two, C.mul, C.mul]
  simp only [Fin.sum_univ_three] at h2 h3 ⊢
  linear_combination 2 * m * β * h2 - 2 * α * h4 - 2 * β * (W a 0 * h1 0 + W a 1 * h1 1 + W a 2 * h1 2) -
    2 * β * m * (β ^ 2 - α ^ 2) * h3

/-- The scalar curvature. -/
theorem scalar (h : Spec.KerrSchild C l α β φ t m) : Spec.trace h.metric (Spec.ricci C h.metric) =
    ⅟2 * t ^ 2 * (∑ i, V i * V i) - 2 * (m * (β ^ 2 - α ^ 2)) * α * φ * t ^ 2 - 2 * φ ^ 2 * β ^ 2 * t := by
  have hu := h.unit
  have hv := h.lv
  have ht := h.ht
  have hdiv := h.divergence
  have hdv := h.dv
  have h2 : (⅟2 : A) * 2 = 1 := invOf_mul_self 2
  rw [scalar_eq, h.gamma_gamma]
  simp only [h.gamma_contr, h.gamma_trace]
  obtain ⟨p, hp⟩ : ∃ p, p = m * (β ^ 2 - α ^ 2) := ⟨_, rfl⟩
  have hφ : ∀ i, C.d i φ = p * l i + V i := fun i => by rw [h.dphi, hp]
  have hφl : ∑ i, l i * C.d i φ = p := by rw [h.dphi_l, hp]
  have hα : ∑ k, l k * C.d k α = β ^ 2 - α ^ 2 := h.alpha_l
  rw [← hp]
  have a1 : ∑ k, C.d k ((⅟2 * t ^ 2 * p + 2 * φ * α * t) * l k - ⅟2 * t * V k) =
      -(⅟2 * 2 * t ^ 3 * p ^ 2) + ⅟2 * t ^ 2 * (∑ k, l k * C.d k p) + 2 * p * α * t + 2 * φ * (β ^ 2 - α ^ 2) * t - 2 * φ * α * t ^ 2 * p +
        (⅟2 * t ^ 2 * p + 2 * φ * α * t) * (2 * α) + ⅟2 * t ^ 2 * (∑ i, V i * V i) - ⅟2 * t * (4 * m * α * β ^ 2) := by
    have e2 : ∀ i, C.d i (2 : A) = 0 := fun i => by
      have := Spec.Congruence.two_d C i 1
      rw [mul_one, C.one] at this
      rw [this, mul_zero]
    simp only [C.sub, C.mul, C.add, C.half, pow_two, h.dt, e2]
    simp only [Fin.sum_univ_three, hφ] at hφl hα hdiv hdv hv hu ⊢
    linear_combination ((⅟2 * t ^ 2 * p + 2 * φ * α * t)) * hdiv - ⅟2 * t * hdv +
      (-(2 * ⅟2 * t ^ 3 * p) + 2 * α * t - 2 * φ * α * t ^ 2) * hφl + 2 * φ * t * hα + ⅟2 * t ^ 2 * p * hv
  have a2 : ∑ i, ∑ j, h.metric.inv i j * C.d j (⅟2 * t * C.d i φ) = -(⅟2 * t ^ 2 * (p ^ 2 * t + ∑ i, V i * V i)) +
      ⅟2 * t * (t * (∑ k, l k * C.d k p) + 2 * α * p + 4 * m * α * β ^ 2) := by
    have b1 : ∑ i, ∑ j, h.metric.inv i j * (C.d i φ * C.d j φ) = p ^ 2 * t + ∑ i, V i * V i := by
      show ∑ i, ∑ j, (Spec.kd i j - φ * t * l i * l j) * (C.d i φ * C.d j φ) = _
      have c1 : ∀ i, ∑ j, (Spec.kd i j - φ * t * l i * l j) * (C.d i φ * C.d j φ) = C.d i φ * (C.d i φ - φ * t * l i * p) := by
        intro i
        have c2 := kd_sum' (fun j => C.d j φ) i
        simp only [Fin.sum_univ_three] at c2 hφl ⊢
        linear_combination C.d i φ * c2 - C.d i φ * φ * t * l i * hφl
      simp only [c1]
      simp only [Fin.sum_univ_three, hφ] at hφl hu hv ⊢
      linear_combination p ^ 2 * hu + 2 * p * hv - φ * t * p * hφl - p ^ 2 * ht
    have b2 : ∑ i, ∑ j, h.metric.inv i j * C.d j (C.d i φ) = t * (∑ k, l k * C.d k p) + 2 * α * p + 4 * m * α * β ^ 2 := by
      have c1 : ∑ i, C.d i (C.d i φ) = (∑ k, l k * C.d k p) + 2 * α * p + 4 * m * α * β ^ 2 := by
        simp only [hφ, C.add, C.mul]
        simp only [Fin.sum_univ_three] at hdiv hdv ⊢
        linear_combination p * hdiv + hdv
      have c2 : ∑ j, l j * ∑ i, l i * C.d j (C.d i φ) = ∑ k, l k * C.d k p := by
        have d1 : ∀ j, C.d j p = ∑ i, (C.d j (l i) * C.d i φ + l i * C.d j (C.d i φ)) := by
          intro j
          rw [← hφl, C.sum]
          exact sum_congr rfl fun i _ => C.mul _ _ _
        have d2 := h.geodesic
        simp only [d1]
        simp only [Fin.sum_univ_three] at d2 ⊢
        linear_combination -C.d 0 φ * d2 0 - C.d 1 φ * d2 1 - C.d 2 φ * d2 2
      show ∑ i, ∑ j, (Spec.kd i j - φ * t * l i * l j) * C.d j (C.d i φ) = _
      have c3 : ∀ i, ∑ j, (Spec.kd i j - φ * t * l i * l j) * C.d j (C.d i φ) = C.d i (C.d i φ) - φ * t * l i * ∑ j, l j * C.d j (C.d i φ) := by
        intro i
        have c2 := kd_sum' (fun j => C.d j (C.d i φ)) i
        simp only [Fin.sum_univ_three] at c2 ⊢
        linear_combination c2
      simp only [c3]
      simp only [Fin.sum_univ_three] at c1 c2 ⊢
      linear_combination c1 - φ * t * c2 - (l 0 * C.d 0 p + l 1 * C.d 1 p + l 2 * C.d 2 p) * ht
    rw [← b1, ← b2]
    simp only [C.mul, C.half, h.dt]
    simp only [Fin.sum_univ_three]
    ring
  have a3 : ∑ k, ((⅟2 * t ^ 2 * p + 2 * φ * α * t) * l k - ⅟2 * t * V k) * (⅟2 * t * C.d k φ) =
      ⅟2 * t * ((⅟2 * t ^ 2 * p + 2 * φ * α * t) * p - ⅟2 * t * ∑ i, V i * V i) := by
    simp only [Fin.sum_univ_three, hφ] at hφl hv ⊢
    linear_combination ⅟2 * t * (⅟2 * t ^ 2 * p + 2 * φ * α * t) * hφl - ⅟2 * t * ⅟2 * t * p * hv
  rw [a1, a2, a3]
  have hpα : m * α = φ := h.phi.symm
  generalize (∑ i, V i * V i) = Z
  generalize (∑ k, l k * C.d k p) = p1
  linear_combination (⅟2 * t ^ 3 * p ^ 2 - ⅟2 * t ^ 2 * Z + α * t ^ 2 * p - α * p * t + φ * α * t ^ 2 * p - 4 * m * α * β ^ 2 * t) * h2 +
    α * p * t * ht - 2 * (α ^ 2 + β ^ 2) * t * hpα + 2 * α * t * hp

/-- The extrinsic curvature written with `p = l_i ∂_i φ` and `v`. -/
theorem k_eq (h : Spec.KerrSchild C l α β φ t m) (i j : Fin 3) : Spec.ksK C l φ N i j =
    N * ((m * (β ^ 2 - α ^ 2)) * (1 + ⅟2 * φ) * l i * l j + ⅟2 * (l i * V j + V i * l j) + φ * α * (Spec.kd i j - l i * l j)) := by
  have h2 : (⅟2 : A) * 2 = 1 := invOf_mul_self 2
  have h3 := cross_symm l i j
  have h4 := kd_symm (A := A) i j
  rw [Spec.ksK, h.dphi_l, h.dphi, h.dphi, h.dl, h.dl]
  linear_combination (N * (m * (β ^ 2 - α ^ 2)) * l i * l j + N * φ * α * (Spec.kd i j - l i * l j)) * h2 + N * ⅟2 * φ * β * h3 - N * ⅟2 * φ * α * h4

/-- The extrinsic curvature with the first index raised. -/
theorem k_mixed (h : Spec.KerrSchild C l α β φ t m) (i j : Fin 3) : ∑ k, h.metric.inv i k * Spec.ksK C l φ N k j =
    N * (t * (m * (β ^ 2 - α ^ 2)) * (1 + ⅟2 * φ) * l i * l j + ⅟2 * t * l i * V j + ⅟2 * V i * l j +
      φ * α * (Spec.kd i j - l i * l j)) := by
  have hu := h.unit
  have hv := h.lv
  have ht := h.ht
  have e1 : ∑ k, l k * Spec.ksK C l φ N k j = N * ((m * (β ^ 2 - α ^ 2)) * (1 + ⅟2 * φ) * l j + ⅟2 * V j) := by
    have d1 := kd_sum (fun k => l k) j
    simp only [h.k_eq]
    simp only [Fin.sum_univ_three] at d1 hu hv ⊢
    linear_combination N * ((m * (β ^ 2 - α ^ 2)) * (1 + ⅟2 * φ) * l j + ⅟2 * V j - φ * α * l j) * hu + N * ⅟2 * l j * hv + N * φ * α * d1
  have e2 := kd_sum' (fun k => Spec.ksK C l φ N k j) i
  show ∑ k, (Spec.kd i k - φ * t * l i * l k) * Spec.ksK C l φ N k j = _
  have e3 := h.k_eq (N := N) i j
  simp only [Fin.sum_univ_three] at e1 e2 ⊢
  linear_combination e2 + e3 - φ * t * l i * e1 - N * ((m * (β ^ 2 - α ^ 2)) * (1 + ⅟2 * φ) * l i * l j + ⅟2 * l i * V j) * ht

/-- The trace of the extrinsic curvature. -/
theorem k_trace (h : Spec.KerrSchild C l α β φ t m) : Spec.trace h.metric (Spec.ksK C l φ N) =
    N * (t * (m * (β ^ 2 - α ^ 2)) * (1 + ⅟2 * φ) + 2 * φ * α) := by
  have hu := h.unit
  have hv := h.lv
  have h3 := kd_trace (A := A)
  have h2 : (⅟2 : A) * 2 = 1 := invOf_mul_self 2
  have e1 : Spec.trace h.metric (Spec.ksK C l φ N) = ∑ i, ∑ k, h.metric.inv i k * Spec.ksK C l φ N k i := by
    refine sum_congr rfl fun i _ => sum_congr rfl fun k _ => ?_
    rw [h.k_eq i k, h.k_eq k i, kd_symm k i]
    ring
  rw [e1]
  simp only [h.k_mixed]
  simp only [Fin.sum_univ_three] at hu hv h3 ⊢
  linear_combination N * (t * (m * (β ^ 2 - α ^ 2)) * (1 + ⅟2 * φ) - φ * α) * hu + N * ⅟2 * (t + 1) * hv + N * φ * α * h3

theorem k_symm (i j : Fin 3) : Spec.ksK C l φ N i j = Spec.ksK C l φ N j i := by
  unfold Spec.ksK
  ring

/-- The square of the extrinsic curvature. -/
theorem k_square (h : Spec.KerrSchild C l α β φ t m) : Spec.square h.metric (Spec.ksK C l φ N) =
    N ^ 2 * ((t * (m * (β ^ 2 - α ^ 2)) * (1 + ⅟2 * φ)) ^ 2 + ⅟2 * t * (∑ i, V i * V i) + 2 * φ ^ 2 * α ^ 2) := by
  have hu := h.unit
  have hv := h.lv
  have h2 : (⅟2 : A) * 2 = 1 := invOf_mul_self 2
  have e1 : Spec.square h.metric (Spec.ksK C l φ N) = ∑ i, ∑ j, (∑ k, h.metric.inv i k * Spec.ksK C l φ N k j) *
      (∑ k, h.metric.inv j k * Spec.ksK C l φ N k i) := by
    unfold Spec.square
    simp only [Fin.sum_univ_three, h.metric.isymm 1 0, h.metric.isymm 2 0, h.metric.isymm 2 1,
      k_symm (C := C) (l := l) (φ := φ) (N := N) 1 0, k_symm (C := C) (l := l) (φ := φ) (N := N) 2 0, k_symm (C := C) (l := l) (φ := φ) (N := N) 2 1]
    ring
  rw [e1]
  simp only [h.k_mixed]
  generalize t * (m * (β ^ 2 - α ^ 2)) * (1 + ⅟2 * φ) = a
  have e2 : ∀ i, ∑ j, (N * (a * l i * l j + ⅟2 * t * l i * V j + ⅟2 * V i * l j + φ * α * (Spec.kd i j - l i * l j))) *
      (N * (a * l j * l i + ⅟2 * t * l j * V i + ⅟2 * V j * l i + φ * α * (Spec.kd j i - l j * l i))) =
      N ^ 2 * (a ^ 2 * l i * l i + a * (⅟2 * t * l i * V i) + ⅟2 * t * l i * (⅟2 * l i * ∑ j, V j * V j) +
        φ * α * ⅟2 * t * l i * V i + ⅟2 * V i * (a * l i + ⅟2 * t * V i) + φ * α * (⅟2 * V i * l i) + (φ * α) ^ 2 * (Spec.kd i i - l i * l i)) := by
    intro i
    have d1 := kd_sum' l i
    have d2 := kd_sum l i
    have d3 := kd_sum' V i
    have d4 := kd_sum V i
    have d5 := kd_sum (fun j => (Spec.kd i j : A)) i
    simp only [Fin.sum_univ_three] at d1 d2 d3 d4 d5 hu hv ⊢
    linear_combination N ^ 2 * (a ^ 2 * l i * l i + a * l i * ⅟2 * t * V i + ⅟2 * V i * a * l i + ⅟2 ^ 2 * t * V i * V i) * hu +
      N ^ 2 * (a * l i * ⅟2 * l i + ⅟2 * t * l i * a * l i + ⅟2 ^ 2 * t ^ 2 * l i * V i + ⅟2 ^ 2 * V i * l i) * hv +
      N ^ 2 * φ * α * (a * l i * (d2 - l i * hu) + ⅟2 * t * l i * (d4 - l i * hv) + ⅟2 * V i * (d2 - l i * hu) +
        a * l i * (d1 - l i * hu) + ⅟2 * t * V i * (d1 - l i * hu) + ⅟2 * l i * (d3 - l i * hv)) +
      N ^ 2 * (φ * α) ^ 2 * (d5 - l i * d1 - l i * d2 + l i * l i * hu)
  have h3 := kd_trace (A := A)
  simp only [e2]
  generalize hZ : (∑ j, V j * V j) = Z
  simp only [Fin.sum_univ_three] at hu hv h3 hZ ⊢
  linear_combination N ^ 2 * (a ^ 2 + ⅟2 ^ 2 * t * Z - (φ * α) ^ 2) * hu + N ^ 2 * (a * ⅟2 * t + φ * α * ⅟2 * t + ⅟2 * a + φ * α * ⅟2) * hv +
    N ^ 2 * ⅟2 ^ 2 * t * hZ + N ^ 2 * (φ * α) ^ 2 * h3 + N ^ 2 * ⅟2 * t * Z * h2

/-- The Hamiltonian constraint. -/
theorem hamiltonian (h : Spec.KerrSchild C l α β φ t m) (hN : N ^ 2 = t) :
    Spec.trace h.metric (Spec.ricci C h.metric) + Spec.trace h.metric (Spec.ksK C l φ N) ^ 2 -
      Spec.square h.metric (Spec.ksK C l φ N) = 0 := by
  have ht := h.ht
  have h2 : (⅟2 : A) * 2 = 1 := invOf_mul_self 2
  have hpα : m * α = φ := h.phi.symm
  rw [h.scalar, h.k_trace, h.k_square]
  generalize (∑ i, V i * V i) = Z
  obtain ⟨p, hp⟩ : ∃ p, p = m * (β ^ 2 - α ^ 2) := ⟨_, rfl⟩
  rw [← hp, mul_pow, hN]
  linear_combination 2 * t ^ 2 * p * φ ^ 2 * α * h2 + 2 * p * α * φ * t * ht + 2 * α * φ * t * hp + 2 * φ * t * (β ^ 2 - α ^ 2) * hpα

/-- The metric does not depend on time: with the lapse `N` and the shift `φ t l` the Lie derivative of the metric is `2 N K`. -/
theorem stationary (h : Spec.KerrSchild C l α β φ t m) (hN : N ^ 2 = t) (a b : Fin 3) :
    -2 * N * Spec.ksK C l φ N a b + Spec.lie2 C (fun i => φ * t * l i) h.metric.g a b = 0 := by
  have hu := h.unit
  have ht := h.ht
  have h2 : (⅟2 : A) * 2 = 1 := invOf_mul_self 2
  have hu' : ∀ i, C.d i (φ * t) = t ^ 2 * C.d i φ := by
    intro i
    rw [C.mul, h.dt]
    linear_combination -t * C.d i φ * ht
  have hdl : ∀ i, ∑ k, l k * C.d i (l k) = 0 := by
    intro i
    have d1 := congrArg (fun x => ⅟2 * C.d i x) hu
    simp only [Fin.sum_univ_three, C.add, C.mul, C.one, mul_zero] at d1 ⊢
    linear_combination d1 - (l 0 * C.d i (l 0) + l 1 * C.d i (l 1) + l 2 * C.d i (l 2)) * h2
  have e1 : ∑ k, l k * C.d k (Spec.kd a b + φ * l a * l b) = (∑ c, l c * C.d c φ) * l a * l b := by
    have d1 := h.geodesic a
    have d2 := h.geodesic b
    simp only [C.add, calc_kd, C.mul]
    simp only [Fin.sum_univ_three] at d1 d2 ⊢
    linear_combination φ * l b * d1 + φ * l a * d2
  have e2 : ∀ a b, ∑ k, (Spec.kd k b + φ * l k * l b) * C.d a (φ * t * l k) = t * C.d a φ * l b + φ * t * C.d a (l b) := by
    intro a b
    have d1 := kd_sum l b
    have d2 := kd_sum (fun k => C.d a (l k)) b
    have d3 := hdl a
    simp only [C.mul _ (φ * t), hu']
    simp only [Fin.sum_univ_three] at d1 d2 d3 hu ⊢
    linear_combination t ^ 2 * C.d a φ * d1 + φ * t * d2 + φ * l b * t ^ 2 * C.d a φ * hu + φ * l b * φ * t * d3 + t * C.d a φ * l b * ht
  have e3 : Spec.lie2 C (fun i => φ * t * l i) h.metric.g a b = φ * t * (∑ k, l k * C.d k (Spec.kd a b + φ * l a * l b)) +
      (∑ k, (Spec.kd k b + φ * l k * l b) * C.d a (φ * t * l k)) + (∑ k, (Spec.kd k a + φ * l k * l a) * C.d b (φ * t * l k)) := by
    show ∑ k, (φ * t * l k * C.d k (Spec.kd a b + φ * l a * l b) + (Spec.kd k b + φ * l k * l b) * C.d a (φ * t * l k) +
      (Spec.kd a k + φ * l a * l k) * C.d b (φ * t * l k)) = _
    simp only [kd_symm a, Fin.sum_univ_three]
    ring
  rw [e3, e1, e2, e2, Spec.ksK]
  generalize (∑ c, l c * C.d c φ) = p
  linear_combination -(l a * C.d b φ + l b * C.d a φ + φ * (C.d a (l b) + C.d b (l a)) + φ * l a * l b * p) * (2 * ⅟2 * hN + t * h2)

/-- The momentum constraint, with the mixed components of the tensor. -/
theorem mom_mixed (C : Spec.Calculus A) (γ : Spec.Metric A) (T : Fin 3 → Fin 3 → A) (hT : ∀ a b, T a b = T b a) (a : Fin 3) :
    ∑ b, ∑ c, γ.inv b c * Spec.cov2 C γ (fun i j => T i j - γ.g i j * Spec.trace γ T) c a b =
      ∑ b, C.d b (∑ k, γ.inv b k * T k a) + ∑ b, (∑ c, Spec.christoffel C γ c b c) * (∑ k, γ.inv b k * T k a) -
        (∑ b, ∑ c, Spec.christoffel C γ c b a * (∑ k, γ.inv b k * T k c)) - C.d a (Spec.trace γ T) := by
  rw [momentum_eq, trace_deriv]
  unfold Spec.cov2
  simp only [C.sum, C.mul, inv_deriv_gamma]
  have e10 := hT 1 0
  have e20 := hT 2 0
  have e21 := hT 2 1
  simp only [Fin.sum_univ_three, γ.isymm 1 0, γ.isymm 2 0, γ.isymm 2 1, christoffel_symm C γ _ 1 0, christoffel_symm C γ _ 2 0, christoffel_symm C γ _ 2 1]
  fin_cases a <;> simp only [Fin.zero_eta, Fin.mk_one, Fin.reduceFinMk, e10, e20, e21, γ.isymm 1 0, γ.isymm 2 0, γ.isymm 2 1,
    christoffel_symm C γ _ 1 0, christoffel_symm C γ _ 2 0, christoffel_symm C γ _ 2 1] <;> ring

/-- The mixed extrinsic curvature divided by the lapse. -/
private def km (l : Fin 3 → A) (v : Fin 3 → A) (a t e : A) (i j : Fin 3) : A :=
  a * l i * l j + ⅟2 * t * l i * v j + ⅟2 * v i * l j + e * (Spec.kd i j - l i * l j)

/-- The derivative of `v` along `l`. -/
theorem v_l (h : Spec.KerrSchild C l α β φ t m) (a : Fin 3) : ∑ b, l b * C.d b (V a) = -(3 * α * V a) - 3 * β * ∑ c, W a c * V c := by
  have hu := h.unit
  obtain ⟨p, hp⟩ : ∃ p, p = m * (β ^ 2 - α ^ 2) := ⟨_, rfl⟩
  have hφ : ∀ i, C.d i φ = p * l i + V i := fun i => by rw [h.dphi, hp]
  have hφl : ∑ i, l i * C.d i φ = p := by rw [h.dphi_l, hp]
  have hdp : ∀ a, C.d a p = -(4 * m * α * β ^ 2 + 2 * α * p) * l a - 2 * β * (∑ c, W a c * V c) - 2 * α * V a := by
    intro a
    have := h.dp a
    rw [← hp] at this
    exact this
  have e0 : ∀ a b, C.d b (V a) = C.d a (C.d b φ) - C.d b p * l a - p * C.d b (l a) := by
    intro a b
    rw [C.comm a b, hφ a, C.add, C.mul]
    ring
  have e1 : ∑ b, l b * C.d a (C.d b φ) = C.d a p - ∑ b, C.d a (l b) * C.d b φ := by
    have := congrArg (C.d a) hφl
    simp only [Fin.sum_univ_three, C.add, C.mul] at this ⊢
    linear_combination this
  have e2 : ∑ b, C.d a (l b) * C.d b φ = α * V a + β * ∑ c, W a c * V c := by
    have hv := h.lv
    have d1 := kd_sum' l a
    have d2 := kd_sum' V a
    have d3 := cross_right l a
    simp only [h.dl, hφ]
    simp only [Fin.sum_univ_three] at d1 d2 d3 hu hv ⊢
    linear_combination α * p * d1 + α * d2 + β * p * d3 - α * l a * p * hu - α * l a * hv
  have e3 := h.geodesic a
  have e4 : ∑ b, l b * C.d b p = -(4 * m * α * β ^ 2 + 2 * α * p) := by
    have hv := h.lv
    have d0 := cross_left l 0
    have d1 := cross_left l 1
    have d2 := cross_left l 2
    simp only [hdp]
    simp only [Fin.sum_univ_three] at hu hv d0 d1 d2 ⊢
    linear_combination -(4 * m * α * β ^ 2 + 2 * α * p) * hu - 2 * α * hv - 2 * β * (V 0 * d0 + V 1 * d1 + V 2 * d2)
  have e5 := hdp a
  simp only [e0]
  simp only [Fin.sum_univ_three] at e1 e2 e3 e4 e5 ⊢
  linear_combination e1 - e2 - p * e3 - l a * e4 + e5

/-- The contraction of the Christoffel symbols with the mixed extrinsic curvature. -/
theorem gamma_k (h : Spec.KerrSchild C l α β φ t m) (x : A) (a : Fin 3) :
    ∑ b, ∑ c, Spec.christoffel C h.metric c b a * km l V x t (φ * α) b c =
      ⅟2 * t * (m * (β ^ 2 - α ^ 2)) * x * l a + ⅟2 * t * (x + φ * α) * V a + ⅟2 * φ * β * t * ∑ c, W a c * V c := by
  have hu := h.unit
  have hv := h.lv
  have e1 : ∀ b, ∑ c, Spec.christoffel C h.metric c b a * l c =
      ⅟2 * t * (m * (β ^ 2 - α ^ 2) * l b * l a + V b * l a + V a * l b) + φ * α * t * (Spec.kd b a - l b * l a) := by
    intro b
    have d1 := cross_right l a
    have d2 := cross_right l b
    simp only [h.gamma]
    simp only [Fin.sum_univ_three] at hu hv d1 d2 ⊢
    linear_combination (⅟2 * t * (m * (β ^ 2 - α ^ 2) * l b * l a + V b * l a + V a * l b) + φ * α * t * (Spec.kd b a - l b * l a)) * hu -
      ⅟2 * l a * l b * hv + φ * β * l a * d2 + φ * β * l b * d1
  have e2 : ∀ b, ∑ c, Spec.christoffel C h.metric c b a * V c =
      -(⅟2 * (∑ c, V c * V c) * l b * l a) + φ * β * (l a * (∑ c, W b c * V c) + l b * (∑ c, W a c * V c)) := by
    intro b
    simp only [h.gamma]
    simp only [Fin.sum_univ_three] at hv ⊢
    linear_combination (⅟2 * t * (m * (β ^ 2 - α ^ 2) * l b * l a + V b * l a + V a * l b) + φ * α * t * (Spec.kd b a - l b * l a)) * hv
  have e3 : ∀ b, ∑ c, Spec.christoffel C h.metric c b a * km l V x t (φ * α) b c =
      (x * l b + ⅟2 * V b - φ * α * l b) * (∑ c, Spec.christoffel C h.metric c b a * l c) +
        ⅟2 * t * l b * (∑ c, Spec.christoffel C h.metric c b a * V c) + φ * α * Spec.christoffel C h.metric b b a := by
    intro b
    have d1 := kd_sum' (fun c => Spec.christoffel C h.metric c b a) b
    unfold km
    simp only [Fin.sum_univ_three] at d1 ⊢
    linear_combination φ * α * d1
  have e4 : ∑ b, Spec.christoffel C h.metric b b a = ⅟2 * t * (m * (β ^ 2 - α ^ 2) * l a + V a) := by
    rw [← h.dphi, ← h.gamma_trace]
    exact sum_congr rfl fun b _ => christoffel_symm _ _ _ _ _
  have d0 := cross_left l 0
  have d1 := cross_left l 1
  have d2 := cross_left l 2
  have d3 := kd_sum l a
  have d4 := kd_sum V a
  simp only [e3, e1, e2]
  generalize hZ : (∑ c, V c * V c) = Z
  simp only [Fin.sum_univ_three] at hu hv d0 d1 d2 d3 d4 e4 hZ ⊢
  linear_combination (x - φ * α) * ⅟2 * t * ((m * (β ^ 2 - α ^ 2)) * l a + V a) * hu + (x - φ * α) * ⅟2 * t * l a * hv +
    (x - φ * α) * φ * α * t * (d3 - l a * hu) + ⅟2 * ⅟2 * t * ((m * (β ^ 2 - α ^ 2)) * l a + V a) * hv + ⅟2 * ⅟2 * t * l a * hZ +
    ⅟2 * φ * α * t * (d4 - l a * hv) - ⅟2 * t * ⅟2 * Z * l a * hu + ⅟2 * t * φ * β * l a * (V 0 * d0 + V 1 * d1 + V 2 * d2) +
    ⅟2 * t * φ * β * (W a 0 * V 0 + W a 1 * V 1 + W a 2 * V 2) * hu + φ * α * e4

/-- The divergence of the mixed extrinsic curvature. -/
theorem k_div (h : Spec.KerrSchild C l α β φ t m) (x : A) (a : Fin 3) :
    ∑ b, C.d b (km l V x t (φ * α) b a) = ((∑ b, l b * C.d b x) + 2 * α * x + ⅟2 * 4 * m * α * β ^ 2 - 2 * φ * α ^ 2) * l a +
      ⅟2 * (-(t ^ 2 * (m * (β ^ 2 - α ^ 2))) * V a + t * (∑ b, l b * C.d b (V a)) + 2 * α * t * V a) +
      ⅟2 * (α * V a - β * ∑ c, W a c * V c) + 2 * α * V a := by
  have hu := h.unit
  have hv := h.lv
  have hdiv := h.divergence
  have hdv := h.dv
  have hg := h.geodesic a
  have hφl := h.dphi_l
  have e0 : ∀ b, C.d b (φ * α) = 2 * α * C.d b φ := by
    intro b
    rw [C.mul, h.phi, C.mul, h.dm]
    ring
  have e1 : ∑ b, V b * C.d b (l a) = α * V a - β * ∑ c, W a c * V c := by
    have d1 := kd_sum V a
    simp only [h.dl, cross_symm l _ a]
    simp only [Fin.sum_univ_three] at d1 hv ⊢
    linear_combination α * d1 - α * l a * hv
  have e2 := kd_sum (fun b => C.d b φ) a
  have e3 := h.dphi a
  unfold km
  simp only [C.add, C.sub, C.mul _ _ (l _), C.mul _ _ (V _), C.mul _ _ (_ - _), C.half, h.dt, e0, calc_kd, C.mul _ ⅟2 t]
  simp only [Fin.sum_univ_three] at hu hv hdiv hdv hg hφl e1 e2 ⊢
  linear_combination l a * (x - φ * α) * hdiv + (x - φ * α) * hg + ⅟2 * t * V a * hdiv - ⅟2 * t ^ 2 * V a * hφl + ⅟2 * l a * hdv +
    ⅟2 * e1 + 2 * α * e2 + 2 * α * e3 - 2 * α * l a * hφl

/-- The momentum constraints. -/
theorem momentum (h : Spec.KerrSchild C l α β φ t m) (hN : N ^ 2 = t) (a : Fin 3) :
    ∑ b, ∑ c, h.metric.inv b c *
      Spec.cov2 C h.metric (fun i j => Spec.ksK C l φ N i j - h.metric.g i j * Spec.trace h.metric (Spec.ksK C l φ N)) c a b = 0 := by
  have ht := h.ht
  have h2 : (⅟2 : A) * 2 = 1 := invOf_mul_self 2
  have hdN : ∀ i, C.d i N = -(⅟2 * t * N * C.d i φ) := by
    intro i
    have d1 := congrArg (C.d i) hN
    rw [pow_two, C.mul, h.dt] at d1
    linear_combination ⅟2 * N * (1 + φ) * d1 - ⅟2 * t * N * C.d i φ * ht - C.d i N * (2 * ⅟2 * (1 + φ) * hN + 2 * ⅟2 * ht + h2)
  rw [mom_mixed C h.metric _ k_symm]
  simp only [h.k_mixed, h.k_trace, h.gamma_trace]
  obtain ⟨p, hp⟩ : ∃ p, p = m * (β ^ 2 - α ^ 2) := ⟨_, rfl⟩
  obtain ⟨x, hx⟩ : ∃ x, x = t * p * (1 + ⅟2 * φ) := ⟨_, rfl⟩
  rw [← hp, ← hx]
  have k1 : ∀ i j, x * l i * l j + ⅟2 * t * l i * V j + ⅟2 * V i * l j + φ * α * (Spec.kd i j - l i * l j) = km l V x t (φ * α) i j :=
    fun _ _ => rfl
  simp only [k1]
  have e1 := h.gamma_k x a
  have e2 := h.k_div x a
  rw [h.v_l a] at e2
  rw [← hp] at e1 e2
  have hdp : ∀ a, C.d a p = -(4 * m * α * β ^ 2 + 2 * α * p) * l a - 2 * β * (∑ c, W a c * V c) - 2 * α * V a := by
    intro a
    have := h.dp a
    rw [← hp] at this
    exact this
  have hdx : ∀ a, C.d a x = (-(t ^ 2 * p) * (1 + ⅟2 * φ) + ⅟2 * t * p) * C.d a φ + t * (1 + ⅟2 * φ) * C.d a p := by
    intro a
    rw [hx, C.mul, C.mul, C.add, C.mul, C.one, C.half, h.dt]
    ring
  have hu := h.unit
  have hv := h.lv
  have hpα : m * α = φ := h.phi.symm
  have hφl : ∑ i, l i * C.d i φ = p := by rw [h.dphi_l, hp]
  have hφ : C.d a φ = p * l a + V a := by rw [h.dphi, hp]
  have e3 : ∑ b, l b * C.d b p = -(4 * m * α * β ^ 2 + 2 * α * p) := by
    have d0 := cross_left l 0
    have d1 := cross_left l 1
    have d2 := cross_left l 2
    simp only [hdp]
    simp only [Fin.sum_univ_three] at hu hv d0 d1 d2 ⊢
    linear_combination -(4 * m * α * β ^ 2 + 2 * α * p) * hu - 2 * α * hv - 2 * β * (V 0 * d0 + V 1 * d1 + V 2 * d2)
  have e4 : ∑ b, l b * C.d b x = (-(t ^ 2 * p) * (1 + ⅟2 * φ) + ⅟2 * t * p) * p - t * (1 + ⅟2 * φ) * (4 * m * α * β ^ 2 + 2 * α * p) := by
    simp only [hdx]
    simp only [Fin.sum_univ_three] at hφl e3 ⊢
    linear_combination (-(t ^ 2 * p) * (1 + ⅟2 * φ) + ⅟2 * t * p) * hφl + t * (1 + ⅟2 * φ) * e3
  have e5 : C.d a (N * (x + 2 * φ * α)) = N * (C.d a x + 4 * α * C.d a φ - ⅟2 * t * (x + 2 * φ * α) * C.d a φ) := by
    have d1 : C.d a (2 * φ * α) = 4 * α * C.d a φ := by
      rw [mul_assoc, Spec.Congruence.two_d, C.mul, h.phi, C.mul, h.dm]
      ring
    rw [C.mul, C.add, d1, hdN]
    ring
  have e6 : ∑ b, C.d b (N * km l V x t (φ * α) b a) + ∑ b, ⅟2 * t * C.d b φ * (N * km l V x t (φ * α) b a) =
      N * ∑ b, C.d b (km l V x t (φ * α) b a) := by
    simp only [C.mul _ N, hdN]
    simp only [Fin.sum_univ_three]
    ring
  have e7 : ∑ b, ∑ c, Spec.christoffel C h.metric c b a * (N * km l V x t (φ * α) b c) =
      N * ∑ b, ∑ c, Spec.christoffel C h.metric c b a * km l V x t (φ * α) b c := by
    simp only [mul_sum]
    exact sum_congr rfl fun b _ => sum_congr rfl fun c _ => by ring
  rw [e5, e6, e7, e1, e2, e4, hdx, hdp, hφ]
  generalize (∑ c, W a c * V c) = w
  linear_combination N * l a * (2 * α * hx + (2 * α * t * p * φ + 2 * m * α * β ^ 2) * h2 + 2 * α * p * ht - 2 * α * hp + 2 * α ^ 2 * hpα) +
    N * V a * ((-(t ^ 2 * p) - 2 * α * t + 2 * α) * h2 + (⅟2 * t * p + 3 * ⅟2 * α) * ht) + N * w * (⅟2 * β * ht - 2 * β * t * h2)

/-- The trace of the extrinsic curvature does not depend on time. -/
theorem trace_stationary (h : Spec.KerrSchild C l α β φ t m) (hN : N ^ 2 = t) :
    -Spec.trace h.metric (Spec.hessian C h.metric N) + N * (Spec.trace h.metric (Spec.ricci C h.metric) +
      Spec.trace h.metric (Spec.ksK C l φ N) ^ 2) + ∑ i, φ * t * l i * C.d i (Spec.trace h.metric (Spec.ksK C l φ N)) = 0 := by
  have ht := h.ht
  have hu := h.unit
  have hv := h.lv
  have h2 : (⅟2 : A) * 2 = 1 := invOf_mul_self 2
  have hham := h.hamiltonian hN
  rw [show Spec.trace h.metric (Spec.ricci C h.metric) + Spec.trace h.metric (Spec.ksK C l φ N) ^ 2 = Spec.square h.metric (Spec.ksK C l φ N) by
    linear_combination hham, h.k_square]
  simp only [h.k_trace]
  have hdN : ∀ i, C.d i N = -(⅟2 * t * N * C.d i φ) := by
    intro i
    have d1 := congrArg (C.d i) hN
    rw [pow_two, C.mul, h.dt] at d1
    linear_combination ⅟2 * N * (1 + φ) * d1 - ⅟2 * t * N * C.d i φ * ht - C.d i N * (2 * ⅟2 * (1 + φ) * hN + 2 * ⅟2 * ht + h2)
  obtain ⟨p, hp⟩ : ∃ p, p = m * (β ^ 2 - α ^ 2) := ⟨_, rfl⟩
  obtain ⟨x, hx⟩ : ∃ x, x = t * p * (1 + ⅟2 * φ) := ⟨_, rfl⟩
  have hφ : ∀ i, C.d i φ = p * l i + V i := fun i => by rw [h.dphi, hp]
  have hφl : ∑ i, l i * C.d i φ = p := by rw [h.dphi_l, hp]
  have hdp : ∀ a, C.d a p = -(4 * m * α * β ^ 2 + 2 * α * p) * l a - 2 * β * (∑ c, W a c * V c) - 2 * α * V a := by
    intro a
    have := h.dp a
    rw [← hp] at this
    exact this
  have hdx : ∀ a, C.d a x = (-(t ^ 2 * p) * (1 + ⅟2 * φ) + ⅟2 * t * p) * C.d a φ + t * (1 + ⅟2 * φ) * C.d a p := by
    intro a
    rw [hx, C.mul, C.mul, C.add, C.mul, C.one, C.half, h.dt]
    ring
  have e3 : ∑ b, l b * C.d b p = -(4 * m * α * β ^ 2 + 2 * α * p) := by
    have d0 := cross_left l 0
    have d1 := cross_left l 1
    have d2 := cross_left l 2
    simp only [hdp]
    simp only [Fin.sum_univ_three] at hu hv d0 d1 d2 ⊢
    linear_combination -(4 * m * α * β ^ 2 + 2 * α * p) * hu - 2 * α * hv - 2 * β * (V 0 * d0 + V 1 * d1 + V 2 * d2)
  have e4 : ∑ b, l b * C.d b x = (-(t ^ 2 * p) * (1 + ⅟2 * φ) + ⅟2 * t * p) * p - t * (1 + ⅟2 * φ) * (4 * m * α * β ^ 2 + 2 * α * p) := by
    simp only [hdx]
    simp only [Fin.sum_univ_three] at hφl e3 ⊢
    linear_combination (-(t ^ 2 * p) * (1 + ⅟2 * φ) + ⅟2 * t * p) * hφl + t * (1 + ⅟2 * φ) * e3
  have e5 : ∀ a, C.d a (N * (x + 2 * φ * α)) = N * (C.d a x + 4 * α * C.d a φ - ⅟2 * t * (x + 2 * φ * α) * C.d a φ) := by
    intro a
    have d1 : C.d a (2 * φ * α) = 4 * α * C.d a φ := by
      rw [mul_assoc, Spec.Congruence.two_d, C.mul, h.phi, C.mul, h.dm]
      ring
    rw [C.mul, C.add, d1, hdN]
    ring
  have e6 : ∑ i, φ * t * l i * C.d i (N * (x + 2 * φ * α)) = φ * t * N * ((-(t ^ 2 * p) * (1 + ⅟2 * φ) + ⅟2 * t * p) * p -
      t * (1 + ⅟2 * φ) * (4 * m * α * β ^ 2 + 2 * α * p) + 4 * α * p - ⅟2 * t * (x + 2 * φ * α) * p) := by
    simp only [e5]
    simp only [Fin.sum_univ_three] at e4 hφl ⊢
    linear_combination φ * t * N * e4 + φ * t * N * (4 * α - ⅟2 * t * (x + 2 * φ * α)) * hφl
  rw [← hp, ← hx, e6]
  have b1 : ∑ i, ∑ j, h.metric.inv i j * (C.d i φ * C.d j φ) = p ^ 2 * t + ∑ i, V i * V i := by
    show ∑ i, ∑ j, (Spec.kd i j - φ * t * l i * l j) * (C.d i φ * C.d j φ) = _
    have c1 : ∀ i, ∑ j, (Spec.kd i j - φ * t * l i * l j) * (C.d i φ * C.d j φ) = C.d i φ * (C.d i φ - φ * t * l i * p) := by
      intro i
      have c2 := kd_sum' (fun j => C.d j φ) i
      simp only [Fin.sum_univ_three] at c2 hφl ⊢
      linear_combination C.d i φ * c2 - C.d i φ * φ * t * l i * hφl
    simp only [c1]
    simp only [Fin.sum_univ_three, hφ] at hφl hu hv ⊢
    linear_combination p ^ 2 * hu + 2 * p * hv - φ * t * p * hφl - p ^ 2 * ht
  have b2 : ∑ i, ∑ j, h.metric.inv i j * C.d j (C.d i φ) = t * (∑ k, l k * C.d k p) + 2 * α * p + 4 * m * α * β ^ 2 := by
    have hdiv := h.divergence
    have hdv := h.dv
    have c1 : ∑ i, C.d i (C.d i φ) = (∑ k, l k * C.d k p) + 2 * α * p + 4 * m * α * β ^ 2 := by
      simp only [hφ, C.add, C.mul]
      simp only [Fin.sum_univ_three] at hdiv hdv ⊢
      linear_combination p * hdiv + hdv
    have c2 : ∑ j, l j * ∑ i, l i * C.d j (C.d i φ) = ∑ k, l k * C.d k p := by
      have d1 : ∀ j, C.d j p = ∑ i, (C.d j (l i) * C.d i φ + l i * C.d j (C.d i φ)) := by
        intro j
        rw [← hφl, C.sum]
        exact sum_congr rfl fun i _ => C.mul _ _ _
      have d2 := h.geodesic
      simp only [d1]
      simp only [Fin.sum_univ_three] at d2 ⊢
      linear_combination -C.d 0 φ * d2 0 - C.d 1 φ * d2 1 - C.d 2 φ * d2 2
    show ∑ i, ∑ j, (Spec.kd i j - φ * t * l i * l j) * C.d j (C.d i φ) = _
    have c3 : ∀ i, ∑ j, (Spec.kd i j - φ * t * l i * l j) * C.d j (C.d i φ) = C.d i (C.d i φ) - φ * t * l i * ∑ j, l j * C.d j (C.d i φ) := by
      intro i
      have c2 := kd_sum' (fun j => C.d j (C.d i φ)) i
      simp only [Fin.sum_univ_three] at c2 ⊢
      linear_combination c2
    simp only [c3]
    simp only [Fin.sum_univ_three] at c1 c2 ⊢
    linear_combination c1 - φ * t * c2 - (l 0 * C.d 0 p + l 1 * C.d 1 p + l 2 * C.d 2 p) * ht
  have b3 : ∑ k, Spec.contracted C h.metric k * C.d k φ = (⅟2 * t ^ 2 * p + 2 * φ * α * t) * p - ⅟2 * t * ∑ i, V i * V i := by
    simp only [h.gamma_contr, ← hp]
    simp only [Fin.sum_univ_three, hφ] at hφl hv ⊢
    linear_combination (⅟2 * t ^ 2 * p + 2 * φ * α * t) * hφl - ⅟2 * t * p * hv
  have b4 : Spec.trace h.metric (Spec.hessian C h.metric N) = N * (3 * ⅟2 ^ 2 * t ^ 2 * (p ^ 2 * t + ∑ i, V i * V i) -
      ⅟2 * t * (t * (∑ k, l k * C.d k p) + 2 * α * p + 4 * m * α * β ^ 2) +
      ⅟2 * t * ((⅟2 * t ^ 2 * p + 2 * φ * α * t) * p - ⅟2 * t * ∑ i, V i * V i)) := by
    have c1 : ∀ i j, C.d i (C.d j N) = N * ((⅟2 + ⅟2 ^ 2) * t ^ 2 * (C.d i φ * C.d j φ) - ⅟2 * t * C.d j (C.d i φ)) := by
      intro i j
      rw [hdN j, C.neg, C.mul, C.mul, C.mul, C.half, h.dt, hdN i, C.comm i j]
      ring
    have c2 : Spec.trace h.metric (Spec.hessian C h.metric N) = (∑ i, ∑ j, h.metric.inv i j * C.d i (C.d j N)) -
        ∑ k, Spec.contracted C h.metric k * C.d k N := by
      unfold Spec.trace Spec.hessian Spec.contracted
      simp only [Fin.sum_univ_three]
      ring
    rw [c2]
    simp only [c1]
    simp only [hdN]
    simp only [Fin.sum_univ_three] at b1 b2 b3 ⊢
    linear_combination N * (⅟2 + ⅟2 ^ 2) * t ^ 2 * b1 - N * ⅟2 * t * b2 + ⅟2 * t * N * b3 - N * ⅟2 * t ^ 2 * (p ^ 2 * t + (V 0 * V 0 + V 1 * V 1 + V 2 * V 2)) * h2
  rw [b4, e3]
  generalize (∑ i, V i * V i) = Z
  have hx' : x = p * (t + ⅟2 * (1 - t)) := by
    rw [hx]
    linear_combination ⅟2 * p * ht
  have hft : φ * t = 1 - t := by linear_combination ht
  have hy : t * (1 + ⅟2 * φ) = t + ⅟2 * (1 - t) := by linear_combination ⅟2 * ht
  clear * - h2 hN hp hx' hft hy h
  have hm := h.phi
  linear_combination N * (x ^ 2 + ⅟2 * t * Z + 2 * φ ^ 2 * α ^ 2) * hN + N * t * (x + p * (t + ⅟2 * (1 - t))) * hx' +
    N * ((-(t ^ 2 * p) * (1 + ⅟2 * φ) + ⅟2 * t * p) * p - t * (1 + ⅟2 * φ) * (4 * m * α * β ^ 2 + 2 * α * p) + 4 * α * p -
      ⅟2 * t * (x + 2 * φ * α) * p) * hft +
    N * (1 - t) * (-t * p ^ 2 - (4 * m * α * β ^ 2 + 2 * α * p)) * hy - N * (1 - t) * ⅟2 * t * p * hx' -
    N * (1 - t) * 2 * ⅟2 * α * p * hft - N * ⅟2 * 2 * α * p * t * hft + 2 * N * φ * α ^ 2 * hft + 2 * N * (1 - t) * α ^ 2 * hm +
    2 * N * (1 - t) * α * hp +
    ((-2) * N * p ^ 2 * t ^ 3 + N * p ^ 2 * t ^ 2 + 6 * N * m * t * α * β ^ 2 - 4 * N * m * t ^ 2 * α * β ^ 2 + 4 * N * p * t * α -
      2 * N * p * t ^ 2 * α - 2 * N * p * α - 2 * N * m * α * β ^ 2 - 2 * N * p ^ 2 * t ^ 3 * ⅟2 - N * Z * t ^ 2 * ⅟2) * h2

end Spec.KerrSchild
end Sgrid
