import Verif.Props.Congruence

/-!
# Kerr-Schild metrics

The metric `δ_{ij} + φ l_i l_j` with a congruence `l` of Kerr-Schild type and `φ = m α`: Christoffel symbols and scalar curvature.
-/

namespace Sgrid
open Finset

variable {A : Type} [CommRing A]

/-- What is needed for the metric `δ_{ij} + φ l_i l_j`: `φ` is the constant `m` times the expansion `α`, and `t = 1/(1 + φ)`. -/
structure Spec.KerrSchild (C : Spec.Calculus A) (l : Fin 3 → A) (α β φ t m : A) : Prop extends Spec.Congruence C l α β where
  phi : φ = m * α
  dm : ∀ i, C.d i m = 0
  ht : t * (1 + φ) = 1

/-- The metric `δ_{ij} + φ l_i l_j` with the inverse `δ_{ij} - φ/(1 + φ) l_i l_j`. -/
def Spec.ksMetric (l : Fin 3 → A) (φ t : A) (hu : ∑ i, l i * l i = 1) (ht : t * (1 + φ) = 1) : Spec.Metric A where
  g := fun i j => Spec.kd i j + φ * l i * l j
  inv := fun i j => Spec.kd i j - φ * t * l i * l j
  symm := fun i j => by rw [kd_symm]; ring
  isymm := fun i j => by rw [kd_symm]; ring
  mul_inv := fun i k => by
    have h1 := kd_sum' (fun j => (Spec.kd j k : A)) i
    have h2 := kd_sum' l i
    have h3 := kd_sum (fun j => l j) k
    show _ = (Spec.kd i k : A)
    simp only [Fin.sum_univ_three] at h1 h2 h3 hu ⊢
    linear_combination h1 - φ * t * l k * h2 + φ * l i * h3 - φ ^ 2 * t * l i * l k * hu - φ * l i * l k * ht

namespace Spec.KerrSchild
variable {C : Spec.Calculus A} {l : Fin 3 → A} {α β φ t m : A}

/-- The metric. -/
abbrev metric (h : Spec.KerrSchild C l α β φ t m) : Spec.Metric A := Spec.ksMetric l φ t h.unit h.ht

/-- The part of the gradient of `φ` that is orthogonal to `l`. -/
def v (C : Spec.Calculus A) (l : Fin 3 → A) (β m : A) (i : Fin 3) : A := m * ∑ j, Spec.crossMat l i j * C.d j β

local notation "V" => v C l β m
local notation "W" => Spec.crossMat l

theorem lv (h : Spec.KerrSchild C l α β φ t m) : ∑ i, l i * V i = 0 := by
  have h1 := cross_left l
  unfold v
  simp only [Fin.sum_univ_three] at h1 ⊢
  linear_combination m * C.d 0 β * h1 0 + m * C.d 1 β * h1 1 + m * C.d 2 β * h1 2

theorem dt (h : Spec.KerrSchild C l α β φ t m) (i : Fin 3) : C.d i t = -(t ^ 2 * C.d i φ) := by
  have h1 := congrArg (C.d i) h.ht
  rw [C.mul, C.add, C.one] at h1
  linear_combination t * h1 - C.d i t * h.ht

variable [Invertible (2 : A)]

theorem dphi (h : Spec.KerrSchild C l α β φ t m) (i : Fin 3) : C.d i φ = m * (β ^ 2 - α ^ 2) * l i + V i := by
  rw [h.phi, C.mul, h.dm, h.alpha_grad]
  unfold v
  ring

theorem dv (h : Spec.KerrSchild C l α β φ t m) : ∑ i, C.d i (V i) = 4 * m * α * β ^ 2 := by
  have h1 := h.curl
  have h2 := h.beta_l
  unfold v
  simp only [C.mul, h.dm, C.sum]
  have h3 : ∀ i j, C.d i (W j i) = -C.d i (W i j) := fun i j => by rw [cross_symm l j i, C.neg]
  have h4 : ∑ i, ∑ j, W i j * C.d i (C.d j β) = 0 := by
    simp only [Fin.sum_univ_three, cross_diag, cross_symm l 1 0, cross_symm l 2 0, cross_symm l 2 1, C.comm 1 0 β, C.comm 2 0 β,
      C.comm 2 1 β]
    ring
  simp only [h3] at h1
  simp only [Fin.sum_univ_three] at h1 h2 h4 ⊢
  linear_combination m * h4 - m * C.d 0 β * h1 0 - m * C.d 1 β * h1 1 - m * C.d 2 β * h1 2 - 2 * m * β * h2

/-- The Christoffel symbols with lower indices. -/
theorem low (h : Spec.KerrSchild C l α β φ t m) (k i j : Fin 3) : Spec.christoffelLow C h.metric k i j =
    ⅟2 * (m * (β ^ 2 - α ^ 2) * l i * l j * l k + (V i * l j + V j * l i) * l k - V k * l i * l j) +
      φ * α * (Spec.kd i j - l i * l j) * l k + φ * β * (l j * W i k + l i * W j k) := by
  show ⅟2 * (C.d i (Spec.kd j k + φ * l j * l k) + C.d j (Spec.kd i k + φ * l i * l k) - C.d k (Spec.kd i j + φ * l i * l j)) = _
  simp only [C.add, C.mul, calc_kd, h.dphi, h.dl]
  rw [cross_symm l j i, cross_symm l k i, cross_symm l k j, kd_symm j i, kd_symm k i, kd_symm k j]
  linear_combination (φ * α * (Spec.kd i j - l i * l j) * l k + φ * β * (l j * W i k + l i * W j k)) * (invOf_mul_self (2 : A))

/-- The Christoffel symbols. -/
theorem gamma (h : Spec.KerrSchild C l α β φ t m) (k i j : Fin 3) : Spec.christoffel C h.metric k i j =
    ⅟2 * t * (m * (β ^ 2 - α ^ 2)) * l k * l i * l j + ⅟2 * t * l k * (V i * l j + V j * l i) - ⅟2 * V k * l i * l j +
      φ * α * t * (Spec.kd i j - l i * l j) * l k + φ * β * (l j * W i k + l i * W j k) := by
  unfold Spec.christoffel
  have h1 := kd_sum' (fun d => Spec.christoffelLow C h.metric d i j) k
  have h2 : ∑ d, l d * Spec.christoffelLow C h.metric d i j =
      ⅟2 * (m * (β ^ 2 - α ^ 2) * l i * l j + (V i * l j + V j * l i)) + φ * α * (Spec.kd i j - l i * l j) := by
    have hu := h.unit
    have hv := h.lv
    have e1 := cross_right l i
    have e2 := cross_right l j
    simp only [h.low]
    simp only [Fin.sum_univ_three] at hu hv e1 e2 ⊢
    linear_combination (⅟2 * (m * (β ^ 2 - α ^ 2) * l i * l j + (V i * l j + V j * l i)) + φ * α * (Spec.kd i j - l i * l j)) * hu -
      ⅟2 * l i * l j * hv + φ * β * l j * e1 + φ * β * l i * e2
  have h3 := h.low k i j
  have h4 := h.ht
  rw [show (∑ d, h.metric.inv k d * Spec.christoffelLow C h.metric d i j) =
    ∑ d, (Spec.kd k d - φ * t * l k * l d) * Spec.christoffelLow C h.metric d i j from rfl]
  simp only [Fin.sum_univ_three] at h1 h2 ⊢
  linear_combination h1 + h3 - φ * t * l k * h2 + l k * (⅟2 * (m * (β ^ 2 - α ^ 2) * l i * l j + (V i * l j + V j * l i)) +
    φ * α * (Spec.kd i j - l i * l j)) * (-h4)

/-- `Γ^k_{ik}`. -/
theorem gamma_trace (h : Spec.KerrSchild C l α β φ t m) (i : Fin 3) : ∑ k, Spec.christoffel C h.metric k i k = ⅟2 * t * C.d i φ := by
  have hu := h.unit
  have hv := h.lv
  have e1 := cross_right l i
  have e2 := kd_sum' l i
  rw [h.dphi]
  simp only [h.gamma]
  simp only [Fin.sum_univ_three, cross_diag] at hu hv e1 e2 ⊢
  linear_combination (⅟2 * t * (m * (β ^ 2 - α ^ 2)) * l i + ⅟2 * t * V i - φ * α * t * l i) * hu + (⅟2 * t * l i - ⅟2 * l i) * hv +
    φ * α * t * e2 + φ * β * e1

/-- `γ^{ij} Γ^k_{ij}`. -/
theorem gamma_contr (h : Spec.KerrSchild C l α β φ t m) (k : Fin 3) : Spec.contracted C h.metric k =
    (⅟2 * t ^ 2 * (m * (β ^ 2 - α ^ 2)) + 2 * φ * α * t) * l k - ⅟2 * t * V k := by
  have hu := h.unit
  have hv := h.lv
  have ht := h.ht
  have e1 := cross_left l k
  have e2 := kd_trace (A := A)
  have e3 : ∀ i, ∑ j, Spec.kd i j * l j = l i := fun i => kd_sum' l i
  have h1 : ∀ i, ∑ j, h.metric.inv i j * Spec.christoffel C h.metric k i j = ∑ j, Spec.kd i j * Spec.christoffel C h.metric k i j -
      φ * t * l i * ∑ j, l j * Spec.christoffel C h.metric k i j := by
    intro i
    show ∑ j, (Spec.kd i j - φ * t * l i * l j) * Spec.christoffel C h.metric k i j = _
    simp only [Fin.sum_univ_three]
    ring
  have h2 : ∀ i, ∑ j, l j * Spec.christoffel C h.metric k i j = ⅟2 * t * (m * (β ^ 2 - α ^ 2)) * l k * l i + ⅟2 * t * l k * V i -
      ⅟2 * V k * l i + φ * β * W i k := by
    intro i
    have e3 := e3 i
    simp only [h.gamma]
    simp only [Fin.sum_univ_three] at hu hv e1 e3 ⊢
    linear_combination (⅟2 * t * (m * (β ^ 2 - α ^ 2)) * l k * l i + ⅟2 * t * l k * V i - ⅟2 * V k * l i - φ * α * t * l i * l k +
      φ * β * W i k) * hu + ⅟2 * t * l k * l i * hv + φ * α * t * l k * e3 + φ * β * l i * e1
  have h3 : ∑ i, ∑ j, Spec.kd i j * Spec.christoffel C h.metric k i j = ∑ i, Spec.christoffel C h.metric k i i :=
    sum_congr rfl fun i _ => kd_sum' (fun j => Spec.christoffel C h.metric k i j) i
  unfold Spec.contracted
  simp only [h1, h2]
  rw [sum_sub_distrib, h3]
  simp only [h.gamma]
  simp only [Fin.sum_univ_three] at hu hv e1 e2 ⊢
  linear_combination (⅟2 * t * (m * (β ^ 2 - α ^ 2)) * l k - ⅟2 * V k - φ * α * t * l k - φ * t * (⅟2 * t * (m * (β ^ 2 - α ^ 2)) * l k -
    ⅟2 * V k)) * hu + (2 * ⅟2 * t * l k - φ * t * (⅟2 * t * l k)) * hv + φ * α * t * l k * e2 + (2 * φ * β - φ ^ 2 * t * β) * e1 -
    (⅟2 * t * (m * (β ^ 2 - α ^ 2)) * l k - ⅟2 * V k) * ht

/-- `γ^{jm} Γ^i_{km} Γ^k_{ij}`. -/
theorem gamma_gamma (h : Spec.KerrSchild C l α β φ t m) :
    ∑ j, ∑ n, h.metric.inv j n * ∑ i, ∑ k, Spec.christoffel C h.metric i k n * Spec.christoffel C h.metric k i j =
      ⅟2 ^ 2 * t ^ 3 * (m * (β ^ 2 - α ^ 2)) ^ 2 - ⅟2 ^ 2 * t ^ 2 * ∑ i, V i * V i - 2 * φ ^ 2 * β ^ 2 * t := by
  have hu := h.unit
  have hv := h.lv
  have ht := h.ht
  have e1 := cross_left l
  have e2 := cross_right l
  set p := m * (β ^ 2 - α ^ 2) with hp
  obtain ⟨E, hE⟩ : ∃ E : Fin 3 → Fin 3 → A, ∀ i k, E i k = ⅟2 * t * p * l i * l k + ⅟2 * t * l i * V k - ⅟2 * V i * l k + φ * β * W k i :=
    ⟨_, fun _ _ => rfl⟩
  obtain ⟨P, hP⟩ : ∃ P : Fin 3 → Fin 3 → A, ∀ i k, P i k = Spec.kd i k - l i * l k := ⟨_, fun _ _ => rfl⟩
  obtain ⟨F, hF⟩ : ∃ F : Fin 3 → Fin 3 → Fin 3 → A, ∀ i k n, F i k n = ⅟2 * t * V n * l i * l k + φ * α * t * l i * P k n + φ * β * W n i * l k :=
    ⟨_, fun _ _ _ => rfl⟩
  have hP1 : ∀ n, ∑ i, l i * P i n = 0 := by
    intro n
    have e := kd_sum l n
    simp only [hP]
    simp only [Fin.sum_univ_three] at hu e ⊢
    linear_combination e - l n * hu
  have hP2 : ∀ i n, P i n = P n i := fun i n => by rw [hP, hP, kd_symm]; ring
  have hN : ∀ i k n, Spec.christoffel C h.metric i k n = E i k * l n + F i k n := by
    intro i k n
    rw [h.gamma, hE, hF, hP]
    ring
  have hFl : ∀ i k, ∑ n, l n * F i k n = 0 := by
    intro i k
    have e3 := hP1 k
    have e4 := e1 i
    simp only [hF, hP2 k]
    simp only [Fin.sum_univ_three] at hv e3 e4 ⊢
    linear_combination ⅟2 * t * l i * l k * hv + φ * α * t * l i * e3 + φ * β * l k * e4
  have hEE : ∑ i, ∑ k, E i k * E k i = ⅟2 ^ 2 * t ^ 2 * p ^ 2 - 2 * ⅟2 ^ 2 * t * ∑ i, V i * V i - 2 * φ ^ 2 * β ^ 2 := by
    have e3 : ∑ i, ∑ k, W k i * W i k = -2 := by
      have q : ∀ i, ∑ k, W k i * W i k = -(Spec.kd i i - l i * l i) := by
        intro i
        rw [← h.cross_sq i i, ← sum_neg_distrib]
        exact sum_congr rfl fun k _ => by rw [cross_symm l k i]; ring
      have q2 := kd_trace (A := A)
      simp only [q]
      simp only [Fin.sum_univ_three] at hu q2 ⊢
      linear_combination hu - q2
    simp only [hE]
    simp only [Fin.sum_univ_three] at hu hv e1 e2 e3 ⊢
    linear_combination (⅟2 ^ 2 * t ^ 2 * p ^ 2 * (l 0 * l 0 + l 1 * l 1 + l 2 * l 2 + 1) -
        2 * ⅟2 ^ 2 * t * (V 0 * V 0 + V 1 * V 1 + V 2 * V 2)) * hu +
      (2 * ⅟2 * t * p * (⅟2 * t - ⅟2) * (l 0 * l 0 + l 1 * l 1 + l 2 * l 2) +
        (⅟2 ^ 2 * t ^ 2 + ⅟2 ^ 2) * (l 0 * V 0 + l 1 * V 1 + l 2 * V 2)) * hv +
      2 * φ * β * (⅟2 * t * p) * (l 0 * e1 0 + l 1 * e1 1 + l 2 * e1 2) +
      2 * φ * β * (⅟2 * t) * (V 0 * e1 0 + V 1 * e1 1 + V 2 * e1 2) -
      2 * φ * β * ⅟2 * (V 0 * e2 0 + V 1 * e2 1 + V 2 * e2 2) + φ ^ 2 * β ^ 2 * e3
  have hFF : ∑ n, ∑ i, ∑ k, F i k n * F k i n = ⅟2 ^ 2 * t ^ 2 * ∑ i, V i * V i := by
    have q1 : ∀ n, ∑ i, ∑ k, F i k n * F k i n = ⅟2 ^ 2 * t ^ 2 * (V n * V n) + 2 * (φ * α * t) * (φ * β) * ∑ k, P k n * W n k := by
      intro n
      have e3 := hP1 n
      have e4 : ∑ i, W n i * l i = 0 := e2 n
      simp only [hF]
      simp only [Fin.sum_univ_three] at hu e3 e4 ⊢
      linear_combination ⅟2 ^ 2 * t ^ 2 * (V n * V n) * (l 0 * l 0 + l 1 * l 1 + l 2 * l 2 + 1) * hu +
        2 * (φ * α * t) * (φ * β) * (P 0 n * W n 0 + P 1 n * W n 1 + P 2 n * W n 2) * hu +
        2 * (⅟2 * t * V n) * (φ * α * t) * (l 0 * l 0 + l 1 * l 1 + l 2 * l 2) * e3 +
        2 * (⅟2 * t * V n) * (φ * β) * (l 0 * l 0 + l 1 * l 1 + l 2 * l 2) * e4 +
        (φ * α * t) ^ 2 * (l 0 * P 0 n + l 1 * P 1 n + l 2 * P 2 n) * e3 +
        (φ * β) ^ 2 * (W n 0 * l 0 + W n 1 * l 1 + W n 2 * l 2) * e4
    have q2 : ∑ n, ∑ k, P k n * W n k = 0 := by
      simp only [Fin.sum_univ_three, cross_diag, cross_symm l 1 0, cross_symm l 2 0, cross_symm l 2 1, hP2 1 0, hP2 2 0, hP2 2 1]
      ring
    simp only [q1, sum_add_distrib, ← mul_sum]
    rw [q2]
    ring
  have hinv : ∀ j n, h.metric.inv j n = Spec.kd j n - φ * t * l j * l n := fun _ _ => rfl
  have s1 : ∀ f : Fin 3 → Fin 3 → A, ∑ j, ∑ n, Spec.kd j n * f j n = ∑ n, f n n := by
    intro f
    rw [sum_comm]
    exact sum_congr rfl fun n _ => kd_sum (fun j => f j n) n
  have s2 : ∑ n, ∑ i, ∑ k, Spec.christoffel C h.metric i k n * Spec.christoffel C h.metric k i n =
      ∑ i, ∑ k, E i k * E k i + ∑ n, ∑ i, ∑ k, F i k n * F k i n := by
    have r1 : ∀ i k, ∑ n, Spec.christoffel C h.metric i k n * Spec.christoffel C h.metric k i n = E i k * E k i + ∑ n, F i k n * F k i n := by
      intro i k
      have r2 := hFl i k
      have r3 := hFl k i
      simp only [hN]
      simp only [Fin.sum_univ_three] at hu r2 r3 ⊢
      linear_combination E i k * E k i * hu + E i k * r3 + E k i * r2
    rw [sum_comm, show (∑ n, ∑ i, ∑ k, F i k n * F k i n) = ∑ i, ∑ n, ∑ k, F i k n * F k i n from sum_comm, ← sum_add_distrib]
    refine sum_congr rfl fun i _ => ?_
    rw [sum_comm, show (∑ n, ∑ k, F i k n * F k i n) = ∑ k, ∑ n, F i k n * F k i n from sum_comm, ← sum_add_distrib]
    exact sum_congr rfl fun k _ => r1 i k
  have s3 : ∑ j, ∑ n, l j * l n * ∑ i, ∑ k, Spec.christoffel C h.metric i k n * Spec.christoffel C h.metric k i j = ∑ i, ∑ k, E i k * E k i := by
    have r1 : ∀ i k, ∑ n, l n * Spec.christoffel C h.metric i k n = E i k := by
      intro i k
      have r2 := hFl i k
      simp only [hN]
      simp only [Fin.sum_univ_three] at hu r2 ⊢
      linear_combination E i k * hu + r2
    simp only [← r1]
    simp only [Fin.sum_univ_three]
    ring
  have s4 : ∑ j, ∑ n, h.metric.inv j n * ∑ i, ∑ k, Spec.christoffel C h.metric i k n * Spec.christoffel C h.metric k i j =
      ∑ n, ∑ i, ∑ k, Spec.christoffel C h.metric i k n * Spec.christoffel C h.metric k i n -
        φ * t * ∑ j, ∑ n, l j * l n * ∑ i, ∑ k, Spec.christoffel C h.metric i k n * Spec.christoffel C h.metric k i j := by
    rw [← s1 fun j n => ∑ i, ∑ k, Spec.christoffel C h.metric i k n * Spec.christoffel C h.metric k i j]
    simp only [hinv, sub_mul, sum_sub_distrib, mul_sum, ← mul_assoc]
  rw [s4, s2, s3, hEE, hFF]
  linear_combination -(⅟2 ^ 2 * t ^ 2 * p ^ 2 - 2 * ⅟2 ^ 2 * t * ∑ i, V i * V i - 2 * φ ^ 2 * β ^ 2) * ht

end Spec.KerrSchild

/-- The scalar curvature in terms of the contracted Christoffel symbols. -/
theorem scalar_eq [Invertible (2 : A)] (C : Spec.Calculus A) (γ : Spec.Metric A) : Spec.trace γ (Spec.ricci C γ) =
    ∑ k, C.d k (Spec.contracted C γ k) - ∑ i, ∑ j, γ.inv i j * C.d j (∑ k, Spec.christoffel C γ k i k) +
      ∑ k, Spec.contracted C γ k * (∑ c, Spec.christoffel C γ c k c) +
      ∑ j, ∑ n, γ.inv j n * ∑ i, ∑ k, Spec.christoffel C γ i k n * Spec.christoffel C γ k i j := by
  have h1 : ∑ k, C.d k (Spec.contracted C γ k) = ∑ a, ∑ b, γ.inv a b * ∑ k, C.d k (Spec.christoffel C γ k a b) -
      2 * ∑ j, ∑ n, γ.inv j n * ∑ i, ∑ k, Spec.christoffel C γ i k n * Spec.christoffel C γ k i j := by
    unfold Spec.contracted
    simp only [C.sum, C.mul, inv_deriv_gamma]
    simp only [Fin.sum_univ_three, γ.isymm 1 0, γ.isymm 2 0, γ.isymm 2 1, christoffel_symm C γ _ 1 0, christoffel_symm C γ _ 2 0,
      christoffel_symm C γ _ 2 1]
    ring
  rw [h1]
  unfold Spec.trace Spec.ricci Spec.contracted
  simp only [C.sum]
  simp only [Fin.sum_univ_three, γ.isymm 1 0, γ.isymm 2 0, γ.isymm 2 1, christoffel_symm C γ _ 1 0, christoffel_symm C γ _ 2 0,
    christoffel_symm C γ _ 2 1]
  ring

end Sgrid
