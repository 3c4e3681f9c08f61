import Mathlib.Algebra.BigOperators.Fin
import Mathlib.Algebra.Group.Invertible.Basic
import Mathlib.Algebra.Ring.Invertible
import Mathlib.Tactic.Ring
import Mathlib.Tactic.LinearCombination

/-!
# Geometry of three dimensional metrics

The tensors of the theorems about the constraints and the evolution equations: Christoffel symbols, Ricci tensor and covariant
derivatives of a metric whose components are in a ring of functions with three partial derivatives that commute.
-/

namespace Sgrid
open Finset

/-- Partial derivatives in a ring of functions. -/
structure Spec.Calculus (A : Type) [CommRing A] where
  d : Fin 3 → A → A
  add : ∀ i x y, d i (x + y) = d i x + d i y
  mul : ∀ i x y, d i (x * y) = d i x * y + x * d i y
  comm : ∀ i j x, d i (d j x) = d j (d i x)

/-- A metric and its inverse. -/
structure Spec.Metric (A : Type) [CommRing A] where
  g : Fin 3 → Fin 3 → A
  inv : Fin 3 → Fin 3 → A
  symm : ∀ a b, g a b = g b a
  isymm : ∀ a b, inv a b = inv b a
  mul_inv : ∀ a c, ∑ b, g a b * inv b c = if a = c then 1 else 0

variable {A : Type} [CommRing A]

namespace Spec.Calculus
variable (C : Spec.Calculus A)

theorem zero (i : Fin 3) : C.d i 0 = 0 := by
  have h := C.add i 0 0
  rw [add_zero] at h
  linear_combination -h

theorem one (i : Fin 3) : C.d i 1 = 0 := by
  have h := C.mul i 1 1
  rw [mul_one] at h
  linear_combination -h

theorem neg (i : Fin 3) (x : A) : C.d i (-x) = -C.d i x := by
  have h := C.add i x (-x)
  rw [add_neg_cancel, C.zero] at h
  linear_combination -h

theorem sub (i : Fin 3) (x y : A) : C.d i (x - y) = C.d i x - C.d i y := by
  rw [sub_eq_add_neg, C.add, C.neg]; ring

theorem sum {ι : Type} (i : Fin 3) (s : Finset ι) (f : ι → A) : C.d i (∑ k ∈ s, f k) = ∑ k ∈ s, C.d i (f k) := by
  classical
  induction s using Finset.induction_on with
  | empty => simp [C.zero]
  | insert a s ha ih => rw [sum_insert ha, sum_insert ha, C.add, ih]

theorem half [Invertible (2 : A)] (i : Fin 3) : C.d i (⅟2 : A) = 0 := by
  have h1 : (⅟2 : A) * 2 = 1 := invOf_mul_self 2
  have h2 : C.d i (2 : A) = 0 := by
    rw [show (2 : A) = 1 + 1 by norm_num, C.add, C.one]; ring
  have h := C.mul i (⅟2 : A) 2
  rw [h1, C.one, h2] at h
  linear_combination (-(⅟2 : A)) * h - C.d i (⅟2 : A) * h1

end Spec.Calculus

variable [Invertible (2 : A)]

/-- The Christoffel symbols with lower indices, `Γ_{dab} = (∂_a g_{bd} + ∂_b g_{ad} - ∂_d g_{ab})/2`. -/
def Spec.christoffelLow (C : Spec.Calculus A) (γ : Spec.Metric A) (d a b : Fin 3) : A :=
  ⅟2 * (C.d a (γ.g b d) + C.d b (γ.g a d) - C.d d (γ.g a b))

/-- The Christoffel symbols `Γ^c_{ab}`. -/
def Spec.christoffel (C : Spec.Calculus A) (γ : Spec.Metric A) (c a b : Fin 3) : A :=
  ∑ d, γ.inv c d * Spec.christoffelLow C γ d a b

/-- The Ricci tensor `R_{ab} = ∂_c Γ^c_{ab} - ∂_b Γ^c_{ac} + Γ^c_{cd} Γ^d_{ab} - Γ^c_{bd} Γ^d_{ac}`. -/
def Spec.ricci (C : Spec.Calculus A) (γ : Spec.Metric A) (a b : Fin 3) : A :=
  ∑ c, (C.d c (Spec.christoffel C γ c a b) - C.d b (Spec.christoffel C γ c a c)) +
    ∑ c, ∑ d, (Spec.christoffel C γ c c d * Spec.christoffel C γ d a b - Spec.christoffel C γ c b d * Spec.christoffel C γ d a c)

/-- The trace of a tensor. -/
def Spec.trace (γ : Spec.Metric A) (T : Fin 3 → Fin 3 → A) : A := ∑ a, ∑ b, γ.inv a b * T a b

/-- The covariant derivative `∇_c T_{ab}`. -/
def Spec.cov2 (C : Spec.Calculus A) (γ : Spec.Metric A) (T : Fin 3 → Fin 3 → A) (c a b : Fin 3) : A :=
  C.d c (T a b) - ∑ d, (Spec.christoffel C γ d c a * T d b + Spec.christoffel C γ d c b * T a d)

/-- The second covariant derivatives of a function, `∇_a ∇_b f`. -/
def Spec.hessian (C : Spec.Calculus A) (γ : Spec.Metric A) (f : A) (a b : Fin 3) : A :=
  C.d a (C.d b f) - ∑ c, Spec.christoffel C γ c a b * C.d c f

section
variable (C : Spec.Calculus A) (γ : Spec.Metric A)

theorem christoffelLow_symm (d a b : Fin 3) : Spec.christoffelLow C γ d a b = Spec.christoffelLow C γ d b a := by
  unfold Spec.christoffelLow
  rw [γ.symm a b]
  ring

theorem christoffel_symm (c a b : Fin 3) : Spec.christoffel C γ c a b = Spec.christoffel C γ c b a := by
  unfold Spec.christoffel
  exact sum_congr rfl fun d _ => by rw [christoffelLow_symm]

theorem metric_deriv (e p q : Fin 3) :
    C.d e (γ.g p q) = Spec.christoffelLow C γ p e q + Spec.christoffelLow C γ q e p := by
  unfold Spec.christoffelLow
  rw [γ.symm q p, γ.symm e p, γ.symm e q]
  linear_combination (-(C.d e (γ.g p q))) * (invOf_mul_self (2 : A))

omit [Invertible (2 : A)] in
theorem inv_mul (a c : Fin 3) : ∑ b, γ.inv a b * γ.g b c = if a = c then 1 else 0 := by
  have h := γ.mul_inv c a
  rw [show (∑ b, γ.inv a b * γ.g b c) = ∑ b, γ.g c b * γ.inv b a from
    sum_congr rfl fun b _ => by rw [γ.isymm a b, γ.symm b c, mul_comm], h]
  simp [eq_comm]

omit [Invertible (2 : A)] in
theorem inv_deriv (e c d : Fin 3) :
    C.d e (γ.inv c d) = -∑ p, ∑ q, γ.inv c p * C.d e (γ.g p q) * γ.inv q d := by
  have h : ∀ a, ∑ b, (C.d e (γ.g a b) * γ.inv b d + γ.g a b * C.d e (γ.inv b d)) = 0 := by
    intro a
    have h := congrArg (C.d e) (γ.mul_inv a d)
    rw [C.sum] at h
    rw [← show (∑ b, C.d e (γ.g a b * γ.inv b d)) = _ from sum_congr rfl fun b _ => C.mul _ _ _, h]
    split
    · exact C.one e
    · exact C.zero e
  have h2 : ∑ a, γ.inv c a * ∑ b, (C.d e (γ.g a b) * γ.inv b d + γ.g a b * C.d e (γ.inv b d)) = 0 :=
    sum_eq_zero fun a _ => by rw [h a, mul_zero]
  have h3 : ∑ b, (∑ a, γ.inv c a * γ.g a b) * C.d e (γ.inv b d) = C.d e (γ.inv c d) := by
    rw [show (∑ b, (∑ a, γ.inv c a * γ.g a b) * C.d e (γ.inv b d)) = ∑ b, if c = b then C.d e (γ.inv b d) else 0 from
      sum_congr rfl fun b _ => by rw [inv_mul]; split <;> simp]
    simp
  rw [← h3]
  simp only [Fin.sum_univ_three] at h2 ⊢
  linear_combination h2

theorem low_deriv (c d a b : Fin 3) : C.d c (Spec.christoffelLow C γ d a b) - C.d b (Spec.christoffelLow C γ d a c) =
    ⅟2 * (C.d a (C.d c (γ.g b d)) - C.d c (C.d d (γ.g a b)) - C.d a (C.d b (γ.g c d)) + C.d b (C.d d (γ.g a c))) := by
  unfold Spec.christoffelLow
  simp only [C.mul, C.half, C.add, C.sub]
  rw [C.comm c a, C.comm c b, C.comm b a]
  ring

set_option maxHeartbeats 4000000 in
/-- The Ricci tensor without derivatives of the inverse metric. -/
theorem ricci_eq (a b : Fin 3) : Spec.ricci C γ a b = ∑ c, ∑ d, γ.inv c d *
    (⅟2 * (-C.d c (C.d d (γ.g a b)) - C.d a (C.d b (γ.g c d)) + C.d a (C.d c (γ.g b d)) + C.d b (C.d c (γ.g a d))) +
      ∑ e, (Spec.christoffel C γ e a c * Spec.christoffelLow C γ e b d - Spec.christoffel C γ e a b * Spec.christoffelLow C γ e c d)) := by
  have h1 : ∀ e c i j, C.d e (Spec.christoffel C γ c i j) = ∑ d, γ.inv c d * C.d e (Spec.christoffelLow C γ d i j) -
      ∑ p, ∑ q, γ.inv c p * (Spec.christoffelLow C γ p e q + Spec.christoffelLow C γ q e p) * Spec.christoffel C γ q i j := by
    intro e c i j
    rw [show Spec.christoffel C γ c i j = ∑ d, γ.inv c d * Spec.christoffelLow C γ d i j from rfl, C.sum]
    have h : ∀ d, C.d e (γ.inv c d * Spec.christoffelLow C γ d i j) = γ.inv c d * C.d e (Spec.christoffelLow C γ d i j) -
        (∑ p, ∑ q, γ.inv c p * (Spec.christoffelLow C γ p e q + Spec.christoffelLow C γ q e p) * γ.inv q d) *
          Spec.christoffelLow C γ d i j := by
      intro d
      rw [C.mul, inv_deriv]
      simp only [metric_deriv]
      ring
    rw [sum_congr rfl fun d _ => h d, sum_sub_distrib]
    congr 1
    unfold Spec.christoffel
    simp only [Fin.sum_univ_three]
    ring
  have h2 : Spec.ricci C γ a b = ∑ c, ∑ d, γ.inv c d * (C.d c (Spec.christoffelLow C γ d a b) - C.d b (Spec.christoffelLow C γ d a c)) +
      ∑ c, ∑ d, γ.inv c d * ∑ e, (Spec.christoffel C γ e a c * Spec.christoffelLow C γ e b d -
        Spec.christoffel C γ e a b * Spec.christoffelLow C γ e c d) := by
    unfold Spec.ricci
    simp only [h1]
    have h3 : ∀ c i j, Spec.christoffel C γ c i j = ∑ d, γ.inv c d * Spec.christoffelLow C γ d i j := fun _ _ _ => rfl
    rw [show (∑ c, ∑ d, (Spec.christoffel C γ c c d * Spec.christoffel C γ d a b - Spec.christoffel C γ c b d * Spec.christoffel C γ d a c)) =
      ∑ c, ∑ d, ((∑ p, γ.inv c p * Spec.christoffelLow C γ p c d) * Spec.christoffel C γ d a b -
        (∑ p, γ.inv c p * Spec.christoffelLow C γ p b d) * Spec.christoffel C γ d a c) from rfl]
    simp only [Fin.sum_univ_three]
    ring
  have h4 : ∑ c, ∑ d, γ.inv c d * C.d b (C.d d (γ.g a c)) = ∑ c, ∑ d, γ.inv c d * C.d b (C.d c (γ.g a d)) := by
    rw [sum_comm]
    exact sum_congr rfl fun c _ => sum_congr rfl fun d _ => by rw [γ.isymm]
  rw [h2]
  simp only [low_deriv]
  simp only [Fin.sum_univ_three] at h4 ⊢
  linear_combination (⅟2 : A) * h4

/-- The Ricci tensor is symmetric. -/
theorem ricci_symm (a b : Fin 3) : Spec.ricci C γ a b = Spec.ricci C γ b a := by
  rw [ricci_eq, ricci_eq]
  have h4 : ∑ c, ∑ d, γ.inv c d * ∑ e, Spec.christoffel C γ e a c * Spec.christoffelLow C γ e b d =
      ∑ c, ∑ d, γ.inv c d * ∑ e, Spec.christoffel C γ e b c * Spec.christoffelLow C γ e a d := by
    rw [sum_comm]
    refine sum_congr rfl fun c _ => sum_congr rfl fun d _ => ?_
    rw [γ.isymm]
    congr 1
    unfold Spec.christoffel
    simp only [sum_mul]
    rw [sum_comm]
    exact sum_congr rfl fun e _ => sum_congr rfl fun f _ => by rw [γ.isymm]; ring
  have h5 : ∀ c d, Spec.christoffel C γ d b a * Spec.christoffelLow C γ d c d = Spec.christoffel C γ d a b * Spec.christoffelLow C γ d c d :=
    fun c d => by rw [christoffel_symm]
  simp only [sum_sub_distrib, mul_sub, mul_add, sum_add_distrib] at h4 ⊢
  rw [h4]
  simp only [γ.symm b a, C.comm b a, christoffel_symm C γ _ b a]
  ring

/-- The metric is covariantly constant. -/
theorem cov2_metric (c a b : Fin 3) : Spec.cov2 C γ γ.g c a b = 0 := by
  have h : ∀ i j k, ∑ d, Spec.christoffel C γ d i j * γ.g d k = Spec.christoffelLow C γ k i j := by
    intro i j k
    unfold Spec.christoffel
    have h1 : ∑ e, (∑ d, γ.g k d * γ.inv d e) * Spec.christoffelLow C γ e i j = Spec.christoffelLow C γ k i j := by
      rw [show (∑ e, (∑ d, γ.g k d * γ.inv d e) * Spec.christoffelLow C γ e i j) =
        ∑ e, if k = e then Spec.christoffelLow C γ e i j else 0 from sum_congr rfl fun e _ => by rw [γ.mul_inv]; split <;> simp]
      simp
    rw [← h1]
    simp only [γ.symm _ k, Fin.sum_univ_three]
    ring
  unfold Spec.cov2
  rw [sum_add_distrib, h, metric_deriv]
  rw [show (∑ d, Spec.christoffel C γ d c b * γ.g a d) = ∑ d, Spec.christoffel C γ d c b * γ.g d a from
    sum_congr rfl fun d _ => by rw [γ.symm a d], h]
  ring

/-- The derivative of the trace is the trace of the covariant derivative. -/
theorem trace_deriv (T : Fin 3 → Fin 3 → A) (e : Fin 3) :
    C.d e (Spec.trace γ T) = ∑ a, ∑ b, γ.inv a b * Spec.cov2 C γ T e a b := by
  have h0 : ∀ a b, C.d e (γ.inv a b) = -∑ d, (γ.inv a d * Spec.christoffel C γ b e d + γ.inv d b * Spec.christoffel C γ a e d) := by
    intro a b
    rw [inv_deriv]
    simp only [metric_deriv]
    unfold Spec.christoffel
    simp only [γ.isymm _ b, Fin.sum_univ_three]
    ring
  unfold Spec.trace Spec.cov2
  simp only [C.sum, C.mul, h0]
  simp only [Fin.sum_univ_three]
  ring

/-- The momentum constraint: `∇^b (K_{ab} - γ_{ab} K) = γ^{bc} (∇_c K_{ab} - ∇_a K_{bc})`. -/
theorem momentum_eq (T : Fin 3 → Fin 3 → A) (a : Fin 3) :
    ∑ b, ∑ c, γ.inv b c * Spec.cov2 C γ (fun i j => T i j - γ.g i j * Spec.trace γ T) c a b =
      ∑ b, ∑ c, γ.inv b c * (Spec.cov2 C γ T c a b - Spec.cov2 C γ T a b c) := by
  have h : ∀ c i j, Spec.cov2 C γ (fun i j => T i j - γ.g i j * Spec.trace γ T) c i j =
      Spec.cov2 C γ T c i j - Spec.cov2 C γ γ.g c i j * Spec.trace γ T - γ.g i j * C.d c (Spec.trace γ T) := by
    intro c i j
    unfold Spec.cov2
    rw [C.sub, C.mul]
    simp only [Fin.sum_univ_three]
    ring
  have h2 : ∑ b, ∑ c, γ.inv b c * (γ.g a b * C.d c (Spec.trace γ T)) = C.d a (Spec.trace γ T) := by
    rw [sum_comm]
    rw [show (∑ c, ∑ b, γ.inv b c * (γ.g a b * C.d c (Spec.trace γ T))) = ∑ c, (∑ b, γ.g a b * γ.inv b c) * C.d c (Spec.trace γ T) from
      sum_congr rfl fun c _ => by rw [sum_mul]; exact sum_congr rfl fun b _ => by ring]
    rw [show (∑ c, (∑ b, γ.g a b * γ.inv b c) * C.d c (Spec.trace γ T)) = ∑ c, if a = c then C.d c (Spec.trace γ T) else 0 from
      sum_congr rfl fun c _ => by rw [γ.mul_inv]; split <;> simp]
    simp
  simp only [h, cov2_metric, zero_mul, sub_zero, mul_sub, sum_sub_distrib, h2]
  rw [trace_deriv]

end

end Sgrid
