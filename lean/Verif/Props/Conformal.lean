import Verif.Props.Geometry
import Mathlib.Tactic.FinCases

/-!
# Conformally related metrics

The Ricci tensor with the contracted Christoffel symbols, and the tensors of the metric `e^{4f} g` from the ones of `g`.
-/

namespace Sgrid
open Finset

section
variable {A : Type} [CommRing A] [Invertible (2 : A)] (C : Spec.Calculus A) (γ : Spec.Metric A)

/-- The contracted Christoffel symbols `Γ^c = g^{ab} Γ^c_{ab}`. -/
def Spec.contracted (c : Fin 3) : A := ∑ a, ∑ b, γ.inv a b * Spec.christoffel C γ c a b

theorem inv_deriv_gamma (e a b : Fin 3) :
    C.d e (γ.inv a b) = -∑ d, (γ.inv a d * Spec.christoffel C γ b e d + γ.inv d b * Spec.christoffel C γ a e d) := by
  rw [inv_deriv]
  simp only [metric_deriv]
  unfold Spec.christoffel
  simp only [γ.isymm _ b, Fin.sum_univ_three]
  ring

omit [Invertible (2 : A)] in
theorem lower_raise (v : Fin 3 → A) (a : Fin 3) : ∑ c, γ.g a c * ∑ d, γ.inv c d * v d = v a := by
  have h : ∑ c, γ.g a c * ∑ d, γ.inv c d * v d = ∑ d, (∑ c, γ.g a c * γ.inv c d) * v d := by
    simp only [Fin.sum_univ_three]; ring
  rw [h]
  simp only [γ.mul_inv, ite_mul, one_mul, zero_mul, sum_ite_eq, mem_univ, if_true]

theorem christoffel_lower (a d e : Fin 3) : ∑ c, γ.g a c * Spec.christoffel C γ c d e = Spec.christoffelLow C γ a d e :=
  lower_raise γ (fun k => Spec.christoffelLow C γ k d e) a

theorem contracted_lower (a : Fin 3) :
    ∑ c, γ.g a c * Spec.contracted C γ c = ∑ d, ∑ e, γ.inv d e * Spec.christoffelLow C γ a d e := by
  simp only [← christoffel_lower]
  unfold Spec.contracted
  simp only [Fin.sum_univ_three]
  ring

theorem contracted_deriv (a b : Fin 3) :
    ∑ c, γ.g a c * C.d b (Spec.contracted C γ c) =
      ∑ d, ∑ e, γ.inv d e * (C.d b (C.d d (γ.g a e)) - ⅟2 * C.d a (C.d b (γ.g d e))) -
      2 * ∑ d, ∑ e, ∑ k, γ.inv d k * Spec.christoffel C γ e b k * Spec.christoffelLow C γ a d e -
      ∑ c, (Spec.christoffelLow C γ c a b + Spec.christoffelLow C γ a b c) * Spec.contracted C γ c := by
  have h := congrArg (C.d b) (contracted_lower C γ a)
  simp only [C.sum, C.mul, inv_deriv_gamma] at h
  rw [sum_add_distrib] at h
  have h1 : ∀ d e, C.d b (Spec.christoffelLow C γ a d e) =
      ⅟2 * (C.d b (C.d d (γ.g e a)) + C.d b (C.d e (γ.g d a)) - C.d b (C.d a (γ.g d e))) := by
    intro d e
    unfold Spec.christoffelLow
    rw [C.mul, C.half, C.sub, C.add]
    ring
  simp only [h1, metric_deriv C γ b] at h
  have h2 : (⅟2 : A) + ⅟2 = 1 := by
    have := invOf_mul_self (2 : A)
    linear_combination this
  simp only [Fin.sum_univ_three] at h ⊢
  simp only [C.comm b a, γ.symm _ a, γ.isymm 1 0, γ.isymm 2 0, γ.isymm 2 1, christoffelLow_symm C γ _ b a,
    γ.symm 1 0, γ.symm 2 0, γ.symm 2 1, christoffelLow_symm C γ _ 1 0, christoffelLow_symm C γ _ 2 0, christoffelLow_symm C γ _ 2 1] at h ⊢
  linear_combination h + (γ.inv 0 0 * C.d b (C.d 0 (γ.g a 0)) + γ.inv 0 1 * C.d b (C.d 0 (γ.g a 1)) + γ.inv 0 2 * C.d b (C.d 0 (γ.g a 2)) +
    γ.inv 0 1 * C.d b (C.d 1 (γ.g a 0)) + γ.inv 1 1 * C.d b (C.d 1 (γ.g a 1)) + γ.inv 1 2 * C.d b (C.d 1 (γ.g a 2)) +
    γ.inv 0 2 * C.d b (C.d 2 (γ.g a 0)) + γ.inv 1 2 * C.d b (C.d 2 (γ.g a 1)) + γ.inv 2 2 * C.d b (C.d 2 (γ.g a 2))) * h2

/-- The Ricci tensor with the derivatives of the contracted Christoffel symbols. -/
theorem ricci_contracted (a b : Fin 3) : Spec.ricci C γ a b = ∑ c, ∑ d, γ.inv c d * (-(⅟2 * C.d c (C.d d (γ.g a b))) +
      ∑ e, (Spec.christoffel C γ e c a * Spec.christoffelLow C γ b e d + Spec.christoffel C γ e c b * Spec.christoffelLow C γ a e d +
        Spec.christoffel C γ e a d * Spec.christoffelLow C γ e c b)) +
    ⅟2 * ∑ c, (γ.g c a * C.d b (Spec.contracted C γ c) + γ.g c b * C.d a (Spec.contracted C γ c) +
      Spec.contracted C γ c * (Spec.christoffelLow C γ a b c + Spec.christoffelLow C γ b a c)) := by
  rw [ricci_eq]
  have h1 := contracted_deriv C γ a b
  have h2 := contracted_deriv C γ b a
  have h3 : ∑ c, ∑ d, γ.inv c d * ∑ e, Spec.christoffel C γ e a b * Spec.christoffelLow C γ e c d =
      ∑ c, Spec.christoffelLow C γ c a b * Spec.contracted C γ c := by
    have h := contracted_lower C γ
    have e1 : ∑ c, ∑ d, γ.inv c d * ∑ e, Spec.christoffel C γ e a b * Spec.christoffelLow C γ e c d =
        ∑ e, Spec.christoffel C γ e a b * ∑ c, ∑ d, γ.inv c d * Spec.christoffelLow C γ e c d := by
      simp only [Fin.sum_univ_three]; ring
    rw [e1]
    simp only [← h]
    simp only [← christoffel_lower]
    simp only [Fin.sum_univ_three, γ.symm 1 0, γ.symm 2 0, γ.symm 2 1]
    ring
  have h5 : (⅟2 : A) * 2 = 1 := invOf_mul_self 2
  have h6 : ∀ a b, ⅟2 * (2 * ∑ d, ∑ e, ∑ k, γ.inv d k * Spec.christoffel C γ e b k * Spec.christoffelLow C γ a d e) =
      ∑ d, ∑ e, ∑ k, γ.inv d k * Spec.christoffel C γ e b k * Spec.christoffelLow C γ a d e := by
    intro a b
    rw [← mul_assoc, h5, one_mul]
  have h7 := h6 a b
  have h8 := h6 b a
  have h9 : ⅟2 * ⅟2 * ∑ d, ∑ e, γ.inv d e * C.d a (C.d b (γ.g d e)) + ⅟2 * ⅟2 * ∑ d, ∑ e, γ.inv d e * C.d a (C.d b (γ.g d e)) =
      ⅟2 * ∑ d, ∑ e, γ.inv d e * C.d a (C.d b (γ.g d e)) := by
    linear_combination (⅟2 * ∑ d, ∑ e, γ.inv d e * C.d a (C.d b (γ.g d e))) * h5
  clear h6
  simp only [mul_sub, mul_add, sum_add_distrib, sum_sub_distrib, mul_sum] at h1 h2 h3 h7 h8 h9 ⊢
  simp only [Fin.sum_univ_three] at h1 h2 h3 h7 h8 h9 ⊢
  simp only [C.comm, γ.symm, γ.isymm, christoffelLow_symm C γ, christoffel_symm C γ] at h1 h2 h3 h7 h8 h9 ⊢
  linear_combination (-⅟2 : A) * h1 - ⅟2 * h2 - h3 + h7 + h8 + h9 +
    (Spec.christoffelLow C γ 0 a b * Spec.contracted C γ 0 + Spec.christoffelLow C γ 1 a b * Spec.contracted C γ 1 +
      Spec.christoffelLow C γ 2 a b * Spec.contracted C γ 2) * h5

/-- The metric `E g`. -/
def Spec.Metric.scale {E Em : A} (h : E * Em = 1) : Spec.Metric A where
  g a b := E * γ.g a b
  inv a b := Em * γ.inv a b
  symm a b := by rw [γ.symm]
  isymm a b := by rw [γ.isymm]
  mul_inv a c := by
    have e : ∀ b, E * γ.g a b * (Em * γ.inv b c) = γ.g a b * γ.inv b c := fun b => by linear_combination (γ.g a b * γ.inv b c) * h
    simp only [e, γ.mul_inv]

/-- The gradient with upper index. -/
def Spec.grad (f : A) (c : Fin 3) : A := ∑ d, γ.inv c d * C.d d f

omit [Invertible (2 : A)] in
theorem grad_lower (f : A) (a : Fin 3) : ∑ c, γ.g a c * Spec.grad C γ f c = C.d a f := lower_raise γ (fun d => C.d d f) a

/-- The difference of the Christoffel symbols of `e^{4f} g` and `g`. -/
def Spec.shiftSymbol (f : A) (c a b : Fin 3) : A :=
  2 * ((if c = a then C.d b f else 0) + (if c = b then C.d a f else 0) - γ.g a b * Spec.grad C γ f c)

variable {E Em : A} (hE : E * Em = 1) (f : A) (hf : ∀ a, C.d a E = 4 * E * C.d a f)
include hf

/-- The Christoffel symbols of `e^{4f} g`. -/
theorem christoffel_scale (c a b : Fin 3) : Spec.christoffel C (γ.scale hE) c a b = Spec.christoffel C γ c a b + Spec.shiftSymbol C γ f c a b := by
  have h5 : (⅟2 : A) * 2 = 1 := invOf_mul_self 2
  have h1 : ∀ d, (γ.scale hE).inv c d * Spec.christoffelLow C (γ.scale hE) d a b = γ.inv c d * Spec.christoffelLow C γ d a b +
      2 * (C.d a f * (γ.inv c d * γ.g d b) + C.d b f * (γ.inv c d * γ.g d a) - γ.g a b * (γ.inv c d * C.d d f)) := by
    intro d
    have e : Spec.christoffelLow C (γ.scale hE) d a b = E * Spec.christoffelLow C γ d a b +
        2 * E * (C.d a f * γ.g d b + C.d b f * γ.g d a - γ.g a b * C.d d f) := by
      unfold Spec.christoffelLow Spec.Metric.scale
      dsimp only
      simp only [C.mul, hf, γ.symm _ d]
      linear_combination (2 * E * (C.d a f * γ.g d b + C.d b f * γ.g d a - γ.g a b * C.d d f)) * h5
    rw [e]
    change Em * γ.inv c d * _ = _
    linear_combination (γ.inv c d * Spec.christoffelLow C γ d a b +
      2 * (C.d a f * (γ.inv c d * γ.g d b) + C.d b f * (γ.inv c d * γ.g d a) - γ.g a b * (γ.inv c d * C.d d f))) * hE
  unfold Spec.christoffel
  rw [sum_congr rfl fun d _ => h1 d]
  simp only [sum_add_distrib, sum_sub_distrib, ← mul_sum, inv_mul]
  unfold Spec.shiftSymbol Spec.grad
  split_ifs <;> ring

omit [Invertible (2 : A)] hf in
theorem shift_symm (c a b : Fin 3) : Spec.shiftSymbol C γ f c a b = Spec.shiftSymbol C γ f c b a := by
  unfold Spec.shiftSymbol
  rw [γ.symm b a]
  ring

omit [Invertible (2 : A)] hf in
theorem shift_trace (a : Fin 3) : ∑ c, Spec.shiftSymbol C γ f c a c = 6 * C.d a f := by
  have h := grad_lower C γ f a
  unfold Spec.shiftSymbol
  simp only [Fin.sum_univ_three] at h ⊢
  fin_cases a <;> simp at h ⊢ <;> linear_combination -2 * h

omit [Invertible (2 : A)] hf in
theorem shift_contract (v : Fin 3 → A) (a b : Fin 3) : ∑ d, v d * Spec.shiftSymbol C γ f d a b =
    2 * (v a * C.d b f + v b * C.d a f - γ.g a b * ∑ d, v d * Spec.grad C γ f d) := by
  unfold Spec.shiftSymbol
  simp only [Fin.sum_univ_three]
  fin_cases a <;> fin_cases b <;> simp <;> ring

omit [Invertible (2 : A)] hf in
theorem shift_mixed (T : Fin 3 → Fin 3 → A) (a : Fin 3) : ∑ c, ∑ d, T c d * Spec.shiftSymbol C γ f d a c =
    2 * (∑ c, T c a * C.d c f + (∑ c, T c c) * C.d a f - ∑ c, γ.g a c * ∑ d, T c d * Spec.grad C γ f d) := by
  simp only [shift_contract]
  simp only [Fin.sum_univ_three]
  ring

omit [Invertible (2 : A)] hf in
theorem shift_shift (a b : Fin 3) : ∑ c, ∑ d, Spec.shiftSymbol C γ f c b d * Spec.shiftSymbol C γ f d a c =
    20 * (C.d a f * C.d b f) - 8 * (γ.g a b * ∑ d, C.d d f * Spec.grad C γ f d) := by
  rw [shift_mixed]
  have h1 : ∑ c, Spec.shiftSymbol C γ f c b c = 6 * C.d b f := shift_trace C γ f b
  have h2 : ∑ c, Spec.shiftSymbol C γ f c b a * C.d c f = 2 * (2 * (C.d a f * C.d b f) - γ.g a b * ∑ d, C.d d f * Spec.grad C γ f d) := by
    rw [show ∑ c, Spec.shiftSymbol C γ f c b a * C.d c f = ∑ c, C.d c f * Spec.shiftSymbol C γ f c b a from
      sum_congr rfl fun c _ => mul_comm _ _, shift_contract, γ.symm b a]
    ring
  have h3 : ∑ c, γ.g a c * ∑ d, Spec.shiftSymbol C γ f c b d * Spec.grad C γ f d = 2 * (γ.g a b * ∑ d, C.d d f * Spec.grad C γ f d) := by
    have e : ∑ c, γ.g a c * ∑ d, Spec.shiftSymbol C γ f c b d * Spec.grad C γ f d =
        ∑ d, Spec.grad C γ f d * ∑ c, γ.g a c * Spec.shiftSymbol C γ f c b d := by
      simp only [Fin.sum_univ_three]; ring
    rw [e]
    simp only [shift_contract, grad_lower]
    have l1 := grad_lower C γ f a
    have l2 := grad_lower C γ f b
    simp only [Fin.sum_univ_three] at l1 l2 ⊢
    linear_combination 2 * C.d b f * l1 - 2 * C.d a f * l2
  rw [h1, h2, h3]
  ring

omit hf in
theorem grad_div : ∑ c, C.d c (Spec.grad C γ f c) + ∑ c, ∑ d, Spec.christoffel C γ c c d * Spec.grad C γ f d =
    Spec.trace γ (Spec.hessian C γ f) := by
  unfold Spec.trace Spec.hessian Spec.grad
  simp only [C.sum, C.mul, inv_deriv_gamma]
  simp only [Fin.sum_univ_three, γ.isymm 1 0, γ.isymm 2 0, γ.isymm 2 1]
  ring

omit hf in
theorem shift_div (a b : Fin 3) : ∑ c, C.d c (Spec.shiftSymbol C γ f c a b) = 4 * C.d a (C.d b f) -
    2 * (∑ c, (Spec.christoffelLow C γ a b c + Spec.christoffelLow C γ b a c) * Spec.grad C γ f c +
      γ.g a b * ∑ c, C.d c (Spec.grad C γ f c)) := by
  have h2 : ∀ i, C.d i (2 : A) = 0 := fun i => by rw [show (2 : A) = 1 + 1 by norm_num, C.add, C.one]; ring
  have hi : ∀ (p : Prop) [Decidable p] (i : Fin 3) (x : A), C.d i (if p then x else 0) = if p then C.d i x else 0 := by
    intro p _ i x
    split
    · rfl
    · exact C.zero i
  unfold Spec.shiftSymbol
  simp only [C.mul, h2, C.sub, C.add, hi, metric_deriv C γ _ a b, zero_mul, zero_add]
  rw [← mul_sum, sum_sub_distrib, sum_add_distrib]
  simp only [sum_ite_eq', mem_univ, if_true]
  rw [C.comm b a]
  simp only [Fin.sum_univ_three, christoffelLow_symm C γ a b, christoffelLow_symm C γ b a]
  ring

/-- The Ricci tensor of `e^{4f} g`. -/
theorem ricci_scale (a b : Fin 3) : Spec.ricci C (γ.scale hE) a b = Spec.ricci C γ a b - 2 * Spec.hessian C γ f a b -
    2 * (γ.g a b * Spec.trace γ (Spec.hessian C γ f)) + 4 * (C.d a f * C.d b f) -
    4 * (γ.g a b * ∑ d, C.d d f * Spec.grad C γ f d) := by
  have h6 : ∀ i, C.d i (6 : A) = 0 := fun i => by
    rw [show (6 : A) = 1 + 1 + 1 + 1 + 1 + 1 by norm_num]
    simp only [C.add, C.one]; ring
  have e1 : ∀ c i, C.d c (Spec.christoffel C (γ.scale hE) i a b) = C.d c (Spec.christoffel C γ i a b) + C.d c (Spec.shiftSymbol C γ f i a b) :=
    fun c i => by rw [christoffel_scale C γ hE f hf, C.add]
  have e2 : ∑ c, C.d b (Spec.christoffel C (γ.scale hE) c a c) = ∑ c, C.d b (Spec.christoffel C γ c a c) + 6 * C.d b (C.d a f) := by
    rw [← C.sum, ← C.sum]
    simp only [christoffel_scale C γ hE f hf]
    rw [sum_add_distrib, shift_trace, C.add, C.mul, h6]
    ring
  unfold Spec.ricci
  rw [sum_sub_distrib, e2, sum_congr rfl fun c _ => e1 c c, sum_add_distrib, shift_div]
  simp only [christoffel_scale C γ hE f hf]
  have s1 : ∀ d, ∑ c, (Spec.christoffel C γ c c d + Spec.shiftSymbol C γ f c c d) = ∑ c, Spec.christoffel C γ c c d + 6 * C.d d f := by
    intro d
    rw [sum_add_distrib, ← shift_trace C γ f d]
    congr 1
    exact sum_congr rfl fun c _ => shift_symm C γ f c c d
  have e3 : ∑ c, ∑ d, ((Spec.christoffel C γ c c d + Spec.shiftSymbol C γ f c c d) * (Spec.christoffel C γ d a b + Spec.shiftSymbol C γ f d a b)) =
      ∑ c, ∑ d, Spec.christoffel C γ c c d * Spec.christoffel C γ d a b + 6 * ∑ d, C.d d f * Spec.christoffel C γ d a b +
      2 * ((∑ c, Spec.christoffel C γ c c a) * C.d b f + (∑ c, Spec.christoffel C γ c c b) * C.d a f -
        γ.g a b * ∑ d, (∑ c, Spec.christoffel C γ c c d) * Spec.grad C γ f d) +
      12 * (2 * (C.d a f * C.d b f) - γ.g a b * ∑ d, C.d d f * Spec.grad C γ f d) := by
    rw [sum_comm]
    simp only [← sum_mul, s1]
    rw [sum_congr rfl fun d _ => show (∑ c, Spec.christoffel C γ c c d + 6 * C.d d f) * (Spec.christoffel C γ d a b + Spec.shiftSymbol C γ f d a b) =
      (∑ c, Spec.christoffel C γ c c d) * Spec.christoffel C γ d a b + 6 * (C.d d f * Spec.christoffel C γ d a b) +
      ((∑ c, Spec.christoffel C γ c c d) * Spec.shiftSymbol C γ f d a b + 6 * (C.d d f * Spec.shiftSymbol C γ f d a b)) by ring]
    simp only [sum_add_distrib, ← mul_sum]
    rw [shift_contract C γ f (fun d => ∑ c, Spec.christoffel C γ c c d), shift_contract C γ f (fun d => C.d d f)]
    rw [show (∑ c, ∑ d, Spec.christoffel C γ c c d * Spec.christoffel C γ d a b) =
      ∑ d, (∑ c, Spec.christoffel C γ c c d) * Spec.christoffel C γ d a b by
        rw [sum_comm]; exact sum_congr rfl fun d _ => by rw [sum_mul]]
    ring
  have e4 : ∑ c, ∑ d, ((Spec.christoffel C γ c b d + Spec.shiftSymbol C γ f c b d) * (Spec.christoffel C γ d a c + Spec.shiftSymbol C γ f d a c)) =
      ∑ c, ∑ d, Spec.christoffel C γ c b d * Spec.christoffel C γ d a c +
      2 * (∑ c, Spec.christoffel C γ c b a * C.d c f + (∑ c, Spec.christoffel C γ c b c) * C.d a f -
        ∑ c, γ.g a c * ∑ d, Spec.christoffel C γ c b d * Spec.grad C γ f d) +
      2 * (∑ c, Spec.christoffel C γ c a b * C.d c f + (∑ c, Spec.christoffel C γ c a c) * C.d b f -
        ∑ c, γ.g b c * ∑ d, Spec.christoffel C γ c a d * Spec.grad C γ f d) +
      (20 * (C.d a f * C.d b f) - 8 * (γ.g a b * ∑ d, C.d d f * Spec.grad C γ f d)) := by
    rw [← shift_shift, ← shift_mixed C γ f (fun c d => Spec.christoffel C γ c b d), ← shift_mixed C γ f (fun c d => Spec.christoffel C γ c a d)]
    rw [show (∑ c, ∑ d, Spec.christoffel C γ c a d * Spec.shiftSymbol C γ f d b c) =
      ∑ c, ∑ d, Spec.shiftSymbol C γ f c b d * Spec.christoffel C γ d a c by
        rw [sum_comm]; exact sum_congr rfl fun d _ => sum_congr rfl fun c _ => mul_comm _ _]
    simp only [← sum_add_distrib]
    exact sum_congr rfl fun c _ => sum_congr rfl fun d _ => by ring
  have e5 : ∀ i j, ∑ c, γ.g i c * ∑ d, Spec.christoffel C γ c j d * Spec.grad C γ f d =
      ∑ d, Spec.christoffelLow C γ i j d * Spec.grad C γ f d := by
    intro i j
    simp only [← christoffel_lower]
    simp only [Fin.sum_univ_three]
    ring
  simp only [sum_sub_distrib, e3, e4, e5, ← grad_div]
  unfold Spec.hessian
  simp only [C.comm b a, Fin.sum_univ_three]
  rw [christoffel_symm C γ 0 b a, christoffel_symm C γ 1 b a, christoffel_symm C γ 2 b a]
  simp only [christoffel_symm C γ _ 1 0, christoffel_symm C γ _ 2 0, christoffel_symm C γ _ 2 1]
  rw [christoffel_symm C γ 0 0 b, christoffel_symm C γ 1 1 b, christoffel_symm C γ 2 2 b, christoffel_symm C γ 0 0 a,
    christoffel_symm C γ 1 1 a, christoffel_symm C γ 2 2 a]
  ring

/-- The second covariant derivatives of a function. -/
theorem hessian_scale (w : A) (a b : Fin 3) : Spec.hessian C (γ.scale hE) w a b = Spec.hessian C γ w a b -
    2 * (C.d a w * C.d b f + C.d b w * C.d a f - γ.g a b * ∑ d, C.d d w * Spec.grad C γ f d) := by
  unfold Spec.hessian
  simp only [christoffel_scale C γ hE f hf]
  rw [← shift_contract C γ f (fun d => C.d d w)]
  simp only [Fin.sum_univ_three]
  ring

end

end Sgrid
