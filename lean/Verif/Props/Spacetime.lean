import Verif.Props.Conformal
import Verif.Props.BssnRhs
import Mathlib.Tactic.FinCases

/-!
# The wave operator of a four dimensional metric

The wave operator of a metric in any number of dimensions, and its form for a metric that is given by lapse, shift and the metric of
space. The lapse, the shift and the metric may depend on time.
-/

namespace Sgrid
open Finset

/-- Partial derivatives with respect to space and time. -/
structure Spec.TimeCalculus (A : Type) [CommRing A] extends Spec.Calculus A where
  dt : A → A
  dt_add : ∀ x y, dt (x + y) = dt x + dt y
  dt_mul : ∀ x y, dt (x * y) = dt x * y + x * dt y
  dt_comm : ∀ i x, dt (d i x) = d i (dt x)

variable {A : Type} [CommRing A]

/-- The derivative with respect to coordinate `a`, where coordinate 0 is the time. -/
def Spec.TimeCalculus.d4 (T : Spec.TimeCalculus A) : Fin 4 → A → A := Fin.cons T.dt T.d

/-- A metric in `n` dimensions and its inverse. -/
structure Spec.MetricN (n : Nat) (A : Type) [CommRing A] where
  g : Fin n → Fin n → A
  inv : Fin n → Fin n → A
  symm : ∀ a b, g a b = g b a
  isymm : ∀ a b, inv a b = inv b a
  mul_inv : ∀ a c, ∑ b, g a b * inv b c = if a = c then 1 else 0

section
variable {n : Nat}

/-- Rules for derivatives. -/
structure Spec.Derivs (d : Fin n → A → A) : Prop where
  add : ∀ i x y, d i (x + y) = d i x + d i y
  mul : ∀ i x y, d i (x * y) = d i x * y + x * d i y

namespace Spec.Derivs
variable {d : Fin n → A → A} (h : Spec.Derivs d)
include h

theorem zero (i : Fin n) : d i 0 = 0 := by
  have e := h.add i 0 0
  rw [add_zero] at e
  linear_combination -e

theorem one (i : Fin n) : d i 1 = 0 := by
  have e := h.mul i 1 1
  rw [mul_one] at e
  linear_combination -e

theorem sum {ι : Type} (i : Fin n) (s : Finset ι) (f : ι → A) : d i (∑ k ∈ s, f k) = ∑ k ∈ s, d i (f k) := by
  classical
  induction s using Finset.induction_on with
  | empty => simp [h.zero]
  | insert a s ha ih => rw [sum_insert ha, sum_insert ha, h.add, ih]

end Spec.Derivs

variable [Invertible (2 : A)]

/-- The Christoffel symbols with lower indices, `Γ_{eab} = (∂_a g_{be} + ∂_b g_{ae} - ∂_e g_{ab})/2`. -/
def Spec.christoffelLowN (d : Fin n → A → A) (g : Spec.MetricN n A) (e a b : Fin n) : A :=
  ⅟2 * (d a (g.g b e) + d b (g.g a e) - d e (g.g a b))

/-- The Christoffel symbols `Γ^c_{ab}`. -/
def Spec.christoffelN (d : Fin n → A → A) (g : Spec.MetricN n A) (c a b : Fin n) : A := ∑ e, g.inv c e * Spec.christoffelLowN d g e a b

/-- The contraction `g^{ab} Γ^c_{ab}`. -/
def Spec.contractedN (d : Fin n → A → A) (g : Spec.MetricN n A) (c : Fin n) : A := ∑ a, ∑ b, g.inv a b * Spec.christoffelN d g c a b

/-- The wave operator `g^{ab} ∇_a ∇_b f`. -/
def Spec.box (d : Fin n → A → A) (g : Spec.MetricN n A) (f : A) : A :=
  ∑ a, ∑ b, g.inv a b * (d a (d b f) - ∑ c, Spec.christoffelN d g c a b * d c f)

/-- `∂_a ln √det g`. -/
def Spec.volumeN (d : Fin n → A → A) (g : Spec.MetricN n A) (a : Fin n) : A := ⅟2 * ∑ b, ∑ c, g.inv b c * d a (g.g b c)

namespace Spec.MetricN
variable (g : Spec.MetricN n A)

omit [Invertible (2 : A)] in
theorem inv_mul (a c : Fin n) : ∑ b, g.inv a b * g.g b c = if a = c then 1 else 0 := by
  have := g.mul_inv c a
  rw [show (∑ b, g.inv a b * g.g b c) = ∑ b, g.g c b * g.inv b a from sum_congr rfl fun b _ => by rw [g.symm c b, g.isymm b a, mul_comm], this]
  simp only [eq_comm]

variable {d : Fin n → A → A} (h : Spec.Derivs d)
include h

omit [Invertible (2 : A)] in
theorem inv_deriv (e a b : Fin n) : d e (g.inv a b) = -∑ c, ∑ k, g.inv a c * d e (g.g c k) * g.inv k b := by
  have e1 : ∀ k, ∑ c, (d e (g.inv a c) * g.g c k + g.inv a c * d e (g.g c k)) = 0 := by
    intro k
    have := congrArg (d e) (g.inv_mul a k)
    rw [h.sum] at this
    simp only [h.mul] at this
    rw [this]
    split
    · exact h.one e
    · exact h.zero e
  have e2 : ∑ k, (∑ c, (d e (g.inv a c) * g.g c k + g.inv a c * d e (g.g c k))) * g.inv k b = 0 :=
    sum_eq_zero fun k _ => by rw [e1, zero_mul]
  simp only [sum_add_distrib, add_mul, sum_mul] at e2
  rw [sum_comm] at e2
  rw [sum_comm (f := fun c k => g.inv a c * d e (g.g c k) * g.inv k b)]
  have e3 : ∑ c, ∑ k, d e (g.inv a c) * g.g c k * g.inv k b = d e (g.inv a b) := by
    simp only [mul_assoc, ← mul_sum, g.mul_inv, mul_ite, mul_one, mul_zero, sum_ite_eq', mem_univ, if_true]
  rw [e3] at e2
  linear_combination e2

theorem contracted_eq (c : Fin n) : Spec.contractedN d g c = -(∑ a, d a (g.inv a c)) - ∑ e, g.inv c e * Spec.volumeN d g e := by
  have h2 : (⅟2 : A) * 2 = 1 := invOf_mul_self 2
  simp only [Spec.contractedN, Spec.christoffelN, Spec.christoffelLowN, Spec.volumeN, g.inv_deriv h]
  have e1 : ∑ a, ∑ b, g.inv a b * ∑ e, g.inv c e * (⅟2 * (d a (g.g b e) + d b (g.g a e) - d e (g.g a b))) =
      ⅟2 * (∑ a, ∑ b, ∑ e, g.inv a b * (g.inv c e * d a (g.g b e))) + ⅟2 * (∑ a, ∑ b, ∑ e, g.inv a b * (g.inv c e * d b (g.g a e))) -
        ∑ a, ∑ b, ∑ e, g.inv c e * (⅟2 * (g.inv a b * d e (g.g a b))) := by
    simp only [mul_sum, ← sum_add_distrib, ← sum_sub_distrib]
    refine sum_congr rfl fun a _ => sum_congr rfl fun b _ => sum_congr rfl fun e _ => ?_
    ring
  have e2 : ∑ a, ∑ b, ∑ e, g.inv a b * (g.inv c e * d b (g.g a e)) = ∑ a, ∑ b, ∑ e, g.inv a b * (g.inv c e * d a (g.g b e)) := by
    rw [sum_comm]
    refine sum_congr rfl fun a _ => sum_congr rfl fun b _ => sum_congr rfl fun e _ => ?_
    rw [g.isymm]
  have e3 : ∑ a, ∑ b, ∑ e, g.inv a b * (g.inv c e * d a (g.g b e)) = ∑ a, ∑ b, ∑ e, g.inv a b * d a (g.g b e) * g.inv e c := by
    refine sum_congr rfl fun a _ => sum_congr rfl fun b _ => sum_congr rfl fun e _ => ?_
    rw [g.isymm c e]; ring
  have e4 : ∑ a, ∑ b, ∑ e, g.inv c e * (⅟2 * (g.inv a b * d e (g.g a b))) = ∑ e, g.inv c e * (⅟2 * ∑ a, ∑ b, g.inv a b * d e (g.g a b)) := by
    simp only [mul_sum]
    rw [sum_comm' (t' := univ) (s' := fun _ => univ) (by simp)]
    rw [show (∑ e, ∑ a, ∑ b, g.inv c e * (⅟2 * (g.inv a b * d e (g.g a b)))) = ∑ a, ∑ e, ∑ b, g.inv c e * (⅟2 * (g.inv a b * d e (g.g a b))) from sum_comm]
    rw [sum_comm]
    refine sum_congr rfl fun a _ => ?_
    rw [sum_comm]
  rw [e1, e2, e3, e4, sum_neg_distrib, neg_neg]
  linear_combination (∑ a, ∑ b, ∑ e, g.inv a b * d a (g.g b e) * g.inv e c) * h2

theorem box_eq (f : A) : Spec.box d g f = ∑ a, ∑ b, (d a (g.inv a b * d b f) + Spec.volumeN d g a * (g.inv a b * d b f)) := by
  have e : Spec.box d g f = (∑ a, ∑ b, g.inv a b * d a (d b f)) - ∑ c, Spec.contractedN d g c * d c f := by
    simp only [Spec.box, Spec.contractedN, mul_sub, sum_sub_distrib, mul_sum, sum_mul]
    congr 1
    rw [sum_comm' (t' := univ) (s' := fun _ => univ) (by simp)]
    rw [show (∑ c, ∑ a, ∑ b, g.inv a b * Spec.christoffelN d g c a b * d c f) = ∑ a, ∑ c, ∑ b, g.inv a b * Spec.christoffelN d g c a b * d c f from sum_comm]
    rw [sum_comm]
    refine sum_congr rfl fun a _ => ?_
    rw [sum_comm]
    refine sum_congr rfl fun b _ => sum_congr rfl fun c _ => by ring
  rw [e]
  simp only [g.contracted_eq h, h.mul, sub_mul, neg_mul, sum_sub_distrib, sum_neg_distrib, sum_add_distrib, sum_mul]
  rw [sum_comm (f := fun c a => d a (g.inv a c) * d c f)]
  rw [show (∑ a, ∑ b, Spec.volumeN d g a * (g.inv a b * d b f)) = ∑ c, ∑ e, g.inv c e * Spec.volumeN d g e * d c f from by
    rw [sum_comm]
    refine sum_congr rfl fun a _ => sum_congr rfl fun b _ => ?_
    rw [g.isymm a b]; ring]
  ring

end Spec.MetricN

/-- The metric of space as a metric in three dimensions. -/
def Spec.Metric.toN (γ : Spec.Metric A) : Spec.MetricN 3 A := ⟨γ.g, γ.inv, γ.symm, γ.isymm, γ.mul_inv⟩

omit [Invertible (2 : A)] in
theorem derivs3 (C : Spec.Calculus A) : Spec.Derivs C.d := ⟨C.add, C.mul⟩

omit [Invertible (2 : A)] in
theorem derivs4 (T : Spec.TimeCalculus A) : Spec.Derivs T.d4 :=
  ⟨fun i => Fin.cases T.dt_add T.add i, fun i => Fin.cases T.dt_mul T.mul i⟩

theorem box3 (C : Spec.Calculus A) (γ : Spec.Metric A) (f : A) : Spec.box C.d γ.toN f = Spec.trace γ (Spec.hessian C γ f) := rfl

/-- The metric `ds² = -α² dt² + γ_{ij} (dx^i + β^i dt) (dx^j + β^j dt)`. -/
def Spec.admMetric (γ : Spec.Metric A) (β : Fin 3 → A) (α w : A) (hw : w * α = 1) : Spec.MetricN 4 A where
  g := Fin.cases (Fin.cases (-α ^ 2 + ∑ i, ∑ j, γ.g i j * β i * β j) fun j => ∑ i, γ.g j i * β i) fun i => Fin.cases (∑ j, γ.g i j * β j) fun j => γ.g i j
  inv := Fin.cases (Fin.cases (-w ^ 2) fun j => w ^ 2 * β j) fun i => Fin.cases (w ^ 2 * β i) fun j => γ.inv i j - w ^ 2 * β i * β j
  symm := by
    intro a b
    cases a using Fin.cases <;> cases b using Fin.cases <;> simp only [Fin.cases_zero, Fin.cases_succ]
    exact γ.symm _ _
  isymm := by
    intro a b
    cases a using Fin.cases <;> cases b using Fin.cases <;> simp only [Fin.cases_zero, Fin.cases_succ]
    rw [γ.isymm]; ring
  mul_inv := by
    have hw2 : w ^ 2 * α ^ 2 = 1 := by rw [← mul_pow, hw, one_pow]
    have hl : ∀ j, ∑ i, (∑ k, γ.g i k * β k) * γ.inv i j = β j := by
      intro j
      have : ∑ i, (∑ k, γ.g i k * β k) * γ.inv i j = ∑ k, β k * ∑ i, γ.g k i * γ.inv i j := by
        simp only [sum_mul, mul_sum]
        rw [sum_comm]
        refine sum_congr rfl fun k _ => sum_congr rfl fun i _ => ?_
        rw [γ.symm i k]; ring
      rw [this]
      simp [γ.mul_inv]
    intro a c
    cases a using Fin.cases with
    | zero =>
      cases c using Fin.cases with
      | zero =>
        rw [Fin.sum_univ_succ]
        simp only [Fin.cases_zero, Fin.cases_succ, if_true]
        have : ∑ i, (∑ j, γ.g i j * β j) * (w ^ 2 * β i) = w ^ 2 * ∑ i, ∑ j, γ.g i j * β i * β j := by
          simp only [sum_mul, mul_sum]
          refine sum_congr rfl fun i _ => sum_congr rfl fun j _ => by ring
        rw [this]
        linear_combination hw2
      | succ j =>
        rw [Fin.sum_univ_succ, if_neg (Fin.succ_ne_zero j).symm]
        simp only [Fin.cases_zero, Fin.cases_succ, mul_sub, sum_sub_distrib, hl]
        have : ∑ i, (∑ k, γ.g i k * β k) * (w ^ 2 * β i * β j) = w ^ 2 * (∑ i, ∑ k, γ.g i k * β i * β k) * β j := by
          simp only [sum_mul, mul_sum]
          refine sum_congr rfl fun i _ => sum_congr rfl fun k _ => by ring
        rw [this]
        linear_combination -β j * hw2
    | succ i =>
      cases c using Fin.cases with
      | zero =>
        rw [Fin.sum_univ_succ, if_neg (Fin.succ_ne_zero i)]
        simp only [Fin.cases_zero, Fin.cases_succ]
        rw [show ∑ k, γ.g i k * (w ^ 2 * β k) = w ^ 2 * ∑ k, γ.g i k * β k by
          rw [mul_sum]; exact sum_congr rfl fun k _ => by ring]
        ring
      | succ j =>
        rw [Fin.sum_univ_succ]
        simp only [Fin.cases_zero, Fin.cases_succ, mul_sub, sum_sub_distrib, γ.mul_inv, Fin.succ_inj]
        rw [show ∑ k, γ.g i k * (w ^ 2 * β k * β j) = (∑ k, γ.g i k * β k) * (w ^ 2 * β j) by
          rw [sum_mul]; exact sum_congr rfl fun k _ => by ring]
        ring

section
variable (T : Spec.TimeCalculus A) (γ : Spec.Metric A) (β : Fin 3 → A) (α w : A) (hw : w * α = 1)

theorem adm_volume (a : Fin 4) : Spec.volumeN T.d4 (Spec.admMetric γ β α w hw) a = w * T.d4 a α + ⅟2 * ∑ i, ∑ j, γ.inv i j * T.d4 a (γ.g i j) := by
  have h2 : (⅟2 : A) * 2 = 1 := invOf_mul_self 2
  have h := derivs4 T
  have hg : ∀ i j, T.d4 a (γ.g i j) = T.d4 a (γ.g j i) := fun i j => by rw [γ.symm]
  have hneg : ∀ x, T.d4 a (-x) = -T.d4 a x := fun x => by
    have := h.add a x (-x)
    rw [add_neg_cancel, h.zero] at this
    linear_combination -this
  unfold Spec.volumeN Spec.admMetric
  simp only [Fin.sum_univ_succ (n := 3), Fin.cases_zero, Fin.cases_succ, h.add, hneg, pow_two, h.mul, h.sum]
  simp only [Fin.sum_univ_three, γ.symm 1 0, γ.symm 2 0, γ.symm 2 1, γ.isymm 1 0, γ.isymm 2 0, γ.isymm 2 1]
  linear_combination (w * T.d4 a α) * h2 + (w * T.d4 a α) * (⅟2 * 2) * hw

theorem adm_trace {k : A} (hk : 2 * (α * k) = ∑ i, ∑ j, γ.inv i j * (Spec.lie2 T.toCalculus β γ.g i j - T.dt (γ.g i j))) :
    α * k = (∑ i, β i * (⅟2 * ∑ a, ∑ b, γ.inv a b * T.d i (γ.g a b))) + (∑ i, T.d i (β i)) - ⅟2 * ∑ i, ∑ j, γ.inv i j * T.dt (γ.g i j) := by
  have h2 : (⅟2 : A) * 2 = 1 := invOf_mul_self 2
  have e : ∑ i, ∑ j, γ.inv i j * Spec.lie2 T.toCalculus β γ.g i j = (∑ i, β i * ∑ a, ∑ b, γ.inv a b * T.d i (γ.g a b)) + 2 * ∑ i, T.d i (β i) := by
    have e1 : ∑ i, ∑ j, γ.inv i j * ∑ k, γ.g k j * T.d i (β k) = ∑ i, T.d i (β i) := by
      refine sum_congr rfl fun i _ => ?_
      have : ∑ j, γ.inv i j * ∑ k, γ.g k j * T.d i (β k) = ∑ k, (∑ j, γ.inv i j * γ.g j k) * T.d i (β k) := by
        simp only [mul_sum, sum_mul]
        rw [sum_comm]
        refine sum_congr rfl fun k _ => sum_congr rfl fun j _ => ?_
        rw [γ.symm j k]; ring
      rw [this]
      simp [show ∀ k, ∑ j, γ.inv i j * γ.g j k = if i = k then 1 else 0 from fun k => γ.toN.inv_mul i k]
    have e2 : ∑ i, ∑ j, γ.inv i j * ∑ k, γ.g i k * T.d j (β k) = ∑ i, T.d i (β i) := by
      rw [← e1, sum_comm]
      refine sum_congr rfl fun i _ => sum_congr rfl fun j _ => ?_
      rw [γ.isymm]
      congr 1
      refine sum_congr rfl fun k _ => ?_
      rw [γ.symm]
    have e3 : ∑ i, ∑ j, γ.inv i j * ∑ k, β k * T.d k (γ.g i j) = ∑ i, β i * ∑ a, ∑ b, γ.inv a b * T.d i (γ.g a b) := by
      simp only [Fin.sum_univ_three]
      ring
    rw [← e3]
    linear_combination e1 + e2 + (by
      simp only [Spec.lie2, sum_add_distrib, mul_add] : ∑ i, ∑ j, γ.inv i j * Spec.lie2 T.toCalculus β γ.g i j = (∑ i, ∑ j, γ.inv i j * ∑ k, β k * T.d k (γ.g i j)) +
        (∑ i, ∑ j, γ.inv i j * ∑ k, γ.g k j * T.d i (β k)) + ∑ i, ∑ j, γ.inv i j * ∑ k, γ.g i k * T.d j (β k))
  simp only [mul_sub, sum_sub_distrib, e] at hk
  simp only [Fin.sum_univ_three (f := fun i => β i * _)] at hk ⊢
  linear_combination ⅟2 * hk - (α * k - ∑ i, T.d i (β i)) * h2

/-- The wave operator with lapse and shift. -/
theorem adm_box {ψ P k : A} (hP : T.dt ψ = (∑ i, β i * T.d i ψ) - α * P)
    (hk : 2 * (α * k) = ∑ i, ∑ j, γ.inv i j * (Spec.lie2 T.toCalculus β γ.g i j - T.dt (γ.g i j))) :
    α * Spec.box T.d4 (Spec.admMetric γ β α w hw) ψ = T.dt P - (∑ i, β i * T.d i P) + α * Spec.trace γ (Spec.hessian T.toCalculus γ ψ) +
      (∑ i, ∑ j, γ.inv i j * T.d i α * T.d j ψ) - α * k * P := by
  have hk' := adm_trace T γ β α hk
  have h4 := derivs4 T
  have hD : ∀ a, T.d4 a w = -(w ^ 2 * T.d4 a α) := fun a => by
    have h := congrArg (T.d4 a) hw
    rw [h4.mul, h4.one] at h
    linear_combination w * h - T.d4 a w * hw
  have hneg : ∀ a x, T.d4 a (-x) = -T.d4 a x := fun a x => by
    have := h4.add a x (-x)
    rw [add_neg_cancel, h4.zero] at this
    linear_combination -this
  have z0 : ∑ b, (Spec.admMetric γ β α w hw).inv 0 b * T.d4 b ψ = w * P := by
    rw [Fin.sum_univ_succ]
    simp only [Spec.admMetric, Fin.cases_zero, Fin.cases_succ, Spec.TimeCalculus.d4, Fin.cons_zero, Fin.cons_succ, hP]
    rw [show ∑ i, w ^ 2 * β i * T.d i ψ = w ^ 2 * ∑ i, β i * T.d i ψ by rw [mul_sum]; exact sum_congr rfl fun i _ => by ring]
    linear_combination w * P * hw
  have zi : ∀ i : Fin 3, ∑ b, (Spec.admMetric γ β α w hw).inv i.succ b * T.d4 b ψ = (∑ j, γ.inv i j * T.d j ψ) + -(w * β i * P) := fun i => by
    rw [Fin.sum_univ_succ]
    simp only [Spec.admMetric, Fin.cases_zero, Fin.cases_succ, Spec.TimeCalculus.d4, Fin.cons_zero, Fin.cons_succ, hP, sub_mul, sum_sub_distrib]
    rw [show ∑ j, w ^ 2 * β i * β j * T.d j ψ = w ^ 2 * β i * ∑ j, β j * T.d j ψ by rw [mul_sum]; exact sum_congr rfl fun i _ => by ring]
    linear_combination (-(w * β i * P)) * hw
  have e3 : Spec.trace γ (Spec.hessian T.toCalculus γ ψ) = ∑ i, (T.d i (∑ j, γ.inv i j * T.d j ψ) +
      (⅟2 * ∑ a, ∑ b, γ.inv a b * T.d i (γ.g a b)) * ∑ j, γ.inv i j * T.d j ψ) := by
    rw [← box3, Spec.MetricN.box_eq _ (derivs3 _)]
    refine sum_congr rfl fun i _ => ?_
    rw [sum_add_distrib, ← mul_sum, ← T.sum]
    rfl
  have e4 : Spec.box T.d4 (Spec.admMetric γ β α w hw) ψ = ∑ a, (T.d4 a (∑ b, (Spec.admMetric γ β α w hw).inv a b * T.d4 b ψ) +
      Spec.volumeN T.d4 (Spec.admMetric γ β α w hw) a * ∑ b, (Spec.admMetric γ β α w hw).inv a b * T.d4 b ψ) := by
    rw [Spec.MetricN.box_eq _ h4]
    refine sum_congr rfl fun a _ => ?_
    rw [sum_add_distrib, ← mul_sum, ← h4.sum]
  have e5 : ∑ i, ∑ j, γ.inv i j * T.d i α * T.d j ψ = ∑ i, T.d i α * ∑ j, γ.inv i j * T.d j ψ :=
    sum_congr rfl fun i _ => by rw [mul_sum]; exact sum_congr rfl fun j _ => by ring
  rw [e4, Fin.sum_univ_succ, z0]
  simp only [zi, adm_volume, h4.add, hneg, h4.mul, hD]
  rw [e3, e5]
  simp only [Spec.TimeCalculus.d4, Fin.cons_zero, Fin.cons_succ]
  generalize hG : (fun i => ∑ j, γ.inv i j * T.d j ψ) = G
  generalize hθ : (fun i => ⅟2 * ∑ a, ∑ b, γ.inv a b * T.d i (γ.g a b)) = θ at hk'
  have hG' : ∀ i, ∑ j, γ.inv i j * T.d j ψ = G i := fun i => congrFun hG i
  have hθ' : ∀ i, ⅟2 * ∑ a, ∑ b, γ.inv a b * T.d i (γ.g a b) = θ i := fun i => congrFun hθ i
  simp only [hG', hθ'] at hk' ⊢
  generalize ⅟2 * ∑ i, ∑ j, γ.inv i j * T.dt (γ.g i j) = θt at hk' ⊢
  simp only [Fin.sum_univ_three] at hk' ⊢
  linear_combination (T.dt P - (β 0 * T.d 0 P + β 1 * T.d 1 P + β 2 * T.d 2 P) - (T.d 0 (β 0) + T.d 1 (β 1) + T.d 2 (β 2)) * P + θt * P +
    (T.d 0 α * G 0 + T.d 1 α * G 1 + T.d 2 α * G 2) - (β 0 * θ 0 + β 1 * θ 1 + β 2 * θ 2) * P) * hw + P * hk'

end
end
end Sgrid
