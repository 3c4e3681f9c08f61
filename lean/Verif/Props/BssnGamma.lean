import Verif.Props.BssnRhs
import Verif.Props.SmoothFields

/-!
# C115: the contracted Christoffel symbols and the algebraic constraints of the BSSN variables
-/

namespace Sgrid
open Finset

section
set_option linter.unusedSectionVars false
variable {A : Type} [CommRing A] [Invertible (2 : A)] (C : Spec.Calculus A) (g : Spec.Metric A)

/-- The inverse of a metric with determinant 1 are the cofactors. -/
theorem inv_cofactor (hd : Spec.det3 g.g = 1) (a b : Fin 3) :
    g.inv a b = g.g (b + 1) (a + 1) * g.g (b + 2) (a + 2) - g.g (b + 1) (a + 2) * g.g (b + 2) (a + 1) := by
  let m := Spec.metricOf g.g 1 g.symm (by rw [hd, one_mul])
  have h1 : g.inv a b = ∑ k, g.inv a k * ∑ e, g.g k e * m.inv e b := by
    have h : ∀ k, ∑ e, g.g k e * m.inv e b = if k = b then 1 else 0 := fun k => m.mul_inv k b
    simp only [h]
    simp
  have h2 : ∑ k, g.inv a k * ∑ e, g.g k e * m.inv e b = ∑ e, (∑ k, g.inv a k * g.g k e) * m.inv e b := by
    simp only [Fin.sum_univ_three]
    ring
  rw [h1, h2]
  simp only [inv_mul, ite_mul, one_mul, zero_mul, sum_ite_eq, mem_univ, if_true]
  exact one_mul _

/-- The contraction `Γ^d_{ad}` is zero if the determinant is 1. -/
theorem christoffel_det (hd : Spec.det3 g.g = 1) (a : Fin 3) : ∑ d, Spec.christoffel C g d a d = 0 := by
  have h1 : ∑ d, Spec.christoffel C g d a d = ⅟2 * ∑ p, ∑ q, g.inv p q * C.d a (g.g p q) := by
    unfold Spec.christoffel Spec.christoffelLow
    simp only [Fin.sum_univ_three, g.isymm 1 0, g.isymm 2 0, g.isymm 2 1, g.symm 1 0, g.symm 2 0, g.symm 2 1]
    ring
  have h2 := congrArg (C.d a) hd
  rw [C.one] at h2
  unfold Spec.det3 at h2
  simp only [C.add, C.sub, C.mul, g.symm 1 0, g.symm 2 0, g.symm 2 1] at h2
  have h3 : ∑ p, ∑ q, g.inv p q * C.d a (g.g p q) = 0 := by
    simp only [inv_cofactor g hd, Fin.sum_univ_three, Fin.isValue, zero_add, show (1 : Fin 3) + 1 = 2 from rfl,
      show (2 : Fin 3) + 1 = 0 from rfl, show (1 : Fin 3) + 2 = 0 from rfl, show (2 : Fin 3) + 2 = 1 from rfl,
      g.symm 1 0, g.symm 2 0, g.symm 2 1]
    linear_combination h2
  rw [h1, h3, mul_zero]

/-- With determinant 1 the contracted Christoffel symbols are `-∂_b g^{ab}`. -/
theorem contracted_det (hd : Spec.det3 g.g = 1) (a : Fin 3) : Spec.contracted C g a = -∑ b, C.d b (g.inv a b) := by
  have h := christoffel_det C g hd
  have h1 : ∑ b, C.d b (g.inv a b) = -∑ d, g.inv a d * ∑ b, Spec.christoffel C g b d b - Spec.contracted C g a := by
    simp only [inv_deriv_gamma]
    unfold Spec.contracted
    simp only [Fin.sum_univ_three, g.isymm 1 0, g.isymm 2 0, g.isymm 2 1, christoffel_symm C g _ 1 0, christoffel_symm C g _ 2 0,
      christoffel_symm C g _ 2 1]
    ring
  rw [h1]
  simp only [h, mul_zero, sum_const_zero]
  ring

/-- A tensor with both indices raised. -/
def Spec.raise (T : Fin 3 → Fin 3 → A) (a b : Fin 3) : A := ∑ p, ∑ q, g.inv a p * g.inv b q * T p q

/-- The raised divergence `g^{ea} g^{bc} ∇_c T_{ab} = ∂_b T^{eb} + Γ^e_{bc} T^{bc} + Γ^b_{bc} T^{ec}`. -/
theorem raise_div (T : Fin 3 → Fin 3 → A) (e : Fin 3) :
    ∑ a, g.inv e a * ∑ b, ∑ c, g.inv b c * Spec.cov2 C g T c a b =
      ∑ b, C.d b (Spec.raise g T e b) + ∑ b, ∑ c, Spec.christoffel C g e b c * Spec.raise g T b c +
        ∑ c, (∑ b, Spec.christoffel C g b c b) * Spec.raise g T e c := by
  unfold Spec.cov2 Spec.raise
  simp only [C.sum, C.mul, inv_deriv_gamma]
  simp only [Fin.sum_univ_three, g.isymm, christoffel_symm C g]
  ring

/-- The inverse metric and the Lie derivative. -/
theorem raise_lie (β : Fin 3 → A) (a b : Fin 3) : Spec.raise g (Spec.lie2 C β g.g) a b =
    ∑ k, (g.inv k b * C.d k (β a) + g.inv a k * C.d k (β b) - β k * C.d k (g.inv a b)) := by
  have h1 : ∀ k, C.d k (g.inv a b) = -Spec.raise g (fun p q => C.d k (g.g p q)) a b := by
    intro k
    rw [inv_deriv]
    unfold Spec.raise
    simp only [Fin.sum_univ_three, g.isymm]
    ring
  have h2 : ∀ a q, ∑ p, g.inv a p * g.g p q = if a = q then 1 else 0 := inv_mul g
  have h3 : ∑ p, ∑ q, g.inv a p * g.inv b q * ∑ k, g.g k q * C.d p (β k) = ∑ k, g.inv a k * C.d k (β b) := by
    have e : ∑ p, ∑ q, g.inv a p * g.inv b q * ∑ k, g.g k q * C.d p (β k) =
        ∑ p, g.inv a p * ∑ k, (∑ q, g.inv b q * g.g q k) * C.d p (β k) := by
      simp only [Fin.sum_univ_three, g.symm 1 0, g.symm 2 0, g.symm 2 1]
      ring
    rw [e]
    simp only [h2, ite_mul, one_mul, zero_mul, sum_ite_eq, mem_univ, if_true]
  have h4 : ∑ p, ∑ q, g.inv a p * g.inv b q * ∑ k, g.g p k * C.d q (β k) = ∑ k, g.inv k b * C.d k (β a) := by
    have e : ∑ p, ∑ q, g.inv a p * g.inv b q * ∑ k, g.g p k * C.d q (β k) =
        ∑ q, g.inv q b * ∑ k, (∑ p, g.inv a p * g.g p k) * C.d q (β k) := by
      simp only [Fin.sum_univ_three, g.isymm _ b]
      ring
    rw [e]
    simp only [h2, ite_mul, one_mul, zero_mul, sum_ite_eq, mem_univ, if_true]
  simp only [h1, sum_add_distrib, sum_sub_distrib]
  rw [← h3, ← h4]
  unfold Spec.raise Spec.lie2
  simp only [Fin.sum_univ_three]
  ring

variable {E Em : A} (hE : E * Em = 1) (f : A) (hf : ∀ a, C.d a E = 4 * E * C.d a f)
include hf

/-- The divergence of `E S` with the metric `E g`. -/
theorem div_scale (S : Fin 3 → Fin 3 → A) (hS : ∀ a b, S a b = S b a) (a : Fin 3) :
    ∑ b, ∑ c, (g.scale hE).inv b c * Spec.cov2 C (g.scale hE) (fun i j => E * S i j) c a b =
      ∑ b, ∑ c, g.inv b c * Spec.cov2 C g S c a b + 6 * ∑ b, S a b * Spec.grad C g f b - 2 * C.d a f * Spec.trace g S := by
  have h1 : ∀ b c, (g.scale hE).inv b c * Spec.cov2 C (g.scale hE) (fun i j => E * S i j) c a b = g.inv b c * Spec.cov2 C g S c a b +
      g.inv b c * (4 * C.d c f * S a b) - g.inv b c * ∑ d, S d b * Spec.shiftSymbol C g f d c a -
      g.inv b c * ∑ d, S a d * Spec.shiftSymbol C g f d c b := by
    intro b c
    change Em * g.inv b c * _ = _
    unfold Spec.cov2
    simp only [C.mul, hf, christoffel_scale C g hE f hf, Fin.sum_univ_three]
    linear_combination (norm := (simp only [Fin.sum_univ_three]; ring)) (g.inv b c * (4 * C.d c f * S a b + C.d c (S a b) -
      ∑ d, ((Spec.christoffel C g d c a + Spec.shiftSymbol C g f d c a) * S d b +
        (Spec.christoffel C g d c b + Spec.shiftSymbol C g f d c b) * S a d))) * hE
  simp only [h1, sum_add_distrib, sum_sub_distrib]
  simp only [shift_contract C g f (fun d => S _ d), shift_contract C g f (fun d => S d _)]
  have h2 : ∑ b, ∑ c, g.inv b c * (4 * C.d c f * S a b) = 4 * ∑ b, S a b * Spec.grad C g f b := by
    unfold Spec.grad
    simp only [Fin.sum_univ_three]
    ring
  have h3 : ∑ b, ∑ c, g.inv b c * (2 * (S c b * C.d a f + S a b * C.d c f - g.g c a * ∑ d, S d b * Spec.grad C g f d)) =
      2 * C.d a f * Spec.trace g S := by
    have e : ∑ b, ∑ c, g.inv b c * (g.g c a * ∑ d, S d b * Spec.grad C g f d) = ∑ d, S a d * Spec.grad C g f d := by
      have e1 : ∑ b, ∑ c, g.inv b c * (g.g c a * ∑ d, S d b * Spec.grad C g f d) =
          ∑ b, (∑ c, g.inv b c * g.g c a) * ∑ d, S d b * Spec.grad C g f d := by
        simp only [Fin.sum_univ_three]
        ring
      rw [e1]
      simp only [inv_mul, ite_mul, one_mul, zero_mul, sum_ite_eq', mem_univ, if_true]
      exact sum_congr rfl fun d _ => by rw [hS d a]
    have e2 : ∑ b, ∑ c, g.inv b c * (S a b * C.d c f) = ∑ d, S a d * Spec.grad C g f d := by
      unfold Spec.grad
      simp only [Fin.sum_univ_three]
      ring
    have e3 : ∑ b, ∑ c, g.inv b c * (2 * (S c b * C.d a f + S a b * C.d c f - g.g c a * ∑ d, S d b * Spec.grad C g f d)) =
        2 * C.d a f * Spec.trace g S + 2 * ∑ b, ∑ c, g.inv b c * (S a b * C.d c f) -
          2 * ∑ b, ∑ c, g.inv b c * (g.g c a * ∑ d, S d b * Spec.grad C g f d) := by
      unfold Spec.trace
      simp only [Fin.sum_univ_three, hS 1 0, hS 2 0, hS 2 1]
      ring
    rw [e3, e, e2]
    ring
  have h4 : ∑ b, ∑ c, g.inv b c * (2 * (S a c * C.d b f + S a b * C.d c f - g.g c b * ∑ d, S a d * Spec.grad C g f d)) =
      -2 * ∑ b, S a b * Spec.grad C g f b := by
    have e : ∑ b, ∑ c, g.inv b c * g.g c b = 3 := by
      rw [← trace_metric g]
      exact sum_congr rfl fun b _ => sum_congr rfl fun c _ => by rw [g.symm c b]
    have e3 : ∑ b, ∑ c, g.inv b c * (2 * (S a c * C.d b f + S a b * C.d c f - g.g c b * ∑ d, S a d * Spec.grad C g f d)) =
        4 * ∑ b, S a b * Spec.grad C g f b - 2 * (∑ b, ∑ c, g.inv b c * g.g c b) * ∑ d, S a d * Spec.grad C g f d := by
      unfold Spec.grad
      simp only [Fin.sum_univ_three, g.isymm 1 0, g.isymm 2 0, g.isymm 2 1]
      ring
    rw [e3, e]
    ring
  rw [h2, h3, h4]
  ring

end

section
set_option linter.unusedSectionVars false
variable {𝔽 : Type} [Field 𝔽] [CharZero 𝔽] {A : Type} [CommRing A] [Invertible (2 : A)] [Invertible (3 : A)]
variable {C : Spec.Calculus A} {ev : A →+* 𝔽} {F : Spec.BssnFields A} {c : BssnArgs 𝔽} {g : Spec.Metric A} {E Em : A}

/-- The time derivative of the conformal metric. -/
def Spec.gdot (C : Spec.Calculus A) (F : Spec.BssnFields A) (g : Spec.Metric A) (a b : Fin 3) : A :=
  -2 * (F.α * F.At a b) + Spec.lie2 C F.β g.g a b - 2 * ⅟3 * (g.g a b * ∑ k, C.d k (F.β k))

/-- The momentum constraint of the physical metric and extrinsic curvature, `∇^b (K_{ab} - γ_{ab} K)`. -/
def Spec.bssnMom (C : Spec.Calculus A) (F : Spec.BssnFields A) (g : Spec.Metric A) {E Em : A} (hE : E * Em = 1) (a : Fin 3) : A :=
  ∑ b, ∑ d, (g.scale hE).inv b d * Spec.cov2 C (g.scale hE)
    (fun i j => Spec.physK F g E i j - (g.scale hE).g i j * Spec.trace (g.scale hE) (Spec.physK F g E)) d a b

/-- The momentum constraint with the conformal variables. -/
theorem bssnMom_eq (hg : Spec.BssnGeometry C F g E Em) (ht : Spec.trace g F.At = 0) (a : Fin 3) :
    Spec.bssnMom C F g hg.inv a = ∑ b, ∑ d, g.inv b d * Spec.cov2 C g F.At d a b + 6 * ∑ b, F.At a b * Spec.grad C g (F.φ + F.ℓ) b -
      2 * ⅟3 * C.d a F.K := by
  have h3 : (⅟3 : A) * 3 = 1 := invOf_mul_self 3
  unfold Spec.bssnMom
  rw [physK_trace hg.inv ht]
  have e : (fun i j => Spec.physK F g E i j - (g.scale hg.inv).g i j * F.K) = fun i j => E * (F.At i j - 2 * ⅟3 * (g.g i j * F.K)) := by
    funext i j
    change E * (F.At i j + ⅟3 * (g.g i j * F.K)) - E * g.g i j * F.K = _
    linear_combination (E * g.g i j * F.K) * h3
  rw [e, div_scale C g hg.inv _ hg.E (fun i j => F.At i j - 2 * ⅟3 * (g.g i j * F.K)) (fun i j => by rw [hg.symm, g.symm])]
  have e1 : ∀ d a b, Spec.cov2 C g (fun i j => F.At i j - 2 * ⅟3 * (g.g i j * F.K)) d a b =
      Spec.cov2 C g F.At d a b - 2 * ⅟3 * F.K * Spec.cov2 C g g.g d a b - 2 * ⅟3 * (g.g a b * C.d d F.K) := by
    intro d a b
    have h2 : C.d d (2 : A) = 0 := by
      rw [show (2 : A) = 1 + 1 by norm_num, C.add, C.one]; ring
    unfold Spec.cov2
    simp only [C.sub, C.mul, calc_third, h2, Fin.sum_univ_three]
    ring
  have e2 : Spec.trace g (fun i j => F.At i j - 2 * ⅟3 * (g.g i j * F.K)) = -2 * F.K := by
    have h1 := trace_metric g
    unfold Spec.trace at ht ⊢
    have e : ∀ a b, g.inv a b * (F.At a b - 2 * ⅟3 * (g.g a b * F.K)) = g.inv a b * F.At a b - 2 * ⅟3 * F.K * (g.inv a b * g.g a b) :=
      fun a b => by ring
    simp only [e, sum_sub_distrib, ← mul_sum, ht, h1]
    linear_combination (-2 * F.K) * h3
  have e3 : ∑ b, (F.At a b - 2 * ⅟3 * (g.g a b * F.K)) * Spec.grad C g (F.φ + F.ℓ) b =
      ∑ b, F.At a b * Spec.grad C g (F.φ + F.ℓ) b - 2 * ⅟3 * F.K * C.d a (F.φ + F.ℓ) := by
    rw [← grad_lower C g (F.φ + F.ℓ) a]
    simp only [Fin.sum_univ_three]
    ring
  have e4 : ∑ b, ∑ d, g.inv b d * (g.g a b * C.d d F.K) = C.d a F.K := by
    rw [← grad_lower C g F.K a]
    unfold Spec.grad
    simp only [Fin.sum_univ_three]
    ring
  rw [e2, e3]
  simp only [e1, cov2_metric]
  have e5 : ∑ b, ∑ d, g.inv b d * (Spec.cov2 C g F.At d a b - 2 * ⅟3 * F.K * 0 - 2 * ⅟3 * (g.g a b * C.d d F.K)) =
      ∑ b, ∑ d, g.inv b d * Spec.cov2 C g F.At d a b - 2 * ⅟3 * ∑ b, ∑ d, g.inv b d * (g.g a b * C.d d F.K) := by
    simp only [Fin.sum_univ_three]
    ring
  rw [e5, e4]
  linear_combination (-4 * F.K * C.d a (F.φ + F.ℓ)) * h3

/-- The derivative of `-g^{ac} g^{bd} ∂_t g_{cd}`. -/
theorem gdot_div (hg : Spec.BssnGeometry C F g E Em) (hd : Spec.det3 g.g = 1) (a : Fin 3) :
    -∑ b, C.d b (-Spec.raise g (Spec.gdot C F g) a b) =
      -2 * ∑ b, (C.d b F.α * Spec.raise g F.At a b + F.α * C.d b (Spec.raise g F.At a b)) +
      ∑ b, ∑ k, g.inv b k * C.d b (C.d k (F.β a)) + ⅟3 * ∑ b, g.inv a b * ∑ k, C.d b (C.d k (F.β k)) -
      ∑ k, F.G k * C.d k (F.β a) + 2 * ⅟3 * F.G a * ∑ k, C.d k (F.β k) + ∑ k, F.β k * C.d k (F.G a) := by
  have h3 : (⅟3 : A) * 3 = 1 := invOf_mul_self 3
  have h2 : ∀ d, C.d d (2 : A) = 0 := by
    intro d
    rw [show (2 : A) = 1 + 1 by norm_num, C.add, C.one]; ring
  have hr : ∀ b, Spec.raise g (Spec.gdot C F g) a b = -2 * (F.α * Spec.raise g F.At a b) + Spec.raise g (Spec.lie2 C F.β g.g) a b -
      2 * ⅟3 * (g.inv a b * ∑ k, C.d k (F.β k)) := by
    intro b
    have e : ∑ p, ∑ q, g.inv a p * g.inv b q * g.g p q = g.inv a b := by
      have e1 : ∑ p, ∑ q, g.inv a p * g.inv b q * g.g p q = ∑ q, (∑ p, g.inv a p * g.g p q) * g.inv b q := by
        simp only [Fin.sum_univ_three]
        ring
      rw [e1]
      simp only [inv_mul, ite_mul, one_mul, zero_mul, sum_ite_eq, mem_univ, if_true]
      rw [g.isymm]
    rw [← e]
    unfold Spec.raise Spec.gdot
    simp only [Fin.sum_univ_three]
    ring
  simp only [hr, raise_lie]
  have hG : ∀ a, F.G a = -∑ b, C.d b (g.inv a b) := fun a => by rw [hg.G, contracted_det C g hd]
  simp only [hG]
  simp only [C.neg, C.sub, C.add, C.mul, C.sum, calc_third, h2]
  have hi : ∀ k a b, C.d k (g.inv a b) = C.d k (g.inv b a) := fun k a b => by rw [g.isymm]
  have h4 := congrArg (fun t => t * ∑ b, g.inv a b * ∑ k, C.d b (C.d k (F.β k))) h3
  simp only [Fin.sum_univ_three, C.comm 1 0, C.comm 2 0, C.comm 2 1] at h4 ⊢
  fin_cases a
  all_goals
    simp only [Fin.zero_eta, Fin.mk_one, Fin.reduceFinMk, g.isymm 1 0, g.isymm 2 0, g.isymm 2 1] at h4 ⊢
    linear_combination -h4

variable [LinearOrder 𝔽] [IsStrictOrderedRing 𝔽]

theorem Bs.new_G : ∀ a : Fin 3, [Bs.ng11_n c, Bs.ng12_n c, Bs.ng13_n c, Bs.ng22_n c, Bs.ng23_n c, Bs.ng33_n c, Bs.nphi_n c,
    Bs.nA11_n c, Bs.nA12_n c, Bs.nA13_n c, Bs.nA22_n c, Bs.nA23_n c, Bs.nA33_n c, Bs.nK_n c, Bs.nG1_n c, Bs.nG2_n c, Bs.nG3_n c,
    Bs.nalpha_n c, Bs.nbeta1_n c, Bs.nbeta2_n c, Bs.nbeta3_n c, Bs.nB1_n c, Bs.nB2_n c, Bs.nB3_n c, c.oldDens].getD (14 + a) 0 =
      Bs.rGT c a := by
  refine fin3 ?_ ?_ ?_ <;> rfl

theorem Bs.rg_val (h : Spec.BssnInput C ev F g Em c) (a b : Fin 3) : Bs.rgT c a b = ev (Spec.gdot C F g a b) := by
  rw [Bs.rg_eq, Bs.lieg_val h, Bs.A_eq, h.A]
  unfold Bs.alpha Spec.gdot
  rw [h.α]
  simp only [map_add, map_sub, map_mul, map_neg, map_ofNat, ev_third]
  ring

theorem Bs.Ainv_val (h : Spec.BssnInput C ev F g Em c) (a b : Fin 3) : Bs.AinvT c a b = ev (Spec.raise g F.At a b) := by
  rw [Bs.Ainv_eq]
  unfold Spec.raise
  simp only [Bs.ginv_val h, Bs.A_eq, h.A, map_sum, map_mul]

/-- **C115.** The right hand side for `Γ^a` is the time derivative of the contracted Christoffel symbols, `-∂_b ∂_t g^{ab}` with
`∂_t g^{ab} = -g^{ac} g^{bd} ∂_t g_{cd}`, plus `2 α` times the momentum constraint. -/
theorem C115_gamma (h : Spec.BssnInput C ev F g Em c) (hg : Spec.BssnGeometry C F g E Em) (hd : Spec.det3 g.g = 1)
    (ht : Spec.trace g F.At = 0) (hdt : c.dt = 0) (hD : c.densitized = false) (hk : c.noForceK = true) (hG : c.evolveGamma = true) :
    ∃ o, bssnRhs c = .ok o ∧ (∀ a b, o.new (Spec.sym2 a b) = ev (Spec.gdot C F g a b)) ∧
      ∀ a : Fin 3, o.new (14 + a) = ev (-∑ b, C.d b (-∑ p, ∑ q, g.inv a p * g.inv b q * Spec.gdot C F g p q)) +
        2 * ev (F.α * ∑ b, g.inv a b * Spec.bssnMom C F g hg.inv b) := by
  unfold bssnRhs
  rw [hdt, hD, if_neg (by simp), if_neg (by simp)]
  refine ⟨_, rfl, fun a b => ?_, fun a => ?_⟩
  · dsimp only
    rw [Bs.new_g, Bs.rg_val h]
  · dsimp only
    rw [Bs.new_G, Bs.rG_eq, hG]
    change _ = ev (-∑ b, C.d b (-Spec.raise g (Spec.gdot C F g) a b)) + _
    rw [gdot_div hg hd]
    have e2 : ∑ b, g.inv a b * Spec.bssnMom C F g hg.inv b = ∑ b, C.d b (Spec.raise g F.At a b) +
        ∑ b, ∑ k, Spec.christoffel C g a b k * Spec.raise g F.At b k + 6 * ∑ b, Spec.raise g F.At a b * C.d b (F.φ + F.ℓ) -
        2 * ⅟3 * ∑ b, g.inv a b * C.d b F.K := by
      have e3 := raise_div C g F.At a
      have e4 := christoffel_det C g hd
      simp only [e4, zero_mul, sum_const_zero, add_zero] at e3
      rw [← e3]
      simp only [bssnMom_eq hg ht]
      have e5 : ∑ b, Spec.raise g F.At a b * C.d b (F.φ + F.ℓ) = ∑ b, g.inv a b * ∑ k, F.At b k * Spec.grad C g (F.φ + F.ℓ) k := by
        unfold Spec.raise Spec.grad
        simp only [Fin.sum_univ_three, g.isymm]
        ring
      rw [e5]
      simp only [mul_add, mul_sub, sum_add_distrib, sum_sub_distrib]
      congr 1
      · congr 1
        rw [mul_sum]
        exact sum_congr rfl fun b _ => by ring
      · rw [mul_sum]
        exact sum_congr rfl fun b _ => by ring
    rw [e2]
    rw [Bs.divAinv_eq, Bs.pseudolieG_eq, Bs.Gfromg_val h, Bs.G_eq, h.G, hg.G, sub_self, mul_zero, zero_mul, sub_zero]
    simp only [Bs.undiffdG_val h hg, ← hg.G]
    unfold Bs.b2 Bs.alpha
    rw [if_pos rfl, one_mul, h.α, Bs.divbeta_val h, Bs.betadG_eq]
    have e6 : ∀ b, Bs.dKT c b = ev (C.d b F.K) := by
      intro b
      rw [Bs.dK_eq, h.dK, hk]
      simp [Bs.b2]
    simp only [Bs.Ainv_val h, Bs.da_eq, h.dα, Bs.ginv_val h, e6, Bs.df_val h hg, Bs.gamma_val h, Bs.ddb_eq, h.ddβ, Bs.ootddivbeta_eq,
      Bs.db_eq, h.dβ, Bs.beta_eq, h.β, h.dG]
    simp only [map_add, map_sub, map_mul, map_neg, map_ofNat, ev_third, map_sum]
    simp only [Fin.sum_univ_three]
    ring

/-- The Lie derivative of the trace. -/
theorem trace_lie (g : Spec.Metric A) (C : Spec.Calculus A) (β : Fin 3 → A) (T : Fin 3 → Fin 3 → A) :
    ∑ a, ∑ b, (g.inv a b * Spec.lie2 C β T a b - Spec.raise g (Spec.lie2 C β g.g) a b * T a b) = ∑ k, β k * C.d k (Spec.trace g T) := by
  simp only [raise_lie]
  unfold Spec.trace Spec.lie2
  simp only [C.add, C.mul, Fin.sum_univ_three]
  ring

theorem raise_metric (g : Spec.Metric A) (a b : Fin 3) : Spec.raise g g.g a b = g.inv a b := by
  unfold Spec.raise
  have e1 : ∑ p, ∑ q, g.inv a p * g.inv b q * g.g p q = ∑ q, (∑ p, g.inv a p * g.g p q) * g.inv b q := by
    simp only [Fin.sum_univ_three]
    ring
  rw [e1]
  simp only [inv_mul, ite_mul, one_mul, zero_mul, sum_ite_eq, mem_univ, if_true]
  rw [g.isymm]

/-- The trace of the Lie derivative of the metric. -/
theorem lie_trace_det (g : Spec.Metric A) (C : Spec.Calculus A) (hd : Spec.det3 g.g = 1) (β : Fin 3 → A) :
    ∑ a, ∑ b, g.inv a b * Spec.lie2 C β g.g a b = 2 * ∑ k, C.d k (β k) := by
  have h5 : (⅟2 : A) * 2 = 1 := invOf_mul_self 2
  have h1 : ∀ k, ∑ a, ∑ b, g.inv a b * C.d k (g.g a b) = 0 := by
    intro k
    have h := christoffel_det C g hd k
    have h1 : ∑ d, Spec.christoffel C g d k d = ⅟2 * ∑ p, ∑ q, g.inv p q * C.d k (g.g p q) := by
      unfold Spec.christoffel Spec.christoffelLow
      simp only [Fin.sum_univ_three, g.isymm 1 0, g.isymm 2 0, g.isymm 2 1, g.symm 1 0, g.symm 2 0, g.symm 2 1]
      ring
    rw [h1] at h
    linear_combination 2 * h - (∑ a, ∑ b, g.inv a b * C.d k (g.g a b)) * h5
  have h2 : ∀ a, ∑ k, (∑ b, g.inv a b * g.g b k) * C.d a (β k) = C.d a (β a) := by
    intro a
    simp only [inv_mul, ite_mul, one_mul, zero_mul, sum_ite_eq, mem_univ, if_true]
  have h3 : ∑ a, ∑ b, g.inv a b * Spec.lie2 C β g.g a b = ∑ k, β k * (∑ a, ∑ b, g.inv a b * C.d k (g.g a b)) +
      2 * ∑ a, ∑ k, (∑ b, g.inv a b * g.g b k) * C.d a (β k) := by
    unfold Spec.lie2
    simp only [Fin.sum_univ_three, g.isymm 1 0, g.isymm 2 0, g.isymm 2 1, g.symm 1 0, g.symm 2 0, g.symm 2 1]
    ring
  rw [h3]
  simp only [h1, h2, mul_zero, sum_const_zero]
  ring

/-- **C115.** The algebraic constraint `det g = 1` is preserved if `A` is tracefree: `g^{ab} ∂_t g_{ab} = 0`. -/
theorem C115_det (h : Spec.BssnInput C ev F g Em c) (hd : Spec.det3 g.g = 1) (ht : Spec.trace g F.At = 0) (hdt : c.dt = 0)
    (hD : c.densitized = false) :
    ∃ o, bssnRhs c = .ok o ∧ ∑ a, ∑ b, ev (g.inv a b) * o.new (Spec.sym2 a b) = 0 := by
  unfold bssnRhs
  rw [hdt, hD, if_neg (by simp), if_neg (by simp)]
  refine ⟨_, rfl, ?_⟩
  dsimp only
  simp only [Bs.new_g, Bs.rg_val h, ← map_mul, ← map_sum]
  rw [← map_zero ev]
  congr 1
  have h1 := lie_trace_det g C hd F.β
  have h2 := trace_metric g
  have h3 : (⅟3 : A) * 3 = 1 := invOf_mul_self 3
  have e : ∑ a, ∑ b, g.inv a b * Spec.gdot C F g a b = -2 * F.α * Spec.trace g F.At + ∑ a, ∑ b, g.inv a b * Spec.lie2 C F.β g.g a b -
      2 * ⅟3 * (∑ k, C.d k (F.β k)) * ∑ a, ∑ b, g.inv a b * g.g a b := by
    unfold Spec.gdot Spec.trace
    simp only [Fin.sum_univ_three]
    ring
  rw [e, h1, h2, ht]
  linear_combination (-2 * ∑ k, C.d k (F.β k)) * h3

/-- **C115.** The algebraic constraint `g^{ab} A_{ab} = 0` is preserved if the Hamiltonian constraint holds or is not subtracted: its
time derivative is `α` times `RtoRminusHfactor` times the Hamiltonian constraint. -/
theorem C115_tracefree (h : Spec.BssnInput C ev F g Em c) (hg : Spec.BssnGeometry C F g E Em)
    (ht : Spec.trace g F.At = 0) (hdt : c.dt = 0) (hD : c.densitized = false) (hk : c.noForceK = true) :
    ∃ o, bssnRhs c = .ok o ∧ ∑ a, ∑ b, (ev (g.inv a b) * o.new (7 + Spec.sym2 a b) -
        (∑ p, ∑ q, ev (g.inv a p) * ev (g.inv b q) * o.new (Spec.sym2 p q)) * ev (F.At a b)) =
      c.RtoRminusHfactor * ev (F.α * (Spec.trace (g.scale hg.inv) (Spec.ricci C (g.scale hg.inv)) +
        Spec.trace (g.scale hg.inv) (Spec.physK F g E) ^ 2 - Spec.square (g.scale hg.inv) (Spec.physK F g E))) := by
  unfold bssnRhs
  rw [hdt, hD, if_neg (by simp), if_neg (by simp)]
  refine ⟨_, rfl, ?_⟩
  dsimp only
  simp only [Bs.new_g, Bs.new_A, Bs.rg_val h]
  have hrA : ∀ a b, Bs.rAT c a b = ev (Em * (-Spec.hessian C (g.scale hg.inv) F.α a b + F.α * Spec.ricci C (g.scale hg.inv) a b) +
      F.α * (F.K * F.At a b - 2 * ∑ k, ∑ d, g.inv k d * (F.At a k * F.At d b)) + Spec.lie2 C F.β F.At a b -
        2 * ⅟3 * (F.At a b * ∑ k, C.d k (F.β k))) - 1 / 3 * (ev (g.g a b) * (-Bs.trcdda c + Bs.alpha c * Bs.R c)) := by
    intro a b
    rw [Bs.rA_eq, Bs.lieA_val h hg, Bs.ricci_val h hg, Bs.cdda_val h hg, Bs.K_val h hk, Bs.psim4_val h, Bs.AA_val h, Bs.A_eq, h.A,
      Bs.g_eq, h.g]
    unfold Bs.alpha
    rw [h.α]
    simp only [map_add, map_sub, map_mul, map_neg, map_ofNat, ev_third]
    ring
  simp only [hrA]
  have hX : ∀ X : 𝔽, ∑ a, ∑ b, ev (g.inv a b) * (1 / 3 * (ev (g.g a b) * X)) = X := by
    intro X
    have e := congrArg ev (trace_metric g)
    simp only [map_add, map_mul, map_ofNat, Fin.sum_univ_three] at e
    simp only [Fin.sum_univ_three]
    linear_combination (1 / 3 * X) * e
  have hsplit : ∀ (X : 𝔽) (T : Fin 3 → Fin 3 → A), ∑ a, ∑ b, (ev (g.inv a b) * (ev (T a b) - 1 / 3 * (ev (g.g a b) * X)) -
      (∑ p, ∑ q, ev (g.inv a p) * ev (g.inv b q) * ev (Spec.gdot C F g p q)) * ev (F.At a b)) =
      ev (∑ a, ∑ b, (g.inv a b * T a b - Spec.raise g (Spec.gdot C F g) a b * F.At a b)) - X := by
    intro X T
    have e := hX X
    unfold Spec.raise
    simp only [mul_sub, sum_sub_distrib, map_sub, map_sum, map_mul] at e ⊢
    rw [e]
    ring
  rw [hsplit]
  have hgd : ∀ a b, Spec.raise g (Spec.gdot C F g) a b = -2 * (F.α * Spec.raise g F.At a b) + Spec.raise g (Spec.lie2 C F.β g.g) a b -
      2 * ⅟3 * (g.inv a b * ∑ k, C.d k (F.β k)) := by
    intro a b
    rw [← raise_metric g a b]
    unfold Spec.raise Spec.gdot
    simp only [Fin.sum_univ_three]
    ring
  have hl := trace_lie g C F.β F.At
  rw [ht] at hl
  simp only [C.zero, mul_zero, sum_const_zero] at hl
  have hAA : ∑ a, ∑ b, Spec.raise g F.At a b * F.At a b = ∑ a, ∑ b, g.inv a b * ∑ k, ∑ d, g.inv k d * (F.At a k * F.At d b) := by
    have hs := hg.symm
    unfold Spec.raise
    simp only [Fin.sum_univ_three, g.isymm 1 0, g.isymm 2 0, g.isymm 2 1, hs 1 0, hs 2 0, hs 2 1]
    ring
  have hmain : ∑ a, ∑ b, (g.inv a b * (Em * (-Spec.hessian C (g.scale hg.inv) F.α a b + F.α * Spec.ricci C (g.scale hg.inv) a b) +
      F.α * (F.K * F.At a b - 2 * ∑ k, ∑ d, g.inv k d * (F.At a k * F.At d b)) + Spec.lie2 C F.β F.At a b -
        2 * ⅟3 * (F.At a b * ∑ k, C.d k (F.β k))) - Spec.raise g (Spec.gdot C F g) a b * F.At a b) =
      -Spec.trace (g.scale hg.inv) (Spec.hessian C (g.scale hg.inv) F.α) +
        F.α * Spec.trace (g.scale hg.inv) (Spec.ricci C (g.scale hg.inv)) := by
    have e : ∀ a b, g.inv a b * (Em * (-Spec.hessian C (g.scale hg.inv) F.α a b + F.α * Spec.ricci C (g.scale hg.inv) a b) +
      F.α * (F.K * F.At a b - 2 * ∑ k, ∑ d, g.inv k d * (F.At a k * F.At d b)) + Spec.lie2 C F.β F.At a b -
        2 * ⅟3 * (F.At a b * ∑ k, C.d k (F.β k))) - Spec.raise g (Spec.gdot C F g) a b * F.At a b =
        -(Em * g.inv a b * Spec.hessian C (g.scale hg.inv) F.α a b) + F.α * (Em * g.inv a b * Spec.ricci C (g.scale hg.inv) a b) +
        F.α * F.K * (g.inv a b * F.At a b) - 2 * F.α * (g.inv a b * ∑ k, ∑ d, g.inv k d * (F.At a k * F.At d b)) +
        2 * F.α * (Spec.raise g F.At a b * F.At a b) +
        (g.inv a b * Spec.lie2 C F.β F.At a b - Spec.raise g (Spec.lie2 C F.β g.g) a b * F.At a b) := by
      intro a b
      rw [hgd]
      ring
    simp only [e, sum_add_distrib, sum_sub_distrib, sum_neg_distrib, ← mul_sum] at hl ⊢
    rw [hAA, hl]
    unfold Spec.trace at ht ⊢
    rw [ht]
    change _ = -(∑ a, ∑ b, Em * g.inv a b * _) + F.α * (∑ a, ∑ b, Em * g.inv a b * _)
    ring
  rw [hmain, Bs.trcdda_val h hg, physK_trace hg.inv ht, physK_square hg.inv hg.symm ht]
  unfold Bs.R Bs.alpha
  rw [Bs.hamil_val h hg hk, Bs.trRicci_val h hg, h.α]
  simp only [map_add, map_sub, map_mul, map_neg, map_pow, ev_third]
  ring

end

end Sgrid
