import Verif.Props.Z4Index
import Verif.Props.Z4Dt
import Verif.Props.BssnRhs
import Mathlib.Tactic.IntervalCases

/-!
# C121: the Z4 equations
-/

namespace Sgrid
open Finset

/-- The variables of the Z4 system other than the metric: lapse, shift, extrinsic curvature and the four-vector `(Θ, Z_a)`. -/
structure Spec.Z4Fields (A : Type) where
  α : A
  β : Fin 3 → A
  K : Fin 3 → Fin 3 → A
  Θ : A
  Z : Fin 3 → A

section
set_option linter.unusedSectionVars false
variable {𝔽 : Type} [Field 𝔽] {A : Type} [CommRing A]

/-- The memory contains the values of the fields and of their derivatives at a point; `ev` takes the value of a function there. -/
structure Spec.Z4Input (C : Spec.Calculus A) (ev : A →+* 𝔽) (γ : Spec.Metric A) (F : Spec.Z4Fields A) (c : Z4Args 𝔽) : Prop where
  g : ∀ a b, c.cur (Spec.sym2 a b) = ev (γ.g a b)
  K : ∀ a b, c.cur (6 + Spec.sym2 a b) = ev (F.K a b)
  Θ : c.cur 12 = ev F.Θ
  Z : ∀ a : Fin 3, c.cur (13 + a) = ev (F.Z a)
  α : c.cur 16 = ev F.α
  β : ∀ a : Fin 3, c.cur (17 + a) = ev (F.β a)
  dg : ∀ k a b : Fin 3, c.dg (3 * Spec.sym2 a b + k) = ev (C.d k (γ.g a b))
  ddg : ∀ k l a b, c.ddg (6 * Spec.sym2 a b + Spec.sym2 k l) = ev (C.d k (C.d l (γ.g a b)))
  dK : ∀ k a b : Fin 3, c.dK (3 * Spec.sym2 a b + k) = ev (C.d k (F.K a b))
  dΘ : ∀ a : Fin 3, c.dTheta a = ev (C.d a F.Θ)
  dZ : ∀ a b : Fin 3, c.dZ (3 * a + b) = ev (C.d b (F.Z a))
  dα : ∀ a : Fin 3, c.dalp a = ev (C.d a F.α)
  ddα : ∀ a b, c.ddalp (Spec.sym2 a b) = ev (C.d a (C.d b F.α))
  dβ : ∀ a b : Fin 3, c.dbeta (3 * a + b) = ev (C.d b (F.β a))

/-- The covariant derivative `∇_a Z_b`. -/
def Spec.cov1 [Invertible (2 : A)] (C : Spec.Calculus A) (γ : Spec.Metric A) (Z : Fin 3 → A) (a b : Fin 3) : A :=
  C.d a (Z b) - ∑ k, Spec.christoffel C γ k a b * Z k

/-- The Lie derivative of a covector. -/
def Spec.lie1 (C : Spec.Calculus A) (β : Fin 3 → A) (Z : Fin 3 → A) (a : Fin 3) : A :=
  ∑ k, (β k * C.d k (Z a) + Z k * C.d a (β k))

/-- The Hamiltonian constraint without matter, `R + K² - K_{ab} K^{ab}`. -/
def Spec.hamiltonian [Invertible (2 : A)] (C : Spec.Calculus A) (γ : Spec.Metric A) (K : Fin 3 → Fin 3 → A) : A :=
  Spec.trace γ (Spec.ricci C γ) + Spec.trace γ K ^ 2 - Spec.square γ K

/-- The momentum constraint without matter, `∇^b (K_{ab} - γ_{ab} K)`. -/
def Spec.momentum [Invertible (2 : A)] (C : Spec.Calculus A) (γ : Spec.Metric A) (K : Fin 3 → Fin 3 → A) (a : Fin 3) : A :=
  ∑ b, ∑ d, γ.inv b d * Spec.cov2 C γ (fun i j => K i j - γ.g i j * Spec.trace γ K) d a b

variable {C : Spec.Calculus A} {ev : A →+* 𝔽} {F : Spec.Z4Fields A} {c : Z4Args 𝔽} {γ : Spec.Metric A}
variable [CharZero 𝔽] [Invertible (2 : A)]

theorem Z4.ginv_val (h : Spec.Z4Input C ev γ F c) (a b : Fin 3) : Z4.ginvT c a b = ev (γ.inv a b) := by
  refine Z4.ginv_eq c (fun a b => ev (γ.inv a b)) (fun a b => ?_) a b
  simp only [Z4.g_eq, h.g, ← map_mul]
  rw [← map_sum, γ.mul_inv]
  split <;> simp

theorem Z4.gammado_val (h : Spec.Z4Input C ev γ F c) (k a b : Fin 3) : Z4.gammadoT c k a b = ev (Spec.christoffelLow C γ k a b) := by
  rw [Z4.gammado_eq]
  unfold Spec.christoffelLow
  simp only [Z4.dg_eq, h.dg, map_mul, map_add, map_sub, ev_half, γ.symm _ k]

theorem Z4.gamma_val (h : Spec.Z4Input C ev γ F c) (k a b : Fin 3) : Z4.gammaT c k a b = ev (Spec.christoffel C γ k a b) := by
  rw [Z4.gamma_eq]
  unfold Spec.christoffel
  simp only [Z4.gammado_val h, Z4.ginv_val h, map_mul, map_sum]

theorem Z4.R_val (h : Spec.Z4Input C ev γ F c) (a b : Fin 3) : Z4.RT c a b = ev (Spec.ricci C γ a b) := by
  rcases Z4.R_eq c a b with e | e
  · rw [e, ricci_eq]
    simp only [Z4.gamma_val h, Z4.gammado_val h, Z4.ginv_val h, Z4.ddg_eq, h.ddg, map_mul, map_sum, map_add, map_sub, map_neg, ev_half]
  · rw [Z4.R_symm, e, ricci_symm, ricci_eq]
    simp only [Z4.gamma_val h, Z4.gammado_val h, Z4.ginv_val h, Z4.ddg_eq, h.ddg, map_mul, map_sum, map_add, map_sub, map_neg, ev_half]

theorem Z4.scalar_val (h : Spec.Z4Input C ev γ F c) : Z4.R_0 c = ev (Spec.trace γ (Spec.ricci C γ)) := by
  rw [Z4.R_0_eq]
  unfold Spec.trace
  simp only [Z4.R_val h, Z4.ginv_val h, map_mul, map_sum]

theorem Z4.K_val (h : Spec.Z4Input C ev γ F c) (a b : Fin 3) : Z4.KT c a b = ev (F.K a b) := by
  rw [Z4.K_eq, h.K]

theorem Z4.K_symm (h : Spec.Z4Input C ev γ F c) (a b : Fin 3) : ev (F.K a b) = ev (F.K b a) := by
  rw [← h.K, ← h.K, show Spec.sym2 a b = Spec.sym2 b a by revert a b; decide]

theorem Z4.trK_val (h : Spec.Z4Input C ev γ F c) : Z4.trK c = ev (Spec.trace γ F.K) := by
  rw [Z4.trK_eq]
  unfold Spec.trace
  simp only [Z4.K_val h, Z4.ginv_val h, map_mul, map_sum]

theorem Z4.KK_val (h : Spec.Z4Input C ev γ F c) (a b : Fin 3) :
    Z4.KKT c a b = ev (∑ k, ∑ d, γ.inv k d * (F.K a k * F.K d b)) := by
  rw [Z4.KK_eq]
  simp only [Z4.K_val h, Z4.ginv_val h, map_mul, map_sum]

theorem Z4.trKK_val (h : Spec.Z4Input C ev γ F c) : Z4.trKK c = ev (Spec.square γ F.K) := by
  rw [Z4.trKK_eq]
  unfold Spec.square
  simp only [Z4.KK_val h, Z4.ginv_val h, map_sum, map_mul]
  have hi : ∀ a b, ev (γ.inv a b) = ev (γ.inv b a) := fun a b => by rw [γ.isymm]
  simp only [Fin.sum_univ_three, hi 1 0, hi 2 0, hi 2 1, Z4.K_symm h 1 0, Z4.K_symm h 2 0, Z4.K_symm h 2 1]
  ring

theorem Z4.hamil_val (h : Spec.Z4Input C ev γ F c) : Z4.hamil c = ev (Spec.hamiltonian C γ F.K) := by
  unfold Z4.hamil Spec.hamiltonian
  rw [Z4.scalar_val h, Z4.trK_val h, Z4.trKK_val h]
  simp only [map_add, map_sub, map_pow]
  ring

theorem Z4.dtrK_val (h : Spec.Z4Input C ev γ F c) (a : Fin 3) : Z4.dtrKT c a = ev (C.d a (Spec.trace γ F.K)) := by
  have e : C.d a (Spec.trace γ F.K) = ∑ p, ∑ q, (C.d a (γ.inv p q) * F.K p q + γ.inv p q * C.d a (F.K p q)) := by
    unfold Spec.trace
    simp only [C.sum, C.mul]
  rw [Z4.dtrK_eq, e]
  simp only [Z4.dginv_eq, inv_deriv, Z4.K_val h, Z4.ginv_val h, Z4.dg_eq, h.dg, Z4.dK_eq, h.dK, map_sum, map_add, map_mul, map_neg]

theorem Z4.cddalp_val (h : Spec.Z4Input C ev γ F c) (a b : Fin 3) : Z4.cddalpT c a b = ev (Spec.hessian C γ F.α a b) := by
  rw [Z4.cddalp_eq]
  unfold Spec.hessian
  simp only [Z4.ddalp_eq, Z4.dalp_eq, h.dα, h.ddα, Z4.gamma_val h, map_sum, map_mul, map_sub]

theorem Z4.cdZ_val (h : Spec.Z4Input C ev γ F c) (a b : Fin 3) : Z4.cdZT c a b = ev (Spec.cov1 C γ F.Z b a) := by
  rw [Z4.cdZ_eq]
  unfold Spec.cov1
  simp only [Z4.dZ_eq, h.dZ, Z4.Z_eq, h.Z, Z4.gamma_val h, christoffel_symm C γ _ a b, map_sum, map_mul, map_sub]

/-- What the code calls `cdK` is not the covariant derivative, but the contraction of it is. -/
theorem Z4.divK_val (h : Spec.Z4Input C ev γ F c) (a : Fin 3) :
    ∑ p, ∑ q, Z4.cdKT c p a q * Z4.ginvT c p q = ev (∑ b, ∑ d, γ.inv b d * Spec.cov2 C γ F.K d a b) := by
  unfold Spec.cov2
  simp only [Z4.cdK_eq, Z4.dK_eq, h.dK, Z4.K_val h, Z4.gamma_val h, Z4.ginv_val h, map_sum, map_mul, map_sub, map_add]
  have hi : ∀ a b, ev (γ.inv a b) = ev (γ.inv b a) := fun a b => by rw [γ.isymm]
  have hc : ∀ k a b, ev (Spec.christoffel C γ k a b) = ev (Spec.christoffel C γ k b a) := fun k a b => by rw [christoffel_symm]
  have hd : ∀ k, ev (C.d k (F.K a 0)) = ev (C.d k (F.K 0 a)) ∧ ev (C.d k (F.K a 1)) = ev (C.d k (F.K 1 a)) ∧
      ev (C.d k (F.K a 2)) = ev (C.d k (F.K 2 a)) := by
    intro k
    have hs : ∀ b, ev (C.d k (F.K a b)) = ev (C.d k (F.K b a)) := fun b => by
      rw [← h.dK, ← h.dK, show Spec.sym2 a b = Spec.sym2 b a by revert a b; decide]
    exact ⟨hs 0, hs 1, hs 2⟩
  simp only [Fin.sum_univ_three, hi 1 0, hi 2 0, hi 2 1, Z4.K_symm h 1 0, Z4.K_symm h 2 0, Z4.K_symm h 2 1, (hd _).1, (hd _).2.1, (hd _).2.2,
    hc _ 1 0, hc _ 2 0, hc _ 2 1, hc _ 0 a, hc _ 1 a, hc _ 2 a]
  ring

theorem Z4.lieg_val (h : Spec.Z4Input C ev γ F c) (a b : Fin 3) : Z4.liegT c a b = ev (Spec.lie2 C F.β γ.g a b) := by
  rw [Z4.lieg_eq, Z4.betadg_eq]
  unfold Spec.lie2
  simp only [Z4.beta_eq, h.β, Z4.dg_eq, h.dg, Z4.dbeta_eq, h.dβ, Z4.g_eq, h.g, map_sum, map_add, map_mul, γ.symm b]
  simp only [Fin.sum_univ_three]
  ring

theorem Z4.lieK_val (h : Spec.Z4Input C ev γ F c) (a b : Fin 3) : Z4.lieKT c a b = ev (Spec.lie2 C F.β F.K a b) := by
  rw [Z4.lieK_eq, Z4.betadK_eq]
  unfold Spec.lie2
  simp only [Z4.beta_eq, h.β, Z4.dK_eq, h.dK, Z4.dbeta_eq, h.dβ, Z4.K_val h, map_sum, map_add, map_mul]
  simp only [Fin.sum_univ_three, Z4.K_symm h b]
  ring

theorem Z4.lieZ_val (h : Spec.Z4Input C ev γ F c) (a : Fin 3) : Z4.lieZT c a = ev (Spec.lie1 C F.β F.Z a) := by
  rw [Z4.lieZ_eq, Z4.betadZ_eq]
  unfold Spec.lie1
  simp only [Z4.beta_eq, h.β, Z4.dZ_eq, h.dZ, Z4.dbeta_eq, h.dβ, Z4.Z_eq, h.Z, map_sum, map_add, map_mul]
  simp only [Fin.sum_univ_three]
  ring

variable [DecidableEq 𝔽]

open Z4 in
theorem Z4.new_eq (hdt : c.dt = 0) (n : Nat) : z4Rhs c n =
    [ng11_n c, ng12_n c, ng13_n c, ng22_n c, ng23_n c, ng33_n c, nK11_n c, nK12_n c, nK13_n c, nK22_n c, nK23_n c, nK33_n c, nTheta_n c,
      nZ1_n c, nZ2_n c, nZ3_n c, nalpha_n c, nbeta1_n c, nbeta2_n c, nbeta3_n c, nB1_n c, nB2_n c, nB3_n c].getD n 0 := by
  unfold z4Rhs
  exact if_neg (by simp [hdt])

theorem Z4.new_g (hdt : c.dt = 0) : ∀ a b : Fin 3, z4Rhs c (Spec.sym2 a b) = Z4.rgT c a b := by
  simp only [Z4.new_eq hdt]
  refine fin3₂ ⟨?_, ?_, ?_, ?_, ?_, ?_, ?_, ?_, ?_⟩ <;> rfl

theorem Z4.new_K (hdt : c.dt = 0) : ∀ a b : Fin 3, z4Rhs c (6 + Spec.sym2 a b) = Z4.rKT c a b := by
  simp only [Z4.new_eq hdt]
  refine fin3₂ ⟨?_, ?_, ?_, ?_, ?_, ?_, ?_, ?_, ?_⟩ <;> rfl

theorem Z4.new_Z (hdt : c.dt = 0) : ∀ a : Fin 3, z4Rhs c (13 + a) = Z4.rZT c a := by
  simp only [Z4.new_eq hdt]
  refine fin3 ?_ ?_ ?_ <;> rfl

/-- **C121.** `∂_t γ_{ab} = -2 α K_{ab} + L_β γ_{ab}`. -/
theorem C121_metric (h : Spec.Z4Input C ev γ F c) (hdt : c.dt = 0) (a b : Fin 3) :
    z4Rhs c (Spec.sym2 a b) = ev (-2 * (F.α * F.K a b) + Spec.lie2 C F.β γ.g a b) := by
  rw [Z4.new_g hdt, Z4.rg_eq, Z4.lieg_val h, Z4.K_val h]
  unfold Z4.alpha
  rw [h.α]
  simp only [map_add, map_mul, map_neg, map_ofNat]
  ring

/-- **C121.** `∂_t K_{ab} = -∇_a ∇_b α + α (R_{ab} + ∇_a Z_b + ∇_b Z_a - 2 K_{ac} K^c_b + K_{ab} (K - 2 Θ)) + L_β K_{ab}`. -/
theorem C121_curvature (h : Spec.Z4Input C ev γ F c) (hdt : c.dt = 0) (a b : Fin 3) :
    z4Rhs c (6 + Spec.sym2 a b) = ev (-Spec.hessian C γ F.α a b + F.α * (Spec.ricci C γ a b + Spec.cov1 C γ F.Z a b + Spec.cov1 C γ F.Z b a -
      2 * (∑ k, ∑ d, γ.inv k d * (F.K a k * F.K d b)) + F.K a b * (Spec.trace γ F.K - 2 * F.Θ)) + Spec.lie2 C F.β F.K a b) := by
  rw [Z4.new_K hdt, Z4.rK_eq, Z4.lieK_val h, Z4.K_val h, Z4.cddalp_val h, Z4.R_val h, Z4.cdZ_val h, Z4.cdZ_val h, Z4.KK_val h, Z4.trK_val h]
  unfold Z4.alpha Z4.Theta
  rw [h.α, h.Θ]
  simp only [map_add, map_sub, map_mul, map_neg, map_ofNat]
  ring

/-- **C121.** `∂_t Θ = α/2 (H + 2 ∇^a Z_a - 2 K Θ) - Z^a ∂_a α + β^a ∂_a Θ - κ₁ Θ` with the Hamiltonian constraint `H`, of which
`RtoRminusHfactor` is subtracted. -/
theorem C121_theta (h : Spec.Z4Input C ev γ F c) (hdt : c.dt = 0) :
    z4Rhs c 12 = ev (F.α * (∑ a, ∑ b, γ.inv a b * Spec.cov1 C γ F.Z a b - Spec.trace γ F.K * F.Θ) -
        (∑ a, ∑ b, γ.inv a b * F.Z a * C.d b F.α) + ∑ k, F.β k * C.d k F.Θ) - c.kappa1 * ev F.Θ +
      (1 - c.RtoRminusHfactor) / 2 * ev (F.α * Spec.hamiltonian C γ F.K) := by
  have e : z4Rhs c 12 = Z4.rTheta c := by
    rw [Z4.new_eq hdt]
    rfl
  rw [e, Z4.rTheta_eq, Z4.betadTheta_eq]
  have hh : Spec.hamiltonian C γ F.K = Spec.trace γ (Spec.ricci C γ) + Spec.trace γ F.K ^ 2 - Spec.square γ F.K := rfl
  unfold Z4.R Z4.alpha Z4.Theta
  have hs : ∑ a, ∑ b, ev (γ.inv a b) * ev (Spec.cov1 C γ F.Z a b) = ∑ a, ∑ b, ev (Spec.cov1 C γ F.Z b a) * ev (γ.inv a b) := by
    rw [sum_comm]
    exact sum_congr rfl fun a _ => sum_congr rfl fun b _ => by rw [γ.isymm, mul_comm]
  rw [Z4.hamil_val h, Z4.scalar_val h, Z4.trK_val h, Z4.trKK_val h, h.α, h.Θ, hh]
  simp only [Z4.cdZ_val h, Z4.ginv_val h, Z4.Z_eq, h.Z, Z4.dalp_eq, h.dα, Z4.beta_eq, h.β, Z4.dTheta_eq, h.dΘ, map_add, map_sub, map_mul,
    map_sum, map_pow]
  rw [hs]
  ring

/-- **C121.** `∂_t Z_a = α (M_a + ∂_a Θ - 2 K_{ab} Z^b) - Θ ∂_a α + L_β Z_a - κ₂ Z_a` with the momentum constraint
`M_a = ∇^b (K_{ab} - γ_{ab} K)`. -/
theorem C121_Z (h : Spec.Z4Input C ev γ F c) (hdt : c.dt = 0) (a : Fin 3) :
    z4Rhs c (13 + a) = ev (F.α * (Spec.momentum C γ F.K a + C.d a F.Θ - 2 * ∑ p, ∑ q, γ.inv p q * F.K a p * F.Z q) - F.Θ * C.d a F.α +
      Spec.lie1 C F.β F.Z a) - c.kappa2 * ev (F.Z a) := by
  have hm : Spec.momentum C γ F.K a = (∑ b, ∑ d, γ.inv b d * Spec.cov2 C γ F.K d a b) - C.d a (Spec.trace γ F.K) := by
    unfold Spec.momentum
    rw [momentum_eq, trace_deriv]
    simp only [mul_sub, sum_sub_distrib]
  rw [Z4.new_Z hdt, Z4.rZ_eq, Z4.divK_val h, Z4.dtrK_val h, Z4.lieZ_val h, hm]
  unfold Z4.alpha Z4.Theta
  rw [h.α, h.Θ]
  simp only [Z4.K_val h, Z4.Z_eq, h.Z, Z4.ginv_val h, Z4.dTheta_eq, h.dΘ, Z4.dalp_eq, h.dα, map_add, map_sub, map_mul, map_sum, map_ofNat]
  have hs : ∑ p, ∑ q, ev (F.K a p) * ev (F.Z q) * ev (γ.inv p q) = ∑ p, ∑ q, ev (γ.inv p q) * ev (F.K a p) * ev (F.Z q) :=
    sum_congr rfl fun p _ => sum_congr rfl fun q _ => by ring
  rw [hs]

/-- **C121.** With `Θ = 0` and `Z = 0` the right hand sides for the metric and the extrinsic curvature are those of general relativity, those of
`Θ` and `Z` are multiples of the constraints: they stay zero exactly if the constraints are fulfilled. -/
theorem C121_einstein (h : Spec.Z4Input C ev γ F c) (hdt : c.dt = 0) (hΘ : F.Θ = 0) (hZ : ∀ a, F.Z a = 0) :
    (∀ a b, z4Rhs c (Spec.sym2 a b) = ev (-2 * (F.α * F.K a b) + Spec.lie2 C F.β γ.g a b)) ∧
    (∀ a b, z4Rhs c (6 + Spec.sym2 a b) = ev (-Spec.hessian C γ F.α a b + F.α * (Spec.ricci C γ a b -
      2 * (∑ k, ∑ d, γ.inv k d * (F.K a k * F.K d b)) + F.K a b * Spec.trace γ F.K) + Spec.lie2 C F.β F.K a b)) ∧
    z4Rhs c 12 = (1 - c.RtoRminusHfactor) / 2 * ev (F.α * Spec.hamiltonian C γ F.K) ∧
    ∀ a : Fin 3, z4Rhs c (13 + a) = ev (F.α * Spec.momentum C γ F.K a) := by
  have hZ' : F.Z = fun _ => 0 := funext hZ
  have h1 : ∀ a b, Spec.cov1 C γ F.Z a b = 0 := by
    intro a b
    unfold Spec.cov1
    simp [hZ', C.zero]
  have h2 : ∀ a, Spec.lie1 C F.β F.Z a = 0 := by
    intro a
    unfold Spec.lie1
    simp [hZ', C.zero]
  refine ⟨C121_metric h hdt, fun a b => ?_, ?_, fun a => ?_⟩
  · rw [C121_curvature h hdt, h1, h1, hΘ]
    congr 1
    ring
  · rw [C121_theta h hdt, hΘ]
    simp [h1, hZ, C.zero]
  · rw [C121_Z h hdt, hΘ]
    simp [h2, hZ, C.zero]

/-- **C121.** The lapse follows `∂_t α = f (-K + K₀ + m Θ) α ψ^p` (1+log) or the harmonic condition, with or without `β^a ∂_a α`; it is
constant with `constant`. The shift and its time derivative are constant. -/
theorem C121_gauge (h : Spec.Z4Input C ev γ F c) (hdt : c.dt = 0) :
    (z4Rhs c 16 = if c.nonconstantlapse then
      (if c.withshift then ev (∑ k, F.β k * C.d k F.α) else 0) +
        ((if c.oploglapse then c.lapseharmonicf else 0) + (if c.harmoniclapse then ev F.α else 0)) *
          (ev F.α * c.pow c.psi c.lapsepsipower * ((if c.subtractK0 then c.K0 else 0) + c.lapseharmonicm * ev F.Θ - ev (Spec.trace γ F.K)))
      else 0) ∧ ∀ n, 17 ≤ n → z4Rhs c n = 0 := by
  constructor
  · have e : z4Rhs c 16 = Z4.ralpha c := by
      rw [Z4.new_eq hdt]
      rfl
    rw [e]
    unfold Z4.ralpha Z4.ralpha0 Z4.liealpha Z4.alpha Z4.Theta Z4.psi Z4.K0 Z4.b2
    rw [Z4.betadalp_eq, Z4.trK_val h, h.α, h.Θ]
    simp only [Z4.beta_eq, h.β, Z4.dalp_eq, h.dα, map_sum, map_mul]
    cases c.nonconstantlapse <;> cases c.withshift <;> cases c.oploglapse <;> cases c.harmoniclapse <;> cases c.subtractK0 <;> simp <;> ring
  · intro n hn
    rw [Z4.new_eq hdt]
    rcases Nat.lt_or_ge n 23 with h23 | h23
    · interval_cases n <;> rfl
    · rw [List.getD_eq_getElem?_getD, List.getElem?_eq_none (by simpa using h23)]
      rfl

/-- **C121.** With a time step `dt ≠ 0` the function makes an Euler step: `unew = upre + dt F(ucur)`. -/
theorem C121_step (hdt : c.dt ≠ 0) (n : Nat) (hn : n < 23) : z4Rhs c n = c.pre n + c.dt * z4Rhs { c with dt := 0 } n := by
  rw [Z4.new_eq (c := { c with dt := 0 }) rfl]
  simp only [Z4.ng11_n_dt, Z4.ng12_n_dt, Z4.ng13_n_dt, Z4.ng22_n_dt, Z4.ng23_n_dt, Z4.ng33_n_dt, Z4.nK11_n_dt, Z4.nK12_n_dt,
    Z4.nK13_n_dt, Z4.nK22_n_dt, Z4.nK23_n_dt, Z4.nK33_n_dt, Z4.nTheta_n_dt, Z4.nZ1_n_dt, Z4.nZ2_n_dt, Z4.nZ3_n_dt,
    Z4.nalpha_n_dt, Z4.nbeta1_n_dt, Z4.nbeta2_n_dt, Z4.nbeta3_n_dt, Z4.nB1_n_dt, Z4.nB2_n_dt, Z4.nB3_n_dt]
  unfold z4Rhs
  rw [if_pos hdt]
  interval_cases n <;> exact add_comm _ _

end

/-- **C121.** Smooth fields on `ℝ³`: the function computes the right hand sides at every point. -/
theorem C121_smooth (F : Spec.Z4Fields Spec.smooth) (g : Fin 3 → Fin 3 → Spec.smooth) (hs : ∀ a b, g a b = g b a)
    (hd : ∀ x, (Spec.det3 g).1 x ≠ 0) (hΘ : F.Θ = 0) (hZ : ∀ a, F.Z a = 0) :
    ∃ γ : Spec.Metric Spec.smooth, γ.g = g ∧ ∀ x c, Spec.Z4Input Spec.smoothCalculus (Spec.smoothAt x) γ F c → c.dt = 0 →
      z4Rhs c 12 = (1 - c.RtoRminusHfactor) / 2 * (F.α.1 x * (Spec.hamiltonian Spec.smoothCalculus γ F.K).1 x) ∧
      ∀ a : Fin 3, z4Rhs c (13 + a) = F.α.1 x * (Spec.momentum Spec.smoothCalculus γ F.K a).1 x := by
  obtain ⟨γ, hγ⟩ := C112_metric g hs hd
  refine ⟨γ, hγ, fun x c h hdt => ?_⟩
  obtain ⟨-, -, h1, h2⟩ := C121_einstein h hdt hΘ hZ
  exact ⟨h1, h2⟩

/-- A point with the metric `diag(1, 2, 1)` with `∂₁ g₂₂ = 2`, `K = diag(1, -2, 0)`, `Θ = 1`, `Z = (1, 0, 0)` with `∂₁ Z₁ = 3`, `α = 2` with
`∂₁ α = 1`, `β = (1, 0, 0)`, and no other derivatives. -/
def z4Ex : Z4Args ℚ where
  cur := fun n => [1, 0, 0, 2, 0, 1, 1, 0, 0, -2, 0, 0, 1, 1, 0, 0, 2, 1].getD n 0
  pre := fun n => n
  psi := 1
  K0 := 0
  dg := fun n => if n = 9 then 2 else 0
  ddg := fun _ => 0
  dK := fun _ => 0
  dTheta := fun _ => 0
  dZ := fun n => if n = 0 then 3 else 0
  dalp := fun n => if n = 0 then 1 else 0
  ddalp := fun _ => 0
  dbeta := fun _ => 0
  dt := 0
  nonconstantlapse := true
  oploglapse := true
  withshift := true
  harmoniclapse := false
  subtractK0 := false
  RtoRminusHfactor := 0
  kappa1 := 1 / 10
  kappa2 := 1 / 10
  lapsepsipower := 0
  lapseharmonicf := 2
  lapseharmonicm := 2
  pow := fun _ _ => 1

/-- The right hand sides at this point: `∂_t K₁₁ = 2 (1/4 + 2·3 - 2 + (0 - 2))`, `∂_t Θ = 2 (3 + 1/2) - 1 - 1/10 - 3/2`,
`∂_t α = 1 + 2·2·2`. -/
example : (List.range 23).map (z4Rhs z4Ex) =
    [-4, 0, 0, 10, 0, 0, 9 / 2, 0, 0, 4, 0, 0, 22 / 5, -21 / 10, 0, 0, 9, 0, 0, 0, 0, 0, 0] := by
  decide +kernel

/-- The step with `dt = 1/2`, and a constant lapse. -/
example : [z4Rhs { z4Ex with dt := 1 / 2 } 3, z4Rhs { z4Ex with dt := 1 / 2 } 12, z4Rhs { z4Ex with dt := 1 / 2 } 20] =
    [8, 71 / 5, 20] ∧ z4Rhs { z4Ex with nonconstantlapse := false } 16 = 0 := by
  refine ⟨?_, ?_⟩ <;> decide +kernel

end Sgrid
