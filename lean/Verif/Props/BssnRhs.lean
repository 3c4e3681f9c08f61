import Verif.Props.BssnIndex
import Verif.Props.Conformal
import Verif.Props.AdmConstraints

/-!
# C114: the BSSN equations are the evolution equations of general relativity
-/

namespace Sgrid
open Finset

/-- The variables of the BSSN equations other than the conformal metric; `ℓ` is the logarithm of `ψ`. -/
structure Spec.BssnFields (A : Type) where
  φ : A
  ψ : A
  ℓ : A
  α : A
  K : A
  β : Fin 3 → A
  G : Fin 3 → A
  At : Fin 3 → Fin 3 → A

section
set_option linter.unusedSectionVars false
variable {𝔽 : Type} [Field 𝔽] {A : Type} [CommRing A]

/-- The memory contains the values of the fields and of their derivatives at a point; `ev` takes the value of a function there, `Em` is
`e^{-4φ} ψ^{-4}`. The derivatives of `ψ` are divided by it. -/
structure Spec.BssnInput (C : Spec.Calculus A) (ev : A →+* 𝔽) (F : Spec.BssnFields A) (γ : Spec.Metric A) (Em : A) (c : BssnArgs 𝔽) : Prop where
  g : ∀ a b, c.cur (Spec.sym2 a b) = ev (γ.g a b)
  φ : c.cur 6 = ev F.φ
  A : ∀ a b, c.cur (7 + Spec.sym2 a b) = ev (F.At a b)
  K : c.cur 13 = ev F.K
  G : ∀ a : Fin 3, c.cur (14 + a) = ev (F.G a)
  α : c.cur 17 = ev F.α
  β : ∀ a : Fin 3, c.cur (18 + a) = ev (F.β a)
  ψ : c.ps 0 = ev F.ψ
  ψ0 : ev F.ψ ≠ 0
  dψ : ∀ a : Fin 3, ev F.ψ * c.ps (1 + a) = ev (C.d a F.ψ)
  ddψ : ∀ a b : Fin 3, ev F.ψ * c.ps (4 + Spec.sym2 a b) = ev (C.d a (C.d b F.ψ))
  exp : c.exp (-4 * (ev F.φ + c.log (ev F.ψ))) = ev Em
  dg : ∀ k a b : Fin 3, c.dg (3 * Spec.sym2 a b + k) = ev (C.d k (γ.g a b))
  ddg : ∀ k l a b, c.ddg (6 * Spec.sym2 a b + Spec.sym2 k l) = ev (C.d k (C.d l (γ.g a b)))
  dA : ∀ k a b : Fin 3, c.dA (3 * Spec.sym2 a b + k) = ev (C.d k (F.At a b))
  dφ : ∀ a : Fin 3, c.dphi a = ev (C.d a F.φ)
  ddφ : ∀ a b, c.ddphi (Spec.sym2 a b) = ev (C.d a (C.d b F.φ))
  dG : ∀ a b : Fin 3, c.dG (3 * a + b) = ev (C.d b (F.G a))
  dK : ∀ a : Fin 3, c.dK a = ev (C.d a F.K)
  dα : ∀ a : Fin 3, c.dalp a = ev (C.d a F.α)
  ddα : ∀ a b, c.ddalp (Spec.sym2 a b) = ev (C.d a (C.d b F.α))
  dβ : ∀ a b : Fin 3, c.dbeta (3 * a + b) = ev (C.d b (F.β a))
  ddβ : ∀ k a b : Fin 3, c.ddbeta (6 * k + Spec.sym2 a b) = ev (C.d a (C.d b (F.β k)))

/-- What the variables have to do with each other: `∂ψ = ψ ∂ℓ`, `E = e^{4φ} ψ⁴`, `A` is symmetric, and `G` are the contracted
Christoffel symbols of the conformal metric. -/
structure Spec.BssnGeometry [Invertible (2 : A)] (C : Spec.Calculus A) (F : Spec.BssnFields A) (g : Spec.Metric A) (E Em : A) : Prop where
  ℓ : ∀ a, C.d a F.ψ = F.ψ * C.d a F.ℓ
  inv : E * Em = 1
  E : ∀ a, C.d a E = 4 * E * C.d a (F.φ + F.ℓ)
  symm : ∀ a b, F.At a b = F.At b a
  G : ∀ a, F.G a = Spec.contracted C g a

/-- The Lie derivative of a tensor. -/
def Spec.lie2 (C : Spec.Calculus A) (β : Fin 3 → A) (T : Fin 3 → Fin 3 → A) (a b : Fin 3) : A :=
  ∑ k, (β k * C.d k (T a b) + T k b * C.d a (β k) + T a k * C.d b (β k))

/-- The physical extrinsic curvature `K_{ab} = E (A_{ab} + g_{ab} K / 3)`. -/
def Spec.physK [Invertible (3 : A)] (F : Spec.BssnFields A) (g : Spec.Metric A) (E : A) (a b : Fin 3) : A :=
  E * (F.At a b + ⅟3 * (g.g a b * F.K))

variable {C : Spec.Calculus A} {ev : A →+* 𝔽} {F : Spec.BssnFields A} {c : BssnArgs 𝔽} {g : Spec.Metric A} {E Em : A}
variable [CharZero 𝔽] [Invertible (2 : A)]

theorem Bs.dpop_val (h : Spec.BssnInput C ev F g Em c) (hg : Spec.BssnGeometry C F g E Em) (a : Fin 3) : c.ps (1 + a) = ev (C.d a F.ℓ) := by
  have h1 := h.dψ a
  rw [hg.ℓ, map_mul] at h1
  exact mul_left_cancel₀ h.ψ0 h1

theorem Bs.df_val (h : Spec.BssnInput C ev F g Em c) (hg : Spec.BssnGeometry C F g E Em) (a : Fin 3) :
    Bs.dfT c a = ev (C.d a (F.φ + F.ℓ)) := by
  rw [Bs.df_eq, Bs.dpop_val h hg, h.dφ, C.add, map_add]

theorem Bs.ddf_val (h : Spec.BssnInput C ev F g Em c) (hg : Spec.BssnGeometry C F g E Em) (a b : Fin 3) :
    Bs.ddfT c a b = ev (C.d a (C.d b (F.φ + F.ℓ))) := by
  have h1 := h.ddψ a b
  rw [hg.ℓ, C.mul, hg.ℓ] at h1
  simp only [map_add, map_mul] at h1
  have h2 : c.ps (4 + Spec.sym2 a b) = ev (C.d a F.ℓ) * ev (C.d b F.ℓ) + ev (C.d a (C.d b F.ℓ)) := by
    refine mul_left_cancel₀ h.ψ0 ?_
    linear_combination h1
  rw [Bs.ddf_eq, Bs.dpop_val h hg, Bs.dpop_val h hg, h.ddφ, h2, C.add, C.add, map_add]
  ring

theorem Bs.psim4_val (h : Spec.BssnInput C ev F g Em c) : Bs.psim4 c = ev Em := by
  unfold Bs.psim4 Bs.f Bs.f_0 Bs.logpsi Bs.phi Bs.psi
  rw [h.φ, h.ψ, h.exp]

theorem Bs.ginv_val (h : Spec.BssnInput C ev F g Em c) (a b : Fin 3) : Bs.ginvT c a b = ev (g.inv a b) := by
  refine Bs.ginv_eq c (fun a b => ev (g.inv a b)) (fun a b => ?_) a b
  simp only [Bs.g_eq, h.g, ← map_mul]
  rw [← map_sum, g.mul_inv]
  split <;> simp

theorem Bs.gammado_val (h : Spec.BssnInput C ev F g Em c) (k a b : Fin 3) : Bs.gammadoT c k a b = ev (Spec.christoffelLow C g k a b) := by
  rw [Bs.gammado_eq]
  unfold Spec.christoffelLow
  simp only [Bs.delg_eq, h.dg, map_mul, map_add, map_sub, ev_half]

theorem Bs.gamma_val (h : Spec.BssnInput C ev F g Em c) (k a b : Fin 3) : Bs.gammaT c k a b = ev (Spec.christoffel C g k a b) := by
  rw [Bs.gamma_eq]
  unfold Spec.christoffel
  simp only [Bs.gammado_val h, Bs.ginv_val h, map_mul, map_sum]

theorem Bs.Gfromg_val (h : Spec.BssnInput C ev F g Em c) (a : Fin 3) : Bs.GfromgT c a = ev (Spec.contracted C g a) := by
  rw [Bs.Gfromg_eq]
  unfold Spec.contracted
  simp only [Bs.gamma_val h, Bs.ginv_val h, map_mul, map_sum]

theorem Bs.undiffdG_val (h : Spec.BssnInput C ev F g Em c) (hg : Spec.BssnGeometry C F g E Em) (a : Fin 3) :
    Bs.undiffdGT c a = ev (Spec.contracted C g a) := by
  rw [Bs.undiffdG_eq, Bs.Gfromg_val h, Bs.G_eq, h.G, hg.G]
  split <;> rfl

theorem Bs.R_val (h : Spec.BssnInput C ev F g Em c) (hg : Spec.BssnGeometry C F g E Em) (a b : Fin 3) :
    Bs.RT c a b = ev (Spec.ricci C g a b) := by
  have hle : ∀ a b : Fin 3, a ≤ b → Bs.RT c a b = ev (Spec.ricci C g a b) := by
    intro a b hab
    rw [Bs.R_eq c a b hab, ricci_contracted]
    simp only [Bs.gamma_val h, Bs.gammado_val h, Bs.ginv_val h, Bs.deldelg_eq, h.ddg, Bs.g_eq, h.g, Bs.delG_eq, h.dG, hg.G,
      Bs.undiffdG_val h hg, map_mul, map_sum, map_add, map_neg, ev_half]
  rcases le_total a b with hab | hab
  · exact hle a b hab
  · rw [Bs.R_symm, ricci_symm]
    exact hle b a hab

theorem Bs.cddf_val (h : Spec.BssnInput C ev F g Em c) (hg : Spec.BssnGeometry C F g E Em) (a b : Fin 3) :
    Bs.cddfT c a b = ev (Spec.hessian C g (F.φ + F.ℓ) a b) := by
  rw [Bs.cddf_eq]
  unfold Spec.hessian
  simp only [Bs.ddf_val h hg, Bs.gamma_val h, Bs.df_val h hg, map_mul, map_sum, map_sub]

theorem Bs.ricci_val (h : Spec.BssnInput C ev F g Em c) (hg : Spec.BssnGeometry C F g E Em) (a b : Fin 3) :
    Bs.RT c a b + Bs.RphiT c a b = ev (Spec.ricci C (g.scale hg.inv) a b) := by
  rw [ricci_scale C g hg.inv (F.φ + F.ℓ) hg.E, Bs.Rphi_eq, Bs.trcddf_eq, Bs.R_val h hg]
  unfold Spec.trace Spec.grad
  simp only [Bs.cddf_val h hg, Bs.ginv_val h, Bs.df_val h hg, Bs.g_eq, h.g, map_add, map_sub, map_mul, map_sum, map_ofNat]
  simp only [Fin.sum_univ_three]
  ring

theorem Bs.cdda_val (h : Spec.BssnInput C ev F g Em c) (hg : Spec.BssnGeometry C F g E Em) (a b : Fin 3) :
    Bs.cddaT c a b = ev (Spec.hessian C (g.scale hg.inv) F.α a b) := by
  rw [hessian_scale C g hg.inv (F.φ + F.ℓ) hg.E, Bs.cdda_eq]
  unfold Spec.hessian Spec.grad
  simp only [Bs.ginv_val h, Bs.df_val h hg, Bs.g_eq, h.g, Bs.da_eq, h.dα, Bs.dda_eq, h.ddα, Bs.gamma_val h, map_add, map_sub, map_mul,
    map_sum, map_ofNat]
  have hi : ∀ a b, ev (g.inv a b) = ev (g.inv b a) := fun a b => by rw [g.isymm]
  simp only [Fin.sum_univ_three, hi 1 0, hi 2 0, hi 2 1]
  ring

theorem Bs.trcdda_val (h : Spec.BssnInput C ev F g Em c) (hg : Spec.BssnGeometry C F g E Em) :
    Bs.trcdda c = ev (Spec.trace (g.scale hg.inv) (Spec.hessian C (g.scale hg.inv) F.α)) := by
  rw [Bs.trcdda_eq, Bs.psim4_val h]
  unfold Spec.trace
  simp only [Bs.cdda_val h hg, Bs.ginv_val h, map_sum, map_mul]
  rw [show (g.scale hg.inv).inv = fun a b => Em * g.inv a b from rfl]
  simp only [map_mul, mul_sum, mul_assoc]

theorem Bs.trRicci_val (h : Spec.BssnInput C ev F g Em c) (hg : Spec.BssnGeometry C F g E Em) :
    Bs.trRicci c = ev (Spec.trace (g.scale hg.inv) (Spec.ricci C (g.scale hg.inv))) := by
  rw [Bs.trRicci_eq, Bs.psim4_val h]
  unfold Spec.trace
  simp only [Bs.ricci_val h hg, Bs.ginv_val h, map_sum, map_mul]
  rw [show (g.scale hg.inv).inv = fun a b => Em * g.inv a b from rfl]
  simp only [map_mul, mul_sum, mul_assoc]

theorem Bs.AA_val (h : Spec.BssnInput C ev F g Em c) (a b : Fin 3) :
    Bs.AAT c a b = ev (∑ k, ∑ d, g.inv k d * (F.At a k * F.At d b)) := by
  rw [Bs.AA_eq]
  simp only [Bs.ginv_val h, Bs.A_eq, h.A, map_sum, map_mul]

theorem Bs.trAA_val (h : Spec.BssnInput C ev F g Em c) (hg : Spec.BssnGeometry C F g E Em) : Bs.AA c = ev (Spec.square g F.At) := by
  rw [Bs.trAA_eq]
  unfold Spec.square
  simp only [Bs.ginv_val h, Bs.AA_val h, map_sum, map_mul]
  have hi : ∀ a b, ev (g.inv a b) = ev (g.inv b a) := fun a b => by rw [g.isymm]
  have ha : ∀ a b, ev (F.At a b) = ev (F.At b a) := fun a b => by rw [hg.symm]
  simp only [Fin.sum_univ_three, hi 1 0, hi 2 0, hi 2 1, ha 1 0, ha 2 0, ha 2 1]
  ring

theorem Bs.divbeta_val (h : Spec.BssnInput C ev F g Em c) : Bs.divbeta c = ev (∑ k, C.d k (F.β k)) := by
  rw [Bs.divbeta_eq, map_sum]
  simp only [Bs.db_eq, h.dβ]

theorem Bs.lieg_val (h : Spec.BssnInput C ev F g Em c) (a b : Fin 3) :
    Bs.liegT c a b = ev (Spec.lie2 C F.β g.g a b) - 2 / 3 * ev (g.g a b * ∑ k, C.d k (F.β k)) := by
  rw [Bs.lieg_eq, Bs.divbeta_val h, Bs.betadg_eq]
  unfold Spec.lie2
  simp only [Bs.beta_eq, h.β, h.dg, Bs.db_eq, h.dβ, Bs.g_eq, h.g, map_sum, map_add, map_mul]
  have hs : ∀ k, ev (g.g b k) = ev (g.g k b) := fun k => by rw [g.symm]
  simp only [Fin.sum_univ_three]
  rw [hs 0, hs 1, hs 2]
  ring

theorem Bs.lieA_val (h : Spec.BssnInput C ev F g Em c) (hg : Spec.BssnGeometry C F g E Em) (a b : Fin 3) :
    Bs.lieAT c a b = ev (Spec.lie2 C F.β F.At a b) - 2 / 3 * ev (F.At a b * ∑ k, C.d k (F.β k)) := by
  rw [Bs.lieA_eq, Bs.divbeta_val h, Bs.betadA_eq]
  unfold Spec.lie2
  simp only [Bs.beta_eq, h.β, h.dA, Bs.db_eq, h.dβ, Bs.A_eq, h.A, map_sum, map_add, map_mul]
  have hs : ∀ k, ev (F.At b k) = ev (F.At k b) := fun k => by rw [hg.symm]
  simp only [Fin.sum_univ_three]
  rw [hs 0, hs 1, hs 2]
  ring

theorem Bs.liephi_val (h : Spec.BssnInput C ev F g Em c) (hg : Spec.BssnGeometry C F g E Em) :
    Bs.liephi c = ev (∑ k, F.β k * C.d k (F.φ + F.ℓ)) + ev (∑ k, C.d k (F.β k)) / 6 := by
  rw [Bs.liephi_eq, Bs.divbeta_val h, Bs.betadf_eq]
  simp only [Bs.beta_eq, h.β, Bs.df_val h hg, map_sum, map_mul]

theorem Bs.K_val (h : Spec.BssnInput C ev F g Em c) (hk : c.noForceK = true) : Bs.K c = ev F.K := by
  unfold Bs.K Bs.K_0 Bs.b2
  rw [hk, h.K, if_pos rfl, one_mul]

theorem Bs.hamil_val (h : Spec.BssnInput C ev F g Em c) (hg : Spec.BssnGeometry C F g E Em) (hk : c.noForceK = true) :
    Bs.hamil c = ev (Spec.trace (g.scale hg.inv) (Spec.ricci C (g.scale hg.inv))) + 2 / 3 * ev F.K ^ 2 - ev (Spec.square g F.At) := by
  unfold Bs.hamil Bs.KK
  rw [Bs.K_val h hk, Bs.trAA_val h hg, Bs.trRicci_val h hg]
  ring

theorem Bs.rK_val (h : Spec.BssnInput C ev F g Em c) (hg : Spec.BssnGeometry C F g E Em) (hk : c.noForceK = true) :
    Bs.rK c = -ev (Spec.trace (g.scale hg.inv) (Spec.hessian C (g.scale hg.inv) F.α)) +
      ev F.α * (ev (Spec.square g F.At) + 1 / 3 * ev F.K ^ 2) + ev (∑ k, F.β k * C.d k F.K) := by
  unfold Bs.rK Bs.lieK Bs.alpha
  rw [Bs.K_val h hk, Bs.trAA_val h hg, Bs.trcdda_val h hg, Bs.betadK_eq, h.α]
  simp only [Bs.beta_eq, h.β, h.dK, map_sum, map_mul]
  ring

theorem Bs.rphi_val [LinearOrder 𝔽] [IsStrictOrderedRing 𝔽] (h : Spec.BssnInput C ev F g Em c) (hg : Spec.BssnGeometry C F g E Em)
    (hk : c.noForceK = true) (hp : c.gentlePhi = true → Bs.hamil c = 0) :
    Bs.rphi c = -(1 / 6) * ev (F.α * F.K) + ev (∑ k, F.β k * C.d k (F.φ + F.ℓ)) + ev (∑ k, C.d k (F.β k)) / 6 := by
  have h0 : Bs.rphi c = Bs.rphi_0 c := by
    unfold Bs.rphi
    split
    · rename_i hc
      have hz := hp hc.1
      have hKK : Bs.K c ≠ 0 := by
        intro h0
        have h1 := hc.2
        unfold Bs.Abshamil Bs.KK at h1
        rw [hz, h0] at h1
        simp at h1
      have hz' : Bs.trRicci c = Bs.AA c - 2 / 3 * Bs.K c ^ 2 := by
        unfold Bs.hamil Bs.KK at hz
        linear_combination hz
      unfold Bs.rphi_1 Bs.rphi_0
      rw [hz']
      field_simp
      ring
    · rfl
  rw [h0]
  unfold Bs.rphi_0 Bs.alpha
  rw [Bs.liephi_val h hg, Bs.K_val h hk, h.α, map_mul]
  ring

variable [Invertible (3 : A)]

theorem ev_third (ev : A →+* 𝔽) : ev (⅟3 : A) = 1 / 3 := by
  have h := congrArg ev (invOf_mul_self (3 : A))
  rw [map_mul, map_ofNat, map_one] at h
  rw [eq_div_iff (by norm_num), h]

theorem calc_third (C : Spec.Calculus A) (i : Fin 3) : C.d i (⅟3 : A) = 0 := by
  have h1 : (⅟3 : A) * 3 = 1 := invOf_mul_self 3
  have h2 : C.d i (3 : A) = 0 := by
    rw [show (3 : A) = 1 + 1 + 1 by norm_num, C.add, C.add, C.one]; ring
  have h := C.mul i (⅟3 : A) 3
  rw [h1, C.one, h2] at h
  linear_combination (-(⅟3 : A)) * h - C.d i (⅟3 : A) * h1

/-- The product `K_{ac} K^c_b` of the physical extrinsic curvature. -/
theorem physK_mul (hE : E * Em = 1) (a b : Fin 3) :
    ∑ k, ∑ d, (g.scale hE).inv k d * (Spec.physK F g E a k * Spec.physK F g E d b) =
      E * (∑ k, ∑ d, g.inv k d * (F.At a k * F.At d b) + ⅟3 * F.K * (F.At a b + F.At a b) + ⅟3 * ⅟3 * F.K ^ 2 * g.g a b) := by
  have e1 : ∑ k, ∑ d, g.inv k d * (g.g a k * F.At d b) = F.At a b := by
    have h := lower_raise g (fun d => F.At d b) a
    rw [← h]
    simp only [mul_sum]
    exact sum_congr rfl fun k _ => sum_congr rfl fun d _ => by ring
  have e2 : ∑ k, ∑ d, g.inv k d * (F.At a k * g.g d b) = F.At a b := by
    have h := lower_raise g (fun d => F.At a d) b
    rw [← h, sum_comm]
    simp only [mul_sum]
    exact sum_congr rfl fun k _ => sum_congr rfl fun d _ => by rw [g.symm b k, g.isymm]; ring
  have e3 : ∑ k, ∑ d, g.inv k d * (g.g a k * g.g d b) = g.g a b := by
    have h := lower_raise g (fun d => g.g d b) a
    rw [← h]
    simp only [mul_sum]
    exact sum_congr rfl fun k _ => sum_congr rfl fun d _ => by ring
  have e4 : ∀ k d, (g.scale hE).inv k d * (Spec.physK F g E a k * Spec.physK F g E d b) =
      E * (g.inv k d * (F.At a k * F.At d b) + ⅟3 * F.K * (g.inv k d * (g.g a k * F.At d b)) +
        ⅟3 * F.K * (g.inv k d * (F.At a k * g.g d b)) + ⅟3 * ⅟3 * F.K ^ 2 * (g.inv k d * (g.g a k * g.g d b))) := by
    intro k d
    show Em * g.inv k d * _ = _
    unfold Spec.physK
    linear_combination (E * (g.inv k d * (F.At a k * F.At d b) + ⅟3 * F.K * (g.inv k d * (g.g a k * F.At d b)) +
        ⅟3 * F.K * (g.inv k d * (F.At a k * g.g d b)) + ⅟3 * ⅟3 * F.K ^ 2 * (g.inv k d * (g.g a k * g.g d b)))) * hE
  simp only [e4, ← mul_sum, sum_add_distrib, e1, e2, e3]
  ring

omit [Invertible (2 : A)] [Invertible (3 : A)] in
theorem trace_metric (g : Spec.Metric A) : ∑ a, ∑ b, g.inv a b * g.g a b = 3 := by
  have h : ∀ a, ∑ b, g.inv a b * g.g a b = 1 := by
    intro a
    have h := inv_mul g a a
    rw [if_pos rfl] at h
    rw [← h]
    exact sum_congr rfl fun b _ => by rw [g.symm a b]
  simp only [h]
  norm_num

/-- The trace of the physical extrinsic curvature. -/
theorem physK_trace (hE : E * Em = 1) (ht : Spec.trace g F.At = 0) : Spec.trace (g.scale hE) (Spec.physK F g E) = F.K := by
  have h3 : (⅟3 : A) * 3 = 1 := invOf_mul_self 3
  unfold Spec.trace at ht ⊢
  have e : ∀ a b, (g.scale hE).inv a b * Spec.physK F g E a b = g.inv a b * F.At a b + ⅟3 * F.K * (g.inv a b * g.g a b) := by
    intro a b
    show Em * g.inv a b * _ = _
    unfold Spec.physK
    linear_combination (g.inv a b * F.At a b + ⅟3 * F.K * (g.inv a b * g.g a b)) * hE
  simp only [e, sum_add_distrib, ← mul_sum, ht, trace_metric]
  linear_combination F.K * h3

/-- `K_{ab} K^{ab} = A_{ab} A^{ab} + K²/3`. -/
theorem physK_square (hE : E * Em = 1) (hs : ∀ a b, F.At a b = F.At b a) (ht : Spec.trace g F.At = 0) :
    Spec.square (g.scale hE) (Spec.physK F g E) = Spec.square g F.At + ⅟3 * F.K ^ 2 := by
  have h3 : (⅟3 : A) * 3 = 1 := invOf_mul_self 3
  have hk : ∀ a b, Spec.physK F g E a b = Spec.physK F g E b a := fun a b => by unfold Spec.physK; rw [hs, g.symm]
  have r : ∀ (γ : Spec.Metric A) (T : Fin 3 → Fin 3 → A), (∀ a b, T a b = T b a) →
      Spec.square γ T = ∑ a, ∑ b, γ.inv a b * ∑ k, ∑ d, γ.inv k d * (T a k * T d b) := by
    intro γ T hT
    unfold Spec.square
    simp only [Fin.sum_univ_three, γ.isymm 1 0, γ.isymm 2 0, γ.isymm 2 1, hT 1 0, hT 2 0, hT 2 1]
    ring
  rw [r _ _ hk, r _ _ hs]
  simp only [physK_mul]
  have e : ∀ a b, (g.scale hE).inv a b * (E * (∑ k, ∑ d, g.inv k d * (F.At a k * F.At d b) + ⅟3 * F.K * (F.At a b + F.At a b) +
      ⅟3 * ⅟3 * F.K ^ 2 * g.g a b)) = g.inv a b * (∑ k, ∑ d, g.inv k d * (F.At a k * F.At d b)) + 2 * ⅟3 * F.K * (g.inv a b * F.At a b) +
      ⅟3 * ⅟3 * F.K ^ 2 * (g.inv a b * g.g a b) := by
    intro a b
    show Em * g.inv a b * _ = _
    linear_combination (g.inv a b * (∑ k, ∑ d, g.inv k d * (F.At a k * F.At d b)) + 2 * ⅟3 * F.K * (g.inv a b * F.At a b) +
      ⅟3 * ⅟3 * F.K ^ 2 * (g.inv a b * g.g a b)) * hE
  unfold Spec.trace at ht
  simp only [e, sum_add_distrib, ← mul_sum, ht, trace_metric]
  linear_combination ⅟3 * F.K ^ 2 * h3

/-- The Lie derivative of the physical tensors. -/
theorem lie2_scale (hg : Spec.BssnGeometry C F g E Em) (T : Fin 3 → Fin 3 → A) (a b : Fin 3) :
    Spec.lie2 C F.β (fun a b => E * T a b) a b = E * (Spec.lie2 C F.β T a b + 4 * T a b * ∑ k, F.β k * C.d k (F.φ + F.ℓ)) := by
  unfold Spec.lie2
  simp only [C.mul, hg.E, Fin.sum_univ_three]
  ring

variable [LinearOrder 𝔽] [IsStrictOrderedRing 𝔽]

theorem Bs.new_g : ∀ a b : Fin 3, [Bs.ng11_n c, Bs.ng12_n c, Bs.ng13_n c, Bs.ng22_n c, Bs.ng23_n c, Bs.ng33_n c, Bs.nphi_n c,
    Bs.nA11_n c, Bs.nA12_n c, Bs.nA13_n c, Bs.nA22_n c, Bs.nA23_n c, Bs.nA33_n c, Bs.nK_n c, Bs.nG1_n c, Bs.nG2_n c, Bs.nG3_n c,
    Bs.nalpha_n c, Bs.nbeta1_n c, Bs.nbeta2_n c, Bs.nbeta3_n c, Bs.nB1_n c, Bs.nB2_n c, Bs.nB3_n c, c.oldDens].getD (Spec.sym2 a b) 0 =
      Bs.rgT c a b := by
  refine fin3₂ ⟨?_, ?_, ?_, ?_, ?_, ?_, ?_, ?_, ?_⟩ <;> rfl

theorem Bs.new_A : ∀ a b : Fin 3, [Bs.ng11_n c, Bs.ng12_n c, Bs.ng13_n c, Bs.ng22_n c, Bs.ng23_n c, Bs.ng33_n c, Bs.nphi_n c,
    Bs.nA11_n c, Bs.nA12_n c, Bs.nA13_n c, Bs.nA22_n c, Bs.nA23_n c, Bs.nA33_n c, Bs.nK_n c, Bs.nG1_n c, Bs.nG2_n c, Bs.nG3_n c,
    Bs.nalpha_n c, Bs.nbeta1_n c, Bs.nbeta2_n c, Bs.nbeta3_n c, Bs.nB1_n c, Bs.nB2_n c, Bs.nB3_n c, c.oldDens].getD (7 + Spec.sym2 a b) 0 =
      Bs.rAT c a b := by
  refine fin3₂ ⟨?_, ?_, ?_, ?_, ?_, ?_, ?_, ?_, ?_⟩ <;> rfl

/-- **C114.** The right hand sides for `φ` and `g_{ab}` give the evolution of the physical metric `γ_{ab} = e^{4φ} ψ⁴ g_{ab}`:
`∂_t γ_{ab} = -2 α K_{ab} + L_β γ_{ab}`. -/
theorem C114_metric (h : Spec.BssnInput C ev F g Em c) (hg : Spec.BssnGeometry C F g E Em) (hdt : c.dt = 0) (hd : c.densitized = false)
    (hk : c.noForceK = true) (hp : c.gentlePhi = true → Bs.hamil c = 0) :
    ∃ o, bssnRhs c = .ok o ∧ ∀ a b, ev E * (4 * o.new 6 * ev (g.g a b) + o.new (Spec.sym2 a b)) =
      ev (-2 * (F.α * Spec.physK F g E a b) + Spec.lie2 C F.β (g.scale hg.inv).g a b) := by
  unfold bssnRhs
  rw [hdt, hd, if_neg (by simp), if_neg (by simp)]
  refine ⟨_, rfl, fun a b => ?_⟩
  dsimp only
  rw [Bs.new_g]
  show ev E * (4 * Bs.rphi c * _ + _) = _
  rw [Bs.rphi_val h hg hk hp, Bs.rg_eq, Bs.lieg_val h, Bs.A_eq, h.A]
  unfold Bs.alpha
  rw [h.α, show (g.scale hg.inv).g = fun a b => E * g.g a b from rfl, lie2_scale hg]
  unfold Spec.physK
  simp only [map_add, map_mul, map_neg, map_ofNat, ev_third]
  ring

/-- **C114.** The right hand sides give the evolution of the physical extrinsic curvature `K_{ab} = E (A_{ab} + g_{ab} K / 3)`:
`∂_t K_{ab} = -∇_a ∇_b α + α (R_{ab} + K K_{ab} - 2 K_{ac} K^c_b) + L_β K_{ab}`, up to a multiple of the Hamiltonian constraint
`H = R + K² - K_{ab} K^{ab}` that is zero with `RtoRminusHfactor` 1. -/
theorem C114_curvature (h : Spec.BssnInput C ev F g Em c) (hg : Spec.BssnGeometry C F g E Em) (ht : Spec.trace g F.At = 0) (hdt : c.dt = 0)
    (hd : c.densitized = false) (hk : c.noForceK = true) (hp : c.gentlePhi = true → Bs.hamil c = 0) :
    ∃ o, bssnRhs c = .ok o ∧ ∀ a b, ev E * (4 * o.new 6 * (ev (F.At a b) + ev (g.g a b) * ev F.K / 3) + o.new (7 + Spec.sym2 a b) +
        (o.new (Spec.sym2 a b) * ev F.K + ev (g.g a b) * o.new 13) / 3) =
      ev (-Spec.hessian C (g.scale hg.inv) F.α a b + F.α * (Spec.ricci C (g.scale hg.inv) a b + F.K * Spec.physK F g E a b -
          2 * ∑ k, ∑ d, (g.scale hg.inv).inv k d * (Spec.physK F g E a k * Spec.physK F g E d b)) +
        Spec.lie2 C F.β (Spec.physK F g E) a b) +
      (c.RtoRminusHfactor - 1) / 3 * ev (F.α * (g.scale hg.inv).g a b) *
        ev (Spec.trace (g.scale hg.inv) (Spec.ricci C (g.scale hg.inv)) + Spec.trace (g.scale hg.inv) (Spec.physK F g E) ^ 2 -
          Spec.square (g.scale hg.inv) (Spec.physK F g E)) := by
  unfold bssnRhs
  rw [hdt, hd, if_neg (by simp), if_neg (by simp)]
  refine ⟨_, rfl, fun a b => ?_⟩
  dsimp only
  rw [Bs.new_g, Bs.new_A]
  show ev E * (4 * Bs.rphi c * _ + _ + (_ + _ * (Bs.b2 c.noForceK * Bs.rK c)) / 3) = _
  rw [Bs.rphi_val h hg hk hp, Bs.rg_eq, Bs.rA_eq, Bs.rK_val h hg hk, Bs.lieg_val h, Bs.lieA_val h hg, Bs.ricci_val h hg, Bs.cdda_val h hg,
    Bs.trcdda_val h hg, Bs.K_val h hk, Bs.psim4_val h, Bs.AA_val h, Bs.A_eq, h.A, Bs.g_eq, h.g, physK_trace hg.inv ht,
    physK_square hg.inv hg.symm ht, physK_mul]
  unfold Bs.R Bs.alpha
  rw [Bs.hamil_val h hg hk, Bs.trRicci_val h hg, hk, h.α]
  rw [show (Spec.physK F g E) = fun a b => E * (F.At a b + ⅟3 * (g.g a b * F.K)) from rfl, lie2_scale hg]
  have hl : Spec.lie2 C F.β (fun a b => F.At a b + ⅟3 * (g.g a b * F.K)) a b = Spec.lie2 C F.β F.At a b + ⅟3 * (Spec.lie2 C F.β g.g a b * F.K) +
      ⅟3 * (g.g a b * ∑ k, F.β k * C.d k F.K) := by
    unfold Spec.lie2
    simp only [C.add, C.mul, calc_third, Fin.sum_univ_three]
    ring
  rw [hl, show (g.scale hg.inv).g a b = E * g.g a b from rfl]
  have hE : ev E * ev Em = 1 := by rw [← map_mul, hg.inv, map_one]
  unfold Bs.b2
  rw [if_pos rfl]
  simp only [map_add, map_sub, map_mul, map_neg, map_ofNat, ev_third, map_pow]
  linear_combination (-ev (Spec.hessian C (g.scale hg.inv) F.α a b) + ev F.α * ev (Spec.ricci C (g.scale hg.inv) a b)) * hE

/-- **C114.** The right hand side for the trace of the extrinsic curvature is `-∇²α + α K_{ab} K^{ab} + β^a ∂_a K`. -/
theorem C114_trace (h : Spec.BssnInput C ev F g Em c) (hg : Spec.BssnGeometry C F g E Em) (ht : Spec.trace g F.At = 0) (hdt : c.dt = 0)
    (hd : c.densitized = false) (hk : c.noForceK = true) :
    ∃ o, bssnRhs c = .ok o ∧ o.new 13 = ev (-Spec.trace (g.scale hg.inv) (Spec.hessian C (g.scale hg.inv) F.α) +
      F.α * Spec.square (g.scale hg.inv) (Spec.physK F g E) + ∑ k, F.β k * C.d k F.K) := by
  unfold bssnRhs
  rw [hdt, hd, if_neg (by simp), if_neg (by simp)]
  refine ⟨_, rfl, ?_⟩
  show Bs.b2 c.noForceK * Bs.rK c = _
  rw [Bs.rK_val h hg hk, physK_square hg.inv hg.symm ht, hk]
  unfold Bs.b2
  simp only [map_add, map_mul, map_neg, ev_third, map_pow, if_true]
  ring

end

end Sgrid
