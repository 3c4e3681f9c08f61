import Verif.Props.AdmIndex
import Verif.Props.SmoothFields
import Mathlib.Algebra.Order.Field.Rat

/-!
# C112: the constraints and the trace of the extrinsic curvature
-/

namespace Sgrid
open Finset

/-- The fields of general relativity on a slice: the conformal factor, lapse and shift, the conformal metric, the extrinsic
curvature and the matter terms. -/
structure Spec.AdmFields (A : Type) where
  ψ : A
  α : A
  β : Fin 3 → A
  g : Fin 3 → Fin 3 → A
  K : Fin 3 → Fin 3 → A
  ρ : A
  j : Fin 3 → A
  S : Fin 3 → Fin 3 → A

section
set_option linter.unusedSectionVars false
variable {𝔽 : Type} [Field 𝔽] {A : Type} [CommRing A]

/-- The memory contains the values of the fields and of their derivatives at a point; `ev` takes the value of a function there.
The derivatives of the conformal factor are divided by it. Without memory for a matter term, the term is zero. -/
structure Spec.AdmInput (C : Spec.Calculus A) (ev : A →+* 𝔽) (F : Spec.AdmFields A) (c : AdmConPt 𝔽) : Prop where
  g : ∀ a b, c.u (Spec.sym2 a b) = ev (F.g a b)
  K : ∀ a b, c.u (6 + Spec.sym2 a b) = ev (F.K a b)
  α : c.u 12 = ev F.α
  β : ∀ a : Fin 3, c.u (13 + a) = ev (F.β a)
  ρ : (if c.rhoNull then 0 else c.u 16) = ev F.ρ
  j : ∀ a : Fin 3, (if c.jNull then 0 else c.u (17 + a)) = ev (F.j a)
  S : ∀ a b, (if c.sNull then 0 else c.u (20 + Spec.sym2 a b)) = ev (F.S a b)
  ψ : c.ps 0 = ev F.ψ
  dψ : ∀ a : Fin 3, ev F.ψ * c.ps (1 + a) = ev (C.d a F.ψ)
  ddψ : ∀ a b : Fin 3, ev F.ψ * c.ps (4 + Spec.sym2 a b) = ev (C.d a (C.d b F.ψ))
  dg : ∀ k a b : Fin 3, c.dg (3 * Spec.sym2 a b + k) = ev (C.d k (F.g a b))
  ddg : ∀ k l a b, c.ddg (6 * Spec.sym2 a b + Spec.sym2 k l) = ev (C.d k (C.d l (F.g a b)))
  dK : ∀ k a b : Fin 3, c.dK (3 * Spec.sym2 a b + k) = ev (C.d k (F.K a b))
  dα : ∀ a : Fin 3, c.dalp a = ev (C.d a F.α)
  ddα : ∀ a b, c.ddalp (Spec.sym2 a b) = ev (C.d a (C.d b F.α))

variable {C : Spec.Calculus A} {ev : A →+* 𝔽} {F : Spec.AdmFields A} {c : AdmConPt 𝔽} {γ : Spec.Metric A}

theorem Adm.f_val (h : Spec.AdmInput C ev F c) : Adm.f c = ev F.ψ ^ 4 := by
  unfold Adm.f Adm.psi
  rw [h.ψ]

variable [CharZero 𝔽]

theorem Adm.metric_val (h : Spec.AdmInput C ev F c) (hγ : ∀ a b, γ.g a b = F.ψ ^ 4 * F.g a b) (a b : Fin 3) :
    Adm.f c * Adm.gT c a b = ev (γ.g a b) := by
  rw [Adm.f_val h, Adm.g_eq, h.g, hγ, map_mul, map_pow]

theorem Adm.ginv_val (h : Spec.AdmInput C ev F c) (hγ : ∀ a b, γ.g a b = F.ψ ^ 4 * F.g a b) (a b : Fin 3) :
    Adm.ginvT c a b = ev (γ.inv a b) := by
  refine Adm.ginv_eq c (fun a b => ev (γ.inv a b)) (fun a b => ?_) a b
  simp only [Adm.metric_val h hγ, ← map_mul]
  rw [← map_sum, γ.mul_inv]
  split <;> simp

theorem calc_pow4 (C : Spec.Calculus A) (k : Fin 3) (x : A) : C.d k (x ^ 4) = 4 * x ^ 3 * C.d k x := by
  rw [show x ^ 4 = x * x * (x * x) by ring, C.mul, C.mul]
  ring

theorem calc_pow3 (C : Spec.Calculus A) (k : Fin 3) (x : A) : C.d k (x ^ 3) = 3 * x ^ 2 * C.d k x := by
  rw [show x ^ 3 = x * x * x by ring, C.mul, C.mul]
  ring

theorem calc_four (C : Spec.Calculus A) (k : Fin 3) : C.d k (4 : A) = 0 := by
  rw [show (4 : A) = 1 + 1 + (1 + 1) by norm_num, C.add, C.add, C.one]
  ring

theorem Adm.delg_val (h : Spec.AdmInput C ev F c) (hγ : ∀ a b, γ.g a b = F.ψ ^ 4 * F.g a b) (k a b : Fin 3) :
    Adm.delgT c k a b = ev (C.d k (γ.g a b)) := by
  rw [Adm.delg_eq, Adm.f_val h, h.dg, Adm.g_eq, h.g, hγ, C.mul, calc_pow4]
  simp only [map_add, map_mul, map_pow, map_ofNat]
  linear_combination 4 * ev F.ψ ^ 3 * ev (F.g a b) * h.dψ k

theorem Adm.deldelg_val (h : Spec.AdmInput C ev F c) (hγ : ∀ a b, γ.g a b = F.ψ ^ 4 * F.g a b) (k l a b : Fin 3) :
    Adm.deldelgT c k l a b = ev (C.d k (C.d l (γ.g a b))) := by
  rw [Adm.deldelg_eq, Adm.f_val h, h.ddg, h.dg, h.dg, Adm.g_eq, h.g, hγ]
  simp only [C.mul, C.add, calc_pow4, calc_pow3, calc_four, map_add, map_mul, map_pow, map_ofNat, map_zero]
  have hk := h.dψ k
  have hl := h.dψ l
  have hkl := h.ddψ k l
  rw [← hk, ← hl, ← hkl]
  ring

variable [Invertible (2 : A)]

theorem ev_half (ev : A →+* 𝔽) : ev (⅟2 : A) = 1 / 2 := by
  have h := congrArg ev (invOf_mul_self (2 : A))
  rw [map_mul, map_ofNat, map_one] at h
  rw [eq_div_iff (by norm_num), h]

theorem Adm.gammado_val (h : Spec.AdmInput C ev F c) (hγ : ∀ a b, γ.g a b = F.ψ ^ 4 * F.g a b) (k a b : Fin 3) :
    Adm.gammadoT c k a b = ev (Spec.christoffelLow C γ k a b) := by
  rw [Adm.gammado_eq]
  unfold Spec.christoffelLow
  simp only [Adm.delg_val h hγ, map_mul, map_add, map_sub, ev_half]

theorem Adm.gamma_val (h : Spec.AdmInput C ev F c) (hγ : ∀ a b, γ.g a b = F.ψ ^ 4 * F.g a b) (k a b : Fin 3) :
    Adm.gammaT c k a b = ev (Spec.christoffel C γ k a b) := by
  rw [Adm.gamma_eq]
  unfold Spec.christoffel
  simp only [Adm.gammado_val h hγ, Adm.ginv_val h hγ, map_mul, map_sum]

theorem Adm.ricci_val (h : Spec.AdmInput C ev F c) (hγ : ∀ a b, γ.g a b = F.ψ ^ 4 * F.g a b) (a b : Fin 3) :
    Adm.RT c a b = ev (Spec.ricci C γ a b) := by
  have hle : ∀ a b : Fin 3, b ≤ a → Adm.RT c a b = ev (Spec.ricci C γ a b) := by
    intro a b hab
    rw [Adm.R_eq c a b hab, ricci_eq]
    simp only [Adm.gamma_val h hγ, Adm.gammado_val h hγ, Adm.ginv_val h hγ, Adm.deldelg_val h hγ, map_mul, map_sum, map_add, map_sub,
      map_neg, ev_half]
  rcases le_total b a with hab | hab
  · exact hle a b hab
  · rw [Adm.R_symm, ricci_symm]
    exact hle b a hab

theorem Adm.scalar_val (h : Spec.AdmInput C ev F c) (hγ : ∀ a b, γ.g a b = F.ψ ^ 4 * F.g a b) :
    Adm.R c = ev (Spec.trace γ (Spec.ricci C γ)) := by
  rw [Adm.scalar_eq]
  unfold Spec.trace
  simp only [Adm.ricci_val h hγ, Adm.ginv_val h hγ, map_mul, map_sum]

theorem Adm.K_val (h : Spec.AdmInput C ev F c) (hγ : ∀ a b, γ.g a b = F.ψ ^ 4 * F.g a b) : Adm.K c = ev (Spec.trace γ F.K) := by
  rw [Adm.K_eq]
  unfold Spec.trace
  have hK : ∀ a b, Adm.KT c a b = ev (F.K a b) := fun a b => by rw [Adm.KT_eq, h.K]
  have hs : ∀ a b, ev (F.K a b) = ev (F.K b a) := by
    intro a b
    rw [← h.K, ← h.K, show Spec.sym2 a b = Spec.sym2 b a by revert a b; decide]
  simp only [Adm.Kud_eq, hK, Adm.ginv_val h hγ, map_mul, map_sum]
  exact sum_congr rfl fun a _ => sum_congr rfl fun b _ => by rw [hs]

/-- `K_{ij} K^{ij}`. -/
def Spec.square (γ : Spec.Metric A) (T : Fin 3 → Fin 3 → A) : A :=
  ∑ a, ∑ b, ∑ p, ∑ q, γ.inv a p * γ.inv b q * T a b * T p q

theorem Adm.KudKud_val (h : Spec.AdmInput C ev F c) (hγ : ∀ a b, γ.g a b = F.ψ ^ 4 * F.g a b) :
    Adm.KudKud c = ev (Spec.square γ F.K) := by
  rw [Adm.KudKud_eq]
  unfold Spec.square
  have hK : ∀ a b, Adm.KT c a b = ev (F.K a b) := fun a b => by rw [Adm.KT_eq, h.K]
  have hs : ∀ a b, ev (F.K a b) = ev (F.K b a) := by
    intro a b
    rw [← h.K, ← h.K, show Spec.sym2 a b = Spec.sym2 b a by revert a b; decide]
  simp only [Adm.Kud_eq, hK, Adm.ginv_val h hγ, map_mul, map_sum]
  have hi : ∀ a b, ev (γ.inv a b) = ev (γ.inv b a) := fun a b => by rw [γ.isymm]
  simp only [Fin.sum_univ_three]
  rw [hi 1 0, hi 2 0, hi 2 1, hs 1 0, hs 2 0, hs 2 1]
  ring

theorem Adm.codelK_val (h : Spec.AdmInput C ev F c) (hγ : ∀ a b, γ.g a b = F.ψ ^ 4 * F.g a b) (k a b : Fin 3) :
    Adm.codelKT c k a b = ev (Spec.cov2 C γ F.K k a b) := by
  have hK : ∀ a b, Adm.KT c a b = ev (F.K a b) := fun a b => by rw [Adm.KT_eq, h.K]
  rw [Adm.codelK_eq, Adm.delK_eq, h.dK]
  unfold Spec.cov2
  simp only [Adm.gamma_val h hγ, hK, map_mul, map_sum, map_add, map_sub]

theorem Adm.mom_low (h : Spec.AdmInput C ev F c) (hγ : ∀ a b, γ.g a b = F.ψ ^ 4 * F.g a b) (a : Fin 3) :
    Adm.momT c a = ∑ b, ∑ d, Adm.ginvT c b d * Adm.codelKT c d a b - ∑ b, ∑ d, Adm.ginvT c b d * Adm.codelKT c a b d - Adm.momrhsT c a := by
  rw [Adm.mom_eq, mul_sum]
  congr 1
  simp only [Adm.codelK_val h hγ, Adm.ginv_val h hγ]
  have e1 : ∀ b, Adm.f c * (Adm.gT c a b * Adm.momuT c b) = ev (γ.g a b) * ∑ p, ∑ d,
      (ev (γ.inv b p) * ∑ e, ev (γ.inv d e) * ev (Spec.cov2 C γ F.K e p d) -
        ev (γ.inv p d) * ∑ e, ev (γ.inv b e) * ev (Spec.cov2 C γ F.K e p d)) := by
    intro b
    rw [← mul_assoc, Adm.metric_val h hγ, Adm.momu_eq]
    simp only [Adm.cdKudd_eq, Adm.codelK_val h hγ, Adm.ginv_val h hγ]
  simp only [e1]
  have e2 : ∀ p, ∑ b, ev (γ.g a b) * ev (γ.inv b p) = if a = p then 1 else 0 := by
    intro p
    simp only [← map_mul]
    rw [← map_sum, γ.mul_inv]
    split <;> simp
  have e3 : ∑ b, ev (γ.g a b) * ∑ p, ∑ d,
      (ev (γ.inv b p) * ∑ e, ev (γ.inv d e) * ev (Spec.cov2 C γ F.K e p d) -
        ev (γ.inv p d) * ∑ e, ev (γ.inv b e) * ev (Spec.cov2 C γ F.K e p d)) =
      ∑ p, (∑ b, ev (γ.g a b) * ev (γ.inv b p)) * (∑ d, ∑ e, ev (γ.inv d e) * ev (Spec.cov2 C γ F.K e p d)) -
      ∑ e, (∑ b, ev (γ.g a b) * ev (γ.inv b e)) * (∑ p, ∑ d, ev (γ.inv p d) * ev (Spec.cov2 C γ F.K e p d)) := by
    simp only [Fin.sum_univ_three]
    ring
  rw [e3]
  simp only [e2, ite_mul, one_mul, zero_mul, sum_ite_eq, mem_univ, if_true]

variable [LinearOrder 𝔽]

/-- **C112.** The Hamiltonian constraint is `R + K² - K_{ij} K^{ij} - 16πρ` for the physical metric `ψ⁴ g`. -/
theorem C112_ham (h : Spec.AdmInput C ev F c) (hγ : ∀ a b, γ.g a b = F.ψ ^ 4 * F.g a b) (hn : c.rhoNull = true → c.sNull = true) :
    ∃ o, admPoint c = .ok o ∧ o.ham = ev (Spec.trace γ (Spec.ricci C γ) + Spec.trace γ F.K ^ 2 - Spec.square γ F.K) -
      16 * c.pi * ev F.ρ := by
  have hok : (!c.sNull && c.rhoNull) = false := by
    cases hr : c.rhoNull
    · simp
    · simp [hn hr]
  unfold admPoint
  rw [hok]
  refine ⟨_, rfl, ?_⟩
  have hr : Adm.hamrhs c = 16 * c.pi * ev F.ρ := by
    rw [← h.ρ]
    unfold Adm.hamrhs Adm.hamrhs_0 Adm.hamrhs_1 Adm.rho
    split <;> simp
  show Adm.ham c = _
  unfold Adm.ham
  rw [hr, Adm.KudKud_val h hγ, Adm.scalar_val h hγ, Adm.K_val h hγ]
  simp only [map_add, map_sub, map_pow]
  ring

/-- **C112.** The momentum constraint is `∇^b (K_{ab} - γ_{ab} K) - 8π j_a`. -/
theorem C112_mom (h : Spec.AdmInput C ev F c) (hγ : ∀ a b, γ.g a b = F.ψ ^ 4 * F.g a b) (hn : c.rhoNull = true → c.sNull = true) :
    ∃ o, admPoint c = .ok o ∧ ∀ a : Fin 3, o.mom a =
      ev (∑ b, ∑ d, γ.inv b d * Spec.cov2 C γ (fun i j => F.K i j - γ.g i j * Spec.trace γ F.K) d a b) - 8 * c.pi * ev (F.j a) := by
  have hok : (!c.sNull && c.rhoNull) = false := by
    cases hr : c.rhoNull
    · simp
    · simp [hn hr]
  unfold admPoint
  rw [hok]
  refine ⟨_, rfl, fun a => ?_⟩
  have hm : ∀ a : Fin 3, [Adm.mom1 c, Adm.mom2 c, Adm.mom3 c].getD a 0 = Adm.momT c a := fin3 rfl rfl rfl
  show [Adm.mom1 c, Adm.mom2 c, Adm.mom3 c].getD a 0 = _
  rw [hm, momentum_eq]
  have hr : Adm.momrhsT c a = 8 * c.pi * ev (F.j a) := by
    rw [← h.j, Adm.momrhs_eq]
    split <;> simp
  rw [Adm.mom_low h hγ]
  simp only [Adm.codelK_val h hγ, Adm.ginv_val h hγ]
  rw [hr]
  simp only [map_sum, map_mul, map_sub, mul_sub, sum_sub_distrib]

/-- **C112.** The trace of the extrinsic curvature and its time derivative
`-∇²α + α (R + K²) + β^a ∂_a K + 4π α (S - 3ρ)`. -/
theorem C112_trK (h : Spec.AdmInput C ev F c) (hγ : ∀ a b, γ.g a b = F.ψ ^ 4 * F.g a b) (hn : c.rhoNull = c.sNull) :
    ∃ o, admPoint c = .ok o ∧ o.trK = ev (Spec.trace γ F.K) ∧
      o.dtrKdt = ev (-Spec.trace γ (Spec.hessian C γ F.α) + F.α * (Spec.trace γ (Spec.ricci C γ) + Spec.trace γ F.K ^ 2) +
        ∑ a, F.β a * C.d a (Spec.trace γ F.K)) + 4 * c.pi * ev (F.α * (Spec.trace γ F.S - 3 * F.ρ)) := by
  have hok : (!c.sNull && c.rhoNull) = false := by rw [hn]; simp
  unfold admPoint
  rw [hok]
  refine ⟨_, rfl, Adm.K_val h hγ, ?_⟩
  show Adm.dtrKdt c = _
  have h1 : Adm.trcdda c = ev (Spec.trace γ (Spec.hessian C γ F.α)) := by
    rw [Adm.trcdda_eq]
    unfold Spec.trace Spec.hessian
    simp only [Adm.cdda_eq, Adm.ddalp_eq, Adm.dalp_eq, h.dα, h.ddα, Adm.gamma_val h hγ, Adm.ginv_val h hγ, map_sum, map_mul, map_sub]
  have h2 : Adm.betadtrK c = ev (∑ a, F.β a * C.d a (Spec.trace γ F.K)) := by
    rw [Adm.betadtrK_eq]
    simp only [trace_deriv, map_sum, map_mul, Adm.dtrK_eq, Adm.beta_eq, h.β, Adm.codelK_val h hγ, Adm.ginv_val h hγ]
  have h3 : Adm.Sminus3rho c = ev (Spec.trace γ F.S - 3 * F.ρ) := by
    have hS := h.S
    have hρ := h.ρ
    rw [hn] at hρ
    unfold Adm.Sminus3rho Adm.Sminus3rho_0 Adm.Sminus3rho_1 Spec.trace
    cases hs : c.sNull
    · simp only [hs, Bool.false_eq_true, if_false] at hS hρ ⊢
      simp only [map_sub, map_add, map_sum, map_mul, map_ofNat, ← hS, ← hρ, ← Adm.ginv_val h hγ, Fin.sum_univ_three, Adm.ginvT, Spec.sym2,
        Adm.S11, Adm.S12, Adm.S13, Adm.S22, Adm.S23, Adm.S33, Adm.rho, Nat.reduceAdd]
      ring
    · simp only [hs, if_true] at hS hρ ⊢
      simp only [map_sub, map_sum, map_mul, map_ofNat, ← hS, ← hρ]
      simp
  unfold Adm.dtrKdt Adm.alpha
  rw [h1, h2, h3, Adm.scalar_val h hγ, Adm.K_val h hγ, h.α]
  simp only [map_add, map_sub, map_pow, map_mul, map_neg]
  ring

variable [IsStrictOrderedRing 𝔽]

theorem norm_bound {x d : 𝔽} (h : |x| ≤ d) : |if d ≤ 0 then 0 else x / d| ≤ 1 ∧ ((if d ≤ 0 then 0 else x / d) = 0 ↔ x = 0) := by
  split
  · rename_i hd
    have hx : x = 0 := by
      have := abs_nonneg x
      exact abs_eq_zero.1 (le_antisymm (h.trans hd) this)
    simp [hx]
  · rename_i hd
    have hd := not_le.1 hd
    refine ⟨?_, ?_⟩
    · rw [abs_div, abs_of_pos hd, div_le_one hd]
      exact h
    · rw [div_eq_zero_iff]
      exact ⟨fun h => h.resolve_right hd.ne', Or.inl⟩

theorem abs3 (x y z : 𝔽) : |x - y - z| ≤ |x| + |y| + |z| := by
  have h1 := abs_sub (x - y) z
  have h2 := abs_sub x y
  linarith

/-- **C113.** Without `TermByTerm` the absolute value of the normalised constraints is at most 1, and they are zero exactly
where the constraints are zero. -/
theorem C113_norm (h : Spec.AdmInput C ev F c) (hγ : ∀ a b, γ.g a b = F.ψ ^ 4 * F.g a b) (hn : c.rhoNull = true → c.sNull = true)
    (hc : c.normConstr = true) (ht : c.termByTerm = false) :
    ∃ o n, admPoint c = .ok o ∧ o.norm = some n ∧ |n.1| ≤ 1 ∧ (n.1 = 0 ↔ o.ham = 0) ∧
      ∀ a : Fin 3, |n.2 a| ≤ 1 ∧ (n.2 a = 0 ↔ o.mom a = 0) := by
  have hok : (!c.sNull && c.rhoNull) = false := by
    cases hr : c.rhoNull
    · simp
    · simp [hn hr]
  unfold admPoint
  rw [hok]
  refine ⟨_, _, rfl, by rw [hc]; rfl, ?_⟩
  have h1 : |Adm.ham c| ≤ Adm.denomH c := by
    unfold Adm.denomH Adm.denomHF Adm.ham
    rw [ht]
    have e : -Adm.hamrhs c - Adm.KudKud c + Adm.R c + Adm.K c ^ 2 =
        Adm.R c - Adm.KudKud c - Adm.hamrhs c + Adm.K c ^ 2 := by ring
    have h2 := abs_add_le (Adm.R c - Adm.KudKud c - Adm.hamrhs c) (Adm.K c ^ 2)
    have h3 := abs3 (Adm.R c) (Adm.KudKud c) (Adm.hamrhs c)
    rw [abs_of_nonneg (sq_nonneg (Adm.K c))] at h2
    rw [e]
    simp only [Bool.false_eq_true, if_false]
    linarith
  have h2 : ∀ a, |Adm.momT c a| ≤ Adm.denomM c := by
    have hb : ∀ a, |Adm.momT c a| ≤ |∑ b, Adm.cdKuddT c b a b| + |∑ b, ∑ d, Adm.ginvT c b d * Adm.codelKT c a b d| + |Adm.momrhsT c a| := by
      intro a
      have e : ∑ b, ∑ d, Adm.ginvT c b d * Adm.codelKT c d a b = ∑ b, Adm.cdKuddT c b a b :=
        sum_congr rfl fun b _ => by rw [Adm.cdKudd_eq]
      rw [Adm.mom_low h hγ, e]
      exact abs3 _ _ _
    have e1 : Adm.denom1 c = |∑ b, Adm.cdKuddT c b 0 b| + |∑ b, ∑ d, Adm.ginvT c b d * Adm.codelKT c 0 b d| + |Adm.momrhsT c 0| := by
      unfold Adm.denom1 Adm.denom1F
      rw [ht]
      simp only [Bool.false_eq_true, if_false, Fin.sum_univ_three, Adm.ginvT, Adm.codelKT, Adm.cdKuddT, Adm.momrhsT]
      congr 3
      ring
    have e2 : Adm.denom2 c = |∑ b, Adm.cdKuddT c b 1 b| + |∑ b, ∑ d, Adm.ginvT c b d * Adm.codelKT c 1 b d| + |Adm.momrhsT c 1| := by
      unfold Adm.denom2 Adm.denom2F
      rw [ht]
      simp only [Bool.false_eq_true, if_false, Fin.sum_univ_three, Adm.ginvT, Adm.codelKT, Adm.cdKuddT, Adm.momrhsT]
      congr 3
      ring
    have e3 : Adm.denom3 c = |∑ b, Adm.cdKuddT c b 2 b| + |∑ b, ∑ d, Adm.ginvT c b d * Adm.codelKT c 2 b d| + |Adm.momrhsT c 2| := by
      unfold Adm.denom3 Adm.denom3F
      rw [ht]
      simp only [Bool.false_eq_true, if_false, Fin.sum_univ_three, Adm.ginvT, Adm.codelKT, Adm.cdKuddT, Adm.momrhsT]
      congr 3
      ring
    have hb0 := hb 0
    have hb1 := hb 1
    have hb2 := hb 2
    have p0 := abs_nonneg (Adm.momT c 0)
    have p1 := abs_nonneg (Adm.momT c 1)
    have p2 := abs_nonneg (Adm.momT c 2)
    unfold Adm.denomM
    rw [e1, e2, e3]
    refine fin3 ?_ ?_ ?_ <;> linarith
  refine ⟨(norm_bound h1).1, (norm_bound h1).2, ?_⟩
  exact fin3 (norm_bound (h2 0)) (norm_bound (h2 1)) (norm_bound (h2 2))

end

/-- **C112.** The theorems for smooth fields on `ℝ³`: the function computes the constraints at every point. -/
theorem C112_smooth (F : Spec.AdmFields Spec.smooth) (hs : ∀ a b, F.g a b = F.g b a) (hd : ∀ x, (Spec.det3 F.g).1 x ≠ 0)
    (hψ : ∀ x, F.ψ.1 x ≠ 0) :
    ∃ γ : Spec.Metric Spec.smooth, (∀ a b, γ.g a b = F.ψ ^ 4 * F.g a b) ∧
      ∀ x c, Spec.AdmInput Spec.smoothCalculus (Spec.smoothAt x) F c → (c.rhoNull = true → c.sNull = true) → ∃ o, admPoint c = .ok o ∧
        o.ham = (Spec.trace γ (Spec.ricci Spec.smoothCalculus γ) + Spec.trace γ F.K ^ 2 - Spec.square γ F.K).1 x -
          16 * c.pi * F.ρ.1 x ∧
        ∀ a : Fin 3, o.mom a = (∑ b, ∑ d, γ.inv b d *
          Spec.cov2 Spec.smoothCalculus γ (fun i j => F.K i j - γ.g i j * Spec.trace γ F.K) d a b).1 x - 8 * c.pi * (F.j a).1 x := by
  obtain ⟨γ, hγ⟩ := C112_metric (fun a b => F.ψ ^ 4 * F.g a b) (fun a b => by rw [hs]) (fun x => by
    have e : Spec.det3 (fun a b => F.ψ ^ 4 * F.g a b) = F.ψ ^ 12 * Spec.det3 F.g := by unfold Spec.det3; ring
    rw [e]
    exact mul_ne_zero (pow_ne_zero 12 (hψ x)) (hd x))
  have hγ' : ∀ a b, γ.g a b = F.ψ ^ 4 * F.g a b := fun a b => by rw [hγ]
  refine ⟨γ, hγ', fun x c h hn => ?_⟩
  obtain ⟨o, ho, h1⟩ := C112_ham h hγ' hn
  obtain ⟨o', ho', h2⟩ := C112_mom h hγ' hn
  rw [ho] at ho'
  cases ho'
  exact ⟨o, ho, h1, h2⟩

/-- A point with the metric `((1, -1, 0), (-1, 2, 0), (0, 0, 1))`, second derivatives `∂₁∂₁ g₂₂ = 1`, `∂₂∂₂ g₁₁ = -3`,
`∂₁∂₂ g₁₂ = 1`, and no extrinsic curvature. -/
def admBadHam : AdmConPt ℚ where
  u := fun n => [1, -1, 0, 2, 0, 1].getD n 0
  ps := fun n => if n = 0 then 1 else 0
  dg := fun _ => 0
  ddg := fun n => if n = 6 * 3 then 1 else if n = 3 then -3 else if n = 6 + 1 then 1 else 0
  dK := fun _ => 0
  dalp := fun _ => 0
  ddalp := fun _ => 0
  rhoNull := true
  jNull := true
  sNull := true
  normConstr := true
  termByTerm := true
  pi := 3

/-- A point with the flat metric, `∂₁ g₂₂ = -2` and `K₁₁ = 1`. -/
def admBadMom : AdmConPt ℚ where
  u := fun n => [1, 0, 0, 1, 0, 1, 1].getD n 0
  ps := fun n => if n = 0 then 1 else 0
  dg := fun n => if n = 9 then -2 else 0
  ddg := fun _ => 0
  dK := fun _ => 0
  dalp := fun _ => 0
  ddalp := fun _ => 0
  rhoNull := true
  jNull := true
  sNull := true
  normConstr := true
  termByTerm := true
  pi := 3

/-- **C113.** With `TermByTerm` (the default) the normalised constraints can be zero where the constraints are not: the code takes
`RB`, `codelKB` and `codelKC` for symmetric (ADMconstraints.c:2195-2255, 2661-2940). -/
theorem C113_counterexample :
    (Adm.ham admBadHam = 4 ∧ Adm.normham admBadHam = 0) ∧ Adm.mom1 admBadMom = -1 ∧ Adm.normmom1 admBadMom = 0 := by
  refine ⟨⟨?_, ?_⟩, ?_, ?_⟩ <;> decide +kernel

/-- The second point with the other norm. -/
example : Adm.normmom1 { admBadMom with termByTerm := false } = -1 ∧ Adm.normham { admBadHam with termByTerm := false } = 1 := by
  refine ⟨?_, ?_⟩ <;> decide +kernel

/-- The second point is one of the metric `dx² + (1 - 2x) dy² + dz²` with the curvature `R = 2` at `x = 0`; there are the
terms `K² - K_{ij} K^{ij} = 0`. -/
example : Adm.ham admBadMom = 2 ∧ Adm.R admBadMom = 2 ∧ Adm.mom2 admBadMom = 0 := by
  refine ⟨?_, ?_, ?_⟩ <;> decide +kernel

end Sgrid
