import Verif.Model.AdmEnergy
import Verif.Props.IsotropicBH
import Verif.Props.ModesMath
import Verif.Props.SphInt

/-!
# C127, C128: the ADM energy and the helpers of ADMvars
-/

namespace Sgrid
open Finset
open scoped ContDiff

section
set_option linter.unusedSectionVars false
variable {𝔽 : Type} [Field 𝔽]

/-- The symmetric matrix with the six components `g`. -/
def Spec.symMatrix (g : Nat → 𝔽) : Matrix (Fin 3) (Fin 3) 𝔽 := fun a b => g (Spec.sym2 a b)

/-- **C128.** `ADMvars_detg` is the determinant. -/
theorem C128_det (g : Nat → 𝔽) : Adm.detgFun (g 0) (g 1) (g 2) (g 3) (g 4) (g 5) = (Spec.symMatrix g).det := by
  rw [Matrix.det_fin_three]
  simp only [Adm.detgFun, Spec.symMatrix, Spec.sym2]
  ring

/-- **C128.** `ADMvars_invg` returns the determinant and writes the inverse, if there is one. -/
theorem C128_inv (g : Nat → 𝔽) (h : (Spec.symMatrix g).det ≠ 0) :
    (Adm.invgFun (g 0) (g 1) (g 2) (g 3) (g 4) (g 5)).2 = (Spec.symMatrix g).det ∧
      ∀ I : Matrix (Fin 3) (Fin 3) 𝔽, Spec.symMatrix g * I = 1 →
        ∀ a b, (Adm.invgFun (g 0) (g 1) (g 2) (g 3) (g 4) (g 5)).1.getD (Spec.sym2 a b) 0 = I a b := by
  have hd := C128_det g
  refine ⟨hd, fun I hI => ?_⟩
  set J : Matrix (Fin 3) (Fin 3) 𝔽 := fun a b => (Adm.invgFun (g 0) (g 1) (g 2) (g 3) (g 4) (g 5)).1.getD (Spec.sym2 a b) 0
  rw [← hd] at h
  have hJ : J * Spec.symMatrix g = 1 := by
    have e : ∀ a b, (J * Spec.symMatrix g) a b = (1 : Matrix (Fin 3) (Fin 3) 𝔽) a b := by
      refine fin3₂ ⟨?_, ?_, ?_, ?_, ?_, ?_, ?_, ?_, ?_⟩ <;>
        (simp only [Matrix.mul_apply, Fin.sum_univ_three, Matrix.one_apply, if_true, Fin.reduceEq, if_false]
         simp only [J, Adm.invgFun, Spec.symMatrix, Spec.sym2, List.getD_cons_zero, List.getD_cons_succ]
         have hw := mul_inv_cancel₀ h
         simp only [Adm.detgFun, div_eq_mul_inv] at hw ⊢
         generalize (g 0 * (g 3 * g 5 - g 4 * g 4) + g 1 * (g 2 * g 4 - g 1 * g 5) + g 2 * (g 1 * g 4 - g 2 * g 3))⁻¹ = w at hw ⊢
         first
           | ring1
           | linear_combination hw)
    exact Matrix.ext e
  intro a b
  have : J = I := by
    calc J = J * (Spec.symMatrix g * I) := by rw [hI, Matrix.mul_one]
      _ = I := by rw [← Matrix.mul_assoc, hJ, Matrix.one_mul]
  exact congrFun (congrFun this a) b

/-- **C128.** What `set_K_initial` writes is the trace of the extrinsic curvature with the physical metric `psi^4 g`. -/
theorem C128_trace (g K : Nat → 𝔽) (psi : 𝔽) (I : Matrix (Fin 3) (Fin 3) 𝔽) (hI : Spec.symMatrix (fun n => psi ^ 4 * g n) * I = 1) :
    Adm.kInitial g K psi = ∑ a, ∑ b, I a b * K (Spec.sym2 a b) := by
  have e : Spec.symMatrix g * psi ^ 4 • I = 1 := by
    rw [← hI, Matrix.mul_smul, ← Matrix.smul_mul]
    rfl
  have hdet : (Spec.symMatrix g).det ≠ 0 := by
    intro h0
    have := congrArg Matrix.det e
    rw [Matrix.det_mul, h0, zero_mul, Matrix.det_one] at this
    exact zero_ne_one this
  have hψ : psi ^ 4 ≠ 0 := by
    intro h0
    rw [h0, zero_smul, Matrix.mul_zero] at e
    exact zero_ne_one (congrFun (congrFun e 0) 0)
  have h := (C128_inv g hdet).2 _ e
  have hsym : ∀ a b, Spec.sym2 a b = Spec.sym2 b a := by decide
  have hs : ∀ a b, I a b = I b a := by
    intro a b
    have h1 := h a b
    have h2 := h b a
    rw [hsym a b] at h1
    exact mul_left_cancel₀ hψ (h1.symm.trans h2)
  have h00 := h 0 0
  have h01 := h 0 1
  have h02 := h 0 2
  have h11 := h 1 1
  have h12 := h 1 2
  have h22 := h 2 2
  simp only [Spec.sym2, Matrix.smul_apply, smul_eq_mul] at h00 h01 h02 h11 h12 h22
  unfold Adm.kInitial
  dsimp only
  rw [h00, h01, h02, h11, h12, h22]
  simp only [Fin.sum_univ_three, Spec.sym2, hs 1 0, hs 2 0, hs 2 1]
  rw [inv_mul_eq_iff_eq_mul₀ hψ]
  ring

/-- **C128.** `ADMvars_undo_conformal_split` leaves the physical metric as it is, the new conformal factor is 1 and has no derivatives. -/
theorem C128_undo (s : Adm.Split 𝔽) : (∀ a b, (Adm.undoSplit s).psi ^ 4 * (Adm.undoSplit s).g (Spec.sym2 a b) = s.psi ^ 4 * s.g (Spec.sym2 a b)) ∧
    (Adm.undoSplit s).psi = 1 ∧ (∀ n, 6 ≤ n → (Adm.undoSplit s).g n = s.g n) ∧
    ((Adm.undoSplit s).dpop.isSome = s.dpop.isSome) ∧
    ∀ d ∈ (Adm.undoSplit s).dpop, (∀ a : Fin 3, d.1 a = 0) ∧ ∀ a b, d.2 (Spec.sym2 a b) = 0 := by
  have h6 : ∀ a b, Spec.sym2 a b < 6 := by decide
  refine ⟨fun a b => ?_, rfl, fun n hn => if_neg (by omega), ?_, fun d hd => ?_⟩
  · unfold Adm.undoSplit
    dsimp only
    rw [if_pos (h6 a b)]
    ring
  · unfold Adm.undoSplit
    cases s.dpop <;> rfl
  · unfold Adm.undoSplit at hd
    cases h : s.dpop with
    | none => simp [h] at hd
    | some e =>
      simp only [h, Option.map_some, Option.mem_def, Option.some.injEq] at hd
      subst hd
      exact ⟨fun a => if_pos a.2, fun a b => if_pos (h6 a b)⟩

example : Adm.detgFun (2 : ℚ) 1 0 3 1 4 = 18 := by decide +kernel
example : Adm.invgFun (2 : ℚ) 1 0 3 1 4 = ([11 / 18, -4 / 18, 1 / 18, 8 / 18, -2 / 18, 5 / 18], 18) := by decide +kernel
example : Adm.kInitial (fun n => [(2 : ℚ), 1, 0, 3, 1, 4].getD n 0) (fun n => [(1 : ℚ), 2, 3, 4, 5, 6].getD n 0) 2 = 43 / 288 := by
  norm_num [Adm.kInitial, Adm.invgFun]
example : (Adm.undoSplit ({ g := fun n => n, psi := 2, dpop := some (fun _ => 1, fun _ => 2) } : Adm.Split ℚ)).g 5 = 80 := by decide +kernel

/-! ## C127 -/

variable {A : Type} [CommRing A]

/-- The memory contains the coordinates `x`, the values of the conformal metric `g`, of the conformal factor `ψ` and of their
derivatives; `ev` takes the value of a function at the point. The derivatives of the conformal factor are divided by it. -/
structure Spec.EnergyInput (C : Spec.Calculus A) (ev : A →+* 𝔽) (g : Fin 3 → Fin 3 → A) (ψ : A) (x : Fin 3 → 𝔽) (c : EadmPt 𝔽) : Prop where
  metric : ∀ a b, c.u (1 + Spec.sym2 a b) = ev (g a b)
  coord : ∀ a : Fin 3, c.u (7 + a) = x a
  psi : c.u 10 = ev ψ
  dpsi : ∀ a : Fin 3, ev ψ * c.u (11 + a) = ev (C.d a ψ)
  dmetric : ∀ k a b : Fin 3, c.dg (3 * Spec.sym2 a b + k) = ev (C.d k (g a b))

/-- `γ^{ab} γ^{cd} (∂_d γ_{bc} - ∂_b γ_{cd})`. -/
def Spec.admVector (C : Spec.Calculus A) (γ : Spec.Metric A) (a : Fin 3) : A :=
  ∑ b, ∑ c, ∑ d, γ.inv a b * γ.inv c d * (C.d d (γ.g b c) - C.d b (γ.g c d))

namespace Eadm
variable (c : EadmPt 𝔽)

/-- The inverse metric by indices. -/
def ginvT : Fin 3 → Fin 3 → 𝔽
  | 0, 0 => ginv11 c | 0, 1 => ginv12 c | 0, 2 => ginv13 c
  | 1, 0 => ginv12 c | 1, 1 => ginv22 c | 1, 2 => ginv23 c
  | 2, 0 => ginv13 c | 2, 1 => ginv23 c | 2, 2 => ginv33 c

/-- The derivatives of the metric by indices. -/
def delgT : Fin 3 → Fin 3 → Fin 3 → 𝔽
  | 0, 0, 0 => delg111 c | 0, 0, 1 => delg112 c | 0, 0, 2 => delg113 c
  | 0, 1, 0 => delg112 c | 0, 1, 1 => delg122 c | 0, 1, 2 => delg123 c
  | 0, 2, 0 => delg113 c | 0, 2, 1 => delg123 c | 0, 2, 2 => delg133 c
  | 1, 0, 0 => delg211 c | 1, 0, 1 => delg212 c | 1, 0, 2 => delg213 c
  | 1, 1, 0 => delg212 c | 1, 1, 1 => delg222 c | 1, 1, 2 => delg223 c
  | 1, 2, 0 => delg213 c | 1, 2, 1 => delg223 c | 1, 2, 2 => delg233 c
  | 2, 0, 0 => delg311 c | 2, 0, 1 => delg312 c | 2, 0, 2 => delg313 c
  | 2, 1, 0 => delg312 c | 2, 1, 1 => delg322 c | 2, 1, 2 => delg323 c
  | 2, 2, 0 => delg313 c | 2, 2, 1 => delg323 c | 2, 2, 2 => delg333 c

/-- The normal by its index. -/
def nT : Fin 3 → 𝔽
  | 0 => n1 c | 1 => n2 c | 2 => n3 c

theorem integrand_eq [CharZero 𝔽] : integrand_0 c = detg c / (16 * c.pi) * ∑ a, nT c a * ∑ b, ∑ k, ∑ d, ginvT c a b * ginvT c k d * (delgT c d b k - delgT c b k d) := by
  rw [div_mul_eq_mul_div, mul_comm (16 : 𝔽), ← div_div]
  unfold integrand_0
  rw [div_right_comm]
  congr 1
  rw [eq_div_iff (by norm_num)]
  simp only [Fin.sum_univ_three, nT, ginvT, delgT]
  ring

theorem delg_eq (k a b : Fin 3) : delgT c k a b = c.dg (3 * Spec.sym2 a b + k) * c.u 10 ^ 4 + 4 * c.u 10 ^ 4 * c.u (11 + k) * c.u (1 + Spec.sym2 a b) := by
  revert k a b
  refine fin3 ?_ ?_ ?_ <;> refine fin3₂ ⟨?_, ?_, ?_, ?_, ?_, ?_, ?_, ?_, ?_⟩ <;> rfl

variable {c}
variable {C : Spec.Calculus A} {ev : A →+* 𝔽} {g : Fin 3 → Fin 3 → A} {ψ : A} {x : Fin 3 → 𝔽} {γ : Spec.Metric A}

theorem delg_val (h : Spec.EnergyInput C ev g ψ x c) (hγ : ∀ a b, γ.g a b = ψ ^ 4 * g a b) (k a b : Fin 3) :
    delgT c k a b = ev (C.d k (γ.g a b)) := by
  rw [delg_eq, h.psi, h.dmetric, h.metric, hγ, C.mul, calc_pow4]
  simp only [map_add, map_mul, map_pow, map_ofNat]
  linear_combination 4 * ev ψ ^ 3 * ev (g a b) * h.dpsi k

theorem det_ne (h : Spec.EnergyInput C ev g ψ x c) (hγ : ∀ a b, γ.g a b = ψ ^ 4 * g a b) :
    Spec.symMatrix (fun n => c.u (1 + n)) * (ev ψ ^ 4 • Matrix.of fun a b => ev (γ.inv a b)) = 1 := by
  ext a b
  simp only [Matrix.mul_apply, Matrix.smul_apply, Matrix.of_apply, smul_eq_mul, Spec.symMatrix, h.metric]
  have e : ∀ k, ev (g a k) * (ev ψ ^ 4 * ev (γ.inv k b)) = ev (γ.g a k * γ.inv k b) := by
    intro k
    rw [hγ]
    simp only [map_mul, map_pow]
    ring
  simp only [e]
  rw [← map_sum, γ.mul_inv, Matrix.one_apply]
  split <;> simp

theorem detgb_eq : detgb c = (Spec.symMatrix fun n => c.u (1 + n)).det := by
  rw [← C128_det]
  simp only [detgb, Adm.detgFun, gb11, gb12, gb13, gb22, gb23, gb33]
  ring

theorem ginv_val (h : Spec.EnergyInput C ev g ψ x c) (hγ : ∀ a b, γ.g a b = ψ ^ 4 * g a b) (a b : Fin 3) : ginvT c a b = ev (γ.inv a b) := by
  have e := det_ne h hγ
  have hdet : (Spec.symMatrix fun n => c.u (1 + n)).det ≠ 0 := by
    intro h0
    have := congrArg Matrix.det e
    rw [Matrix.det_mul, h0, zero_mul, Matrix.det_one] at this
    exact zero_ne_one this
  have hψ : ev ψ ^ 4 ≠ 0 := by
    intro h0
    rw [h0, zero_smul, Matrix.mul_zero] at e
    exact zero_ne_one (congrFun (congrFun e 0) 0)
  have h1 := (C128_inv _ hdet).2 _ e a b
  simp only [Matrix.smul_apply, Matrix.of_apply, smul_eq_mul] at h1
  refine mul_left_cancel₀ hψ (Eq.trans ?_ h1)
  have hd := detgb_eq (c := c)
  rw [← C128_det] at hd
  have hf : f c = ev ψ ^ 4 := by
    unfold f psi
    rw [h.psi]
  have hf0 : f c ≠ 0 := hf ▸ hψ
  rw [← hf]
  have cancel : ∀ p q : 𝔽, f c * (p / (q * f c)) = p / q := by
    intro p q
    rw [mul_comm q, ← mul_div_assoc, mul_div_mul_left _ _ hf0]
  simp only [Adm.detgFun] at hd
  revert a b
  refine fin3₂ ⟨?_, ?_, ?_, ?_, ?_, ?_, ?_, ?_, ?_⟩ <;> intro _ <;>
    simp only [ginvT, ginv11, ginv12, ginv13, ginv22, ginv23, ginv33, cancel, hd, Spec.sym2, Adm.invgFun, List.getD_cons_zero, List.getD_cons_succ] <;>
    congr 1 <;> simp only [gb11, gb12, gb13, gb22, gb23, gb33] <;> ring

theorem detg_val (h : Spec.EnergyInput C ev g ψ x c) (hγ : ∀ a b, γ.g a b = ψ ^ 4 * g a b) :
    detg c = (Matrix.of fun a b => ev (γ.g a b)).det := by
  unfold detg
  rw [detgb_eq, show (Matrix.of fun a b => ev (γ.g a b)) = f c • Spec.symMatrix (fun n => c.u (1 + n)) from ?_]
  · rw [Matrix.det_smul, Fintype.card_fin]
    ring
  · ext a b
    unfold f psi
    simp only [Matrix.of_apply, Matrix.smul_apply, smul_eq_mul, Spec.symMatrix, h.metric, h.psi, hγ, map_mul, map_pow]

end Eadm

variable {c : EadmPt 𝔽} {C : Spec.Calculus A} {ev : A →+* 𝔽} {g : Fin 3 → Fin 3 → A} {ψ : A} {x : Fin 3 → 𝔽} {γ : Spec.Metric A}

/-- **C127.** Off the origin the code computes `det γ / (16 π) n_a γ^{ab} γ^{cd} (∂_d γ_{bc} - ∂_b γ_{cd})` with the physical metric `γ` and
the normal `n = x/r`. At the origin it writes zero. -/
theorem C127_integrand [CharZero 𝔽] [DecidableEq 𝔽] (h : Spec.EnergyInput C ev g ψ x c) (hγ : ∀ a b, γ.g a b = ψ ^ 4 * g a b) :
    Eadm.point c = if ∑ a, x a ^ 2 = 0 then 0 else
      (Matrix.of fun a b => ev (γ.g a b)).det / (16 * c.pi) * ∑ a, x a / c.sqrt (∑ a, x a ^ 2) * ev (Spec.admVector C γ a) := by
  have hr : Eadm.r2 c = ∑ a, x a ^ 2 := by
    rw [Fin.sum_univ_three, ← h.coord, ← h.coord, ← h.coord]
    rfl
  have hn : ∀ a, Eadm.nT c a = x a / c.sqrt (∑ a, x a ^ 2) := by
    intro a
    rw [← hr, ← h.coord]
    revert a
    exact fin3 rfl rfl rfl
  unfold Eadm.point
  rw [hr, ite_not, Eadm.integrand_eq, Eadm.detg_val h hγ]
  unfold Spec.admVector
  simp only [hn, Eadm.ginv_val h hγ, Eadm.delg_val h hγ, map_sum, map_mul, map_sub]

/-- A point with arbitrary values. -/
def exEadm : EadmPt ℚ where
  u := fun n => [0, 1, 0, 0, 2, 0, 1, 2, 1, 2, 2, 1, 3, 1].getD n 0
  dg := fun n => [1, 0, 2, 1, 3, 0, 0, 1, 0, 2, 1, 1, 0, 0, 1, 2, 1, 1].getD n 0
  pi := 3
  sqrt := fun y => if y = 9 then 3 else 0

example : Eadm.point exEadm = -1648 / 9 := by
  decide +kernel
end

/-! ## The mass of a black hole -/

section
variable {M : ℝ} {b : Bool} {F : Spec.AdmFields (Spec.smoothOn (Spec.isoDomain M))}

theorem flat_admVector {A : Type} [CommRing A] (C : Spec.Calculus A) {ψ u : A} (h : ψ * u = 1) (a : Fin 3) :
    Spec.admVector C (Spec.flatMetric ψ u h) a = -(8 * u ^ 5 * C.d a ψ) := by
  have hk : ∀ (i j k : Fin 3), C.d k (Spec.kd i j) = 0 := by
    intro i j k
    unfold Spec.kd
    split
    · exact C.one k
    · exact C.zero k
  have hd : ∀ k i j, C.d k ((Spec.flatMetric ψ u h).g i j) = 4 * ψ ^ 3 * C.d k ψ * Spec.kd i j := by
    intro k i j
    show C.d k (ψ ^ 4 * Spec.kd i j) = _
    rw [C.mul, hk, calc_pow4]
    ring
  have h3 : ψ ^ 3 * u ^ 3 = 1 := by rw [← mul_pow, h, one_pow]
  unfold Spec.admVector
  simp only [hd]
  show ∑ b, ∑ c, ∑ d, u ^ 4 * Spec.kd a b * (u ^ 4 * Spec.kd c d) * _ = _
  revert a
  refine fin3 ?_ ?_ ?_ <;> simp only [Fin.sum_univ_three, Spec.kd, Fin.reduceEq, if_true, if_false]
  · linear_combination (-8) * u ^ 5 * C.d 0 ψ * h3
  · linear_combination (-8) * u ^ 5 * C.d 1 ψ * h3
  · linear_combination (-8) * u ^ 5 * C.d 2 ψ * h3

/-- **C127.** For a black hole of mass `M` in isotropic coordinates the value times the area `4 π r^2` of the sphere is `M (1 + M/(2r))^7`. -/
theorem C127_mass (hF : Spec.IsoData M b F) (x : Spec.isoDomain M) {c : EadmPt ℝ} (hp : c.pi = Real.pi) (hs : c.sqrt = Real.sqrt)
    (h : Spec.EnergyInput (Spec.calculusOn (isoDomain_open M)) (Spec.valueAt x) F.g F.ψ x.1 c) :
    4 * Real.pi * Spec.radius x ^ 2 * Eadm.point c = M * (1 + M / (2 * Spec.radius x)) ^ 7 := by
  have hr := radius_pos x.2
  have hn : ∑ a, x.1 a ^ 2 = Spec.norm2 x.1 := sum_congr rfl fun a _ => sq _
  rw [C127_integrand h (IsoData_metric hF), hn, if_neg x.2.1.ne', hp, hs]
  have hdet : (Matrix.of fun a b => Spec.valueAt x ((Spec.isoMetric M).g a b)).det = Spec.valueAt x (Spec.iso_ipsi M) ^ 12 := by
    rw [show (Matrix.of fun a b => Spec.valueAt x ((Spec.isoMetric M).g a b)) = Spec.valueAt x (Spec.iso_ipsi M) ^ 4 • (1 : Matrix (Fin 3) (Fin 3) ℝ) from ?_]
    · rw [Matrix.det_smul, Fintype.card_fin, Matrix.det_one]
      ring
    · ext i j
      show Spec.valueAt x (Spec.iso_ipsi M ^ 4 * Spec.kd i j) = _
      rw [map_mul, map_pow, Iso.kd_val]
      rfl
  have hv : ∀ a, Spec.valueAt x (Spec.admVector (Spec.calculusOn (isoDomain_open M)) (Spec.isoMetric M) a) =
      8 * (Spec.valueAt x (Spec.iso_iu M)) ^ 5 * (M / 2 * x.1 a * (Spec.radius x)⁻¹ ^ 3) := by
    intro a
    rw [flat_admVector, id_psi]
    simp only [map_neg, map_mul, map_pow, map_ofNat]
    rw [show Spec.valueAt x (Spec.iso_iconst M (M / 2)) = M / 2 from rfl, show Spec.valueAt x (Spec.iso_ix M a) = x.1 a from rfl,
      show Spec.valueAt x (Spec.iso_is M) = (Spec.radius x)⁻¹ from rfl]
    ring
  rw [hdet]
  simp only [hv]
  have e : ∑ a, x.1 a / √(Spec.norm2 x.1) * (8 * (Spec.valueAt x (Spec.iso_iu M)) ^ 5 * (M / 2 * x.1 a * (Spec.radius x)⁻¹ ^ 3)) =
      4 * M * (Spec.valueAt x (Spec.iso_iu M)) ^ 5 * (Spec.radius x)⁻¹ ^ 4 * ∑ a, x.1 a ^ 2 := by
    rw [mul_sum]
    refine sum_congr rfl fun a _ => ?_
    show x.1 a / Spec.radius x * _ = _
    rw [div_eq_mul_inv]
    ring
  have hq : Spec.norm2 x.1 = Spec.radius x ^ 2 := (Real.sq_sqrt x.2.1.le).symm
  rw [e, hn, hq]
  have hu : Spec.valueAt x (Spec.iso_ipsi M) * Spec.valueAt x (Spec.iso_iu M) = 1 := by
    rw [← map_mul, ipsi_iu, map_one]
  have hψ : Spec.valueAt x (Spec.iso_ipsi M) = 1 + M / (2 * Spec.radius x) := rfl
  rw [← hψ]
  generalize Spec.valueAt x (Spec.iso_ipsi M) = p at *
  generalize Spec.valueAt x (Spec.iso_iu M) = u at *
  have h5 : p ^ 5 * u ^ 5 = 1 := by rw [← mul_pow, hu, one_pow]
  have hpi := Real.pi_pos.ne'
  have hr0 := hr.ne'
  calc _ = M * p ^ 7 * (p ^ 5 * u ^ 5) * ((Real.pi * Real.pi⁻¹) * (Spec.radius x * (Spec.radius x)⁻¹) ^ 4) := by
        rw [div_eq_mul_inv, mul_inv]
        ring
    _ = M * p ^ 7 := by
        rw [h5, mul_inv_cancel₀ hpi, mul_inv_cancel₀ hr0]
        ring

/-- **C127.** Far away this is the mass. -/
theorem C127_limit (M : ℝ) : Filter.Tendsto (fun r : ℝ => M * (1 + M / (2 * r)) ^ 7) Filter.atTop (nhds M) := by
  have h1 : Filter.Tendsto (fun r : ℝ => M / (2 * r)) Filter.atTop (nhds 0) :=
    Filter.Tendsto.div_atTop tendsto_const_nhds (Filter.tendsto_id.const_mul_atTop (by norm_num))
  have h2 := ((h1.const_add 1).pow 7).const_mul M
  simpa using h2

theorem circle_const {D : BDir} (hD : Spec.Circle D) (s : ℝ) : D.space fun _ => s := by
  have h := circle_cos hD (k := 0) hD.n1
  have h2 := D.space_closed 1 (fun _ => s) (fun _ => fun Y => Real.cos ((0 : Nat) * Y)) (fun _ => h)
  simpa using h2

/-- **C127.** On every sphere of a box with spherical coordinates the ADM energy of the black hole that the code computes is
`M (1 + M/(2r))^7`: the array `u` contains what `ADMenergy_spheric_intergrand` writes, and `spec_sphericalDF2dIntegral` integrates it. -/
theorem C127_energy (g : Nat → (Nat → ℝ) × (Nat → ℝ) × (Nat → ℝ)) (D : Axis → BDir) (hD : Spec.SphBox D) (hC : Spec.Circle (D .three))
    (fft : Axis → Bool) (W W' : Axis → Nat → ℝ) (X u U : Nat) (mem : Arrays ℝ) (hX : X ≠ U)
    (hr : ∀ i j k, Spec.inBox (dirDims D) i j k → Spec.view (dirDims D) mem X i j k = (D .one).point i) (hF : Spec.IsoData M b F)
    (hu : ∀ i j k, Spec.inBox (dirDims D) i j k → ∃ (x : Spec.isoDomain M) (c : EadmPt ℝ), Spec.radius x = (D .one).point i ∧ c.pi = Real.pi ∧
      c.sqrt = Real.sqrt ∧ Spec.EnergyInput (Spec.calculusOn (isoDomain_open M)) (Spec.valueAt x) F.g F.ψ x.1 c ∧
      Spec.view (dirDims D) mem u i j k = Eadm.point c) :
    ∃ mem', sphIntegral2d g (stdBox D fft W W') (fun ax => (D ax).method) (fun ax => (D ax).a) (fun ax => (D ax).b) X u U mem = .ok mem' ∧
      ∀ i j k, Spec.inBox (dirDims D) i j k → Spec.view (dirDims D) mem' U i j k = M * (1 + M / (2 * (D .one).point i)) ^ 7 := by
  have hC2 : Spec.Circle (D .two) := ⟨hD.four, hD.a0, hD.b0, by have := hD.n3; omega⟩
  obtain ⟨m, hm, h1, -⟩ := C109_sphere g D hD fft W W' X u U mem hX hr (fun r _ _ => M * (1 + M / (2 * r)) ^ 7 / (4 * Real.pi * r ^ 2))
    (fun x z => circle_const hC2 _) (fun x y => circle_const hC _) (fun i j k hb => by
      obtain ⟨x, c, e1, e2, e3, e4, e5⟩ := hu i j k hb
      have e6 := C127_mass hF x e2 e3 e4
      have hpos := radius_pos x.2
      have hpi := Real.pi_pos
      rw [e5, eq_div_iff (by rw [← e1]; positivity), ← e1, ← e6]
      ring)
  refine ⟨m, hm, fun i j k hb => ?_⟩
  obtain ⟨x, c, e1, -⟩ := hu i j k hb
  have hpos := radius_pos x.2
  have hpi := Real.pi_pos
  rw [h1 i j k hb]
  unfold Spec.sphereInt Spec.thetaInt
  rw [hC.a0, hC.b0]
  simp only [intervalIntegral.integral_const, intervalIntegral.integral_mul_const, integral_sin, Real.cos_zero, Real.cos_pi, smul_eq_mul]
  rw [← e1]
  field_simp
  ring

end

end Sgrid
