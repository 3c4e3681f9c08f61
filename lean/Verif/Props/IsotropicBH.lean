import Verif.Model.IsotropicBH
import Verif.Props.ConformallyFlat
import Verif.Props.KerrData

/-!
# C120: a black hole in isotropic coordinates
-/

namespace Sgrid
open Finset
open scoped ContDiff

namespace Spec

/-- The distance from the origin. -/
noncomputable def radius (x : Fin 3 → ℝ) : ℝ := √(norm2 x)

/-- The points off the origin where the conformal factor does not vanish. -/
def isoDomain (M : ℝ) : Set (Fin 3 → ℝ) := {x | 0 < norm2 x ∧ 1 + M / (2 * radius x) ≠ 0}

end Spec

theorem radius_pos {M : ℝ} {x : Fin 3 → ℝ} (h : x ∈ Spec.isoDomain M) : 0 < Spec.radius x := Real.sqrt_pos.2 h.1

theorem isoDomain_open (M : ℝ) : IsOpen (Spec.isoDomain M) := by
  have h1 : Continuous Spec.norm2 := contDiff_norm2.continuous
  have h2 : Continuous Spec.radius := h1.sqrt
  have e : Spec.isoDomain M = {x | 0 < Spec.norm2 x} ∩ {x | 2 * Spec.radius x + M ≠ 0} := by
    ext x
    rw [Set.mem_inter_iff]
    unfold Spec.isoDomain
    simp only [Set.mem_setOf_eq]
    refine and_congr_right fun h => not_congr ?_
    have h3 : 0 < Spec.radius x := Real.sqrt_pos.2 h
    rw [show 1 + M / (2 * Spec.radius x) = (2 * Spec.radius x + M) / (2 * Spec.radius x) by field_simp, div_eq_zero_iff]
    exact or_iff_left (by positivity)
  rw [e]
  exact (isOpen_lt continuous_const h1).inter (isOpen_ne_fun (by fun_prop) continuous_const)

/-- For a black hole of positive mass these are all points but the origin. -/
theorem isoDomain_eq {M : ℝ} (hM : 0 ≤ M) : Spec.isoDomain M = {x | x ≠ 0} := by
  ext x
  unfold Spec.isoDomain
  simp only [Set.mem_setOf_eq]
  have e : 0 < Spec.norm2 x ↔ x ≠ 0 := by
    constructor
    · rintro h rfl
      simp [Spec.norm2] at h
    · intro h
      refine lt_of_le_of_ne (norm2_nonneg x) fun h0 => h ?_
      funext i
      have := (sum_eq_zero_iff_of_nonneg (fun i _ => mul_self_nonneg (x i))).1 h0.symm i (mem_univ i)
      exact mul_self_eq_zero.1 this
  rw [e]
  refine and_iff_left_of_imp fun h => ?_
  have := Real.sqrt_pos.2 (e.2 h)
  unfold Spec.radius
  positivity

section
variable {M : ℝ}

theorem contDiffOn_radius : ContDiffOn ℝ ∞ Spec.radius (Spec.isoDomain M) :=
  contDiff_norm2.contDiffOn.sqrt fun _ hx => hx.1.ne'

theorem contDiffOn_isoPsi : ContDiffOn ℝ ∞ (fun x => 1 + M / (2 * Spec.radius x)) (Spec.isoDomain M) :=
  contDiffOn_const.add (contDiffOn_const.div (contDiffOn_const.mul contDiffOn_radius) fun _ hx => by
    have := radius_pos hx
    positivity)

namespace Spec
variable (M)

/-- The coordinates. -/
def iso_ix (i : Fin 3) : Spec.smoothOn (Spec.isoDomain M) := Spec.restrict (fun x => x i) (contDiff_apply ℝ ℝ i).contDiffOn

/-- A constant. -/
def iso_iconst (c : ℝ) : Spec.smoothOn (Spec.isoDomain M) := Spec.restrict (fun _ => c) contDiffOn_const

/-- The distance from the origin. -/
noncomputable def iso_ir : Spec.smoothOn (Spec.isoDomain M) := Spec.restrict Spec.radius contDiffOn_radius

/-- Its inverse. -/
noncomputable def iso_is : Spec.smoothOn (Spec.isoDomain M) :=
  Spec.restrict (fun x => (Spec.radius x)⁻¹) (contDiffOn_radius.inv fun _ hx => (radius_pos hx).ne')

/-- `1 + M/(2r)`. -/
noncomputable def iso_ipsi : Spec.smoothOn (Spec.isoDomain M) := Spec.restrict (fun x => 1 + M / (2 * Spec.radius x)) contDiffOn_isoPsi

/-- Its inverse. -/
noncomputable def iso_iu : Spec.smoothOn (Spec.isoDomain M) :=
  Spec.restrict (fun x => (1 + M / (2 * Spec.radius x))⁻¹) (contDiffOn_isoPsi.inv fun _ hx => hx.2)

/-- The calculus off the origin. -/
noncomputable abbrev isoCalc : Spec.Calculus (Spec.smoothOn (Spec.isoDomain M)) := Spec.calculusOn (isoDomain_open M)

end Spec

local notation "C" => Spec.isoCalc M

theorem ipsi_iu : Spec.iso_ipsi M * Spec.iso_iu M = 1 := smoothOn_ext fun x => by
  rw [map_mul, map_one]
  exact mul_inv_cancel₀ x.2.2

theorem ir_is : Spec.iso_ir M * Spec.iso_is M = 1 := smoothOn_ext fun x => by
  rw [map_mul, map_one]
  exact mul_inv_cancel₀ (radius_pos x.2).ne'

theorem ipsi_eq : Spec.iso_ipsi M = 1 + Spec.iso_iconst M (M / 2) * Spec.iso_is M := smoothOn_ext fun x => by
  rw [map_add, map_mul, map_one]
  show 1 + M / (2 * Spec.radius x) = 1 + M / 2 * (Spec.radius x)⁻¹
  rw [div_mul_eq_div_div, div_eq_mul_inv (M / 2)]

theorem ir_sq : Spec.iso_ir M * Spec.iso_ir M = ∑ i, Spec.iso_ix M i * Spec.iso_ix M i := smoothOn_ext fun x => by
  rw [map_mul, map_sum]
  exact Real.mul_self_sqrt x.2.1.le

theorem id_const (c : ℝ) (i : Fin 3) : (C).d i (Spec.iso_iconst M c) = 0 := by
  refine smoothOn_ext fun x => ?_
  refine (calculusOn_d (isoDomain_open M) _ _ i x).trans ?_
  unfold Spec.pd
  rw [fderiv_const_apply, map_zero]
  rfl

theorem id_coord (i j : Fin 3) : (C).d i (Spec.iso_ix M j) = Spec.kd i j := by
  refine smoothOn_ext fun x => ?_
  refine (calculusOn_d (isoDomain_open M) _ _ i x).trans ?_
  unfold Spec.pd
  rw [(hasFDerivAt_apply j x.1).fderiv]
  unfold Spec.kd
  split <;> rename_i h
  · subst h
    simp
  · simp [Ne.symm h]

theorem id_is (i : Fin 3) : (C).d i (Spec.iso_is M) = -(Spec.iso_ix M i * Spec.iso_is M ^ 3) := by
  have h1 := congrArg ((C).d i) (ir_sq (M := M))
  have h3 := kd_sum' (Spec.iso_ix M) i
  simp only [Spec.Calculus.mul, Spec.Calculus.sum, id_coord] at h1
  have h2 : (⅟2 : Spec.smoothOn (Spec.isoDomain M)) * 2 = 1 := invOf_mul_self 2
  simp only [Fin.sum_univ_three] at h1 h3
  have hu := ir_is (M := M)
  have hdr : Spec.iso_ir M * (C).d i (Spec.iso_ir M) = Spec.iso_ix M i := by
    linear_combination ⅟2 * h1 + ⅟2 * 2 * h3 - (Spec.iso_ir M * (C).d i (Spec.iso_ir M) - Spec.iso_ix M i) * h2
  have h4 := congrArg ((C).d i) hu
  rw [Spec.Calculus.mul, Spec.Calculus.one] at h4
  linear_combination Spec.iso_is M * h4 - Spec.iso_is M ^ 3 * hdr + (Spec.iso_is M ^ 2 * (C).d i (Spec.iso_ir M) - (C).d i (Spec.iso_is M)) * hu

theorem id_psi (i : Fin 3) : (C).d i (Spec.iso_ipsi M) = -(Spec.iso_iconst M (M / 2) * Spec.iso_ix M i * Spec.iso_is M ^ 3) := by
  rw [ipsi_eq, Spec.Calculus.add, Spec.Calculus.one, Spec.Calculus.mul, id_const, id_is]
  ring

theorem idd_psi (i j : Fin 3) : (C).d i ((C).d j (Spec.iso_ipsi M)) =
    Spec.iso_iconst M (M / 2) * (3 * Spec.iso_ix M i * Spec.iso_ix M j * Spec.iso_is M ^ 5 - Spec.kd i j * Spec.iso_is M ^ 3) := by
  rw [id_psi, Spec.Calculus.neg, show Spec.iso_is M ^ 3 = Spec.iso_is M * (Spec.iso_is M * Spec.iso_is M) by ring]
  simp only [Spec.Calculus.mul, id_const, id_is, id_coord]
  ring

theorem is_sq : (∑ i, Spec.iso_ix M i * Spec.iso_ix M i) * Spec.iso_is M ^ 2 = 1 := by
  rw [← ir_sq]
  linear_combination (Spec.iso_ir M * Spec.iso_is M + 1) * ir_is (M := M)

/-- The conformal factor is harmonic. -/
theorem laplace_psi : ∑ i, (C).d i ((C).d i (Spec.iso_ipsi M)) = 0 := by
  have h := is_sq (M := M)
  simp only [idd_psi, Fin.sum_univ_three, Spec.kd, if_true] at h ⊢
  linear_combination 3 * Spec.iso_iconst M (M / 2) * Spec.iso_is M ^ 3 * h

theorem grad_psi : ∑ i, (C).d i (Spec.iso_ipsi M) * (C).d i (Spec.iso_ipsi M) = Spec.iso_iconst M (M / 2) ^ 2 * Spec.iso_is M ^ 4 := by
  have h := is_sq (M := M)
  simp only [id_psi, Fin.sum_univ_three] at h ⊢
  linear_combination Spec.iso_iconst M (M / 2) ^ 2 * Spec.iso_is M ^ 4 * h

/-- The metric. -/
noncomputable abbrev Spec.isoMetric (M : ℝ) : Spec.Metric (Spec.smoothOn (Spec.isoDomain M)) := Spec.flatMetric (Spec.iso_ipsi M) (Spec.iso_iu M) ipsi_iu

/-- The black hole is static: `α R_{ij} = ∇_i ∇_j α`. -/
theorem iso_static (i j : Fin 3) : (2 * Spec.iso_iu M - 1) * Spec.ricci C (Spec.isoMetric M) i j = Spec.hessian C (Spec.isoMetric M) (2 * Spec.iso_iu M - 1) i j := by
  have d2 : ∀ i, (C).d i 2 = 0 := by
    intro i
    rw [← one_add_one_eq_two, Spec.Calculus.add, Spec.Calculus.one, add_zero]
  have dN : ∀ i, (C).d i (2 * Spec.iso_iu M - 1) = -(2 * Spec.iso_iu M ^ 2 * (C).d i (Spec.iso_ipsi M)) := by
    intro i
    rw [Spec.Calculus.sub, Spec.Calculus.mul, d2, Spec.Calculus.one, flat_du (C) ipsi_iu]
    ring
  have ddN : (C).d i ((C).d j (2 * Spec.iso_iu M - 1)) = 4 * Spec.iso_iu M ^ 3 * (C).d i (Spec.iso_ipsi M) * (C).d j (Spec.iso_ipsi M) -
      2 * Spec.iso_iu M ^ 2 * (C).d i ((C).d j (Spec.iso_ipsi M)) := by
    rw [dN, Spec.Calculus.neg, show Spec.iso_iu M ^ 2 = Spec.iso_iu M * Spec.iso_iu M by ring]
    simp only [Spec.Calculus.mul, d2, flat_du (C) ipsi_iu]
    ring
  have hs : ∑ c, (C).d c (Spec.iso_ipsi M) * -(2 * Spec.iso_iu M ^ 2 * (C).d c (Spec.iso_ipsi M)) = -(2 * Spec.iso_iu M ^ 2 * (Spec.iso_iconst M (M / 2) ^ 2 * Spec.iso_is M ^ 4)) := by
    rw [← grad_psi, mul_sum, ← sum_neg_distrib]
    exact sum_congr rfl fun c _ => by ring
  have hp := ipsi_iu (M := M)
  rw [ipsi_eq] at hp
  rw [flat_ricci, flat_hessian, ddN, laplace_psi, grad_psi]
  simp only [dN]
  rw [hs]
  simp only [idd_psi]
  simp only [id_psi]
  linear_combination (-2 * Spec.iso_iu M * Spec.iso_iconst M (M / 2) * (3 * Spec.iso_ix M i * Spec.iso_ix M j * Spec.iso_is M ^ 5 - Spec.kd i j * Spec.iso_is M ^ 3)) * hp

/-- The scalar curvature vanishes. -/
theorem iso_scalar : Spec.trace (Spec.isoMetric M) (Spec.ricci C (Spec.isoMetric M)) = 0 := by
  have hg := grad_psi (M := M)
  have hl := laplace_psi (M := M)
  unfold Spec.trace
  show ∑ a, ∑ b, Spec.iso_iu M ^ 4 * Spec.kd a b * Spec.ricci C (Spec.isoMetric M) a b = 0
  simp only [flat_ricci, laplace_psi, grad_psi]
  simp only [Fin.sum_univ_three, Spec.kd, Fin.reduceEq, if_true, if_false] at hg hl ⊢
  linear_combination 6 * Spec.iso_iu M ^ 6 * hg - 2 * Spec.iso_iu M ^ 5 * hl

theorem iso_laplace : Spec.trace (Spec.isoMetric M) (Spec.hessian C (Spec.isoMetric M) (2 * Spec.iso_iu M - 1)) = 0 := by
  have h := iso_scalar (M := M)
  unfold Spec.trace at h ⊢
  simp only [← iso_static]
  calc _ = (2 * Spec.iso_iu M - 1) * ∑ a, ∑ b, (Spec.isoMetric M).inv a b * Spec.ricci C (Spec.isoMetric M) a b := by
        simp only [mul_sum]
        exact sum_congr rfl fun a _ => sum_congr rfl fun b _ => by ring
    _ = 0 := by rw [h, mul_zero]

end

/-- What the code reads at the point `x`. -/
noncomputable def Spec.isoPt (M : ℝ) (b : Bool) (x : Fin 3 → ℝ) : KerrPt ℝ := Spec.kerrPt M 0 b x

/-- The fields that `SingleBHisotropic` writes for the mass `M`; there is no matter. -/
structure Spec.IsoData (M : ℝ) (b : Bool) (F : Spec.AdmFields (Spec.smoothOn (Spec.isoDomain M))) : Prop where
  g : ∀ (x : Spec.isoDomain M) (i j : Fin 3), (Iso.point (Spec.isoPt M b x)).gb (Spec.sym2 i j) = Spec.valueAt x (F.g i j)
  K : ∀ (x : Spec.isoDomain M) (i j : Fin 3), (Iso.point (Spec.isoPt M b x)).K' (Spec.sym2 i j) = Spec.valueAt x (F.K i j)
  ψ : ∀ x : Spec.isoDomain M, (Iso.point (Spec.isoPt M b x)).psi = Spec.valueAt x F.ψ
  α : ∀ x : Spec.isoDomain M, (Iso.point (Spec.isoPt M b x)).alpha = Spec.valueAt x F.α
  β : ∀ (x : Spec.isoDomain M) (i : Fin 3), (Iso.point (Spec.isoPt M b x)).beta i = Spec.valueAt x (F.β i)
  ρ : F.ρ = 0
  j : ∀ i, F.j i = 0
  stress : ∀ i j, F.S i j = 0

section
variable {M : ℝ} {b : Bool} {F : Spec.AdmFields (Spec.smoothOn (Spec.isoDomain M))}

local notation "C" => Spec.isoCalc M

theorem Iso.r_val (x : Spec.isoDomain M) : Iso.r (Spec.isoPt M b x) = Spec.radius x := by
  show √(x.1 0 * x.1 0 + x.1 1 * x.1 1 + x.1 2 * x.1 2) = √(∑ i, x.1 i * x.1 i)
  rw [Fin.sum_univ_three]

theorem Iso.r2_val (x : Spec.isoDomain M) : Iso.r2 (Spec.isoPt M b x) = Spec.radius x ^ 2 := by
  show x.1 0 * x.1 0 + x.1 1 * x.1 1 + x.1 2 * x.1 2 = √(Spec.norm2 x.1) ^ 2
  rw [Real.sq_sqrt (norm2_nonneg x.1), Spec.norm2, Fin.sum_univ_three]

theorem Iso.psi0_val (x : Spec.isoDomain M) : Iso.psi0 (Spec.isoPt M b x) = Spec.valueAt x (Spec.iso_ipsi M) := by
  show 1 + M / (2 * Iso.r _) = 1 + M / (2 * Spec.radius x)
  rw [Iso.r_val]

theorem Iso.kd_val (x : Spec.isoDomain M) (i j : Fin 3) : Spec.valueAt x (Spec.kd i j) = Spec.kd i j := by
  unfold Spec.kd
  split <;> simp

theorem Iso.alpha_val (x : Spec.isoDomain M) : Iso.alpha (Spec.isoPt M b x) = Spec.valueAt x (2 * Spec.iso_iu M - 1) := by
  have h := x.2.2
  show (1 - M / (2 * Iso.r _)) / (1 + M / (2 * Iso.r _)) = _
  rw [Iso.r_val, map_sub, map_mul, map_one, map_ofNat, eq_sub_iff_add_eq]
  show _ = 2 * (1 + M / (2 * Spec.radius x))⁻¹
  generalize M / (2 * Spec.radius x) = q at *
  field_simp
  ring

theorem IsoData_metric (hF : Spec.IsoData M b F) (i j : Fin 3) : (Spec.isoMetric M).g i j = F.ψ ^ 4 * F.g i j := by
  refine smoothOn_ext fun x => ?_
  rw [map_mul, map_pow, ← hF.ψ, ← hF.g]
  show Spec.valueAt x (Spec.iso_ipsi M ^ 4 * Spec.kd i j) = _
  rw [map_mul, map_pow, ← Iso.psi0_val (b := b), Iso.kd_val]
  cases b
  · show _ = 1 ^ 4 * _
    rw [one_pow, one_mul]
    fin_cases i <;> fin_cases j <;> simp [Spec.kd, Iso.point, Spec.isoPt, Spec.kerrPt, Spec.sym2, Iso.psi4]
  · show _ = Iso.psi0 _ ^ 4 * _
    congr 1
    fin_cases i <;> fin_cases j <;> simp [Spec.kd, Iso.point, Spec.isoPt, Spec.kerrPt, Spec.sym2]

theorem IsoData_K (hF : Spec.IsoData M b F) : F.K = fun _ _ => 0 := by
  funext i j
  refine smoothOn_ext fun x => ?_
  rw [← hF.K, map_zero]
  fin_cases i <;> fin_cases j <;> rfl

theorem IsoData_α (hF : Spec.IsoData M b F) : F.α = 2 * Spec.iso_iu M - 1 := smoothOn_ext fun x => by
  rw [← hF.α]
  exact Iso.alpha_val x

theorem IsoData_β (hF : Spec.IsoData M b F) : F.β = fun _ => 0 := by
  funext i
  refine smoothOn_ext fun x => ?_
  rw [← hF.β, map_zero]
  fin_cases i <;> rfl

variable (M b) in
/-- **C120.** What the code writes are smooth fields. -/
theorem C120_fields : ∃ F', Spec.IsoData M b F' := by
  refine ⟨⟨if b then Spec.iso_ipsi M else 1, 2 * Spec.iso_iu M - 1, fun _ => 0, fun i j => if b then Spec.kd i j else Spec.iso_ipsi M ^ 4 * Spec.kd i j,
    fun _ _ => 0, 0, fun _ => 0, fun _ _ => 0⟩, ?_, ?_, ?_, fun x => Iso.alpha_val x, ?_, rfl, fun _ => rfl, fun _ _ => rfl⟩
  · intro x i j
    cases b
    · show _ = Spec.valueAt x (Spec.iso_ipsi M ^ 4 * Spec.kd i j)
      rw [map_mul, map_pow, ← Iso.psi0_val (b := false), Iso.kd_val]
      fin_cases i <;> fin_cases j <;> simp [Spec.kd, Iso.point, Spec.isoPt, Spec.kerrPt, Spec.sym2, Iso.psi4]
    · show _ = Spec.valueAt x (Spec.kd i j)
      rw [Iso.kd_val]
      fin_cases i <;> fin_cases j <;> simp [Spec.kd, Iso.point, Spec.isoPt, Spec.kerrPt, Spec.sym2]
  · intro x i j
    rw [map_zero]
    fin_cases i <;> fin_cases j <;> rfl
  · intro x
    cases b
    · exact (map_one _).symm
    · exact Iso.psi0_val x
  · intro x i
    rw [map_zero]
    fin_cases i <;> rfl

/-- **C120.** From these fields the code for the constraints computes zero for the Hamiltonian and momentum constraints and for the
time derivative of the trace of the extrinsic curvature. -/
theorem C120_constraints (hF : Spec.IsoData M b F) (x : Spec.isoDomain M) {c : AdmConPt ℝ}
    (h : Spec.AdmInput (Spec.calculusOn (isoDomain_open M)) (Spec.valueAt x) F c) (hn : c.rhoNull = c.sNull) :
    ∃ o, admPoint c = .ok o ∧ o.ham = 0 ∧ (∀ a : Fin 3, o.mom a = 0) ∧ o.trK = 0 ∧ o.dtrKdt = 0 := by
  obtain ⟨o, ho, h1⟩ := C112_ham h (IsoData_metric hF) (fun h => hn ▸ h)
  obtain ⟨o', ho', h2⟩ := C112_mom h (IsoData_metric hF) (fun h => hn ▸ h)
  obtain ⟨o'', ho'', h3, h4⟩ := C112_trK h (IsoData_metric hF) hn
  obtain rfl : o = o' := by rw [ho] at ho'; injection ho'
  obtain rfl : o = o'' := by rw [ho] at ho''; injection ho''
  have t0 : ∀ T : Fin 3 → Fin 3 → Spec.smoothOn (Spec.isoDomain M), (∀ i j, T i j = 0) → Spec.trace (Spec.isoMetric M) T = 0 := by
    intro T hT
    unfold Spec.trace
    exact sum_eq_zero fun a _ => sum_eq_zero fun b _ => by rw [hT, mul_zero]
  have hK : Spec.trace (Spec.isoMetric M) F.K = 0 := t0 _ fun i j => by rw [IsoData_K hF]
  refine ⟨o, ho, ?_, ?_, ?_, ?_⟩
  · have hs : Spec.square (Spec.isoMetric M) F.K = 0 := by
      rw [IsoData_K hF]
      unfold Spec.square
      simp
    rw [h1, iso_scalar, hK, hs, hF.ρ]
    simp
  · intro a
    rw [h2, hF.j, map_zero, mul_zero, sub_zero, hK]
    have e : ∀ i j, Spec.cov2 C (Spec.isoMetric M) (fun i j => F.K i j - (Spec.isoMetric M).g i j * 0) i a j = 0 := by
      intro i j
      unfold Spec.cov2
      simp [IsoData_K hF, Spec.Calculus.zero]
    rw [← map_zero (Spec.valueAt x)]
    congr 1
    exact sum_eq_zero fun i _ => sum_eq_zero fun j _ => by rw [e, mul_zero]
  · rw [h3, hK, map_zero]
  · rw [h4, IsoData_α hF, iso_laplace, iso_scalar, hK, t0 F.S hF.stress, hF.ρ, IsoData_β hF]
    simp

/-- **C120.** The black hole is static: with this lapse and without shift neither the metric nor the extrinsic curvature changes. -/
theorem C120_static (hF : Spec.IsoData M b F) : ∃ γ : Spec.Metric (Spec.smoothOn (Spec.isoDomain M)), (∀ i j, γ.g i j = F.ψ ^ 4 * F.g i j) ∧
    (∀ i, F.β i = 0) ∧ (∀ i j, F.K i j = 0) ∧
    ∀ i j, F.α * Spec.ricci (Spec.calculusOn (isoDomain_open M)) γ i j = Spec.hessian (Spec.calculusOn (isoDomain_open M)) γ F.α i j :=
  ⟨Spec.isoMetric M, IsoData_metric hF, fun i => by rw [IsoData_β hF], fun i j => by rw [IsoData_K hF], fun i j => by
    rw [IsoData_α hF]
    exact iso_static i j⟩

/-- **C120.** The derivatives of the conformal factor. -/
theorem C120_psi (hF : Spec.IsoData M b F) (x : Spec.isoDomain M) (i j : Fin 3) :
    (Iso.point (Spec.isoPt M b x)).psi * (Iso.point (Spec.isoPt M b x)).dpsiopsi i =
        Spec.valueAt x ((Spec.calculusOn (isoDomain_open M)).d i F.ψ) ∧
      (Iso.point (Spec.isoPt M b x)).psi * (Iso.point (Spec.isoPt M b x)).ddpsiopsi (Spec.sym2 i j) =
        Spec.valueAt x ((Spec.calculusOn (isoDomain_open M)).d i ((Spec.calculusOn (isoDomain_open M)).d j F.ψ)) := by
  cases b
  · have e : F.ψ = 1 := by
      refine smoothOn_ext fun x => ?_
      rw [← hF.ψ, map_one]
      rfl
    rw [e, Spec.Calculus.one, Spec.Calculus.one, Spec.Calculus.zero, map_zero]
    constructor
    · fin_cases i <;> exact mul_zero _
    · fin_cases i <;> fin_cases j <;> exact mul_zero _
  · have e : F.ψ = Spec.iso_ipsi M := by
      refine smoothOn_ext fun x => ?_
      rw [← hF.ψ]
      exact Iso.psi0_val x
    have hp : Iso.psi0 (Spec.isoPt M true x) ≠ 0 := by
      rw [Iso.psi0_val]
      exact x.2.2
    have hr := radius_pos x.2
    have vs : Spec.valueAt x (Spec.iso_is M) = (Spec.radius x)⁻¹ := rfl
    have vx : ∀ i, Spec.valueAt x (Spec.iso_ix M i) = x.1 i := fun _ => rfl
    have vc : Spec.valueAt x (Spec.iso_iconst M (M / 2)) = M / 2 := rfl
    rw [e]
    constructor
    · rw [id_psi]
      have e1 : (Iso.point (Spec.isoPt M true x)).dpsiopsi i = -M / (2 * Iso.r2 (Spec.isoPt M true x)) * x.1 i / Iso.r (Spec.isoPt M true x) / Iso.psi0 (Spec.isoPt M true x) := by
        fin_cases i <;> rfl
      rw [e1, Iso.r_val, Iso.r2_val]
      show Iso.psi0 (Spec.isoPt M true x) * _ = _
      simp only [map_neg, map_mul, map_pow, vs, vx, vc]
      field_simp
    · rw [idd_psi]
      have e1 : (Iso.point (Spec.isoPt M true x)).ddpsiopsi (Spec.sym2 i j) =
          (3 * M / (2 * (Iso.r2 (Spec.isoPt M true x) * Iso.r (Spec.isoPt M true x))) * (x.1 i / Iso.r (Spec.isoPt M true x)) * (x.1 j / Iso.r (Spec.isoPt M true x)) -
            Spec.kd i j * (M / (2 * (Iso.r2 (Spec.isoPt M true x) * Iso.r (Spec.isoPt M true x))))) / Iso.psi0 (Spec.isoPt M true x) := by
        fin_cases i <;> fin_cases j <;>
          simp only [Fin.zero_eta, Fin.mk_one, Fin.reduceFinMk, Spec.kd, Fin.reduceEq, if_true, if_false, one_mul, zero_mul, sub_zero] <;>
          first | rfl | (rw [mul_right_comm]; rfl)
      rw [e1, Iso.r_val, Iso.r2_val]
      show Iso.psi0 (Spec.isoPt M true x) * _ = _
      simp only [map_sub, map_mul, map_pow, map_ofNat, vs, vx, vc, Iso.kd_val]
      field_simp

end

/-- **C120.** The options for the gauge change lapse and shift and nothing else. -/
theorem C120_gauge {𝔽 : Type} [Field 𝔽] (l s : Bool) (o : KS.Out 𝔽) :
    (Iso.gauge l s o).gb = o.gb ∧ (Iso.gauge l s o).K' = o.K' ∧ (Iso.gauge l s o).psi = o.psi ∧
      (Iso.gauge l s o).alpha = (if l then 1 else o.alpha) ∧ ∀ n, (Iso.gauge l s o).beta n = if s then 0 else o.beta n := by
  refine ⟨rfl, rfl, rfl, rfl, fun n => ?_⟩
  cases s <;> rfl

example : (Iso.point (exKerr true)).psi = 11 / 5 ∧ (Iso.point (exKerr true)).alpha = -1 / 11 := by decide +kernel
example : (List.range 3).map (Iso.point (exKerr true)).dpsiopsi = [-72 / 1375, -18 / 275, -96 / 1375] := by decide +kernel
example : (Iso.point (exKerr false)).gb 0 = 14641 / 625 ∧ (Iso.point (exKerr false)).psi = 1 := by decide +kernel

end Sgrid
