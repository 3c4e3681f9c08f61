import Verif.Props.KerrField
import Verif.Props.SmoothOn
import Mathlib.Analysis.SpecialFunctions.Sqrt

/-!
# The Kerr metric outside of its disk

Kerr's radius, vector field and the functions made of them are smooth where the radius does not vanish.
-/

namespace Sgrid
open Finset
open scoped ContDiff

namespace Spec

/-- The square of the length of a vector. -/
def norm2 (x : Fin 3 → ℝ) : ℝ := ∑ i, x i * x i

/-- The scalar product. -/
def kdot (a x : Fin 3 → ℝ) : ℝ := ∑ i, a i * x i

/-- `2 r² - x² + a²`. -/
noncomputable def kerrOmega (a x : Fin 3 → ℝ) : ℝ := √((norm2 x - norm2 a) ^ 2 + 4 * kdot a x ^ 2)

/-- Kerr's radius, the non-negative solution of `r⁴ - (x² - a²) r² - (a·x)² = 0`. -/
noncomputable def kerrR (a x : Fin 3 → ℝ) : ℝ := √((norm2 x - norm2 a + kerrOmega a x) / 2)

/-- The function `H = M r³ / (r⁴ + (a·x)²)`. -/
noncomputable def kerrH (M : ℝ) (a x : Fin 3 → ℝ) : ℝ := M * kerrR a x ^ 3 / (kerrR a x ^ 4 + kdot a x ^ 2)

/-- Where the Kerr metric is regular and the slices are spacelike. -/
def kerrDomain (M : ℝ) (a : Fin 3 → ℝ) : Set (Fin 3 → ℝ) := {x | 0 < kerrR a x ∧ 0 < 1 + 2 * kerrH M a x}

end Spec

theorem kerrOmega_sq (a x : Fin 3 → ℝ) : Spec.kerrOmega a x ^ 2 = (Spec.norm2 x - Spec.norm2 a) ^ 2 + 4 * Spec.kdot a x ^ 2 :=
  Real.sq_sqrt (by positivity)

theorem kerr_arg (a x : Fin 3 → ℝ) : 0 ≤ (Spec.norm2 x - Spec.norm2 a + Spec.kerrOmega a x) / 2 := by
  have h0 : 0 ≤ Spec.kerrOmega a x := Real.sqrt_nonneg _
  have h1 : |Spec.norm2 x - Spec.norm2 a| ≤ Spec.kerrOmega a x := by
    rw [← Real.sqrt_sq_eq_abs]
    exact Real.sqrt_le_sqrt (by nlinarith [sq_nonneg (Spec.kdot a x)])
  have h2 := (abs_le.1 h1).1
  linarith

theorem kerrR_sq (a x : Fin 3 → ℝ) : Spec.kerrR a x ^ 2 = (Spec.norm2 x - Spec.norm2 a + Spec.kerrOmega a x) / 2 :=
  Real.sq_sqrt (kerr_arg a x)

theorem kerrR_quartic (a x : Fin 3 → ℝ) :
    Spec.kerrR a x ^ 4 - (Spec.norm2 x - Spec.norm2 a) * Spec.kerrR a x ^ 2 - Spec.kdot a x ^ 2 = 0 := by
  have h1 := kerrR_sq a x
  have h2 := kerrOmega_sq a x
  rw [show Spec.kerrR a x ^ 4 = (Spec.kerrR a x ^ 2) ^ 2 by ring, h1]
  linear_combination h2 / 4

theorem norm2_nonneg (a : Fin 3 → ℝ) : 0 ≤ Spec.norm2 a := sum_nonneg fun i _ => mul_self_nonneg _

theorem kerrOmega_pos {a x : Fin 3 → ℝ} (h : 0 < Spec.kerrR a x) : 0 < Spec.kerrOmega a x := by
  have h0 : 0 ≤ Spec.kerrOmega a x := Real.sqrt_nonneg _
  refine lt_of_le_of_ne h0 fun h1 => ?_
  have h2 := kerrOmega_sq a x
  have h3 := kerrR_sq a x
  rw [← h1] at h2 h3
  have h4 : Spec.norm2 x - Spec.norm2 a = 0 := by nlinarith [sq_nonneg (Spec.norm2 x - Spec.norm2 a), sq_nonneg (Spec.kdot a x)]
  rw [h4] at h3
  nlinarith

theorem contDiff_norm2 : ContDiff ℝ ∞ Spec.norm2 := by
  unfold Spec.norm2
  fun_prop

theorem contDiff_kdot (a : Fin 3 → ℝ) : ContDiff ℝ ∞ (Spec.kdot a) := by
  unfold Spec.kdot
  fun_prop

theorem continuous_kerrR (a : Fin 3 → ℝ) : Continuous (Spec.kerrR a) := by
  have h1 := contDiff_norm2.continuous
  have h2 := (contDiff_kdot a).continuous
  unfold Spec.kerrR Spec.kerrOmega
  fun_prop

theorem kerrDomain_open (M : ℝ) (a : Fin 3 → ℝ) : IsOpen (Spec.kerrDomain M a) := by
  have h1 := continuous_kerrR a
  have h2 := (contDiff_kdot a).continuous
  have e : Spec.kerrDomain M a = {x | 0 < Spec.kerrR a x} ∩ {x | 0 < Spec.kerrR a x ^ 4 + Spec.kdot a x ^ 2 + 2 * M * Spec.kerrR a x ^ 3} := by
    ext x
    rw [Set.mem_inter_iff]
    unfold Spec.kerrDomain
    simp only [Set.mem_setOf_eq]
    refine and_congr_right fun h => ?_
    have h3 : 0 < Spec.kerrR a x ^ 4 + Spec.kdot a x ^ 2 := by positivity
    unfold Spec.kerrH
    rw [show 1 + 2 * (M * Spec.kerrR a x ^ 3 / (Spec.kerrR a x ^ 4 + Spec.kdot a x ^ 2)) =
      (Spec.kerrR a x ^ 4 + Spec.kdot a x ^ 2 + 2 * M * Spec.kerrR a x ^ 3) / (Spec.kerrR a x ^ 4 + Spec.kdot a x ^ 2) by field_simp]
    exact div_pos_iff_of_pos_right h3
  rw [e]
  exact (isOpen_lt continuous_const h1).inter (isOpen_lt continuous_const (by fun_prop))

section
variable {M : ℝ} {a : Fin 3 → ℝ}

theorem contDiffOn_kerrOmega : ContDiffOn ℝ ∞ (Spec.kerrOmega a) (Spec.kerrDomain M a) := by
  unfold Spec.kerrOmega
  refine ContDiffOn.sqrt ?_ ?_
  · exact (((contDiff_norm2.sub contDiff_const).pow 2).add (contDiff_const.mul ((contDiff_kdot a).pow 2))).contDiffOn
  · intro x hx h0
    have h1 := kerrOmega_pos hx.1
    unfold Spec.kerrOmega at h1
    rw [h0, Real.sqrt_zero] at h1
    exact lt_irrefl _ h1

theorem contDiffOn_kerrR : ContDiffOn ℝ ∞ (Spec.kerrR a) (Spec.kerrDomain M a) := by
  unfold Spec.kerrR
  refine ContDiffOn.sqrt ?_ ?_
  · exact ((contDiff_norm2.sub contDiff_const).contDiffOn.add contDiffOn_kerrOmega).div_const 2
  · intro x hx h0
    have h1 := hx.1
    unfold Spec.kerrR at h1
    rw [h0, Real.sqrt_zero] at h1
    exact lt_irrefl _ h1

theorem contDiffOn_kerrH : ContDiffOn ℝ ∞ (Spec.kerrH M a) (Spec.kerrDomain M a) := by
  unfold Spec.kerrH
  refine (contDiffOn_const.mul (contDiffOn_kerrR.pow 3)).div ((contDiffOn_kerrR.pow 4).add ((contDiff_kdot a).pow 2).contDiffOn) ?_
  intro x hx
  have := hx.1
  positivity

namespace Spec

variable (M a)

/-- The coordinates. -/
def kx (i : Fin 3) : Spec.smoothOn (Spec.kerrDomain M a) := Spec.restrict (fun x => x i) (contDiff_apply ℝ ℝ i).contDiffOn

/-- A constant. -/
def kconst (c : ℝ) : Spec.smoothOn (Spec.kerrDomain M a) := Spec.restrict (fun _ => c) contDiffOn_const

/-- Kerr's radius. -/
noncomputable def kr : Spec.smoothOn (Spec.kerrDomain M a) := Spec.restrict (Spec.kerrR a) contDiffOn_kerrR

/-- Its inverse. -/
noncomputable def ku : Spec.smoothOn (Spec.kerrDomain M a) :=
  Spec.restrict (fun x => (Spec.kerrR a x)⁻¹) (contDiffOn_kerrR.inv fun _ hx => hx.1.ne')

/-- `1/(r² + a²)`. -/
noncomputable def kq : Spec.smoothOn (Spec.kerrDomain M a) :=
  Spec.restrict (fun x => (Spec.kerrR a x ^ 2 + Spec.norm2 a)⁻¹) (((contDiffOn_kerrR.pow 2).add contDiffOn_const).inv fun x hx => by
    have := hx.1
    have := norm2_nonneg a
    positivity)

/-- `1/Ω`. -/
noncomputable def kw : Spec.smoothOn (Spec.kerrDomain M a) :=
  Spec.restrict (fun x => (Spec.kerrOmega a x)⁻¹) (contDiffOn_kerrOmega.inv fun _ hx => (kerrOmega_pos hx.1).ne')

/-- `2 H`. -/
noncomputable def kphi : Spec.smoothOn (Spec.kerrDomain M a) :=
  Spec.restrict (fun x => 2 * Spec.kerrH M a x) (contDiffOn_const.mul contDiffOn_kerrH)

/-- `1/(1 + 2 H)`. -/
noncomputable def kt : Spec.smoothOn (Spec.kerrDomain M a) :=
  Spec.restrict (fun x => (1 + 2 * Spec.kerrH M a x)⁻¹) ((contDiffOn_const.add (contDiffOn_const.mul contDiffOn_kerrH)).inv fun _ hx => hx.2.ne')

/-- `1/√(1 + 2 H)`. -/
noncomputable def kN : Spec.smoothOn (Spec.kerrDomain M a) :=
  Spec.restrict (fun x => (√(1 + 2 * Spec.kerrH M a x))⁻¹)
    (((contDiffOn_const.add (contDiffOn_const.mul contDiffOn_kerrH)).sqrt fun _ hx => hx.2.ne').inv fun _ hx => (Real.sqrt_pos.2 hx.2).ne')

/-- Kerr's vector field. -/
noncomputable def kl (j : Fin 3) : Spec.smoothOn (Spec.kerrDomain M a) :=
  Spec.kerrL (Spec.kx M a) (fun i => Spec.kconst M a (a i)) (Spec.kr M a) (Spec.ku M a) (Spec.kq M a) j

/-- The calculus of the smooth functions where the Kerr metric is regular. -/
noncomputable abbrev kerrCalc : Spec.Calculus (Spec.smoothOn (Spec.kerrDomain M a)) := Spec.calculusOn (kerrDomain_open M a)

end Spec

section
variable (x : Spec.kerrDomain M a)
theorem v_kx (i : Fin 3) : Spec.valueAt x (Spec.kx M a i) = x.1 i := rfl
theorem v_kconst (c : ℝ) : Spec.valueAt x (Spec.kconst M a c) = c := rfl
theorem v_kr : Spec.valueAt x (Spec.kr M a) = Spec.kerrR a x := rfl
theorem v_ku : Spec.valueAt x (Spec.ku M a) = (Spec.kerrR a x)⁻¹ := rfl
theorem v_kq : Spec.valueAt x (Spec.kq M a) = (Spec.kerrR a x ^ 2 + Spec.norm2 a)⁻¹ := rfl
theorem v_kw : Spec.valueAt x (Spec.kw M a) = (Spec.kerrOmega a x)⁻¹ := rfl
theorem v_kphi : Spec.valueAt x (Spec.kphi M a) = 2 * Spec.kerrH M a x := rfl
theorem v_kt : Spec.valueAt x (Spec.kt M a) = (1 + 2 * Spec.kerrH M a x)⁻¹ := rfl
theorem v_kN : Spec.valueAt x (Spec.kN M a) = (√(1 + 2 * Spec.kerrH M a x))⁻¹ := rfl
theorem v_norm2_a : Spec.valueAt x (∑ i, Spec.kconst M a (a i) * Spec.kconst M a (a i)) = Spec.norm2 a := by
  rw [map_sum]
  rfl
theorem v_norm2 : Spec.valueAt x (∑ i, Spec.kx M a i * Spec.kx M a i) = Spec.norm2 x := by
  rw [map_sum]
  rfl
theorem v_kdot : Spec.valueAt x (∑ i, Spec.kconst M a (a i) * Spec.kx M a i) = Spec.kdot a x := by
  rw [map_sum]
  rfl
end

theorem d_const (c : ℝ) (i : Fin 3) : (Spec.kerrCalc M a).d i (Spec.kconst M a c) = 0 := by
  refine smoothOn_ext fun x => ?_
  refine (calculusOn_d (kerrDomain_open M a) _ _ i x).trans ?_
  unfold Spec.pd
  rw [fderiv_const_apply, map_zero]
  rfl

theorem d_coord (i j : Fin 3) : (Spec.kerrCalc M a).d i (Spec.kx M a j) = Spec.kd i j := by
  refine smoothOn_ext fun x => ?_
  refine (calculusOn_d (kerrDomain_open M a) _ _ i x).trans ?_
  unfold Spec.pd
  rw [(hasFDerivAt_apply j x.1).fderiv]
  unfold Spec.kd
  rw [ContinuousLinearMap.proj_apply, Pi.single_apply]
  rcases eq_or_ne i j with h | h
  · rw [if_pos h, if_pos h.symm, map_one]
  · rw [if_neg h, if_neg h.symm, map_zero]

/-- The functions satisfy what is needed. -/
theorem kerr_radius : Spec.KerrRadius (Spec.kerrCalc M a) (Spec.kx M a) (fun i => Spec.kconst M a (a i)) (Spec.kr M a) (Spec.ku M a)
    (Spec.kq M a) (Spec.kw M a) where
  dx := d_coord
  da := fun i j => d_const (a j) i
  quartic := by
    refine smoothOn_ext fun x => ?_
    rw [map_sub, map_sub, map_mul, map_sub, map_pow, map_pow, map_pow, v_norm2, v_norm2_a, v_kdot, v_kr, map_zero]
    exact kerrR_quartic a x
  hu := by
    refine smoothOn_ext fun x => ?_
    rw [map_mul, v_ku, v_kr, map_one]
    exact inv_mul_cancel₀ x.2.1.ne'
  hq := by
    refine smoothOn_ext fun x => ?_
    have h1 := x.2.1
    have h2 := norm2_nonneg a
    rw [map_mul, map_add, map_pow, v_norm2_a, v_kq, v_kr, map_one]
    exact inv_mul_cancel₀ (by positivity)
  hw := by
    refine smoothOn_ext fun x => ?_
    have h1 := kerrOmega_pos x.2.1
    rw [map_mul, map_add, map_sub, map_mul, map_pow, map_ofNat, v_norm2_a, v_norm2, v_kw, v_kr, map_one,
      show 2 * Spec.kerrR a x ^ 2 - Spec.norm2 x + Spec.norm2 a = Spec.kerrOmega a x by rw [kerrR_sq]; ring]
    exact inv_mul_cancel₀ h1.ne'

/-- `2 H = 2 M α`. -/
theorem kphi_eq : Spec.kphi M a = Spec.kconst M a (2 * M) * (Spec.kw M a * Spec.kr M a) := by
  refine smoothOn_ext fun x => ?_
  have h1 := x.2.1
  have h2 := kerrOmega_pos x.2.1
  have h3 := kerrR_sq a x
  have h4 := kerrR_quartic a x
  have h5 : Spec.kerrR a x ^ 4 + Spec.kdot a x ^ 2 = Spec.kerrR a x ^ 2 * Spec.kerrOmega a x := by
    linear_combination -h4 + 2 * Spec.kerrR a x ^ 2 * h3
  rw [map_mul, map_mul, v_kconst, v_kw, v_kr, v_kphi, Spec.kerrH, h5]
  field_simp

/-- The Kerr metric is of Kerr-Schild form. -/
theorem kerr_schild : Spec.KerrSchild (Spec.kerrCalc M a) (Spec.kl M a) (Spec.kw M a * Spec.kr M a)
    (-(Spec.kw M a * ∑ i, Spec.kconst M a (a i) * Spec.kl M a i)) (Spec.kphi M a) (Spec.kt M a) (Spec.kconst M a (2 * M)) where
  toCongruence := kerr_radius.congruence
  phi := kphi_eq
  dm := fun i => d_const _ i
  ht := by
    refine smoothOn_ext fun x => ?_
    rw [map_mul, map_add, map_one, v_kt, v_kphi]
    exact inv_mul_cancel₀ x.2.2.ne'

theorem kN_sq : Spec.kN M a ^ 2 = Spec.kt M a := by
  refine smoothOn_ext fun x => ?_
  rw [map_pow, v_kN, v_kt, inv_pow, Real.sq_sqrt x.2.2.le]

end
end Sgrid
