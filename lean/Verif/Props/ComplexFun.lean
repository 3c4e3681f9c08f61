import Mathlib.Analysis.SpecialFunctions.Complex.Arg
import Mathlib.Analysis.SpecialFunctions.Trigonometric.ArctanDeriv
import Mathlib.Analysis.SpecialFunctions.Trigonometric.Deriv
import Mathlib.Analysis.SpecialFunctions.Trigonometric.DerivHyp
import Mathlib.Analysis.SpecialFunctions.Sqrt
import Mathlib.Tactic.LinearCombination
import Mathlib.Tactic.FieldSimp
import Mathlib.Tactic.Linarith
import Verif.Model.ComplexFun

/-! C52: the polar angle. C77: functions of a complex variable and their derivatives. -/

namespace Sgrid
open Real

/-! ## C52 -/

/-- Cosine and sine of `arctan (y / x)` in terms of the radius. -/
theorem polar_arctan (x y : ℝ) (hx : x ≠ 0) :
    |x| = √(x ^ 2 + y ^ 2) * cos (arctan (y / x)) ∧
      y * (|x| / x) = √(x ^ 2 + y ^ 2) * sin (arctan (y / x)) := by
  have hax : 0 < |x| := abs_pos.2 hx
  have h1 : √(1 + (y / x) ^ 2) = √(x ^ 2 + y ^ 2) / |x| := by
    rw [show 1 + (y / x) ^ 2 = (x ^ 2 + y ^ 2) / x ^ 2 by field_simp, Real.sqrt_div' _ (sq_nonneg x),
      Real.sqrt_sq_eq_abs]
  have hr : 0 < √(x ^ 2 + y ^ 2) := Real.sqrt_pos.2 (by positivity)
  rw [cos_arctan, sin_arctan, h1]
  constructor <;> field_simp

/-- **C52.** Arg returns the polar angle in (-π,π]. -/
theorem C52_arg (x y : ℝ) (h : ¬(x = 0 ∧ y = 0)) :
    -π < Arg x y ∧ Arg x y ≤ π ∧
      x = √(x ^ 2 + y ^ 2) * cos (Arg x y) ∧ y = √(x ^ 2 + y ^ 2) * sin (Arg x y) := by
  have hpi := Real.pi_pos
  unfold Arg
  by_cases hx : x = 0
  · rw [if_pos hx]
    have hy : y ≠ 0 := fun hy => h ⟨hx, hy⟩
    rw [if_neg hy]
    subst hx
    rw [show (0 : ℝ) ^ 2 + y ^ 2 = y ^ 2 by ring, Real.sqrt_sq_eq_abs]
    by_cases hy' : y > 0
    · rw [if_pos hy', cos_pi_div_two, sin_pi_div_two, abs_of_pos hy']
      exact ⟨by linarith, by linarith, by ring, by ring⟩
    · rw [if_neg hy', cos_neg, sin_neg, cos_pi_div_two, sin_pi_div_two,
        abs_of_neg (lt_of_le_of_ne (not_lt.1 hy') hy)]
      exact ⟨by linarith, by linarith, by ring, by ring⟩
  · rw [if_neg hx]
    obtain ⟨p1, p2⟩ := polar_arctan x y hx
    have a1 := neg_pi_div_two_lt_arctan (y / x)
    have a2 := arctan_lt_pi_div_two (y / x)
    by_cases hx' : x < 0
    · rw [if_pos hx']
      rw [abs_of_neg hx'] at p1 p2
      rw [show y * (-x / x) = -y by field_simp] at p2
      by_cases hy : y ≥ 0
      · rw [if_pos hy, cos_add_pi, sin_add_pi]
        have : arctan (y / x) ≤ 0 := by
          rw [arctan_le_zero]
          exact div_nonpos_of_nonneg_of_nonpos hy hx'.le
        exact ⟨by linarith, by linarith, by linarith, by linarith⟩
      · rw [if_neg hy, cos_sub_pi, sin_sub_pi]
        have : 0 < arctan (y / x) := by
          rw [arctan_pos]
          exact div_pos_of_neg_of_neg (not_le.1 hy) hx'
        exact ⟨by linarith, by linarith, by linarith, by linarith⟩
    · rw [if_neg hx']
      have hx'' : 0 < x := lt_of_le_of_ne (not_lt.1 hx') (Ne.symm hx)
      rw [abs_of_pos hx''] at p1 p2
      rw [show y * (x / x) = y by field_simp] at p2
      exact ⟨by linarith, by linarith, p1, p2⟩

/-- The angle is the argument of the complex number x+iy. -/
theorem C52_arg_complex (x y : ℝ) (h : ¬(x = 0 ∧ y = 0)) : Arg x y = Complex.arg ⟨x, y⟩ := by
  obtain ⟨h1, h2, h3, h4⟩ := C52_arg x y h
  have hr : 0 < √(x ^ 2 + y ^ 2) := by
    rw [Real.sqrt_pos]
    by_contra hle
    exact h ⟨by nlinarith [sq_nonneg x, sq_nonneg y], by nlinarith [sq_nonneg x, sq_nonneg y]⟩
  rw [← Complex.arg_mul_cos_add_sin_mul_I hr ⟨h1, h2⟩]
  congr 1
  apply Complex.ext
  · simpa [← Complex.ofReal_cos, ← Complex.ofReal_sin] using h3.symm
  · simpa [← Complex.ofReal_cos, ← Complex.ofReal_sin] using h4.symm

/-- At the origin the angle is 0. -/
theorem C52_arg_zero : Arg 0 0 = 0 := by simp [Arg]

theorem argPlus_eq (x y : ℝ) : ArgPlus x y = if Arg x y < 0 then Arg x y + 2 * π else Arg x y := rfl

/-- **C52.** Arg_plus returns the polar angle in [0,2π). -/
theorem C52_arg_plus (x y : ℝ) (h : ¬(x = 0 ∧ y = 0)) :
    0 ≤ ArgPlus x y ∧ ArgPlus x y < 2 * π ∧
      x = √(x ^ 2 + y ^ 2) * cos (ArgPlus x y) ∧ y = √(x ^ 2 + y ^ 2) * sin (ArgPlus x y) := by
  obtain ⟨h1, h2, h3, h4⟩ := C52_arg x y h
  have hpi := Real.pi_pos
  rw [argPlus_eq]
  split
  · rename_i hneg
    rw [cos_add_two_pi, sin_add_two_pi]
    exact ⟨by linarith, by linarith, h3, h4⟩
  · rename_i hneg
    exact ⟨by linarith, by linarith, h3, h4⟩

/-- The angle is determined by its range and the polar representation, so the statements above fix the
values of the two functions. -/
theorem C52_unique (x y lo s t : ℝ) (h : ¬(x = 0 ∧ y = 0)) (hs : lo < s ∧ s ≤ lo + 2 * π)
    (ht : lo < t ∧ t ≤ lo + 2 * π)
    (s1 : x = √(x ^ 2 + y ^ 2) * cos s) (s2 : y = √(x ^ 2 + y ^ 2) * sin s)
    (t1 : x = √(x ^ 2 + y ^ 2) * cos t) (t2 : y = √(x ^ 2 + y ^ 2) * sin t) : s = t := by
  have hr : √(x ^ 2 + y ^ 2) ≠ 0 := by
    intro h0
    rw [h0, zero_mul] at s1 s2
    exact h ⟨s1, s2⟩
  have e1 : cos s = cos t := mul_left_cancel₀ hr (s1.symm.trans t1)
  have e2 : sin s = sin t := mul_left_cancel₀ hr (s2.symm.trans t2)
  have e3 : cos (s - t) = 1 := by
    rw [cos_sub, e1, e2]
    nlinarith [sin_sq_add_cos_sq t]
  obtain ⟨n, hn⟩ := (cos_eq_one_iff _).1 e3
  have hpi := Real.pi_pos
  have n1 : n < 1 := by
    by_contra hge
    have : (1 : ℝ) ≤ n := by exact_mod_cast not_lt.1 hge
    nlinarith
  have n2 : -1 < n := by
    by_contra hle
    have : (n : ℝ) ≤ -1 := by exact_mod_cast not_lt.1 hle
    nlinarith
  have : n = 0 := by omega
  rw [this] at hn
  norm_num at hn
  linarith

/-- Example: the point (-1,-1). -/
example : Arg (-1) (-1) = -(3 * π / 4) ∧ ArgPlus (-1) (-1) = 5 * π / 4 := by
  have hpi := Real.pi_pos
  have h : Arg (-1) (-1) = -(3 * π / 4) := by
    unfold Arg
    norm_num
    ring
  refine ⟨h, ?_⟩
  rw [argPlus_eq, h, if_pos (by linarith)]
  ring

/-! ## C77: derivatives of the angle -/

theorem Arg_of_pos_im (x y : ℝ) (hy : 0 < y) : Arg x y = π / 2 - arctan (x / y) := by
  unfold Arg
  by_cases hx : x = 0
  · rw [if_pos hx, if_neg hy.ne', if_pos hy, hx]
    simp
  · rw [if_neg hx]
    rw [show y / x = (x / y)⁻¹ by rw [inv_div]]
    by_cases hx' : x < 0
    · rw [if_pos hx', if_pos hy.le, arctan_inv_of_neg (div_neg_of_neg_of_pos hx' hy)]
      ring
    · rw [if_neg hx', arctan_inv_of_pos (div_pos (lt_of_le_of_ne (not_lt.1 hx') (Ne.symm hx)) hy)]

theorem Arg_of_neg_im (x y : ℝ) (hy : y < 0) : Arg x y = -(π / 2) - arctan (x / y) := by
  unfold Arg
  by_cases hx : x = 0
  · rw [if_pos hx, if_neg hy.ne, if_neg hy.not_gt, hx]
    simp
  · rw [if_neg hx]
    rw [show y / x = (x / y)⁻¹ by rw [inv_div]]
    by_cases hx' : x < 0
    · rw [if_pos hx', if_neg hy.not_ge, arctan_inv_of_pos (div_pos_of_neg_of_neg hx' hy)]
      ring
    · rw [if_neg hx', arctan_inv_of_neg
        (div_neg_of_pos_of_neg (lt_of_le_of_ne (not_lt.1 hx') (Ne.symm hx)) hy)]

theorem Arg_neg_iff (x y : ℝ) : Arg x y < 0 ↔ y < 0 := by
  have hpi := Real.pi_pos
  rcases lt_trichotomy y 0 with hy | hy | hy
  · refine iff_of_true ?_ hy
    rw [Arg_of_neg_im x y hy]
    linarith [neg_pi_div_two_lt_arctan (x / y)]
  · refine iff_of_false ?_ (by rw [hy]; exact lt_irrefl 0)
    subst hy
    unfold Arg
    rw [not_lt]
    split_ifs <;> simp_all [hpi.le]
  · refine iff_of_false ?_ hy.not_gt
    rw [Arg_of_pos_im x y hy]
    linarith [arctan_lt_pi_div_two (x / y)]

theorem ArgPlus_eq_of_im (x y : ℝ) : ArgPlus x y = if y < 0 then Arg x y + 2 * π else Arg x y := by
  rw [argPlus_eq]
  by_cases hy : y < 0
  · rw [if_pos hy, if_pos ((Arg_neg_iff x y).2 hy)]
  · rw [if_neg hy, if_neg (mt (Arg_neg_iff x y).1 hy)]

theorem r2_ne_zero {x y : ℝ} (h : ¬(x = 0 ∧ y = 0)) : x * x + y * y ≠ 0 := by
  intro h0
  exact h ⟨by nlinarith [mul_self_nonneg x, mul_self_nonneg y], by nlinarith [mul_self_nonneg x, mul_self_nonneg y]⟩

theorem deriv_arctan_quot_fst (x y : ℝ) (hy : y ≠ 0) (a : ℝ) :
    HasDerivAt (fun x => a - arctan (x / y)) (dArgdx x y) x := by
  have h := (((hasDerivAt_id x).div_const y).arctan).const_sub a
  refine h.congr_deriv ?_
  unfold dArgdx
  simp only [id]
  field_simp
  ring

theorem deriv_arctan_quot_snd (x y : ℝ) (hy : y ≠ 0) (a : ℝ) :
    HasDerivAt (fun y => a - arctan (x / y)) (dArgdy x y) y := by
  have h := (((hasDerivAt_const y x).div (hasDerivAt_id y) hy).arctan).const_sub a
  refine h.congr_deriv ?_
  unfold dArgdy
  simp only [id, Pi.div_apply]
  field_simp
  ring

/-- **C77.** dArgdx is the derivative of Arg with respect to x, at every point but the origin. -/
theorem C77_dArgdx (x y : ℝ) (h : ¬(x = 0 ∧ y = 0)) : HasDerivAt (fun x => Arg x y) (dArgdx x y) x := by
  rcases lt_trichotomy y 0 with hy | hy | hy
  · rw [show (fun x => Arg x y) = fun x => -(π / 2) - arctan (x / y) from
      funext fun x => Arg_of_neg_im x y hy]
    exact deriv_arctan_quot_fst x y hy.ne _
  · subst hy
    have hx : x ≠ 0 := fun hx => h ⟨hx, rfl⟩
    have h0 : dArgdx x 0 = 0 := by simp [dArgdx]
    rw [h0]
    rcases lt_or_gt_of_ne hx with hx | hx
    · refine (hasDerivAt_const x π).congr_of_eventuallyEq ?_
      filter_upwards [Iio_mem_nhds hx] with t ht
      have ht : t < 0 := ht
      simp [Arg, ht.ne, ht]
    · refine (hasDerivAt_const x 0).congr_of_eventuallyEq ?_
      filter_upwards [Ioi_mem_nhds hx] with t ht
      have ht : 0 < t := ht
      simp [Arg, ht.ne', ht.not_gt]
  · rw [show (fun x => Arg x y) = fun x => π / 2 - arctan (x / y) from
      funext fun x => Arg_of_pos_im x y hy]
    exact deriv_arctan_quot_fst x y hy.ne' _

theorem dArgdy_right (x y : ℝ) (hx : x ≠ 0) (a : ℝ) :
    HasDerivAt (fun y => arctan (y / x) + a) (dArgdy x y) y := by
  have h := (((hasDerivAt_id y).div_const x).arctan).add_const a
  refine h.congr_deriv ?_
  unfold dArgdy
  simp only [id]
  field_simp

/-- **C77.** dArgdy is the derivative of Arg with respect to y, away from the cut where the angle jumps. -/
theorem C77_dArgdy (x y : ℝ) (h : 0 < x ∨ y ≠ 0) : HasDerivAt (fun y => Arg x y) (dArgdy x y) y := by
  rcases lt_trichotomy y 0 with hy | hy | hy
  · refine (deriv_arctan_quot_snd x y hy.ne (-(π / 2))).congr_of_eventuallyEq ?_
    filter_upwards [Iio_mem_nhds hy] with t ht
    exact Arg_of_neg_im x t ht
  · have hx : 0 < x := h.resolve_right (not_not.2 hy)
    rw [show (fun y => Arg x y) = fun y => arctan (y / x) + 0 from
      funext fun t => by simp [Arg, hx.ne', hx.not_gt]]
    exact dArgdy_right x y hx.ne' 0
  · refine (deriv_arctan_quot_snd x y hy.ne' (π / 2)).congr_of_eventuallyEq ?_
    filter_upwards [Ioi_mem_nhds hy] with t ht
    exact Arg_of_pos_im x t ht

/-- **C77.** The same formulas are the derivatives of Arg_plus. -/
theorem C77_dArgPlusdx (x y : ℝ) (h : ¬(x = 0 ∧ y = 0)) :
    HasDerivAt (fun x => ArgPlus x y) (dArgdx x y) x := by
  have e : (fun x => ArgPlus x y) = fun x => Arg x y + if y < 0 then 2 * π else 0 := by
    funext x
    rw [ArgPlus_eq_of_im]
    split <;> simp
  rw [e]
  exact (C77_dArgdx x y h).add_const _

/-- **C77.** The cut of Arg_plus is the positive x-axis. -/
theorem C77_dArgPlusdy (x y : ℝ) (h : x < 0 ∨ y ≠ 0) :
    HasDerivAt (fun y => ArgPlus x y) (dArgdy x y) y := by
  rcases lt_trichotomy y 0 with hy | hy | hy
  · refine ((C77_dArgdy x y (.inr hy.ne)).add_const (2 * π)).congr_of_eventuallyEq ?_
    filter_upwards [Iio_mem_nhds hy] with t ht
    rw [ArgPlus_eq_of_im, if_pos (show t < 0 from ht)]
  · have hx : x < 0 := h.resolve_right (not_not.2 hy)
    rw [show (fun y => ArgPlus x y) = fun y => arctan (y / x) + π from funext fun t => ?_]
    · exact dArgdy_right x y hx.ne π
    · rw [ArgPlus_eq_of_im]
      unfold Arg
      rw [if_neg hx.ne, if_pos hx]
      by_cases ht : t < 0
      · rw [if_pos ht, if_neg (not_le.2 ht)]
        ring
      · rw [if_neg ht, if_pos (not_lt.1 ht)]
  · refine (C77_dArgdy x y (.inr hy.ne')).congr_of_eventuallyEq ?_
    filter_upwards [Ioi_mem_nhds hy] with t ht
    rw [ArgPlus_eq_of_im, if_neg (not_lt.2 (le_of_lt ht))]

theorem hasDerivAt_r2_fst (x y : ℝ) : HasDerivAt (fun x => x * x + y * y) (2 * x) x := by
  have h := ((hasDerivAt_id x).mul (hasDerivAt_id x)).add_const (y * y)
  refine (h.congr_deriv ?_)
  simp only [id]
  ring

theorem hasDerivAt_r2_snd (x y : ℝ) : HasDerivAt (fun y => x * x + y * y) (2 * y) y := by
  have h := ((hasDerivAt_id y).mul (hasDerivAt_id y)).const_add (x * x)
  refine (h.congr_deriv ?_)
  simp only [id]
  ring

/-- **C77.** Second derivatives of the angle. -/
theorem C77_ddArgdxdx (x y : ℝ) (h : ¬(x = 0 ∧ y = 0)) :
    HasDerivAt (fun x => dArgdx x y) (ddArgdxdx x y) x := by
  have h2 := r2_ne_zero h
  refine ((hasDerivAt_const x (-y)).div (hasDerivAt_r2_fst x y) h2).congr_deriv ?_
  unfold ddArgdxdx
  field_simp
  ring

/-- **C77.** -/
theorem C77_ddArgdxdy (x y : ℝ) (h : ¬(x = 0 ∧ y = 0)) :
    HasDerivAt (fun y => dArgdx x y) (ddArgdxdy x y) y ∧ HasDerivAt (fun x => dArgdy x y) (ddArgdxdy x y) x := by
  have h2 := r2_ne_zero h
  constructor
  · refine ((hasDerivAt_id y).neg.div (hasDerivAt_r2_snd x y) h2).congr_deriv ?_
    unfold ddArgdxdy
    simp only [Pi.neg_apply, id]
    field_simp
    ring
  · refine ((hasDerivAt_id x).div (hasDerivAt_r2_fst x y) h2).congr_deriv ?_
    unfold ddArgdxdy
    simp only [id]
    field_simp
    ring

/-- **C77.** -/
theorem C77_ddArgdydy (x y : ℝ) (h : ¬(x = 0 ∧ y = 0)) :
    HasDerivAt (fun y => dArgdy x y) (ddArgdydy x y) y := by
  have h2 := r2_ne_zero h
  refine ((hasDerivAt_const y x).div (hasDerivAt_r2_snd x y) h2).congr_deriv ?_
  unfold ddArgdydy
  field_simp
  ring

/-! ## C77: tanh and sech -/

theorem cos2_cosh2 (x y : ℝ) :
    cos (2 * y) + cosh (2 * x) = 2 * ((cosh x * cos y) ^ 2 + (sinh x * sin y) ^ 2) ∧
    cosh (2 * x) - cos (2 * y) = 2 * ((sinh x * cos y) ^ 2 + (cosh x * sin y) ^ 2) := by
  have h1 := Real.cosh_sq x
  have h2 := Real.sin_sq_add_cos_sq y
  have h3 := Real.cosh_two_mul x
  have h4 := Real.cos_two_mul y
  have hc : cosh x ^ 2 = sinh x ^ 2 + 1 := h1
  have hs : sin y ^ 2 = 1 - cos y ^ 2 := by linarith
  constructor
  · rw [h3, h4]
    simp only [mul_pow]
    rw [hs, hc]
    ring
  · rw [h3, h4]
    simp only [mul_pow]
    rw [hs, hc]
    ring

/-- The complex number x+iy. -/
noncomputable abbrev Spec.z (x y : ℝ) : ℂ := x + y * Complex.I

theorem sinh_z (x y : ℝ) : Complex.sinh (Spec.z x y) = ⟨sinh x * cos y, cosh x * sin y⟩ := by
  rw [Complex.sinh_add, Complex.sinh_mul_I, Complex.cosh_mul_I]
  apply Complex.ext <;>
    simp [← Complex.ofReal_cos, ← Complex.ofReal_sin, ← Complex.ofReal_cosh, ← Complex.ofReal_sinh]

theorem cosh_z (x y : ℝ) : Complex.cosh (Spec.z x y) = ⟨cosh x * cos y, sinh x * sin y⟩ := by
  rw [Complex.cosh_add, Complex.sinh_mul_I, Complex.cosh_mul_I]
  apply Complex.ext <;>
    simp [← Complex.ofReal_cos, ← Complex.ofReal_sin, ← Complex.ofReal_cosh, ← Complex.ofReal_sinh]

theorem cosh_z_pos (x y : ℝ) (h : Complex.cosh (Spec.z x y) ≠ 0) : 0 < cos (2 * y) + cosh (2 * x) := by
  rw [(cos2_cosh2 x y).1]
  by_contra hle
  apply h
  rw [cosh_z]
  apply Complex.ext
  · simp only [Complex.zero_re]
    nlinarith [sq_nonneg (cosh x * cos y), sq_nonneg (sinh x * sin y)]
  · simp only [Complex.zero_im]
    nlinarith [sq_nonneg (cosh x * cos y), sq_nonneg (sinh x * sin y)]

/-- **C77.** Retanh and Imtanh are real and imaginary part of tanh, where tanh is defined. -/
theorem C77_tanh (x y : ℝ) (h : Complex.cosh (Spec.z x y) ≠ 0) :
    Complex.tanh (Spec.z x y) = ⟨Retanh x y, Imtanh x y⟩ := by
  have hp := cosh_z_pos x y h
  rw [Complex.tanh_eq_sinh_div_cosh, div_eq_iff h, sinh_z, cosh_z]
  have h0 := hp.ne'
  have hc : cosh x ^ 2 = sinh x ^ 2 + 1 := Real.cosh_sq x
  have hs : sin y ^ 2 = 1 - cos y ^ 2 := by linarith [Real.sin_sq_add_cos_sq y]
  apply Complex.ext
  · simp only [Complex.mul_re, Retanh, Imtanh]
    field_simp
    rw [Real.sinh_two_mul, Real.sin_two_mul, Real.cosh_two_mul, Real.cos_two_mul]
    linear_combination (2 * sinh x * cos y) * hs - sinh x * cos y * hc
  · simp only [Complex.mul_im, Retanh, Imtanh]
    field_simp
    rw [Real.sinh_two_mul, Real.sin_two_mul, Real.cosh_two_mul, Real.cos_two_mul]
    linear_combination cosh x * sin y * hc

theorem abs_tanh_aux (x y : ℝ) (hp : cos (2 * y) + cosh (2 * x) ≠ 0) :
    Retanh x y ^ 2 + Imtanh x y ^ 2 = (cosh (2 * x) - cos (2 * y)) / (cosh (2 * x) + cos (2 * y)) := by
  have h1 := Real.cosh_sq (2 * x)
  have h2 := Real.sin_sq_add_cos_sq (2 * y)
  have hp' : cosh (2 * x) + cos (2 * y) ≠ 0 := by rwa [add_comm]
  unfold Retanh Imtanh
  rw [add_comm (cos (2 * y))]
  field_simp
  linear_combination h2 - h1

/-- **C77.** Abstanh is the absolute value of tanh. -/
theorem C77_abstanh (x y : ℝ) (h : Complex.cosh (Spec.z x y) ≠ 0) :
    Abstanh x y = ‖Complex.tanh (Spec.z x y)‖ := by
  rw [C77_tanh x y h, Complex.norm_def, Complex.normSq_mk]
  unfold Abstanh
  simp only
  rw [← abs_tanh_aux x y (cosh_z_pos x y h).ne']
  congr 1
  ring

/-- **C77.** Argtanh is the argument of tanh. -/
theorem C77_argtanh (x y : ℝ) (h : Complex.cosh (Spec.z x y) ≠ 0) (h0 : Complex.tanh (Spec.z x y) ≠ 0) :
    Argtanh x y = Complex.arg (Complex.tanh (Spec.z x y)) := by
  have hp := cosh_z_pos x y h
  rw [C77_tanh x y h] at h0 ⊢
  unfold Argtanh
  rw [C52_arg_complex, ← Complex.arg_real_mul _ (inv_pos.2 hp)]
  · congr 1
    apply Complex.ext
    · rw [Complex.re_ofReal_mul]
      simp only [Retanh]
      ring
    · rw [Complex.im_ofReal_mul]
      simp only [Imtanh]
      ring
  · rintro ⟨a, b⟩
    apply h0
    apply Complex.ext <;> simp [Retanh, Imtanh, a, b]

/-- **C77.** Abssech is the absolute value of sech = 1/cosh. -/
theorem C77_abssech (x y : ℝ) (h : Complex.cosh (Spec.z x y) ≠ 0) :
    Abssech x y = ‖(Complex.cosh (Spec.z x y))⁻¹‖ := by
  have hp := cosh_z_pos x y h
  rw [norm_inv, cosh_z, Complex.norm_def, Complex.normSq_mk, ← Real.sqrt_inv]
  unfold Abssech
  congr 1
  rw [(cos2_cosh2 x y).1] at hp ⊢
  have : (cosh x * cos y) ^ 2 + (sinh x * sin y) ^ 2 ≠ 0 := by
    intro h; rw [h] at hp; simp at hp
  rw [show cosh x * cos y * (cosh x * cos y) + sinh x * sin y * (sinh x * sin y) =
    (cosh x * cos y) ^ 2 + (sinh x * sin y) ^ 2 by ring]
  field_simp

/-- **C77.** Argsech is the argument of sech. -/
theorem C77_argsech (x y : ℝ) (h : Complex.cosh (Spec.z x y) ≠ 0) :
    Argsech x y = Complex.arg (Complex.cosh (Spec.z x y))⁻¹ := by
  have hn : 0 < Complex.normSq (Complex.cosh (Spec.z x y)) := Complex.normSq_pos.2 h
  unfold Argsech
  rw [C52_arg_complex, ← Complex.arg_real_mul _ (inv_pos.2 hn)]
  · congr 1
    rw [Complex.inv_def, cosh_z]
    apply Complex.ext
    · rw [Complex.re_ofReal_mul, Complex.re_mul_ofReal, Complex.conj_re]
      ring
    · rw [Complex.im_ofReal_mul, Complex.im_mul_ofReal, Complex.conj_im]
      ring
  · rintro ⟨a, b⟩
    apply h
    rw [cosh_z]
    apply Complex.ext
    · simp only [Complex.zero_re]; linarith
    · simp only [Complex.zero_im]; linarith

/-! Derivatives with respect to x and y. `tanh` has neither a zero nor a pole if not both `sinh 2x` and
`sin 2y` vanish. -/

theorem hasDerivAt_sinh2 (x : ℝ) : HasDerivAt (fun x => sinh (2 * x)) (2 * cosh (2 * x)) x := by
  have h := ((hasDerivAt_id x).const_mul 2).sinh
  exact h.congr_deriv (by simp only [id]; ring)

theorem hasDerivAt_cosh2 (x : ℝ) : HasDerivAt (fun x => cosh (2 * x)) (2 * sinh (2 * x)) x := by
  have h := ((hasDerivAt_id x).const_mul 2).cosh
  exact h.congr_deriv (by simp only [id]; ring)

theorem hasDerivAt_sin2 (x : ℝ) : HasDerivAt (fun x => sin (2 * x)) (2 * cos (2 * x)) x := by
  have h := ((hasDerivAt_id x).const_mul 2).sin
  exact h.congr_deriv (by simp only [id]; ring)

theorem hasDerivAt_cos2 (x : ℝ) : HasDerivAt (fun x => cos (2 * x)) (-2 * sin (2 * x)) x := by
  have h := ((hasDerivAt_id x).const_mul 2).cos
  exact h.congr_deriv (by simp only [id]; ring)

/-- **C77.** First derivatives of Argtanh. -/
theorem C77_dArgtanhdx (x y : ℝ) (h : ¬(sinh (2 * x) = 0 ∧ sin (2 * y) = 0)) :
    HasDerivAt (fun x => Argtanh x y) (dArgtanhdx x y) x := by
  have h1 := C77_dArgdx (sinh (2 * x)) (sin (2 * y)) h
  refine (h1.comp x (hasDerivAt_sinh2 x)).congr_deriv ?_
  unfold dArgtanhdx
  ring

/-- **C77.** -/
theorem C77_dArgtanhdy (x y : ℝ) (h : 0 < sinh (2 * x) ∨ sin (2 * y) ≠ 0) :
    HasDerivAt (fun y => Argtanh x y) (dArgtanhdy x y) y := by
  have h1 := C77_dArgdy (sinh (2 * x)) (sin (2 * y)) h
  refine (h1.comp y (hasDerivAt_sin2 y)).congr_deriv ?_
  unfold dArgtanhdy
  ring

/-- **C77.** Second derivatives of Argtanh. -/
theorem C77_ddArgtanhdxdx (x y : ℝ) (h : ¬(sinh (2 * x) = 0 ∧ sin (2 * y) = 0)) :
    HasDerivAt (fun x => dArgtanhdx x y) (ddArgtanhdxdx x y) x := by
  have h1 := (C77_ddArgdxdx (sinh (2 * x)) (sin (2 * y)) h).comp x (hasDerivAt_sinh2 x)
  refine (((hasDerivAt_cosh2 x).const_mul 2).mul h1).congr_deriv ?_
  unfold ddArgtanhdxdx
  simp only [Function.comp]
  ring

/-- **C77.** -/
theorem C77_ddArgtanhdxdy (x y : ℝ) (h : ¬(sinh (2 * x) = 0 ∧ sin (2 * y) = 0)) :
    HasDerivAt (fun y => dArgtanhdx x y) (ddArgtanhdxdy x y) y ∧
    HasDerivAt (fun x => dArgtanhdy x y) (ddArgtanhdxdy x y) x := by
  obtain ⟨d1, d2⟩ := C77_ddArgdxdy (sinh (2 * x)) (sin (2 * y)) h
  constructor
  · have h1 := d1.comp y (hasDerivAt_sin2 y)
    refine (h1.const_mul (2 * cosh (2 * x))).congr_deriv ?_
    unfold ddArgtanhdxdy
    ring
  · have h1 := d2.comp x (hasDerivAt_sinh2 x)
    refine (h1.const_mul (2 * cos (2 * y))).congr_deriv ?_
    unfold ddArgtanhdxdy
    ring

/-- **C77.** -/
theorem C77_ddArgtanhdydy (x y : ℝ) (h : ¬(sinh (2 * x) = 0 ∧ sin (2 * y) = 0)) :
    HasDerivAt (fun y => dArgtanhdy x y) (ddArgtanhdydy x y) y := by
  have h1 := (C77_ddArgdydy (sinh (2 * x)) (sin (2 * y)) h).comp y (hasDerivAt_sin2 y)
  refine (((hasDerivAt_cos2 y).const_mul 2).mul h1).congr_deriv ?_
  unfold ddArgtanhdydy
  simp only [Function.comp]
  ring

/-- Away from zeros and poles both `cosh 2x + cos 2y` and `cosh 2x - cos 2y` are positive. -/
theorem cosh_cos_pos (x y : ℝ) (h : ¬(sinh (2 * x) = 0 ∧ sin (2 * y) = 0)) :
    0 < cosh (2 * x) + cos (2 * y) ∧ 0 < cosh (2 * x) - cos (2 * y) := by
  have h1 := Real.cosh_sq (2 * x)
  have h2 := Real.sin_sq_add_cos_sq (2 * y)
  have h3 := Real.one_le_cosh (2 * x)
  have h4 : 0 < sinh (2 * x) * sinh (2 * x) + sin (2 * y) * sin (2 * y) :=
    lt_of_le_of_ne (add_nonneg (mul_self_nonneg _) (mul_self_nonneg _)) (Ne.symm (r2_ne_zero h))
  have h5 := Real.neg_one_le_cos (2 * y)
  have h6 := Real.cos_le_one (2 * y)
  constructor
  · by_contra hle
    nlinarith
  · by_contra hle
    nlinarith

theorem abstanh_sqrt (x y : ℝ) (h : ¬(sinh (2 * x) = 0 ∧ sin (2 * y) = 0)) :
    1 - (2 * cos (2 * y)) / (cos (2 * y) + cosh (2 * x)) =
      (cosh (2 * x) - cos (2 * y)) / (cosh (2 * x) + cos (2 * y)) := by
  have h1 := (cosh_cos_pos x y h).1.ne'
  have h2 : cos (2 * y) + cosh (2 * x) ≠ 0 := by rwa [add_comm]
  rw [add_comm (cos (2 * y))]
  field_simp
  ring

theorem abstanh_pos (x y : ℝ) (h : ¬(sinh (2 * x) = 0 ∧ sin (2 * y) = 0)) : 0 < Abstanh x y := by
  obtain ⟨h1, h2⟩ := cosh_cos_pos x y h
  exact Real.sqrt_pos.2 (div_pos h2 h1)

/-- **C77.** First derivatives of Abstanh. -/
theorem C77_dAbstanhdx (x y : ℝ) (h : ¬(sinh (2 * x) = 0 ∧ sin (2 * y) = 0)) :
    HasDerivAt (fun x => Abstanh x y) (dAbstanhdx x y) x := by
  obtain ⟨h1, h2⟩ := cosh_cos_pos x y h
  have hq : 0 < (cosh (2 * x) - cos (2 * y)) / (cosh (2 * x) + cos (2 * y)) := div_pos h2 h1
  have hd := (((hasDerivAt_cosh2 x).sub_const (cos (2 * y))).div
    ((hasDerivAt_cosh2 x).add_const (cos (2 * y))) h1.ne').sqrt hq.ne'
  refine hd.congr_deriv ?_
  unfold dAbstanhdx
  simp only
  rw [abstanh_sqrt x y h]
  have hw := (Real.sqrt_pos.2 hq).ne'
  simp only [Pi.div_apply]
  generalize √((cosh (2 * x) - cos (2 * y)) / (cosh (2 * x) + cos (2 * y))) = w at hw ⊢
  have h3 : cos (2 * y) + cosh (2 * x) ≠ 0 := by rw [add_comm]; exact h1.ne'
  have h4 := h1.ne'
  rw [add_comm (cos (2 * y))]
  field_simp
  ring

/-- **C77.** -/
theorem C77_dAbstanhdy (x y : ℝ) (h : ¬(sinh (2 * x) = 0 ∧ sin (2 * y) = 0)) :
    HasDerivAt (fun y => Abstanh x y) (dAbstanhdy x y) y := by
  obtain ⟨h1, h2⟩ := cosh_cos_pos x y h
  have hq : 0 < (cosh (2 * x) - cos (2 * y)) / (cosh (2 * x) + cos (2 * y)) := div_pos h2 h1
  have hd := (((hasDerivAt_cos2 y).const_sub (cosh (2 * x))).div
    ((hasDerivAt_cos2 y).const_add (cosh (2 * x))) h1.ne').sqrt hq.ne'
  refine hd.congr_deriv ?_
  unfold dAbstanhdy
  simp only
  rw [abstanh_sqrt x y h]
  have hw := (Real.sqrt_pos.2 hq).ne'
  simp only [Pi.div_apply]
  generalize √((cosh (2 * x) - cos (2 * y)) / (cosh (2 * x) + cos (2 * y))) = w at hw ⊢
  have h4 := h1.ne'
  rw [add_comm (cos (2 * y))]
  field_simp
  ring

/-- The square root in the formulas and its derivatives. -/
theorem hasDerivAt_w (x y : ℝ) (h : ¬(sinh (2 * x) = 0 ∧ sin (2 * y) = 0)) :
    HasDerivAt (fun x => √(1 - (2 * cos (2 * y)) / (cos (2 * y) + cosh (2 * x))))
      (√(1 - (2 * cos (2 * y)) / (cos (2 * y) + cosh (2 * x))) * (2 * cos (2 * y) * sinh (2 * x) /
        ((cosh (2 * x) + cos (2 * y)) * (cosh (2 * x) - cos (2 * y))))) x ∧
    HasDerivAt (fun y => √(1 - (2 * cos (2 * y)) / (cos (2 * y) + cosh (2 * x))))
      (√(1 - (2 * cos (2 * y)) / (cos (2 * y) + cosh (2 * x))) * (2 * cosh (2 * x) * sin (2 * y) /
        ((cosh (2 * x) + cos (2 * y)) * (cosh (2 * x) - cos (2 * y))))) y := by
  obtain ⟨h1, h2⟩ := cosh_cos_pos x y h
  have hq : 0 < (cosh (2 * x) - cos (2 * y)) / (cosh (2 * x) + cos (2 * y)) := div_pos h2 h1
  have h3 : cos (2 * y) + cosh (2 * x) ≠ 0 := by rw [add_comm]; exact h1.ne'
  have hq' : 0 < 1 - (2 * cos (2 * y)) / (cos (2 * y) + cosh (2 * x)) := by rwa [abstanh_sqrt x y h]
  have hw2 : √(1 - (2 * cos (2 * y)) / (cos (2 * y) + cosh (2 * x))) ^ 2 =
      (cosh (2 * x) - cos (2 * y)) / (cosh (2 * x) + cos (2 * y)) := by
    rw [Real.sq_sqrt hq'.le, abstanh_sqrt x y h]
  have hw := (Real.sqrt_pos.2 hq').ne'
  have h4 := h1.ne'
  have h5 := h2.ne'
  constructor
  · refine ((((hasDerivAt_const x (2 * cos (2 * y))).div
      ((hasDerivAt_cosh2 x).const_add (cos (2 * y))) h3).const_sub 1).sqrt hq'.ne').congr_deriv ?_
    simp only [Pi.div_apply]
    rw [div_eq_iff (by positivity)]
    rw [show ∀ w a : ℝ, w * a * (2 * w) = 2 * a * w ^ 2 by intros; ring, hw2, add_comm (cos (2 * y))]
    field_simp
    ring
  · refine (((((hasDerivAt_cos2 y).const_mul 2)).div
      ((hasDerivAt_cos2 y).add_const (cosh (2 * x))) h3).const_sub 1).sqrt hq'.ne' |>.congr_deriv ?_
    simp only [Pi.div_apply]
    rw [div_eq_iff (by positivity)]
    rw [show ∀ w a : ℝ, w * a * (2 * w) = 2 * a * w ^ 2 by intros; ring, hw2, add_comm (cos (2 * y))]
    field_simp
    ring

/-- **C77.** Second derivatives of Abstanh. -/
theorem C77_ddAbstanhdxdx (x y : ℝ) (h : ¬(sinh (2 * x) = 0 ∧ sin (2 * y) = 0)) :
    HasDerivAt (fun x => dAbstanhdx x y) (ddAbstanhdxdx x y) x := by
  obtain ⟨h1, h2⟩ := cosh_cos_pos x y h
  obtain ⟨hwx, -⟩ := hasDerivAt_w x y h
  have h3 : cos (2 * y) + cosh (2 * x) ≠ 0 := by rw [add_comm]; exact h1.ne'
  have hq' : 0 < 1 - (2 * cos (2 * y)) / (cos (2 * y) + cosh (2 * x)) := by
    rw [abstanh_sqrt x y h]; exact div_pos h2 h1
  have hw := (Real.sqrt_pos.2 hq').ne'
  have hk := (hasDerivAt_cosh2 x).const_add (cos (2 * y))
  have hd := ((hasDerivAt_sinh2 x).const_mul (2 * cos (2 * y))).div ((hk.mul hk).mul hwx)
    (mul_ne_zero (mul_ne_zero h3 h3) hw)
  refine hd.congr_deriv ?_
  unfold ddAbstanhdxdx
  simp only [Pi.mul_apply]
  have e1 : cos (2 * y * 2) = 2 * cos (2 * y) ^ 2 - 1 := by rw [mul_comm, Real.cos_two_mul]
  have e2 : cosh (2 * x * 3) = 4 * cosh (2 * x) ^ 3 - 3 * cosh (2 * x) := by
    rw [mul_comm, Real.cosh_three_mul]
  have e3 := Real.cosh_sq (2 * x)
  rw [e1, e2]
  generalize √(1 - (2 * cos (2 * y)) / (cos (2 * y) + cosh (2 * x))) = w at hw ⊢
  have h4 : cos (2 * y) - cosh (2 * x) ≠ 0 := by rw [← neg_sub]; exact neg_ne_zero.2 h2.ne'
  have h5 := h1.ne'
  have h6 := h2.ne'
  generalize cosh (2 * x) = c at *
  generalize cos (2 * y) = k at *
  have e4 : sinh (2 * x) ^ 2 = c ^ 2 - 1 := by linarith
  generalize sinh (2 * x) = s at *
  rw [add_comm c k] at *
  rw [show k - c = -(c - k) by ring]
  field_simp
  rw [e4]
  ring

/-- The square root in terms of its inverse. -/
theorem w_inv (x y : ℝ) (h : ¬(sinh (2 * x) = 0 ∧ sin (2 * y) = 0)) :
    √(1 - (2 * cos (2 * y)) / (cos (2 * y) + cosh (2 * x))) =
      (cosh (2 * x) - cos (2 * y)) / ((cosh (2 * x) + cos (2 * y)) *
        √(1 - (2 * cos (2 * y)) / (cos (2 * y) + cosh (2 * x)))) := by
  obtain ⟨h1, h2⟩ := cosh_cos_pos x y h
  have hq' : 0 < 1 - (2 * cos (2 * y)) / (cos (2 * y) + cosh (2 * x)) := by
    rw [abstanh_sqrt x y h]; exact div_pos h2 h1
  rw [← div_div, ← abstanh_sqrt x y h, Real.div_sqrt]

theorem cos_sub_cosh4 (x y : ℝ) :
    cos (2 * y * 2) - cosh (2 * x * 2) = -2 * ((cosh (2 * x) - cos (2 * y)) * (cos (2 * y) + cosh (2 * x))) := by
  rw [mul_comm (2 * y), Real.cos_two_mul, mul_comm (2 * x), Real.cosh_two_mul]
  linarith [Real.cosh_sq (2 * x)]

/-- **C77.** -/
theorem C77_ddAbstanhdydy (x y : ℝ) (h : ¬(sinh (2 * x) = 0 ∧ sin (2 * y) = 0)) :
    HasDerivAt (fun y => dAbstanhdy x y) (ddAbstanhdydy x y) y := by
  obtain ⟨h1, h2⟩ := cosh_cos_pos x y h
  obtain ⟨-, hwy⟩ := hasDerivAt_w x y h
  have h3 : cos (2 * y) + cosh (2 * x) ≠ 0 := by rw [add_comm]; exact h1.ne'
  have hq' : 0 < 1 - (2 * cos (2 * y)) / (cos (2 * y) + cosh (2 * x)) := by
    rw [abstanh_sqrt x y h]; exact div_pos h2 h1
  have hw := (Real.sqrt_pos.2 hq').ne'
  have hk := (hasDerivAt_cos2 y).add_const (cosh (2 * x))
  have hd := ((hasDerivAt_sin2 y).const_mul (2 * cosh (2 * x))).div ((hk.mul hk).mul hwy)
    (mul_ne_zero (mul_ne_zero h3 h3) hw)
  refine hd.congr_deriv ?_
  unfold ddAbstanhdydy
  simp only [Pi.mul_apply]
  have hinv := w_inv x y h
  rw [cos_sub_cosh4, show (4 * cosh (2 * x) * √(1 - (2 * cos (2 * y)) / (cos (2 * y) + cosh (2 * x))) *
      (-5 * cos (2 * y) + cos (2 * y * 3) + 4 * cosh (2 * x) * (cos (2 * y) * cosh (2 * x) + sin (2 * y) * sin (2 * y)))) =
    (4 * cosh (2 * x) * ((cosh (2 * x) - cos (2 * y)) / ((cosh (2 * x) + cos (2 * y)) *
        √(1 - (2 * cos (2 * y)) / (cos (2 * y) + cosh (2 * x))))) *
      (-5 * cos (2 * y) + cos (2 * y * 3) + 4 * cosh (2 * x) * (cos (2 * y) * cosh (2 * x) + sin (2 * y) * sin (2 * y))))
      by rw [← hinv]]
  have e2 : cos (2 * y * 3) = 4 * cos (2 * y) ^ 3 - 3 * cos (2 * y) := by
    rw [mul_comm, Real.cos_three_mul]
  rw [e2]
  clear hinv hd hk hwy
  generalize √(1 - (2 * cos (2 * y)) / (cos (2 * y) + cosh (2 * x))) = w at hw ⊢
  have e4 : sin (2 * y) ^ 2 = 1 - cos (2 * y) ^ 2 := by linarith [Real.sin_sq_add_cos_sq (2 * y)]
  have h6 := h2.ne'
  clear h hq'
  generalize cosh (2 * x) = c at *
  generalize cos (2 * y) = k at *
  generalize sin (2 * y) = s at *
  rw [add_comm c k] at *
  field_simp
  rw [e4]
  ring

/-- **C77.** -/
theorem C77_ddAbstanhdxdy (x y : ℝ) (h : ¬(sinh (2 * x) = 0 ∧ sin (2 * y) = 0)) :
    HasDerivAt (fun y => dAbstanhdx x y) (ddAbstanhdxdy x y) y ∧
    HasDerivAt (fun x => dAbstanhdy x y) (ddAbstanhdxdy x y) x := by
  obtain ⟨h1, h2⟩ := cosh_cos_pos x y h
  obtain ⟨hwx, hwy⟩ := hasDerivAt_w x y h
  have h3 : cos (2 * y) + cosh (2 * x) ≠ 0 := by rw [add_comm]; exact h1.ne'
  have hq' : 0 < 1 - (2 * cos (2 * y)) / (cos (2 * y) + cosh (2 * x)) := by
    rw [abstanh_sqrt x y h]; exact div_pos h2 h1
  have hw := (Real.sqrt_pos.2 hq').ne'
  have hky := (hasDerivAt_cos2 y).add_const (cosh (2 * x))
  have hkx := (hasDerivAt_cosh2 x).const_add (cos (2 * y))
  have hdy := (((hasDerivAt_cos2 y).const_mul 2).mul_const (sinh (2 * x))).div ((hky.mul hky).mul hwy)
    (mul_ne_zero (mul_ne_zero h3 h3) hw)
  have hdx := (((hasDerivAt_cosh2 x).const_mul 2).mul_const (sin (2 * y))).div ((hkx.mul hkx).mul hwx)
    (mul_ne_zero (mul_ne_zero h3 h3) hw)
  have hval : ddAbstanhdxdy x y = (-16 * (cos (2 * y) * cos (2 * y) - cos (2 * y) * cosh (2 * x) +
      cosh (2 * x) * cosh (2 * x)) * ((cosh (2 * x) - cos (2 * y)) / ((cosh (2 * x) + cos (2 * y)) *
        √(1 - (2 * cos (2 * y)) / (cos (2 * y) + cosh (2 * x))))) * sin (2 * y) * sinh (2 * x)) /
      ((-2 * ((cosh (2 * x) - cos (2 * y)) * (cos (2 * y) + cosh (2 * x)))) *
       (-2 * ((cosh (2 * x) - cos (2 * y)) * (cos (2 * y) + cosh (2 * x))))) := by
    rw [← w_inv x y h, ← cos_sub_cosh4]
    rfl
  constructor
  · refine hdy.congr_deriv ?_
    rw [hval]
    simp only [Pi.mul_apply]
    clear hval hdx hdy hkx hky hwx hwy
    generalize √(1 - (2 * cos (2 * y)) / (cos (2 * y) + cosh (2 * x))) = w at hw ⊢
    have h6 := h2.ne'
    clear h hq'
    generalize cosh (2 * x) = c at *
    generalize cos (2 * y) = k at *
    rw [add_comm c k] at *
    field_simp
    ring
  · refine hdx.congr_deriv ?_
    rw [hval]
    simp only [Pi.mul_apply]
    clear hval hdx hdy hkx hky hwx hwy
    generalize √(1 - (2 * cos (2 * y)) / (cos (2 * y) + cosh (2 * x))) = w at hw ⊢
    have h6 := h2.ne'
    clear h hq'
    generalize cosh (2 * x) = c at *
    generalize cos (2 * y) = k at *
    rw [add_comm c k] at *
    field_simp
    ring

/-- Example: at x=0 the absolute value of tanh is |tan y|, and it grows with y at y=1/2. -/
example : 0 < dAbstanhdy 0 (1 / 2) := by
  have h1 : 0 < cos 1 := Real.cos_one_pos
  have h2 : 0 < sin 1 := Real.sin_pos_of_pos_of_le_one one_pos le_rfl
  have h3 : cos 1 < 1 := by nlinarith [Real.sin_sq_add_cos_sq 1, Real.cos_le_one 1]
  unfold dAbstanhdy
  norm_num
  refine div_pos (by linarith) (mul_pos (by positivity) (Real.sqrt_pos.2 ?_))
  rw [sub_pos, div_lt_one (by linarith)]
  linarith

/-- **C77.** BaseAngle shifts an angle by whole periods into the interval of one period above `p0`. -/
theorem C77_base_angle (p peri p0 : ℝ) (h : 0 < peri) :
    p0 ≤ BaseAngle p peri p0 ∧ BaseAngle p peri p0 < p0 + peri ∧ ∃ n : ℤ, BaseAngle p peri p0 = p - n * peri := by
  unfold BaseAngle
  simp only
  have h1 := Int.floor_le ((p - p0) / peri)
  have h2 := Int.lt_floor_add_one ((p - p0) / peri)
  rw [le_div_iff₀ h] at h1
  rw [div_lt_iff₀ h] at h2
  exact ⟨by linarith, by linarith, ⌊(p - p0) / peri⌋, by ring⟩

end Sgrid
