import Verif.Props.CubedSphere
import Mathlib.Analysis.Calculus.Deriv.Abs

/-!
Property C81: the polar angles of a cubed sphere patch and their derivatives.  Further parts of C51: the
six patches of a shell cover it and overlap only in their faces.
-/

namespace Sgrid

open Real Filter Topology

theorem cos_sin_argPlus (x y : ℝ) (h : ¬(x = 0 ∧ y = 0)) :
    cos (ArgPlus x y) = x / √(x ^ 2 + y ^ 2) ∧ sin (ArgPlus x y) = y / √(x ^ 2 + y ^ 2) := by
  obtain ⟨-, -, h1, h2⟩ := C52_arg_plus x y h
  have hp : √(x ^ 2 + y ^ 2) ≠ 0 := by
    rw [Real.sqrt_ne_zero']
    rcases not_and_or.1 h with h | h
    · have := sq_nonneg y
      have := (sq_pos_iff.2 h)
      linarith
    · have := sq_nonneg x
      have := (sq_pos_iff.2 h)
      linarith
  constructor
  · rw [eq_div_iff hp, mul_comm]
    exact h1.symm
  · rw [eq_div_iff hp, mul_comm]
    exact h2.symm

theorem sq_pm (b : CubBox) : b.pm ^ 2 = 1 := by rw [sq, pm_sq]

theorem one_sq_pos (A : ℝ) : 0 < 1 + A ^ 2 := by positivity

/-- cosine and sine of `Phi` in closed form. -/
theorem phi_cos_sin (b : CubBox) (A B : ℝ) :
    (b.dir = 1 → cos (thetaPhiOfAB b A B).2 = b.pm / √(1 + A ^ 2) ∧
      sin (thetaPhiOfAB b A B).2 = b.pm * A / √(1 + A ^ 2)) ∧
    (b.dir = 2 → cos (thetaPhiOfAB b A B).2 = b.pm * A / √(1 + A ^ 2) ∧
      sin (thetaPhiOfAB b A B).2 = b.pm / √(1 + A ^ 2)) ∧
    (b.dir ≠ 1 → b.dir ≠ 2 → ¬(A = 0 ∧ B = 0) → cos (thetaPhiOfAB b A B).2 = b.pm * B / √(A ^ 2 + B ^ 2) ∧
      sin (thetaPhiOfAB b A B).2 = b.pm * A / √(A ^ 2 + B ^ 2)) := by
  have hpm := pm_ne b
  refine ⟨fun h => ?_, fun h => ?_, fun h1 h2 h0 => ?_⟩
  · simp only [thetaPhiOfAB, h, if_true]
    have := cos_sin_argPlus b.pm (b.pm * A) (fun h => hpm h.1)
    rw [mul_pow, sq_pm, one_mul] at this
    exact this
  · simp only [thetaPhiOfAB, h, if_true, show ¬(2 = 1) from by decide, if_false]
    have := cos_sin_argPlus (b.pm * A) b.pm (fun h => hpm h.2)
    rw [mul_pow, sq_pm, one_mul, add_comm] at this
    exact this
  · simp only [thetaPhiOfAB, h1, h2, if_false]
    have := cos_sin_argPlus (b.pm * B) (b.pm * A) (by
      rintro ⟨h3, h4⟩
      exact h0 ⟨(mul_eq_zero.1 h4).resolve_left hpm, (mul_eq_zero.1 h3).resolve_left hpm⟩)
    rw [mul_pow, mul_pow, sq_pm, one_mul, one_mul, add_comm] at this
    exact this

namespace Spec

/-- The unit vector with polar angle `th` and azimuth `ph`. -/
noncomputable def radial (th ph : ℝ) : Fin 3 → ℝ := ![sin th * cos ph, sin th * sin ph, cos th]

end Spec

/-- `√(g² + 1)` for the `g = B cos(Phi)` of the code. -/
theorem theta_root {A B pm : ℝ} (hpm : pm ^ 2 = 1) :
    √((B * (pm / √(1 + A ^ 2))) ^ 2 + 1 ^ 2) = √(1 + A * A + B * B) / √(1 + A ^ 2) := by
  have h1 := one_sq_pos A
  rw [← Real.sqrt_div (one_A2_B2_pos A B).le]
  congr 1
  rw [mul_pow, div_pow, hpm, Real.sq_sqrt h1.le]
  field_simp
  ring

theorem radial_place (b : CubBox) (A B : ℝ) :
    place b A B (b.pm / √(1 + A * A + B * B)) = fun i => b.xc i +
      Spec.radial (thetaPhiOfAB b A B).1 (thetaPhiOfAB b A B).2 i := by
  obtain ⟨e1, e2, e3⟩ := phi_cos_sin b A B
  have hq := Real.sqrt_pos.2 (one_A2_B2_pos A B)
  have hp := Real.sqrt_pos.2 (one_sq_pos A)
  have hq' := hq.ne'
  have hp' := hp.ne'
  by_cases d1 : b.dir = 1
  · obtain ⟨c1, c2⟩ := e1 d1
    have ht := cos_sin_argPlus (B * (b.pm / √(1 + A ^ 2))) 1 (by simp)
    rw [theta_root (sq_pm b)] at ht
    have hth : (thetaPhiOfAB b A B).1 = ArgPlus (B * (b.pm / √(1 + A ^ 2))) 1 := by
      rw [← c1]
      simp only [thetaPhiOfAB, d1, if_true]
    rw [← hth] at ht
    unfold place
    rw [if_pos d1]
    funext i
    fin_cases i <;> simp [Spec.radial, ht.1, ht.2, c1, c2] <;> field_simp
  · by_cases d2 : b.dir = 2
    · obtain ⟨c1, c2⟩ := e2 d2
      have ht := cos_sin_argPlus (B * (b.pm / √(1 + A ^ 2))) 1 (by simp)
      rw [theta_root (sq_pm b)] at ht
      have hth : (thetaPhiOfAB b A B).1 = ArgPlus (B * (b.pm / √(1 + A ^ 2))) 1 := by
        rw [← c2]
        simp only [thetaPhiOfAB, d2, if_true, show ¬(2 = 1) from by decide, if_false]
      rw [← hth] at ht
      unfold place
      rw [if_neg d1, if_pos d2]
      funext i
      fin_cases i <;> simp [Spec.radial, ht.1, ht.2, c1, c2] <;> field_simp
    · have hth : (thetaPhiOfAB b A B).1 = ArgPlus b.pm √(A * A + B * B) := by
        simp only [thetaPhiOfAB, d1, d2, if_false]
      have hnn : 0 ≤ A * A + B * B := by nlinarith [mul_self_nonneg A, mul_self_nonneg B]
      have ht := cos_sin_argPlus b.pm √(A * A + B * B) (fun h => pm_ne b h.1)
      rw [sq_pm, Real.sq_sqrt hnn, ← hth, ← add_assoc] at ht
      unfold place
      rw [if_neg d1, if_neg d2]
      by_cases h0 : A = 0 ∧ B = 0
      · obtain ⟨rfl, rfl⟩ := h0
        funext i
        fin_cases i <;> simp [Spec.radial, ht.1, ht.2]
      · obtain ⟨c1, c2⟩ := e3 d1 d2 h0
        have hpos : 0 < A * A + B * B := by
          rcases not_and_or.1 h0 with h | h
          · have := mul_self_pos.2 h
            nlinarith [mul_self_nonneg B]
          · have := mul_self_pos.2 h
            nlinarith [mul_self_nonneg A]
        have hs := (Real.sqrt_pos.2 hpos).ne'
        rw [sq, sq] at c1 c2
        clear hth
        generalize √(A * A + B * B) = w at ht c1 c2 hs
        funext i
        fin_cases i <;> simp [Spec.radial, ht.1, ht.2, c1, c2] <;> field_simp

/-- **C81.** ThetaPhi_of_AB_CubSph gives the polar angle and the azimuth of all points of the patch with
these `A, B`: the point lies in the direction of `Theta, Phi` at the distance from the centre, and
`0 ≤ Theta ≤ π`, `0 ≤ Phi < 2π`. -/
theorem C81_angles (b : CubBox) (hdom : b.dom < 6) (lam A B : ℝ)
    (hr : 0 < Spec.side b.dom * (xyzOfLamAB b lam A B (Spec.axis b.dom) - b.xc (Spec.axis b.dom))) :
    (∀ i, xyzOfLamAB b lam A B i - b.xc i = Spec.dist (xyzOfLamAB b lam A B) b.xc *
      Spec.radial (thetaPhiOfAB b A B).1 (thetaPhiOfAB b A B).2 i) ∧
    0 ≤ (thetaPhiOfAB b A B).1 ∧ (thetaPhiOfAB b A B).1 ≤ π ∧
    0 ≤ (thetaPhiOfAB b A B).2 ∧ (thetaPhiOfAB b A B).2 < 2 * π := by
  have hpi := Real.pi_pos
  have hrange : ∀ x y, 0 ≤ ArgPlus x y ∧ ArgPlus x y < 2 * π := by
    intro x y
    by_cases h : x = 0 ∧ y = 0
    · obtain ⟨rfl, rfl⟩ := h
      simp [ArgPlus]
      positivity
    · exact ⟨(C52_arg_plus x y h).1, (C52_arg_plus x y h).2.1⟩
  have hupper : ∀ x y, 0 ≤ y → ArgPlus x y ≤ π := by
    intro x y hy
    by_contra hgt
    push Not at hgt
    by_cases h : x = 0 ∧ y = 0
    · obtain ⟨rfl, rfl⟩ := h
      simp [ArgPlus] at hgt
      linarith
    · obtain ⟨-, h1, h2, h3⟩ := C52_arg_plus x y h
      have hneg : sin (ArgPlus x y) < 0 := by
        have := Real.sin_pos_of_pos_of_lt_pi (x := ArgPlus x y - π) (by linarith) (by linarith)
        rw [Real.sin_sub_pi] at this
        linarith
      have hp : 0 < √(x ^ 2 + y ^ 2) := by
        rw [Real.sqrt_pos]
        rcases not_and_or.1 h with h | h
        · have := sq_nonneg y
          have := (sq_pos_iff.2 h)
          linarith
        · have := sq_nonneg x
          have := (sq_pos_iff.2 h)
          linarith
      have := mul_neg_of_pos_of_neg hp hneg
      linarith
  refine ⟨?_, ?_, ?_, ?_, ?_⟩
  · have hq := Real.sqrt_pos.2 (one_A2_B2_pos A B)
    have hq' := hq.ne'
    rw [xyz_place] at hr ⊢
    rw [(place_axis b hdom A B _).1, add_sub_cancel_left, ← side_eq b hdom] at hr
    intro i
    rw [dist_place]
    generalize cubR b lam A B = R at hr ⊢
    have hR : |R| = b.pm * R := by
      rcases pm_cases b with h | h <;> rw [h] at hr ⊢
      · rw [one_mul] at hr ⊢
        exact abs_of_pos hr
      · rw [neg_one_mul] at hr ⊢
        exact abs_of_neg (by linarith)
    have h1 := congrFun (radial_place b A B) i
    have h2 : place b A B R i - b.xc i = (b.pm * R * √(1 + A * A + B * B)) *
        (place b A B (b.pm / √(1 + A * A + B * B)) i - b.xc i) := by
      have hpm := pm_sq b
      unfold place
      split_ifs <;> fin_cases i <;> simp <;> field_simp <;> grind
    rw [h2, h1, hR]
    ring
  · unfold thetaPhiOfAB
    split_ifs <;> exact (hrange _ _).1
  · unfold thetaPhiOfAB
    split_ifs
    · exact hupper _ _ zero_le_one
    · exact hupper _ _ zero_le_one
    · exact hupper _ _ (Real.sqrt_nonneg _)
  · unfold thetaPhiOfAB
    split_ifs <;> exact (hrange _ _).1
  · unfold thetaPhiOfAB
    split_ifs <;> exact (hrange _ _).2

/-! ### Derivatives of the angles -/

theorem ArgPlus_of_neg_re (x y : ℝ) (hx : x < 0) : ArgPlus x y = arctan (y / x) + π := by
  have hpi := Real.pi_pos
  have h1 := neg_pi_div_two_lt_arctan (y / x)
  have h2 := arctan_lt_pi_div_two (y / x)
  unfold ArgPlus
  simp only [hx.ne, if_false, hx, if_true]
  split_ifs <;> linarith

theorem argPlus_moves {u w : ℝ → ℝ} {t VU VW : ℝ} (hu : HasDerivAt u VU t) (hw : HasDerivAt w VW t)
    (h : u t < 0 ∨ w t ≠ 0) : HasDerivAt (fun s => ArgPlus (u s) (w s))
      (dArgdx (u t) (w t) * VU + dArgdy (u t) (w t) * VW) t := by
  rcases lt_trichotomy (w t) 0 with h1 | h1 | h1
  · refine (((hu.div hw h1.ne).arctan.const_sub (3 * π / 2)).congr_deriv ?_).congr_of_eventuallyEq ?_
    · simp only [dArgdx, dArgdy, Pi.div_apply]
      have := h1.ne
      have : u t * u t + w t * w t ≠ 0 := r2_ne_zero (fun h => h1.ne h.2)
      field_simp
      ring
    · filter_upwards [hw.continuousAt.eventually (gt_mem_nhds h1)] with s hs
      rw [ArgPlus_eq_of_im, if_pos hs, Arg_of_neg_im _ _ hs, Pi.div_apply]
      ring
  · have h2 : u t < 0 := h.resolve_right (by simp [h1])
    refine (((hw.div hu h2.ne).arctan.add_const π).congr_deriv ?_).congr_of_eventuallyEq ?_
    · simp only [dArgdx, dArgdy, Pi.div_apply]
      have := h2.ne
      have : u t * u t + w t * w t ≠ 0 := r2_ne_zero (fun h => h2.ne h.1)
      field_simp
      ring
    · filter_upwards [hu.continuousAt.eventually (gt_mem_nhds h2)] with s hs
      exact ArgPlus_of_neg_re _ _ hs
  · refine (((hu.div hw h1.ne').arctan.const_sub (π / 2)).congr_deriv ?_).congr_of_eventuallyEq ?_
    · simp only [dArgdx, dArgdy, Pi.div_apply]
      have := h1.ne'
      have : u t * u t + w t * w t ≠ 0 := r2_ne_zero (fun h => h1.ne' h.2)
      field_simp
      ring
    · filter_upwards [hw.continuousAt.eventually (lt_mem_nhds h1)] with s hs
      rw [ArgPlus_eq_of_im, if_neg (by linarith), Arg_of_pos_im _ _ hs, Pi.div_apply]

theorem moves_root {Y : ℝ → ℝ} {t VY : ℝ} (hY : HasDerivAt Y VY t) :
    HasDerivAt (fun s => √(1 + Y s ^ 2)) (Y t * VY / √(1 + Y t ^ 2)) t := by
  have h1 : HasDerivAt (fun s => 1 + Y s ^ 2) (2 * Y t * VY) t := by
    simpa using (hY.pow 2).const_add 1
  refine (h1.sqrt (one_sq_pos (Y t)).ne').congr_deriv ?_
  field_simp

theorem moves_root2 {Y Z : ℝ → ℝ} {t VY VZ : ℝ} (hY : HasDerivAt Y VY t) (hZ : HasDerivAt Z VZ t)
    (h : 0 < Y t ^ 2 + Z t ^ 2) :
    HasDerivAt (fun s => √(Y s ^ 2 + Z s ^ 2)) ((Y t * VY + Z t * VZ) / √(Y t ^ 2 + Z t ^ 2)) t := by
  have h1 : HasDerivAt (fun s => Y s ^ 2 + Z s ^ 2) (2 * Y t * VY + 2 * Z t * VZ) t := by
    exact ((hY.pow 2).add (hZ.pow 2)).congr_deriv (by simp)
  refine (h1.sqrt h.ne').congr_deriv ?_
  field_simp

theorem sq_pos2 {A B : ℝ} (h : ¬(A = 0 ∧ B = 0)) : 0 < A ^ 2 + B ^ 2 := by
  rcases not_and_or.1 h with h | h <;> positivity

/-- `1/(1+A²)` is the derivative of the azimuth in directions 1 and 2 up to sign. -/
theorem dphi_closed (b : CubBox) (A B : ℝ) :
    (b.dir = 1 → dThetaPhiOfAB b A B 2 = 1 / (1 + A ^ 2) ∧ dThetaPhiOfAB b A B 3 = 0) ∧
    (b.dir = 2 → dThetaPhiOfAB b A B 2 = -1 / (1 + A ^ 2) ∧ dThetaPhiOfAB b A B 3 = 0) ∧
    (b.dir ≠ 1 → b.dir ≠ 2 → ¬(A = 0 ∧ B = 0) → dThetaPhiOfAB b A B 2 = B / (A ^ 2 + B ^ 2) ∧
      dThetaPhiOfAB b A B 3 = -A / (A ^ 2 + B ^ 2)) := by
  have h1 := (one_sq_pos A).ne'
  have hpm := sq_pm b
  refine ⟨fun h => ?_, fun h => ?_, fun d1 d2 h0 => ?_⟩
  · simp only [dThetaPhiOfAB, h, if_true]
    refine ⟨?_, rfl⟩
    simp only [dArgdy, Matrix.cons_val]
    have : b.pm * b.pm + b.pm * A * (b.pm * A) = 1 + A ^ 2 := by linear_combination (1 + A ^ 2) * hpm
    rw [this]
    field_simp
    linear_combination hpm
  · simp only [dThetaPhiOfAB, h, if_true, show ¬(2 = 1) from by decide, if_false]
    refine ⟨?_, rfl⟩
    simp only [dArgdx, Matrix.cons_val]
    have : b.pm * A * (b.pm * A) + b.pm * b.pm = 1 + A ^ 2 := by linear_combination (1 + A ^ 2) * hpm
    rw [this]
    field_simp
    linear_combination -hpm
  · obtain ⟨c1, c2⟩ := (phi_cos_sin b A B).2.2 d1 d2 h0
    have hp := sq_pos2 h0
    have hs := (Real.sqrt_pos.2 hp).ne'
    have hq := Real.sq_sqrt hp.le
    have e2 : (thetaPhiOfAB b A B).2 = ArgPlus (b.pm * B) (b.pm * A) := by
      simp only [thetaPhiOfAB, d1, d2, if_false]
    rw [e2] at c1 c2
    simp only [dThetaPhiOfAB, d1, d2, if_false, Matrix.cons_val, c1, c2]
    rw [← sq, ← sq, if_pos hs]
    generalize √(A ^ 2 + B ^ 2) = w at *
    rw [← hq]
    constructor
    · field_simp
      linear_combination B * hpm
    · field_simp
      linear_combination -A * hpm

/-- **C81.** The derivatives of `Phi`: `cos(Phi)` and `sin(Phi)` change at the rates that belong to
`dPhidA`, `dPhidB`, for all `A, B` (except `A = B = 0` in directions ±z where `Phi` is undefined). -/
theorem C81_dphi_cos_sin (b : CubBox) (A B : ℝ) (h0 : b.dir ≠ 1 → b.dir ≠ 2 → ¬(A = 0 ∧ B = 0)) :
    Spec.SurfaceDeriv (fun A B => cos (thetaPhiOfAB b A B).2)
      (-sin (thetaPhiOfAB b A B).2 * dThetaPhiOfAB b A B 2)
      (-sin (thetaPhiOfAB b A B).2 * dThetaPhiOfAB b A B 3) A B ∧
    Spec.SurfaceDeriv (fun A B => sin (thetaPhiOfAB b A B).2)
      (cos (thetaPhiOfAB b A B).2 * dThetaPhiOfAB b A B 2)
      (cos (thetaPhiOfAB b A B).2 * dThetaPhiOfAB b A B 3) A B := by
  obtain ⟨f1, f2, f3⟩ := dphi_closed b A B
  have hs := (Real.sqrt_pos.2 (one_sq_pos A)).ne'
  have hq := Real.sq_sqrt (one_sq_pos A).le
  have h1 := (one_sq_pos A).ne'
  by_cases d1 : b.dir = 1
  · obtain ⟨c1, c2⟩ := (phi_cos_sin b A B).1 d1
    obtain ⟨g1, g2⟩ := f1 d1
    rw [c1, c2, g1, g2]
    constructor
    · rintro Y Z t VY VZ rfl rfl hY hZ
      refine (((hasDerivAt_const t b.pm).div (moves_root hY) hs).congr_deriv ?_).congr_of_eventuallyEq
        (.of_forall fun s => ((phi_cos_sin b (Y s) (Z s)).1 d1).1)
      generalize √(1 + Y t ^ 2) = w at *
      rw [← hq]
      field_simp
      ring
    · rintro Y Z t VY VZ rfl rfl hY hZ
      refine (((hY.const_mul b.pm).div (moves_root hY) hs).congr_deriv ?_).congr_of_eventuallyEq
        (.of_forall fun s => ((phi_cos_sin b (Y s) (Z s)).1 d1).2)
      rw [show (1 : ℝ) + Y t ^ 2 = √(1 + Y t ^ 2) ^ 2 from hq.symm]
      have hq2 : √(1 + Y t ^ 2) ^ 2 = 1 + Y t ^ 2 := hq
      rw [Real.sqrt_sq (Real.sqrt_nonneg _)]
      generalize √(1 + Y t ^ 2) = w at *
      field_simp
      linear_combination b.pm * VY * hq2
  · by_cases d2 : b.dir = 2
    · obtain ⟨c1, c2⟩ := (phi_cos_sin b A B).2.1 d2
      obtain ⟨g1, g2⟩ := f2 d2
      rw [c1, c2, g1, g2]
      constructor
      · rintro Y Z t VY VZ rfl rfl hY hZ
        refine (((hY.const_mul b.pm).div (moves_root hY) hs).congr_deriv ?_).congr_of_eventuallyEq
          (.of_forall fun s => ((phi_cos_sin b (Y s) (Z s)).2.1 d2).1)
        rw [show (1 : ℝ) + Y t ^ 2 = √(1 + Y t ^ 2) ^ 2 from hq.symm]
        have hq2 : √(1 + Y t ^ 2) ^ 2 = 1 + Y t ^ 2 := hq
        rw [Real.sqrt_sq (Real.sqrt_nonneg _)]
        generalize √(1 + Y t ^ 2) = w at *
        field_simp
        linear_combination b.pm * VY * hq2
      · rintro Y Z t VY VZ rfl rfl hY hZ
        refine (((hasDerivAt_const t b.pm).div (moves_root hY) hs).congr_deriv ?_).congr_of_eventuallyEq
          (.of_forall fun s => ((phi_cos_sin b (Y s) (Z s)).2.1 d2).2)
        generalize √(1 + Y t ^ 2) = w at *
        rw [← hq]
        field_simp
        ring
    · have h00 := h0 d1 d2
      obtain ⟨c1, c2⟩ := (phi_cos_sin b A B).2.2 d1 d2 h00
      obtain ⟨g1, g2⟩ := f3 d1 d2 h00
      have hp := sq_pos2 h00
      rw [c1, c2, g1, g2]
      have hev : ∀ (Y Z : ℝ → ℝ) (t : ℝ), ContinuousAt Y t → ContinuousAt Z t → 0 < Y t ^ 2 + Z t ^ 2 →
          ∀ᶠ s in 𝓝 t, ¬(Y s = 0 ∧ Z s = 0) := by
        intro Y Z t cY cZ h
        have : ContinuousAt (fun s => Y s ^ 2 + Z s ^ 2) t := (cY.pow 2).add (cZ.pow 2)
        filter_upwards [this.eventually (lt_mem_nhds h)] with s hs
        rintro ⟨e1, e2⟩
        simp [e1, e2] at hs
      constructor
      · rintro Y Z t VY VZ rfl rfl hY hZ
        have hs2 := (Real.sqrt_pos.2 hp).ne'
        have hq2 : √(Y t ^ 2 + Z t ^ 2) ^ 2 = Y t ^ 2 + Z t ^ 2 := Real.sq_sqrt hp.le
        refine (((hZ.const_mul b.pm).div (moves_root2 hY hZ hp) hs2).congr_deriv ?_).congr_of_eventuallyEq
          ?_
        · rw [show Y t ^ 2 + Z t ^ 2 = √(Y t ^ 2 + Z t ^ 2) ^ 2 from hq2.symm]
          rw [Real.sqrt_sq (Real.sqrt_nonneg _)]
          generalize √(Y t ^ 2 + Z t ^ 2) = w at *
          field_simp
          linear_combination b.pm * VZ * hq2
        · filter_upwards [hev Y Z t hY.continuousAt hZ.continuousAt hp] with s hs
          exact ((phi_cos_sin b (Y s) (Z s)).2.2 d1 d2 hs).1
      · rintro Y Z t VY VZ rfl rfl hY hZ
        have hs2 := (Real.sqrt_pos.2 hp).ne'
        have hq2 : √(Y t ^ 2 + Z t ^ 2) ^ 2 = Y t ^ 2 + Z t ^ 2 := Real.sq_sqrt hp.le
        refine (((hY.const_mul b.pm).div (moves_root2 hY hZ hp) hs2).congr_deriv ?_).congr_of_eventuallyEq
          ?_
        · rw [show Y t ^ 2 + Z t ^ 2 = √(Y t ^ 2 + Z t ^ 2) ^ 2 from hq2.symm]
          rw [Real.sqrt_sq (Real.sqrt_nonneg _)]
          generalize √(Y t ^ 2 + Z t ^ 2) = w at *
          field_simp
          linear_combination b.pm * VY * hq2
        · filter_upwards [hev Y Z t hY.continuousAt hZ.continuousAt hp] with s hs
          exact ((phi_cos_sin b (Y s) (Z s)).2.2 d1 d2 hs).2

/-- **C81.** `dThetadA`, `dThetadB` are the partial derivatives of `Theta` (except at `A = B = 0` in
directions ±z, the poles, where `Theta` is not differentiable). -/
theorem C81_dtheta (b : CubBox) (A B : ℝ) (h0 : b.dir ≠ 1 → b.dir ≠ 2 → ¬(A = 0 ∧ B = 0)) :
    Spec.SurfaceDeriv (fun A B => (thetaPhiOfAB b A B).1) (dThetaPhiOfAB b A B 0) (dThetaPhiOfAB b A B 1)
      A B := by
  obtain ⟨e1, e2⟩ := C81_dphi_cos_sin b A B h0
  rintro Y Z t VY VZ rfl rfl hY hZ
  have k1 := e1 Y Z t VY VZ rfl rfl hY hZ
  have k2 := e2 Y Z t VY VZ rfl rfl hY hZ
  by_cases d1 : b.dir = 1
  · have hx := C77_dArgPlusdx (Z t * cos (thetaPhiOfAB b (Y t) (Z t)).2) 1 (by simp)
    refine ((hx.comp t (hZ.mul k1)).congr_deriv ?_).congr_of_eventuallyEq
      (.of_forall fun s => by simp [thetaPhiOfAB, d1])
    simp only [thetaPhiOfAB, dThetaPhiOfAB, d1, if_true, Matrix.cons_val_zero, Matrix.cons_val_one,
      Matrix.cons_val]
    ring
  · by_cases d2 : b.dir = 2
    · have hx := C77_dArgPlusdx (Z t * sin (thetaPhiOfAB b (Y t) (Z t)).2) 1 (by simp)
      refine ((hx.comp t (hZ.mul k2)).congr_deriv ?_).congr_of_eventuallyEq
        (.of_forall fun s => by simp [thetaPhiOfAB, d2])
      simp only [thetaPhiOfAB, dThetaPhiOfAB, d2, if_true, show ¬(2 = 1) from by decide, if_false,
        Matrix.cons_val_zero, Matrix.cons_val_one, Matrix.cons_val]
      ring
    · have h00 := h0 d1 d2
      have hp := sq_pos2 h00
      have hs := Real.sqrt_pos.2 hp
      have hx := C77_dArgPlusdy b.pm √(Y t ^ 2 + Z t ^ 2) (.inr hs.ne')
      refine ((hx.comp t (moves_root2 hY hZ hp)).congr_deriv ?_).congr_of_eventuallyEq
        (.of_forall fun s => by simp [thetaPhiOfAB, d1, d2, sq])
      obtain ⟨c1, c2⟩ := (phi_cos_sin b (Y t) (Z t)).2.2 d1 d2 h00
      have e3 : (thetaPhiOfAB b (Y t) (Z t)).2 = ArgPlus (b.pm * Z t) (b.pm * Y t) := by
        simp only [thetaPhiOfAB, d1, d2, if_false]
      rw [e3] at c1 c2
      have hpm := sq_pm b
      simp only [dThetaPhiOfAB, d1, d2, if_false, Matrix.cons_val_zero, Matrix.cons_val_one, c1, c2]
      rw [← sq, ← sq]
      have hs' := hs.ne'
      generalize √(Y t ^ 2 + Z t ^ 2) = w at *
      generalize dArgdy b.pm w = d
      field_simp
      linear_combination -d * (Y t * VY + Z t * VZ) * hpm

/-- **C81.** Away from the half plane `Phi = 0`, where the azimuth jumps by 2π, `dPhidA` and `dPhidB` are
the partial derivatives of `Phi` itself. -/
theorem C81_dphi (b : CubBox) (A B : ℝ) (hphi : (thetaPhiOfAB b A B).2 ≠ 0) :
    Spec.SurfaceDeriv (fun A B => (thetaPhiOfAB b A B).2) (dThetaPhiOfAB b A B 2) (dThetaPhiOfAB b A B 3)
      A B := by
  obtain ⟨f1, f2, f3⟩ := dphi_closed b A B
  have hcut : ∀ x y, ArgPlus x y ≠ 0 → x < 0 ∨ y ≠ 0 := by
    intro x y h
    by_contra hc
    push Not at hc
    apply h
    obtain ⟨h1, rfl⟩ := hc
    rcases h1.eq_or_lt with h2 | h2
    · simp [ArgPlus, ← h2]
    · simp [ArgPlus, h2.ne', not_lt.2 h1]
  have hpath : ∀ (u w : ℝ → ℝ) (t VU VW : ℝ), HasDerivAt u VU t → HasDerivAt w VW t →
      ArgPlus (u t) (w t) ≠ 0 → HasDerivAt (fun s => ArgPlus (u s) (w s))
        (dArgdx (u t) (w t) * VU + dArgdy (u t) (w t) * VW) t := by
    intro u w t VU VW hu hw h
    exact argPlus_moves hu hw (hcut _ _ h)
  rintro Y Z t VY VZ rfl rfl hY hZ
  by_cases d1 : b.dir = 1
  · have e2 : ∀ A B, (thetaPhiOfAB b A B).2 = ArgPlus b.pm (b.pm * A) := by
      intro A B
      simp only [thetaPhiOfAB, d1, if_true]
    simp only [e2] at hphi ⊢
    refine (hpath _ _ t _ _ (hasDerivAt_const t b.pm) (hY.const_mul b.pm) hphi).congr_deriv ?_
    simp only [dThetaPhiOfAB, d1, if_true, Matrix.cons_val]
    ring
  · by_cases d2 : b.dir = 2
    · have e2 : ∀ A B, (thetaPhiOfAB b A B).2 = ArgPlus (b.pm * A) b.pm := by
        intro A B
        simp only [thetaPhiOfAB, d2, if_true, show ¬(2 = 1) from by decide, if_false]
      simp only [e2] at hphi ⊢
      refine (hpath _ _ t _ _ (hY.const_mul b.pm) (hasDerivAt_const t b.pm) hphi).congr_deriv ?_
      simp only [dThetaPhiOfAB, d2, if_true, show ¬(2 = 1) from by decide, if_false, Matrix.cons_val]
      ring
    · have e2 : ∀ A B, (thetaPhiOfAB b A B).2 = ArgPlus (b.pm * B) (b.pm * A) := by
        intro A B
        simp only [thetaPhiOfAB, d1, d2, if_false]
      simp only [e2] at hphi ⊢
      have h00 : ¬(Y t = 0 ∧ Z t = 0) := by
        rintro ⟨h1, h2⟩
        rw [h1, h2] at hphi
        simp [ArgPlus] at hphi
      obtain ⟨g1, g2⟩ := f3 d1 d2 h00
      refine (hpath _ _ t _ _ (hZ.const_mul b.pm) (hY.const_mul b.pm) hphi).congr_deriv ?_
      rw [g1, g2]
      have hp := (sq_pos2 h00).ne'
      have hpm := sq_pm b
      simp only [dArgdx, dArgdy]
      have : b.pm * Z t * (b.pm * Z t) + b.pm * Y t * (b.pm * Y t) = Y t ^ 2 + Z t ^ 2 := by
        linear_combination (Y t ^ 2 + Z t ^ 2) * hpm
      rw [this]
      field_simp
      linear_combination (Z t * VY - Y t * VZ) * hpm

/-- At the pole (`A = B = 0` in domain 5) `Theta` has no derivative by `B`, so no formula can be right there;
the code returns `dThetadB = 1` and `dThetadA = 0`. -/
theorem C81_pole_counterexample (b : CubBox) (hdom : b.dom = 5) :
    (¬∃ dA dB, Spec.SurfaceDeriv (fun A B => (thetaPhiOfAB b A B).1) dA dB 0 0) ∧
      dThetaPhiOfAB b 0 0 0 = 0 ∧ dThetaPhiOfAB b 0 0 1 = 1 := by
  have hd : b.dir = 3 := by unfold CubBox.dir; rw [hdom]
  have hpm : b.pm = 1 := by unfold CubBox.pm; rw [hdom]; norm_num
  have hth : ∀ B, (thetaPhiOfAB b 0 B).1 = arctan |B| := by
    intro B
    simp only [thetaPhiOfAB, hd, hpm]
    norm_num
    rw [Real.sqrt_mul_self_eq_abs]
    have := abs_nonneg B
    simp [ArgPlus]
    norm_num
  refine ⟨?_, ?_, ?_⟩
  · rintro ⟨dA, dB, h⟩
    have h1 := h (fun _ => 0) (fun s => s) 0 0 1 rfl rfl (hasDerivAt_const _ _) (hasDerivAt_id 0)
    have h2 := h (fun _ => 0) (fun s => -s) 0 0 (-1) rfl (by simp) (hasDerivAt_const _ _) (hasDerivAt_id 0).neg
    simp only [hth, abs_neg] at h1 h2
    have e := h1.unique h2
    have e0 : dB = 0 := by linarith
    rw [e0] at h1
    have h3 : HasDerivAt (fun s : ℝ => |s|) (1 * (dA * 0 + 0 * 1)) 0 := by
      have ht : HasDerivAt tan (1 / cos (arctan |(0 : ℝ)|) ^ 2) (arctan |(0 : ℝ)|) :=
        Real.hasDerivAt_tan (by simp)
      have := ht.comp (0 : ℝ) h1
      simp only [Function.comp_def, tan_arctan] at this
      exact this.congr_deriv (by simp)
    exact not_differentiableAt_abs_zero h3.differentiableAt
  · simp [dThetaPhiOfAB, hd, ArgPlus]
  · simp [dThetaPhiOfAB, hd, hpm, ArgPlus, dArgdy]

/-! ### The six patches of a shell -/

/-- Domain `n` of a shell between the spheres of radius `s 0` and `s 1` around `c` (constant sigmas). -/
noncomputable def shell (s : Fin 2 → ℝ) (c : Fin 3 → ℝ) (n : ℕ) : CubBox where
  dom := n
  type := .CubedShell
  s := s
  xc := c
  sigma := fun i _ _ => s i
  dsigmaA := fun _ _ _ => 0
  dsigmaB := fun _ _ _ => 0
  bboxA := ![-1, 1]
  bboxB := ![-1, 1]
  indNeg := true

theorem shell_R (s : Fin 2 → ℝ) (c : Fin 3 → ℝ) (n : ℕ) (lam A B : ℝ) :
    cubR (shell s c n) lam A B = (shell s c n).pm / √(1 + A * A + B * B) * ((s 1 - s 0) * lam + s 0) := by
  unfold cubR cubFaces
  simp only [shell]
  ring

theorem largest (r : Fin 3 → ℝ) : ∃ n < 6, 0 ≤ Spec.side n * r (Spec.axis n) ∧
    |r (Spec.axisA n)| ≤ |r (Spec.axis n)| ∧ |r (Spec.axisB n)| ≤ |r (Spec.axis n)| := by
  obtain ⟨i, hi⟩ : ∃ i : Fin 3, ∀ j, |r j| ≤ |r i| := by
    obtain ⟨i, -, hi⟩ := Finset.exists_max_image Finset.univ (fun i => |r i|) ⟨0, Finset.mem_univ _⟩
    exact ⟨i, fun j => hi j (Finset.mem_univ _)⟩
  rcases le_total 0 (r i) with h | h
  · fin_cases i
    · exact ⟨1, by norm_num, by simpa [Spec.side, Spec.axis] using h, hi _, hi _⟩
    · exact ⟨3, by norm_num, by simpa [Spec.side, Spec.axis] using h, hi _, hi _⟩
    · exact ⟨5, by norm_num, by simpa [Spec.side, Spec.axis] using h, hi _, hi _⟩
  · fin_cases i
    · exact ⟨0, by norm_num, by simpa [Spec.side, Spec.axis] using h, hi _, hi _⟩
    · exact ⟨2, by norm_num, by simpa [Spec.side, Spec.axis] using h, hi _, hi _⟩
    · exact ⟨4, by norm_num, by simpa [Spec.side, Spec.axis] using h, hi _, hi _⟩

/-- **C51.** The six patches cover the shell: every point whose distance from the centre lies between the
two radii is a point `(lam,A,B)` of one of the six boxes `[0,1]×[-1,1]×[-1,1]`, and lamAB_of_xyz_CubSph of
that box finds it. -/
theorem C51_cover (s : Fin 2 → ℝ) (h0 : 0 < s 0) (h1 : s 0 < s 1) (c x : Fin 3 → ℝ)
    (hx : s 0 ≤ Spec.dist x c ∧ Spec.dist x c ≤ s 1) :
    ∃ n < 6, ∃ lam A B, 0 ≤ lam ∧ lam ≤ 1 ∧ -1 ≤ A ∧ A ≤ 1 ∧ -1 ≤ B ∧ B ≤ 1 ∧
      xyzOfLamAB (shell s c n) lam A B = x ∧ lamABOfXyz (shell s c n) x = (![lam, A, B], 0) := by
  obtain ⟨n, hn, hside, hA, hB⟩ := largest (fun i => x i - c i)
  set R := x (Spec.axis n) - c (Spec.axis n) with hR
  have hR0 : R ≠ 0 := by
    intro h
    rw [h, abs_zero] at hA hB
    have eA := abs_nonpos_iff.1 hA
    have eB := abs_nonpos_iff.1 hB
    have : x = c := eq_of_axis n (by linarith) (by linarith) (by linarith)
    rw [this] at hx
    have : Spec.dist c c = 0 := by simp [Spec.dist]
    linarith [hx.1]
  obtain ⟨A, hAdef⟩ : ∃ A, A = (x (Spec.axisA n) - c (Spec.axisA n)) / R := ⟨_, rfl⟩
  obtain ⟨B, hBdef⟩ : ∃ B, B = (x (Spec.axisB n) - c (Spec.axisB n)) / R := ⟨_, rfl⟩
  have hAr : |A| ≤ 1 := by
    rw [hAdef, abs_div]
    exact div_le_one_of_le₀ hA (abs_nonneg _)
  have hBr : |B| ≤ 1 := by
    rw [hBdef, abs_div]
    exact div_le_one_of_le₀ hB (abs_nonneg _)
  have hA' := abs_le.1 hAr
  have hB' := abs_le.1 hBr
  have hq := Real.sqrt_pos.2 (one_A2_B2_pos A B)
  have hq' := hq.ne'
  have hdom : (shell s c n).dom < 6 := hn
  have hxc : (shell s c n).xc = c := rfl
  obtain ⟨p1, p2, p3⟩ := place_axis (shell s c n) hdom A B R
  rw [show (shell s c n).dom = n from rfl, hxc] at p1 p2 p3
  have e : x = place (shell s c n) A B R := by
    apply eq_of_axis n
    · rw [p1, hR]
      ring
    · rw [p2, hAdef, div_mul_cancel₀ _ hR0]
      ring
    · rw [p3, hBdef, div_mul_cancel₀ _ hR0]
      ring
  have hpm : (shell s c n).pm = Spec.side n := side_eq _ hdom
  have hRabs : |R| = (shell s c n).pm * R := by
    rw [← hpm] at hside
    rcases pm_cases (shell s c n) with h | h <;> rw [h] at hside ⊢
    · rw [one_mul] at hside ⊢
      exact abs_of_nonneg hside
    · rw [neg_one_mul] at hside ⊢
      exact abs_of_nonpos (by linarith)
  have hd : Spec.dist x c = (shell s c n).pm * R * √(1 + A * A + B * B) := by
    have := dist_place (shell s c n) A B R
    rw [← e, hxc] at this
    rw [this, hRabs]
  have hL : 0 < s 1 - s 0 := sub_pos.2 h1
  have hpm2 := pm_sq (shell s c n)
  have hlam : cubR (shell s c n) ((Spec.dist x c - s 0) / (s 1 - s 0)) A B = R := by
    rw [shell_R, mul_div_cancel₀ _ hL.ne', hd]
    clear_value R
    clear hd hRabs
    generalize √(1 + A * A + B * B) = q at *
    field_simp
    linear_combination q * R * hpm2
  have exyz : xyzOfLamAB (shell s c n) ((Spec.dist x c - s 0) / (s 1 - s 0)) A B = x := by
    rw [xyz_place, hlam, ← e]
  refine ⟨n, hn, (Spec.dist x c - s 0) / (s 1 - s 0), A, B, ?_, ?_, hA'.1, hA'.2, hB'.1, hB'.2, exyz, ?_⟩
  · exact div_nonneg (by linarith [hx.1]) hL.le
  · rw [div_le_one hL]
    linarith [hx.2]
  · have h3 : cubR (shell s c n) 1 A B ≠ cubR (shell s c n) 0 A B := by
      rw [shell_R, shell_R]
      intro h
      have := mul_left_cancel₀ (div_ne_zero (pm_ne _) hq') h
      linarith
    have hinv := C51_inverse (shell s c n) ((Spec.dist x c - s 0) / (s 1 - s 0)) A B
      (by simpa [shell] using hA') (by simpa [shell] using hB') ?_ ?_
    · rw [exyz] at hinv
      exact hinv
    · intro h
      apply h3
      have := congrFun h (Spec.axis n)
      rw [xyz_place, xyz_place, show Spec.axis n = Spec.axis (shell s c n).dom from rfl,
        (place_axis (shell s c n) hdom A B _).1, (place_axis (shell s c n) hdom A B _).1] at this
      linarith
    · rw [exyz, hxc]
      intro h
      apply hR0
      rw [hR, h]
      ring

/-- **C51.** The interiors of the patches do not overlap: a point with `|A|, |B| < 1` in one box lies in no
other box. -/
theorem C51_disjoint (s : Fin 2 → ℝ) (h0 : 0 < s 0) (h1 : s 0 < s 1) (c : Fin 3 → ℝ) (n m : ℕ)
    (hn : n < 6) (hm : m < 6) (lam A B lam' A' B' : ℝ) (hl : 0 ≤ lam) (hl' : 0 ≤ lam')
    (hA : |A| < 1) (hB : |B| < 1) (hA' : |A'| ≤ 1) (hB' : |B'| ≤ 1)
    (he : xyzOfLamAB (shell s c n) lam A B = xyzOfLamAB (shell s c m) lam' A' B') :
    n = m ∧ lam = lam' ∧ A = A' ∧ B = B' := by
  have hL : 0 < s 1 - s 0 := sub_pos.2 h1
  have hq := Real.sqrt_pos.2 (one_A2_B2_pos A B)
  have hq2 := Real.sqrt_pos.2 (one_A2_B2_pos A' B')
  have hdn : (shell s c n).dom < 6 := hn
  have hdm : (shell s c m).dom < 6 := hm
  rw [xyz_place, xyz_place] at he
  have hrho : 0 < (s 1 - s 0) * lam + s 0 := by nlinarith [mul_nonneg hL.le hl]
  have hrho' : 0 < (s 1 - s 0) * lam' + s 0 := by nlinarith [mul_nonneg hL.le hl']
  have hR : 0 < Spec.side n * cubR (shell s c n) lam A B := by
    rw [shell_R, show Spec.side n = (shell s c n).pm from (side_eq (shell s c n) hdn).symm]
    have := pm_sq (shell s c n)
    have e : (shell s c n).pm * ((shell s c n).pm / √(1 + A * A + B * B) * ((s 1 - s 0) * lam + s 0)) =
      ((s 1 - s 0) * lam + s 0) / √(1 + A * A + B * B) := by
      rw [← mul_assoc, ← mul_div_assoc, this]
      ring
    rw [e]
    positivity
  have hR' : 0 < Spec.side m * cubR (shell s c m) lam' A' B' := by
    rw [shell_R, show Spec.side m = (shell s c m).pm from (side_eq (shell s c m) hdm).symm]
    have := pm_sq (shell s c m)
    have e : (shell s c m).pm * ((shell s c m).pm / √(1 + A' * A' + B' * B') * ((s 1 - s 0) * lam' + s 0)) =
      ((s 1 - s 0) * lam' + s 0) / √(1 + A' * A' + B' * B') := by
      rw [← mul_assoc, ← mul_div_assoc, this]
      ring
    rw [e]
    positivity
  have hd1 := dist_place (shell s c n) A B (cubR (shell s c n) lam A B)
  have hd2 := dist_place (shell s c m) A' B' (cubR (shell s c m) lam' A' B')
  rw [he] at hd1
  rw [show (shell s c n).xc = c from rfl] at hd1
  rw [show (shell s c m).xc = c from rfl, hd1] at hd2
  have habs : ∀ k l a b, |cubR (shell s c k) l a b| * √(1 + a * a + b * b) = |(s 1 - s 0) * l + s 0| := by
    intro k l a b
    have hq3 := Real.sqrt_pos.2 (one_A2_B2_pos a b)
    have h1 : |(shell s c k).pm| = 1 := by
      rcases pm_cases (shell s c k) with h | h <;> rw [h] <;> norm_num
    rw [shell_R, abs_mul, abs_div, h1, abs_of_pos hq3]
    field_simp
  rw [habs, habs, abs_of_pos hrho, abs_of_pos hrho'] at hd2
  have hlam : lam = lam' := by
    have := mul_left_cancel₀ hL.ne' (by linarith : (s 1 - s 0) * lam = (s 1 - s 0) * lam')
    exact this
  obtain ⟨p1, p2, p3⟩ := place_axis (shell s c n) hdn A B (cubR (shell s c n) lam A B)
  obtain ⟨q1, q2, q3⟩ := place_axis (shell s c m) hdm A' B' (cubR (shell s c m) lam' A' B')
  rw [he] at p1 p2 p3
  simp only [show (shell s c n).xc = c from rfl, show (shell s c m).xc = c from rfl,
    show (shell s c n).dom = n from rfl, show (shell s c m).dom = m from rfl] at p1 p2 p3 q1 q2 q3
  generalize cubR (shell s c n) lam A B = R at *
  generalize cubR (shell s c m) lam' A' B' = R' at *
  generalize place (shell s c m) A' B' R' = x at *
  have hRn : R ≠ 0 := by rintro rfl; simp at hR
  have hRn' : R' ≠ 0 := by rintro rfl; simp at hR'
  have big : ∀ j, j ≠ Spec.axis n → |x j - c j| < |R| := by
    intro j hj
    rcases axis_cover n j with rfl | rfl | rfl
    · exact absurd rfl hj
    · rw [p2, add_sub_cancel_left, abs_mul]
      exact mul_lt_of_lt_one_left (abs_pos.2 hRn) hA
    · rw [p3, add_sub_cancel_left, abs_mul]
      exact mul_lt_of_lt_one_left (abs_pos.2 hRn) hB
  have big' : ∀ j, |x j - c j| ≤ |R'| := by
    intro j
    rcases axis_cover m j with rfl | rfl | rfl
    · rw [q1, add_sub_cancel_left]
    · rw [q2, add_sub_cancel_left, abs_mul]
      exact mul_le_of_le_one_left (abs_nonneg R') hA'
    · rw [q3, add_sub_cancel_left, abs_mul]
      exact mul_le_of_le_one_left (abs_nonneg R') hB'
  have hax : Spec.axis n = Spec.axis m := by
    by_contra hne
    have h1 := big _ (Ne.symm hne)
    have h2 := big' (Spec.axis n)
    rw [p1, add_sub_cancel_left] at h2
    rw [q1, add_sub_cancel_left] at h1
    linarith
  have hRR : R = R' := by
    rw [← hax, p1] at q1
    linarith
  rw [← hRR] at hR'
  have hnm : n = m := by
    rcases dom_lt_six hn with rfl | rfl | rfl | rfl | rfl | rfl <;>
      rcases dom_lt_six hm with rfl | rfl | rfl | rfl | rfl | rfl <;>
      first
      | rfl
      | (exfalso; revert hax; simp only [Spec.axis]; decide)
      | (exfalso; simp only [Spec.side] at hR hR'; linarith)
  subst hnm
  refine ⟨rfl, hlam, ?_, ?_⟩
  · rw [p2, hRR] at q2
    exact mul_right_cancel₀ hRn' (by linarith : A * R' = A' * R')
  · rw [p3, hRR] at q3
    exact mul_right_cancel₀ hRn' (by linarith : B * R' = B' * R')

/-! ### CubedSphere_sigma -/

/-- **C80.** On the grid point `(i,j,k)` CubedSphere_sigma and its derivatives return the value that the
variable has in the point `(0,j,k)` for the inner and `(n1-1,j,k)` for the outer surface, whatever `A, B`
are.  Without a variable they return the constant. -/
theorem C80_sigma (c : SigmaSrc) (si : Fin 2) (A B : ℝ) (i j k : ℕ) (hi : i < c.n1) (hj : j < c.n2) :
    cubedSphereSigma c si (i + c.n1 * (j + c.n2 * k) : ℕ) A B =
      if c.isig < 1 then c.unset else c.v ((if si = 0 then 0 else c.n1 - 1) + c.n1 * (j + c.n2 * k)) := by
  unfold cubedSphereSigma
  by_cases h : c.isig < 1
  · rw [if_pos h, if_pos h]
  · rw [if_neg h, if_neg h]
    simp only
    rw [if_pos (by positivity), Int.toNat_natCast]
    have hk : (i + c.n1 * (j + c.n2 * k)) / (c.n1 * c.n2) = k := by
      have e : i + c.n1 * (j + c.n2 * k) = (i + c.n1 * j) + (c.n1 * c.n2) * k := by ring
      have hlt : i + c.n1 * j < c.n1 * c.n2 := by
        calc i + c.n1 * j < c.n1 * (j + 1) := by rw [mul_add, mul_one]; omega
          _ ≤ c.n1 * c.n2 := Nat.mul_le_mul_left _ hj
      rw [e, Nat.add_mul_div_left _ _ (by omega), Nat.div_eq_of_lt hlt, zero_add]
    rw [hk]
    have hjj : (i + c.n1 * (j + c.n2 * k) - c.n1 * c.n2 * k) / c.n1 = j := by
      have e : i + c.n1 * (j + c.n2 * k) - c.n1 * c.n2 * k = i + c.n1 * j := by
        rw [mul_add, ← mul_assoc]
        omega
      rw [e, Nat.add_mul_div_left _ _ (by omega), Nat.div_eq_of_lt hi, zero_add]
    rw [hjj]
    congr 2
    fin_cases si <;> simp

/-- **C80.** Without a grid point (`ind < 0`) the surface variable is interpolated to the given `A, B`. -/
theorem C80_sigma_interp (c : SigmaSrc) (si : Fin 2) (A B : ℝ) (ind : ℤ) (hi : ind < 0) :
    cubedSphereSigma c si ind A B = if c.isig < 1 then c.unset else c.interp A B := by
  unfold cubedSphereSigma
  by_cases h : c.isig < 1
  · rw [if_pos h, if_pos h]
  · rw [if_neg h, if_neg h]
    simp only
    rw [if_neg (by omega)]

/-! ### Examples -/

/-- Example: the outer sphere of radius 6 around the origin, domain 0 (the patch in direction -x): the middle
of the face, half way between radius 2 and 6, and the way back. -/
example : xyzOfLamAB (shell ![2, 6] (fun _ => 0) 0) (1 / 2) 0 0 = ![-4, 0, 0] ∧
    lamABOfXyz (shell ![2, 6] (fun _ => 0) 0) ![-4, 0, 0] = (![1 / 2, 0, 0], 0) := by
  have e : xyzOfLamAB (shell ![2, 6] (fun _ => 0) 0) (1 / 2) 0 0 = ![-4, 0, 0] := by
    funext i
    fin_cases i <;>
      simp [xyzOfLamAB, cubFaces, shell, CubBox.dir, CubBox.pm]
    norm_num
  refine ⟨e, ?_⟩
  rw [← e]
  apply C51_inverse
  · simp [shell]
  · simp [shell]
  · intro h
    have := congrFun h 0
    simp [xyzOfLamAB, cubFaces, shell, CubBox.dir, CubBox.pm] at this
  · rw [e]
    intro h
    have := congrFun h 0
    simp [shell] at this

/-- Example: in domain 3 (direction +y) the ray `A = 0, B = 0` points to `Theta = π/2`, `Phi = π/2`. -/
example : thetaPhiOfAB (shell ![2, 6] (fun _ => 0) 3) 0 0 = (π / 2, π / 2) := by
  have hpi := Real.pi_pos
  simp [thetaPhiOfAB, shell, CubBox.dir, CubBox.pm, ArgPlus]
  linarith

/-- Example: the stretched coordinate: with radii 1 and 4 the middle `rho = 1/2` lies at lam = 1/5. -/
example : lamOfRho (1 / 2) 1 4 = 1 / 5 ∧ rhoOfLam (1 / 5) 1 4 = 1 / 2 := by
  unfold lamOfRho rhoOfLam
  norm_num

/-- Example: a variable on a 3×2×2 grid; the outer value at the point (0,1,1), which has index 9. -/
example : cubedSphereSigma ⟨7, 3, 2, fun n => n, 0, fun _ _ => 0⟩ 1 9 0 0 = 11 := by
  have h := C80_sigma ⟨7, 3, 2, fun n => n, 0, fun _ _ => 0⟩ 1 0 0 0 1 1 (by norm_num) (by norm_num)
  norm_num at h
  exact h

end Sgrid
