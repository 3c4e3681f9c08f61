import Mathlib.Analysis.SpecialFunctions.Sigmoid
import Mathlib.Analysis.SpecialFunctions.Trigonometric.ArctanDeriv
import Mathlib.Analysis.SpecialFunctions.Trigonometric.DerivHyp
import Mathlib.Analysis.SpecialFunctions.Trigonometric.Bounds
import Mathlib.Tactic.FieldSimp
import Mathlib.Tactic.Linarith
import Mathlib.Tactic.Positivity
import Mathlib.Tactic.Ring
import Mathlib.Tactic.LinearCombination
import Verif.Model.Attenuation

/-!
# C90: attenuation functions
-/

namespace Sgrid

open Real Set Filter Topology

/-- The step from 0 to 1 by `tanh`. -/
theorem step_tanh (g : ℝ) : (1 + tanh g) / 2 = sigmoid (2 * g) := by
  rw [tanh_eq_sinh_div_cosh, sinh_eq, cosh_eq, sigmoid_def, show -(2 * g) = -g + -g by ring, exp_add]
  have h : exp g * exp (-g) = 1 := by rw [← exp_add, add_neg_cancel, exp_zero]
  have h1 := exp_pos g
  have h2 := exp_pos (-g)
  rw [eq_comm, inv_eq_one_div, div_eq_div_iff (by positivity) (by norm_num)]
  field_simp
  linear_combination (-2 * exp (-g)) * h

/-- `tanh` of the attenuation functions, without the limits. -/
noncomputable def attArg (q s t : ℝ) : ℝ := (s / π) * (t - q * q / t)

theorem att_inner {x x0 w q s : ℝ} (h1 : ¬ x ≥ x0 + w) (h2 : ¬ x ≤ x0) :
    att0to1 x x0 w q s = sigmoid (2 * attArg q s (tan ((x - x0) * π / (2 * w)))) := by
  unfold att0to1
  rw [if_neg h1, if_neg h2, ← step_tanh]
  rfl

/-- **C90** (range): the attenuation functions have values between 0 and 1. -/
theorem C90_range (x x0 w q s : ℝ) : att0to1 x x0 w q s ∈ Icc 0 1 := by
  by_cases h1 : x ≥ x0 + w
  · unfold att0to1
    rw [if_pos h1]
    exact ⟨zero_le_one, le_rfl⟩
  by_cases h2 : x ≤ x0
  · unfold att0to1
    rw [if_neg h1, if_pos h2]
    exact ⟨le_rfl, zero_le_one⟩
  rw [att_inner h1 h2]
  exact ⟨sigmoid_nonneg _, sigmoid_le_one _⟩

/-- **C90** (the inverted functions): both versions add up to 1 and the derivatives to 0. -/
theorem C90_inverted (x x0 w q s : ℝ) :
    att1to0 x x0 w q s = 1 - att0to1 x x0 w q s ∧ dAtt1to0 x x0 w q s = -dAtt0to1 x x0 w q s := by
  unfold att1to0 att0to1 dAtt1to0 dAtt0to1
  by_cases h1 : x ≥ x0 + w
  · simp only [if_pos h1]
    norm_num
  by_cases h2 : x ≤ x0
  · simp only [if_neg h1, if_pos h2]
    norm_num
  simp only [if_neg h1, if_neg h2]
  refine ⟨trivial, by ring⟩

theorem att_angle {x x0 w : ℝ} (hw : 0 < w) (h1 : ¬ x ≥ x0 + w) (h2 : ¬ x ≤ x0) :
    0 < (x - x0) * π / (2 * w) ∧ (x - x0) * π / (2 * w) < π / 2 := by
  push Not at h1 h2
  have hpi := pi_pos
  constructor
  · have : 0 < x - x0 := by linarith
    positivity
  · rw [div_lt_div_iff₀ (by positivity) (by norm_num)]
    have : (x - x0) * π < w * π := mul_lt_mul_of_pos_right (by linarith) hpi
    linarith

theorem attArg_mono {q s t t' : ℝ} (hs : 0 ≤ s) (ht : 0 < t) (htt : t ≤ t') :
    attArg q s t ≤ attArg q s t' := by
  unfold attArg
  have h1 : q * q / t' ≤ q * q / t := div_le_div_of_nonneg_left (mul_self_nonneg q) ht htt
  exact mul_le_mul_of_nonneg_left (by linarith) (div_nonneg hs pi_pos.le)

/-- **C90** (monotone): the step rises everywhere. -/
theorem C90_monotone (x0 w q s : ℝ) (hw : 0 < w) (hs : 0 ≤ s) :
    Monotone (fun x => att0to1 x x0 w q s) := by
  intro x y hxy
  dsimp only
  by_cases h1 : y ≥ x0 + w
  · have : att0to1 y x0 w q s = 1 := by unfold att0to1; rw [if_pos h1]
    rw [this]
    exact (C90_range x x0 w q s).2
  by_cases h2 : x ≤ x0
  · have : att0to1 x x0 w q s = 0 := by
      unfold att0to1; rw [if_neg (by linarith), if_pos h2]
    rw [this]
    exact (C90_range y x0 w q s).1
  have h3 : ¬ x ≥ x0 + w := by intro h; exact h1 (by linarith)
  have h4 : ¬ y ≤ x0 := by intro h; exact h2 (by linarith)
  rw [att_inner h3 h2, att_inner h1 h4]
  obtain ⟨a1, a2⟩ := att_angle hw h3 h2
  obtain ⟨b1, b2⟩ := att_angle hw h1 h4
  have hle : (x - x0) * π / (2 * w) ≤ (y - x0) * π / (2 * w) := by
    have hpi := pi_pos
    gcongr
  apply sigmoid_le
  have := attArg_mono (q := q) hs (tan_pos_of_pos_of_lt_pi_div_two a1 a2)
    (strictMonoOn_tan.monotoneOn ⟨by linarith, a2⟩ ⟨by linarith, b2⟩ hle)
  linarith

/-- A function that is flat at a point. -/
theorem hasDerivAt_flat {F : ℝ → ℝ} {x0 C d : ℝ} (hd : 0 < d)
    (h : ∀ x, |x - x0| < d → |F x - F x0| ≤ C * (x - x0) ^ 2) : HasDerivAt F 0 x0 := by
  rw [hasDerivAt_iff_isLittleO]
  rw [Asymptotics.isLittleO_iff]
  intro c hc
  have hC : 0 ≤ C := by
    have h1 := h (x0 + d / 2) (by rw [add_sub_cancel_left, abs_of_pos (by linarith)]; linarith)
    rw [add_sub_cancel_left] at h1
    have h2 : 0 < (d / 2) ^ 2 := by positivity
    have := (abs_nonneg _).trans h1
    exact nonneg_of_mul_nonneg_left this h2
  have hmin : 0 < min d (c / (C + 1)) := lt_min hd (by positivity)
  filter_upwards [Metric.ball_mem_nhds x0 hmin] with x hx
  rw [Metric.mem_ball, Real.dist_eq] at hx
  have h1 := h x (lt_of_lt_of_le hx (min_le_left _ _))
  have h2 : |x - x0| ≤ c / (C + 1) := (lt_of_lt_of_le hx (min_le_right _ _)).le
  rw [smul_zero, sub_zero, Real.norm_eq_abs, Real.norm_eq_abs]
  have h3 : (x - x0) ^ 2 = |x - x0| * |x - x0| := by rw [← sq, sq_abs]
  rw [h3] at h1
  have h4 : C * |x - x0| ≤ c := by
    rw [le_div_iff₀ (by positivity)] at h2
    have := abs_nonneg (x - x0)
    nlinarith
  calc |F x - F x0| ≤ C * (|x - x0| * |x - x0|) := h1
    _ = C * |x - x0| * |x - x0| := by ring
    _ ≤ c * |x - x0| := mul_le_mul_of_nonneg_right h4 (abs_nonneg _)

theorem tan_le_two_mul {φ : ℝ} (h0 : 0 < φ) (h1 : φ ≤ π / 4) : 0 < tan φ ∧ tan φ ≤ 2 * φ ∧ tan φ ≤ 1 := by
  have hpi := pi_pos
  have hpos := tan_pos_of_pos_of_lt_pi_div_two h0 (by linarith)
  refine ⟨hpos, ?_, ?_⟩
  · have hc : 1 / 2 ≤ cos φ := by
      have : cos (π / 3) ≤ cos φ :=
        cos_le_cos_of_nonneg_of_le_pi h0.le (by linarith) (by linarith)
      rwa [cos_pi_div_three] at this
    have hs := (sin_lt h0).le
    rw [tan_eq_sin_div_cos, div_le_iff₀ (by linarith)]
    nlinarith
  · rw [← tan_pi_div_four]
    exact strictMonoOn_tan.monotoneOn ⟨by linarith, by linarith⟩ ⟨by linarith, by linarith⟩ h1

/-- Close to the ends of the step the argument of the step function is large. -/
theorem cot_tan_large {A B φ : ℝ} (hA : 0 < A) (hB : 0 ≤ B) (h0 : 0 < φ) (h1 : φ ≤ π / 4)
    (h2 : 4 * B * φ ≤ A) : A / (4 * φ) ≤ A / tan φ - B * tan φ := by
  obtain ⟨t0, t1, t2⟩ := tan_le_two_mul h0 h1
  have h3 : A / (2 * φ) ≤ A / tan φ := div_le_div_of_nonneg_left hA.le t0 t1
  have h4 : B * tan φ ≤ B := by nlinarith
  have h5 : A / (2 * φ) - A / (4 * φ) = A / (4 * φ) := by field_simp; ring
  have h6 : B ≤ A / (4 * φ) := by rw [le_div_iff₀ (by positivity)]; linarith
  linarith

theorem sigmoid_neg_small {t : ℝ} (ht : 0 < t) : sigmoid (-t) ≤ 2 / t ^ 2 := by
  rw [sigmoid_def, neg_neg]
  have h1 := quadratic_le_exp_of_nonneg ht.le
  rw [inv_eq_one_div, div_le_div_iff₀ (by positivity) (by positivity)]
  nlinarith

/-- **C90** (derivative): `dAtt` is the derivative of the step at every point, also at the ends. -/
theorem C90_deriv (x x0 w q s : ℝ) (hw : 0 < w) (hs : 0 < s) (hq : q ≠ 0) :
    HasDerivAt (fun x => att0to1 x x0 w q s) (dAtt0to1 x x0 w q s) x := by
  have hpi := pi_pos
  have hqq : 0 < q * q := mul_self_pos.mpr hq
  have one_of : ∀ {y}, y ≥ x0 + w → att0to1 y x0 w q s = 1 := by
    intro y h; unfold att0to1; rw [if_pos h]
  have zero_of : ∀ {y}, y ≤ x0 → att0to1 y x0 w q s = 0 := by
    intro y h; unfold att0to1; rw [if_neg (by linarith), if_pos h]
  rcases lt_trichotomy x x0 with hx | hx | hx
  · have hd : dAtt0to1 x x0 w q s = 0 := by
      unfold dAtt0to1; rw [if_neg (by linarith), if_pos hx.le]
    rw [hd]
    refine (hasDerivAt_const x (0 : ℝ)).congr_of_eventuallyEq ?_
    filter_upwards [Iio_mem_nhds hx] with y hy
    exact zero_of (le_of_lt hy)
  · subst hx
    have hd : dAtt0to1 x x w q s = 0 := by
      unfold dAtt0to1; rw [if_neg (by linarith), if_pos le_rfl]
    rw [hd]
    -- distance in which the bound holds
    refine hasDerivAt_flat (C := 8 * (π * π / (2 * w) / (s * (q * q))) ^ 2)
      (d := min (w / 2) (q * q * w / (2 * π))) (lt_min (by positivity) (by positivity)) ?_
    intro y hy
    rw [zero_of le_rfl, sub_zero]
    by_cases h2 : y ≤ x
    · rw [zero_of h2, abs_zero]
      positivity
    push Not at h2
    rw [abs_of_pos (by linarith)] at hy
    have hy1 := lt_of_lt_of_le hy (min_le_left _ _)
    have hy2 := lt_of_lt_of_le hy (min_le_right _ _)
    have h1 : ¬ y ≥ x + w := by push Not; linarith
    rw [att_inner h1 (by linarith), abs_of_pos (sigmoid_pos _)]
    set φ := (y - x) * π / (2 * w) with hφ
    have hyx : 0 < y - x := by linarith
    have hφ0 : 0 < φ := by rw [hφ]; positivity
    have hφ1 : φ ≤ π / 4 := by
      rw [hφ, div_le_div_iff₀ (by positivity) (by norm_num)]
      nlinarith
    have hφ2 : 4 * 1 * φ ≤ q * q := by
      rw [hφ, mul_one, ← mul_div_assoc, div_le_iff₀ (by positivity)]
      rw [lt_div_iff₀ (by positivity)] at hy2
      linarith
    have hl := cot_tan_large hqq zero_le_one hφ0 hφ1 hφ2
    have harg : 2 * attArg q s (tan φ) ≤ -(s / π * (q * q / (2 * φ))) := by
      unfold attArg
      have h3 : s / π * (q * q / (4 * φ)) ≤ s / π * (q * q / tan φ - 1 * tan φ) :=
        mul_le_mul_of_nonneg_left hl (by positivity)
      have h4 : s / π * (q * q / (2 * φ)) = 2 * (s / π * (q * q / (4 * φ))) := by field_simp; ring
      rw [h4]
      linarith
    have hb := (sigmoid_le harg).trans (sigmoid_neg_small (t := s / π * (q * q / (2 * φ))) (by positivity))
    refine hb.trans (le_of_eq ?_)
    rw [hφ]
    field_simp
    ring
  · by_cases h1 : x ≥ x0 + w
    · have hd : dAtt0to1 x x0 w q s = 0 := by unfold dAtt0to1; rw [if_pos h1]
      rw [hd]
      rcases h1.lt_or_eq with h3 | h3
      · refine (hasDerivAt_const x (1 : ℝ)).congr_of_eventuallyEq ?_
        filter_upwards [Ioi_mem_nhds h3] with y hy
        exact one_of (le_of_lt hy)
      · refine hasDerivAt_flat (C := 8 * (π * π / (2 * w) / s) ^ 2)
          (d := min (w / 2) (w / (2 * π * (q * q)))) (lt_min (by positivity) (by positivity)) ?_
        intro y hy
        rw [one_of h1]
        by_cases h2 : y ≥ x0 + w
        · rw [one_of h2, sub_self, abs_zero]
          positivity
        have h2' := h2
        push Not at h2
        rw [abs_of_neg (by linarith)] at hy
        have hy1 := lt_of_lt_of_le hy (min_le_left _ _)
        have hy2 := lt_of_lt_of_le hy (min_le_right _ _)
        rw [att_inner h2' (by push Not; linarith), abs_sub_comm, abs_of_pos
          (sub_pos.mpr (sigmoid_lt_one _)), ← sigmoid_neg]
        set φ := (x - y) * π / (2 * w) with hφ
        have hyx : 0 < x - y := by linarith
        have hφ0 : 0 < φ := by rw [hφ]; positivity
        have hφ1 : φ ≤ π / 4 := by
          rw [hφ, div_le_div_iff₀ (by positivity) (by norm_num)]
          nlinarith
        have hφ2 : 4 * (q * q) * φ ≤ 1 := by
          rw [hφ, ← mul_div_assoc, div_le_iff₀ (by positivity)]
          rw [lt_div_iff₀ (by positivity)] at hy2
          linarith
        have hl := cot_tan_large zero_lt_one hqq.le hφ0 hφ1 hφ2
        have hθ : (y - x0) * π / (2 * w) = π / 2 - φ := by
          rw [hφ, h3.symm]
          field_simp
          ring
        have htan : tan ((y - x0) * π / (2 * w)) = 1 / tan φ := by
          rw [hθ, tan_pi_div_two_sub, one_div]
        have harg : -(2 * attArg q s (tan ((y - x0) * π / (2 * w)))) ≤ -(s / π * (1 / (2 * φ))) := by
          rw [htan]
          unfold attArg
          have h4 : s / π * (1 / (4 * φ)) ≤ s / π * (1 / tan φ - q * q * tan φ) :=
            mul_le_mul_of_nonneg_left hl (by positivity)
          have h5 : s / π * (1 / (2 * φ)) = 2 * (s / π * (1 / (4 * φ))) := by field_simp; ring
          have h6 : q * q / (1 / tan φ) = q * q * tan φ := by rw [div_div_eq_mul_div, div_one]
          rw [h5, h6]
          linarith
        have hb := (sigmoid_le harg).trans (sigmoid_neg_small (t := s / π * (1 / (2 * φ))) (by positivity))
        refine hb.trans (le_of_eq ?_)
        rw [hφ]
        field_simp
        ring
    · have h2 : ¬ x ≤ x0 := not_le.mpr hx
      obtain ⟨a1, a2⟩ := att_angle hw h1 h2
      have hcos : cos ((x - x0) * π / (2 * w)) ≠ 0 := (cos_pos_of_mem_Ioo ⟨by linarith, a2⟩).ne'
      have hsin : sin ((x - x0) * π / (2 * w)) ≠ 0 := (sin_pos_of_pos_of_lt_pi a1 (by linarith)).ne'
      have htan : tan ((x - x0) * π / (2 * w)) ≠ 0 := (tan_pos_of_pos_of_lt_pi_div_two a1 a2).ne'
      have hang : HasDerivAt (fun y : ℝ => (y - x0) * π / (2 * w)) (π / (2 * w)) x := by
        have := (((hasDerivAt_id x).sub_const x0).mul_const π).div_const (2 * w)
        simpa using this
      have ht : HasDerivAt (fun y : ℝ => tan ((y - x0) * π / (2 * w)))
          (1 / cos ((x - x0) * π / (2 * w)) ^ 2 * (π / (2 * w))) x :=
        HasDerivAt.comp x (hasDerivAt_tan hcos) hang
      have harg := (ht.sub ((ht.inv htan).const_mul (q * q))).const_mul (s / π)
      have hfun := ((hasDerivAt_sigmoid _).comp x (harg.const_mul 2))
      refine (hfun.congr_of_eventuallyEq ?_).congr_deriv ?_
      · have hev : ∀ᶠ y in 𝓝 x, x0 < y ∧ y < x0 + w := by
          filter_upwards [Ioi_mem_nhds hx, Iio_mem_nhds (not_le.mp h1)] with y hy1 hy2
          exact ⟨hy1, hy2⟩
        filter_upwards [hev] with y hy
        rw [att_inner (not_le.mpr hy.2) (not_le.mpr hy.1)]
        rfl
      · unfold dAtt0to1
        rw [if_neg h1, if_neg h2]
        have hcomm : π * (x - x0) / (2 * w) = (x - x0) * π / (2 * w) := by ring
        rw [hcomm]
        simp only [Pi.sub_apply, Pi.inv_apply]
        clear ht harg hfun
        generalize (x - x0) * π / (2 * w) = θ at *
        have hg : s * (-(q ^ 2 * (1 / tan θ)) + tan θ) / π = s / π * (tan θ - q * q * (tan θ)⁻¹) := by
          field_simp
          ring
        rw [hg]
        generalize s / π * (tan θ - q * q * (tan θ)⁻¹) = g
        have hsig : sigmoid (2 * g) * (1 - sigmoid (2 * g)) = 1 / 4 * (1 / cosh g) ^ 2 := by
          rw [← step_tanh, tanh_eq_sinh_div_cosh]
          have hc := (cosh_pos g).ne'
          have h3 := cosh_sq g
          field_simp
          linear_combination 4 * h3
        rw [hsig, tan_eq_sin_div_cos]
        generalize cosh g = c
        field_simp
        ring

/-- **C90** (`q = 0`): without `q` the step jumps from 0 to more than 1/2 at `x0`. -/
theorem C90_jump (x0 w s : ℝ) (hw : 0 < w) (hs : 0 < s) :
    att0to1 x0 x0 w 0 s = 0 ∧ (∀ x, x0 < x → 1 / 2 < att0to1 x x0 w 0 s) ∧
    ¬ ContinuousAt (fun x => att0to1 x x0 w 0 s) x0 := by
  have h0 : att0to1 x0 x0 w 0 s = 0 := by
    unfold att0to1; rw [if_neg (by linarith), if_pos le_rfl]
  have hbig : ∀ x, x0 < x → 1 / 2 < att0to1 x x0 w 0 s := by
    intro x hx
    by_cases h1 : x ≥ x0 + w
    · unfold att0to1
      rw [if_pos h1]
      norm_num
    · rw [att_inner h1 (not_le.mpr hx)]
      obtain ⟨a1, a2⟩ := att_angle hw h1 (not_le.mpr hx)
      have ht := tan_pos_of_pos_of_lt_pi_div_two a1 a2
      have : sigmoid 0 < sigmoid (2 * attArg 0 s (tan ((x - x0) * π / (2 * w)))) := by
        apply sigmoid_lt
        unfold attArg
        rw [mul_zero, zero_div, sub_zero]
        have := pi_pos
        positivity
      rw [sigmoid_zero] at this
      rwa [one_div]
  refine ⟨h0, hbig, fun hc => ?_⟩
  have h1 := hc.tendsto
  simp only [h0] at h1
  have h2 : ∀ᶠ x in 𝓝 x0, att0to1 x x0 w 0 s < 1 / 2 := h1.eventually_lt_const (by norm_num)
  obtain ⟨d, hd, hball⟩ := Metric.eventually_nhds_iff.mp h2
  have h3 := hball (y := x0 + d / 2) (by
    rw [Real.dist_eq, add_sub_cancel_left, abs_of_pos (by linarith)]; linarith)
  linarith [hbig (x0 + d / 2) (by linarith)]

/-- **C90** (`Attenuation01`): the values are between 0 and 1, the function rises, it is 1/2 at `p` and has
slope `s` there. -/
theorem C90_01 (s p : ℝ) (hp0 : 0 < p) (hp1 : p < 1) :
    (∀ x, attenuation01 x s p ∈ Icc 0 1) ∧ (0 ≤ s → Monotone (fun x => attenuation01 x s p)) ∧
    attenuation01 p s p = 1 / 2 ∧ HasDerivAt (fun x => attenuation01 x s p) s p := by
  have inner : ∀ {x}, ¬ x ≤ 0 → ¬ x ≥ 1 → attenuation01 x s p =
      sigmoid (2 * (2 * s * p * p * (1 - p) * (-1 / x + ((1 - p) / p) / (1 - x)))) := by
    intro x h1 h2
    unfold attenuation01
    rw [if_neg h1, if_neg h2, ← step_tanh]
    ring
  have range : ∀ x, attenuation01 x s p ∈ Icc 0 1 := by
    intro x
    by_cases h1 : x ≤ 0
    · unfold attenuation01
      rw [if_pos h1]
      exact ⟨le_rfl, zero_le_one⟩
    by_cases h2 : x ≥ 1
    · unfold attenuation01
      rw [if_neg h1, if_pos h2]
      exact ⟨zero_le_one, le_rfl⟩
    rw [inner h1 h2]
    exact ⟨sigmoid_nonneg _, sigmoid_le_one _⟩
  have hp : 0 < 1 - p := by linarith
  have harg0 : -1 / p + ((1 - p) / p) / (1 - p) = 0 := by field_simp; ring
  refine ⟨range, fun hs => ?_, ?_, ?_⟩
  · intro x y hxy
    dsimp only
    by_cases h1 : x ≤ 0
    · have : attenuation01 x s p = 0 := by unfold attenuation01; rw [if_pos h1]
      rw [this]
      exact (range y).1
    by_cases h2 : y ≥ 1
    · have : attenuation01 y s p = 1 := by unfold attenuation01; rw [if_neg (by linarith), if_pos h2]
      rw [this]
      exact (range x).2
    have h3 : ¬ x ≥ 1 := fun h => h2 (by linarith)
    have h4 : ¬ y ≤ 0 := fun h => h1 (by linarith)
    rw [inner h1 h3, inner h4 h2]
    push Not at h1 h2 h3 h4
    apply sigmoid_le
    have e1 : -1 / x ≤ -1 / y := by
      rw [neg_div, neg_div, neg_le_neg_iff]
      exact one_div_le_one_div_of_le h1 hxy
    have e2 : ((1 - p) / p) / (1 - x) ≤ ((1 - p) / p) / (1 - y) :=
      div_le_div_of_nonneg_left (by positivity) (by linarith) (by linarith)
    have e3 : 0 ≤ 2 * s * p * p * (1 - p) := by positivity
    have := mul_le_mul_of_nonneg_left (add_le_add e1 e2) e3
    linarith
  · rw [inner (by linarith) (by linarith), harg0, mul_zero, mul_zero, sigmoid_zero, one_div]
  · have hx : HasDerivAt (fun x : ℝ => 2 * (2 * s * p * p * (1 - p) * (-1 / x + ((1 - p) / p) / (1 - x))))
        (2 * (2 * s * p * p * (1 - p) * (1 / p ^ 2 + ((1 - p) / p) / (1 - p) ^ 2))) p := by
      have h1 := (hasDerivAt_const p (-1 : ℝ)).div (hasDerivAt_id p) hp0.ne'
      have h2 := (hasDerivAt_const p ((1 - p) / p)).div ((hasDerivAt_id p).const_sub 1) hp.ne'
      refine (((h1.add h2).const_mul (2 * s * p * p * (1 - p))).const_mul 2).congr_deriv ?_
      simp only [id]
      ring
    have hsg := (hasDerivAt_sigmoid _).comp p hx
    refine (hsg.congr_of_eventuallyEq ?_).congr_deriv ?_
    · filter_upwards [Ioi_mem_nhds hp0, Iio_mem_nhds hp1] with y h1 h2
      rw [inner (not_le.mpr h1) (not_le.mpr h2)]
      rfl
    · rw [harg0, mul_zero, mul_zero, sigmoid_zero]
      field_simp
      ring

/-! ### Examples -/

/-- The middle of the step with the default parameters. -/
example : att0to1 1 0 2 1 2 = 1 / 2 := by
  unfold att0to1
  rw [if_neg (by norm_num), if_neg (by norm_num)]
  have : ((1 : ℝ) - 0) * π / (2 * 2) = π / 4 := by ring
  rw [this, tan_pi_div_four]
  norm_num

example : att0to1 3 0 2 1 2 = 1 ∧ att1to0 3 0 2 1 2 = 0 := by
  unfold att0to1 att1to0
  constructor <;> rw [if_pos (by norm_num)]

end Sgrid
