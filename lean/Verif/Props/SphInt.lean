import Verif.Model.SphInt
import Verif.Props.StdBox

/-!
# C109: integrals over spheres in the coordinates SphericalDF
-/

namespace Sgrid
open Real Finset

/-! ## Specification -/

/-- The distance of the first point from the pole: `theta = Y + shift`. -/
noncomputable def Spec.thetaShift (N : Nat) : ℝ := if N % 2 = 0 then π / N else π / (2 * N)

/-- `∫ sin(theta) f dtheta` from 0 to π of a function of `Y`. -/
noncomputable def Spec.thetaInt (N : Nat) (f : ℝ → ℝ) : ℝ := ∫ th in (0 : ℝ)..π, sin th * f (th - Spec.thetaShift N)

/-! ## One line -/

theorem int_sin_cos (n : Nat) (hn : n ≠ 1) (p : ℝ) :
    ∫ th in (0 : ℝ)..π, sin th * cos (n * th - p) = if n % 2 = 0 then 2 * cos p / (1 - n ^ 2) else 0 := by
  have h1 : ((n : ℝ) + 1) ≠ 0 := by positivity
  have h2 : ((n : ℝ) - 1) ≠ 0 := by
    intro h
    exact hn (by exact_mod_cast (by linarith : (n : ℝ) = 1))
  rw [intervalIntegral.integral_eq_sub_of_hasDerivAt (f := fun th =>
      -(cos ((n + 1) * th - p) / (2 * (n + 1))) + cos ((n - 1) * th - p) / (2 * (n - 1)))
    (fun th _ => by
      have d1 : HasDerivAt (fun th : ℝ => ((n : ℝ) + 1) * th - p) (n + 1) th := by
        simpa using ((hasDerivAt_id th).const_mul ((n : ℝ) + 1)).sub_const p
      have d2 : HasDerivAt (fun th : ℝ => ((n : ℝ) - 1) * th - p) (n - 1) th := by
        simpa using ((hasDerivAt_id th).const_mul ((n : ℝ) - 1)).sub_const p
      refine (((d1.cos.div_const _).neg).add (d2.cos.div_const _)).congr_deriv ?_
      rw [show ((n : ℝ) + 1) * th - p = (n * th - p) + th by ring, show ((n : ℝ) - 1) * th - p = (n * th - p) - th by ring,
        sin_add, sin_sub (n * th - p) th]
      generalize sin (n * th - p) = A
      generalize cos (n * th - p) = B
      field_simp
      ring)
    ((by fun_prop : Continuous fun th : ℝ => sin th * cos (n * th - p)).intervalIntegrable _ _)]
  have e1 : cos (((n : ℝ) + 1) * π - p) = (if n % 2 = 0 then -1 else 1) * cos p := by
    rw [show ((n : ℝ) + 1) * π - p = ((n + 1 : Nat) : ℝ) * π - p by push_cast; ring, cos_nat_mul_pi_sub, pow_succ]
    split
    · rw [Even.neg_one_pow (Nat.even_iff.2 ‹_›)]; ring
    · rw [Odd.neg_one_pow (Nat.odd_iff.2 (by omega))]; ring
  have e2 : cos (((n : ℝ) - 1) * π - p) = (if n % 2 = 0 then -1 else 1) * cos p := by
    rw [← e1, show ((n : ℝ) + 1) * π - p = (((n : ℝ) - 1) * π - p) + 2 * π by ring, cos_add_two_pi]
  rw [e1, e2, mul_zero, mul_zero, zero_sub, cos_neg]
  have h3 : (1 - (n : ℝ) ^ 2) ≠ 0 := by
    rw [show 1 - (n : ℝ) ^ 2 = -((n + 1) * (n - 1)) by ring]
    exact neg_ne_zero.2 (mul_ne_zero h1 h2)
  split
  · field_simp
    ring
  · ring

theorem int_sin_cos_one (p : ℝ) : ∫ th in (0 : ℝ)..π, sin th * cos (th - p) = π / 2 * sin p := by
  rw [intervalIntegral.integral_eq_sub_of_hasDerivAt (f := fun th => -(cos (2 * th - p) / 4) + sin p * th / 2)
    (fun th _ => by
      have d1 : HasDerivAt (fun th : ℝ => 2 * th - p) 2 th := by
        simpa using ((hasDerivAt_id th).const_mul (2 : ℝ)).sub_const p
      have d2 : HasDerivAt (fun th : ℝ => sin p * th / 2) (sin p / 2) th := by
        simpa using ((hasDerivAt_id th).const_mul (sin p)).div_const 2
      refine (((d1.cos.div_const _).neg).add d2).congr_deriv ?_
      rw [show 2 * th - p = (th - p) + th by ring, sin_add]
      have : sin p = sin th * cos (th - p) - cos th * sin (th - p) := by
        rw [← sin_sub]; ring_nf
      rw [this]
      ring)
    ((by fun_prop : Continuous fun th : ℝ => sin th * cos (th - p)).intervalIntegrable _ _)]
  rw [show 2 * π - p = -p + 2 * π by ring, cos_add_two_pi, mul_zero, zero_sub]
  ring

theorem int_sin_sin (n : Nat) (hn : n ≠ 1) (p : ℝ) :
    ∫ th in (0 : ℝ)..π, sin th * sin (n * th - p) = if n % 2 = 0 then 2 * sin p / (n ^ 2 - 1) else 0 := by
  have h := int_sin_cos n hn (p + π / 2)
  rw [cos_add_pi_div_two] at h
  have e : ∀ th : ℝ, cos (n * th - (p + π / 2)) = sin (n * th - p) := fun th => by
    rw [show (n : ℝ) * th - (p + π / 2) = (n * th - p) - π / 2 by ring, cos_sub_pi_div_two]
  simp only [e] at h
  rw [h]
  split
  · rw [← neg_sub ((n : ℝ) ^ 2) 1, div_neg]
    ring
  · rfl

theorem int_sin_sin_one (p : ℝ) : ∫ th in (0 : ℝ)..π, sin th * sin (th - p) = π / 2 * cos p := by
  have h := int_sin_cos_one (p + π / 2)
  rw [sin_add_pi_div_two] at h
  have e : ∀ th : ℝ, cos (th - (p + π / 2)) = sin (th - p) := fun th => by
    rw [show th - (p + π / 2) = (th - p) - π / 2 by ring, cos_sub_pi_div_two]
  simp only [e] at h
  exact h

theorem odd_even_sum (g : Nat → ℝ) (hg : ∀ k, 3 ≤ k → k % 2 = 1 → g k = 0) (M : Nat) (hM : 2 ≤ M) :
    ∑ k ∈ Ico 1 M, g k = g 1 + ∑ q ∈ Ico 1 ((M + 1) / 2), g (2 * q) := by
  induction M, hM using Nat.le_induction with
  | base => simp
  | succ M hM ih =>
    rw [sum_Ico_succ_top (by omega), ih]
    rcases Nat.mod_two_eq_zero_or_one M with e | e
    · rw [show (M + 1 + 1) / 2 = (M + 1) / 2 + 1 by omega, sum_Ico_succ_top (by omega), show 2 * ((M + 1) / 2) = M by omega]
      ring
    · rw [show (M + 1 + 1) / 2 = (M + 1) / 2 by omega, hg M (by omega) e, add_zero]

theorem thetaInt_series (N : Nat) (c : Nat → ℝ) :
    Spec.thetaInt N (fun Y => Spec.fourSeries 0 (2 * π) c N Y) =
      (2 * c 0 + 2 * ∑ k ∈ Ico 1 ((N + 1) / 2),
        (c (2 * k - 1) * (∫ th in (0 : ℝ)..π, sin th * cos (k * th - k * Spec.thetaShift N)) +
          c (2 * k) * ∫ th in (0 : ℝ)..π, sin th * sin (k * th - k * Spec.thetaShift N)) +
      if N % 2 = 0 then c (N - 1) * ∫ th in (0 : ℝ)..π, sin th * cos ((N / 2 : Nat) * th - (N / 2 : Nat) * Spec.thetaShift N)
        else 0) / N := by
  have hp := pi_pos.ne'
  set δ := Spec.thetaShift N with hδ
  have i1 : ∀ k : Nat, IntervalIntegrable (fun th => sin th * cos (k * th - k * δ)) MeasureTheory.volume 0 π := fun k =>
    (by fun_prop : Continuous fun th : ℝ => sin th * cos (k * th - k * δ)).intervalIntegrable _ _
  have i2 : ∀ k : Nat, IntervalIntegrable (fun th => sin th * sin (k * th - k * δ)) MeasureTheory.volume 0 π := fun k =>
    (by fun_prop : Continuous fun th : ℝ => sin th * sin (k * th - k * δ)).intervalIntegrable _ _
  have i0 : IntervalIntegrable sin MeasureTheory.volume 0 π := continuous_sin.intervalIntegrable _ _
  have e : ∀ th : ℝ, sin th * Spec.fourSeries 0 (2 * π) c N (th - δ) =
      (c 0 * sin th + 2 * ∑ k ∈ Ico 1 ((N + 1) / 2), (c (2 * k - 1) * (sin th * cos (k * th - k * δ)) +
        c (2 * k) * (sin th * sin (k * th - k * δ))) +
      (if N % 2 = 0 then c (N - 1) else 0) * (sin th * cos ((N / 2 : Nat) * th - (N / 2 : Nat) * δ))) * (1 / N) := by
    intro th
    unfold Spec.fourSeries
    have ph : ∀ k : ℝ, k * (2 * π * (th - δ - 0) / (2 * π - 0)) = k * th - k * δ := by
      intro k; rw [sub_zero, sub_zero]; field_simp
    simp only [ph]
    have e2 : ∑ k ∈ Ico 1 ((N + 1) / 2), (c (2 * k - 1) * (sin th * cos (k * th - k * δ)) +
        c (2 * k) * (sin th * sin (k * th - k * δ))) = sin th * ∑ k ∈ Ico 1 ((N + 1) / 2),
        (c (2 * k - 1) * cos (k * th - k * δ) + c (2 * k) * sin (k * th - k * δ)) := by
      rw [mul_sum]
      exact sum_congr rfl fun k _ => by ring
    rw [e2]
    split <;> ring
  unfold Spec.thetaInt
  simp only [← hδ, e]
  have j2 : IntervalIntegrable (fun th => ∑ k ∈ Ico 1 ((N + 1) / 2), (c (2 * k - 1) * (sin th * cos (k * th - k * δ)) +
      c (2 * k) * (sin th * sin (k * th - k * δ)))) MeasureTheory.volume 0 π :=
    (by fun_prop : Continuous fun th : ℝ => ∑ k ∈ Ico 1 ((N + 1) / 2), (c (2 * k - 1) * (sin th * cos (k * th - k * δ)) +
      c (2 * k) * (sin th * sin (k * th - k * δ)))).intervalIntegrable _ _
  rw [intervalIntegral.integral_mul_const, intervalIntegral.integral_add ((i0.const_mul _).add (j2.const_mul _))
      ((i1 _).const_mul _), intervalIntegral.integral_add (i0.const_mul _) (j2.const_mul _),
    intervalIntegral.integral_const_mul, intervalIntegral.integral_const_mul, intervalIntegral.integral_const_mul,
    intervalIntegral.integral_finsetSum (fun k _ => ((i1 k).const_mul _).add ((i2 k).const_mul _)),
    sum_congr rfl fun k _ => by
      rw [intervalIntegral.integral_add ((i1 k).const_mul _) ((i2 k).const_mul _), intervalIntegral.integral_const_mul,
        intervalIntegral.integral_const_mul]]
  rw [integral_sin, cos_zero, cos_pi]
  split <;> ring

/-- **C109.** The sum over the coefficients of a line is the integral over theta, with the factor `sin(theta)`. -/
theorem C109_line (N : Nat) (h3 : 3 ≤ N) (h4 : N % 4 ≠ 1) (c : Nat → ℝ) :
    thetaSum (2 * π) N c = Spec.thetaInt N fun Y => Spec.fourSeries 0 (2 * π) c N Y := by
  have hN : (N : ℝ) ≠ 0 := by positivity
  have hp := pi_pos.ne'
  have hsh : ∀ n : ℝ, 2 * π * n * (1 / (2 * ((1 + N % 2 : Nat) : ℝ) * N)) = n * Spec.thetaShift N := by
    intro n
    unfold Spec.thetaShift
    rcases Nat.mod_two_eq_zero_or_one N with e | e
    · rw [e, if_pos rfl]; push_cast; field_simp
    · rw [e, if_neg (by decide)]; push_cast; field_simp
  have hsh1 : 2 * π * (1 / (2 * ((1 + N % 2 : Nat) : ℝ) * N)) = Spec.thetaShift N := by
    have := hsh 1; rw [mul_one, one_mul] at this; exact this
  rw [thetaInt_series]
  unfold thetaSum
  dsimp only
  simp only [hsh, hsh1]
  set δ := Spec.thetaShift N with hδ
  rw [upLoop_sum, odd_even_sum _ (fun k hk hk2 => by
    rw [int_sin_cos k (by omega), int_sin_sin k (by omega), if_neg (by omega), if_neg (by omega)]; ring) ((N + 1) / 2) (by omega),
    show (N / 2 + 1) / 2 = ((N + 1) / 2 + 1) / 2 by omega]
  have e1 : ∫ th in (0 : ℝ)..π, sin th * cos ((1 : Nat) * th - (1 : Nat) * δ) = π / 2 * sin δ := by
    simp only [Nat.cast_one, one_mul]; exact int_sin_cos_one δ
  have e2 : ∫ th in (0 : ℝ)..π, sin th * sin ((1 : Nat) * th - (1 : Nat) * δ) = π / 2 * cos δ := by
    simp only [Nat.cast_one, one_mul]; exact int_sin_sin_one δ
  rw [e1, e2]
  have e3 : ∀ q ∈ Ico 1 (((N + 1) / 2 + 1) / 2), c (2 * (2 * q) - 1) *
      (∫ th in (0 : ℝ)..π, sin th * cos ((2 * q : Nat) * th - (2 * q : Nat) * δ)) + c (2 * (2 * q)) *
      (∫ th in (0 : ℝ)..π, sin th * sin ((2 * q : Nat) * th - (2 * q : Nat) * δ)) =
      π * (2 * (cos ((2 * q : Nat) * δ) / ((1 - ((2 * q * (2 * q) : Nat) : ℝ)) * π) * c (2 * (2 * q) - 1) +
        sin ((2 * q : Nat) * δ) / ((((2 * q * (2 * q) : Nat) : ℝ) - 1) * π) * c (2 * (2 * q)))) := by
    intro q hq
    have hq1 := (mem_Ico.1 hq).1
    rw [int_sin_cos _ (by omega), int_sin_sin _ (by omega), if_pos (by omega), if_pos (by omega)]
    have hz : (1 - ((2 * q : Nat) : ℝ) ^ 2) ≠ 0 := by
      have : (1 : ℝ) ≤ q := by exact_mod_cast hq1
      push_cast
      nlinarith
    have hz' : (((2 * q : Nat) : ℝ) ^ 2 - 1) ≠ 0 := by
      intro h; exact hz (by linarith)
    rw [show ((2 * q * (2 * q) : Nat) : ℝ) = ((2 * q : Nat) : ℝ) ^ 2 by push_cast; ring]
    field_simp
  rw [sum_congr rfl e3, ← mul_sum _ _ π]
  generalize ∑ q ∈ Ico 1 (((N + 1) / 2 + 1) / 2), (2 * (cos ((2 * q : Nat) * δ) /
    ((1 - ((2 * q * (2 * q) : Nat) : ℝ)) * π) * c (2 * (2 * q) - 1) +
        sin ((2 * q : Nat) * δ) / ((((2 * q * (2 * q) : Nat) : ℝ) - 1) * π) * c (2 * (2 * q)))) = S
  have e4 : (if N % 2 = 0 then c (N - 1) * ∫ th in (0 : ℝ)..π, sin th * cos ((N / 2 : Nat) * th - (N / 2 : Nat) * δ)
        else 0) = if N % 4 = 0 then 2 * (cos ((N / 2 : Nat) * δ) / (1 - ((N * N / 4 : Nat) : ℝ)) * c (N - 1)) else 0 := by
    rcases Nat.mod_two_eq_zero_or_one N with e | e
    · rw [if_pos e, int_sin_cos _ (by omega)]
      by_cases e' : N % 4 = 0
      · rw [if_pos (by omega), if_pos e']
        have : N * N / 4 = (N / 2) ^ 2 := by
          obtain ⟨k, rfl⟩ : ∃ k, N = 2 * k := ⟨N / 2, by omega⟩
          rw [Nat.mul_div_cancel_left _ (by norm_num), show 2 * k * (2 * k) = 4 * k ^ 2 by ring,
            Nat.mul_div_cancel_left _ (by norm_num)]
        rw [this]
        push_cast
        ring
      · rw [if_neg (by omega), if_neg e', mul_zero]
    · rw [if_neg (by omega), if_neg (by omega)]
  rw [e4]
  split
  · field_simp
    ring
  · field_simp
    ring

/-- **C109.** Where the sum misses a term: with five points the loop `n < N/2` does not reach `n = 2`, so the function
`cos(2Y)` of the series is integrated to zero, but its integral is not zero. -/
theorem C109_counterexample : thetaSum (2 * π) 5 (fun j => if j = 3 then 1 else 0) = 0 ∧
    Spec.thetaInt 5 (fun Y => Spec.fourSeries 0 (2 * π) (fun j => if j = 3 then 1 else 0) 5 Y) < 0 := by
  constructor
  · unfold thetaSum
    dsimp only
    rw [upLoop_nil (by norm_num)]
    norm_num
  · rw [thetaInt_series, show Ico 1 ((5 + 1) / 2) = {1, 2} by decide, sum_pair (by norm_num)]
    rw [int_sin_cos 2 (by norm_num)]
    have hδ : Spec.thetaShift 5 = π / 10 := by
      unfold Spec.thetaShift
      norm_num
    have hc : 0 < cos (((2 : Nat) : ℝ) * (π / 10)) := by
      apply cos_pos_of_mem_Ioo
      constructor <;> push_cast <;> linarith [pi_pos]
    rw [hδ]
    norm_num
    push_cast at hc
    linarith

/-! ## The linear functional on the values of a line -/

theorem thetaSum_linear (L : ℝ) (N : Nat) (h3 : 3 ≤ N) : Spec.LineLinear (fun _ c _ _ => thetaSum L N c) N := by
  unfold thetaSum
  simp only [upLoop_sum]
  refine ⟨?_, ?_, ?_⟩
  · intro _ _ u v h i _
    rw [h 0 (by omega), h 1 (by omega), h 2 (by omega), h (N - 1) (by omega),
      sum_congr rfl fun q hq => by
        have := mem_Ico.1 hq
        rw [h (2 * (2 * q) - 1) (by omega), h (2 * (2 * q)) (by omega)]]
  · intro _ u v i _
    have e : ∀ q ∈ Ico 1 ((N / 2 + 1) / 2), 2 * (cos (2 * π * (2 * q : Nat) * (1 / (2 * (1 + N % 2 : Nat) * N))) /
        ((1 - ((2 * q * (2 * q) : Nat) : ℝ)) * π) * (u (2 * (2 * q) - 1) + v (2 * (2 * q) - 1)) +
        sin (2 * π * (2 * q : Nat) * (1 / (2 * (1 + N % 2 : Nat) * N))) / ((((2 * q * (2 * q) : Nat) : ℝ) - 1) * π) *
          (u (2 * (2 * q)) + v (2 * (2 * q)))) =
        2 * (cos (2 * π * (2 * q : Nat) * (1 / (2 * (1 + N % 2 : Nat) * N))) /
        ((1 - ((2 * q * (2 * q) : Nat) : ℝ)) * π) * u (2 * (2 * q) - 1) +
        sin (2 * π * (2 * q : Nat) * (1 / (2 * (1 + N % 2 : Nat) * N))) / ((((2 * q * (2 * q) : Nat) : ℝ) - 1) * π) *
          u (2 * (2 * q))) +
        2 * (cos (2 * π * (2 * q : Nat) * (1 / (2 * (1 + N % 2 : Nat) * N))) /
        ((1 - ((2 * q * (2 * q) : Nat) : ℝ)) * π) * v (2 * (2 * q) - 1) +
        sin (2 * π * (2 * q : Nat) * (1 / (2 * (1 + N % 2 : Nat) * N))) / ((((2 * q * (2 * q) : Nat) : ℝ) - 1) * π) *
          v (2 * (2 * q))) := by
      intro q _; ring
    rw [sum_congr rfl e, sum_add_distrib]
    split <;> ring
  · intro _ s u i _
    have e : ∀ q ∈ Ico 1 ((N / 2 + 1) / 2), 2 * (cos (2 * π * (2 * q : Nat) * (1 / (2 * (1 + N % 2 : Nat) * N))) /
        ((1 - ((2 * q * (2 * q) : Nat) : ℝ)) * π) * (s * u (2 * (2 * q) - 1)) +
        sin (2 * π * (2 * q : Nat) * (1 / (2 * (1 + N % 2 : Nat) * N))) / ((((2 * q * (2 * q) : Nat) : ℝ) - 1) * π) *
          (s * u (2 * (2 * q)))) =
        s * (2 * (cos (2 * π * (2 * q : Nat) * (1 / (2 * (1 + N % 2 : Nat) * N))) /
        ((1 - ((2 * q * (2 * q) : Nat) : ℝ)) * π) * u (2 * (2 * q) - 1) +
        sin (2 * π * (2 * q : Nat) * (1 / (2 * (1 + N % 2 : Nat) * N))) / ((((2 * q * (2 * q) : Nat) : ℝ) - 1) * π) *
          u (2 * (2 * q)))) := by
      intro q _; ring
    rw [sum_congr rfl e, ← mul_sum]
    split <;> ring

/-- The boxes of the coordinates SphericalDF: Fourier in direction 2 over a full circle, with a number of points for which
the sum over the coefficients is complete. -/
structure Spec.SphBox (D : Axis → BDir) : Prop where
  good : ∀ ax, (D ax).good
  four : (D .two).kind = .fourier
  a0 : (D .two).a = 0
  b0 : (D .two).b = 2 * π
  n3 : 3 ≤ (D .two).n
  n4 : (D .two).n % 4 ≠ 1

theorem theta_exact (D : Axis → BDir) (hD : Spec.SphBox D) (fft : Axis → Bool) (W F : Axis → Nat → ℝ) :
    Exact1 (D .two).n (D .two).point (D .two).space
      (fun v => thetaSum (2 * π) (D .two).n (coeffsOp (stdBox D fft W F) .two v)) (Spec.thetaInt (D .two).n) := by
  have hlen : (stdBox D fft W F).d.len .two = (D .two).n := dirDims_len D .two
  have hn := (hD.good .two).2.1
  have hlin := thetaSum_linear (2 * π) (D .two).n hD.n3
  constructor
  · obtain ⟨B, hB⟩ := (lineLinear_iff _ _).1 hlin
    obtain ⟨A, hA⟩ := coeffsOp_isMat (stdBox_linear D fft W F .two)
    rw [hlen] at hA
    refine ⟨fun j => ∑ k ∈ range (D .two).n, B 0 k * A k j, fun u => ?_⟩
    refine (hB (fun _ => 0) (coeffsOp (stdBox D fft W F) .two u) 0 hn).trans ?_
    have e : ∀ k ∈ range (D .two).n, B 0 k * coeffsOp (stdBox D fft W F) .two u k =
        ∑ j ∈ range (D .two).n, B 0 k * A k j * u j := by
      intro k hk
      rw [hA u k (mem_range.1 hk), mul_sum]
      exact sum_congr rfl fun j _ => by ring
    rw [sum_congr rfl e, sum_comm]
    exact sum_congr rfl fun j _ => by rw [sum_mul]
  · intro f hf
    have hc : ∀ i, i < (D .two).n → ∀ u, coeffsOp (stdBox D fft W F) .two u i =
        fourCoeffs (fun _ => 0) u ((D .two).n - 1) i := by
      intro i hi u
      rw [stdBox_coeffsOp D fft W F .two u (fun _ => 0) i hi]
      unfold BDir.coeffs
      rw [hD.four]
    have hs : ∃ c, f = fun X => Spec.fourSeries 0 (2 * π) c (D .two).n X := by
      unfold BDir.space at hf
      rw [hD.four, hD.a0, hD.b0] at hf
      exact hf
    obtain ⟨c, rfl⟩ := hs
    rw [← C109_line (D .two).n hD.n3 hD.n4 c]
    refine hlin.loc (fun _ => 0) (fun _ => 0) _ _ (fun i hi => ?_) 0 hn
    rw [hc i hi]
    refine fourier_series 0 (2 * π) (by positivity) (D .two).n hn c _ _ (fun j hj => ?_) i hi
    unfold BDir.point
    rw [hD.four, hD.a0, hD.b0]

/-! ## The loops -/

theorem sphLine_at (d : Dims) (L : ℝ) (X U : Nat) (hX : X ≠ U) (i k : Nat) (hi : i < d.n1) (hk : k < d.n3)
    (mem : Arrays ℝ) :
    (∀ i' j' k', Spec.inBox d i' j' k' → Spec.view d (sphLine d L X U i k mem) U i' j' k' =
      if i' = i ∧ k' = k then thetaSum L d.n2 (fun j => Spec.view d mem U i' j k') * Spec.view d mem X i' j' k' *
        Spec.view d mem X i' j' k' else Spec.view d mem U i' j' k') ∧
    ∀ a p, a ≠ U ∨ d.n1 * d.n2 * d.n3 ≤ p → sphLine d L X U i k mem a p = mem a p := by
  have key : ∀ S : ℝ, ∀ m ≤ d.n2, ∀ mem' : Arrays ℝ, mem' = upLoop 0 m (fun j mem => aset mem U (aset (mem U) (d.idx i j k)
      (S * mem X (d.idx i j k) * mem X (d.idx i j k)))) mem →
      (∀ a, a ≠ U → mem' a = mem a) ∧
      (∀ j, j < m → mem' U (d.idx i j k) = S * mem X (d.idx i j k) * mem X (d.idx i j k)) ∧
      ∀ p, (∀ j, j < m → p ≠ d.idx i j k) → mem' U p = mem U p := by
    intro S m
    induction m with
    | zero =>
      intro _ mem' h
      rw [upLoop_nil (le_refl 0)] at h
      subst h
      exact ⟨fun _ _ => rfl, fun j hj => by omega, fun _ _ => rfl⟩
    | succ m ih =>
      intro hm mem' h
      rw [upLoop_succ (Nat.zero_le m)] at h
      obtain ⟨h1, h2, h3⟩ := ih (by omega) _ rfl
      subst h
      refine ⟨fun a ha => by rw [aset_ne _ _ ha, h1 a ha], fun j hj => ?_, fun p hp => ?_⟩
      · rw [aset_self]
        by_cases e : j = m
        · subst e
          rw [aset_self, h1 X hX]
        · have hj' : j < m := by omega
          rw [aset_ne _ _ (fun h => e (idx_inj hi hi (by omega) (by omega) h).2.1), h2 j hj']
      · rw [aset_self, aset_ne _ _ (hp m (by omega)), h3 p fun j hj => hp j (by omega)]
  obtain ⟨h1, h2, h3⟩ := key (thetaSum L d.n2 fun j => mem U (d.idx i j k)) d.n2 (le_refl _) _ rfl
  unfold sphLine Spec.view
  dsimp only
  refine ⟨fun i' j' k' hb => ?_, fun a p hap => ?_⟩
  · by_cases e : i' = i ∧ k' = k
    · rw [if_pos e]
      obtain ⟨rfl, rfl⟩ := e
      exact h2 j' hb.2.1
    · rw [if_neg e]
      exact h3 _ fun j hj h => e ⟨(idx_inj hb.1 hi hb.2.1 hj h).1, (idx_inj hb.1 hi hb.2.1 hj h).2.2⟩
  · by_cases ha : a = U
    · subst ha
      have hp : d.n1 * d.n2 * d.n3 ≤ p := by
        rcases hap with h | h
        · exact absurd rfl h
        · exact h
      refine h3 p fun j hj h => ?_
      have := idx_lt (d := d) (i := i) (j := j) (k := k) ⟨hi, hj, hk⟩
      omega
    · rw [h1 a ha]

/-- What the loops over lines leave: the lines that were visited hold the integral times `X^2`. -/
structure SphDone (d : Dims) (L : ℝ) (X U : Nat) (done : Nat → Nat → Prop) (mem mem' : Arrays ℝ) : Prop where
  yes : ∀ i j k, Spec.inBox d i j k → done i k → Spec.view d mem' U i j k =
    thetaSum L d.n2 (fun j => Spec.view d mem U i j k) * Spec.view d mem X i j k * Spec.view d mem X i j k
  no : ∀ i j k, Spec.inBox d i j k → ¬done i k → Spec.view d mem' U i j k = Spec.view d mem U i j k
  other : ∀ a p, a ≠ U ∨ d.n1 * d.n2 * d.n3 ≤ p → mem' a p = mem a p

theorem SphDone.zero (d : Dims) (L : ℝ) (X U : Nat) (done : Nat → Nat → Prop) (h : ∀ i k, i < d.n1 → k < d.n3 → ¬done i k)
    (mem : Arrays ℝ) : SphDone d L X U done mem mem :=
  ⟨fun i j k hb hd => absurd hd (h i k hb.1 hb.2.2), fun _ _ _ _ _ => rfl, fun _ _ _ => rfl⟩

theorem SphDone.step {d : Dims} {L : ℝ} {X U : Nat} (hX : X ≠ U) (h3 : 3 ≤ d.n2) {done done' : Nat → Nat → Prop}
    {mem mem' : Arrays ℝ} (h : SphDone d L X U done mem mem') {i k : Nat} (hi : i < d.n1) (hk : k < d.n3)
    (hn : ¬done i k) (hd : ∀ i' k', i' < d.n1 → k' < d.n3 → (done' i' k' ↔ done i' k' ∨ (i' = i ∧ k' = k))) :
    SphDone d L X U done' mem (sphLine d L X U i k mem') := by
  obtain ⟨l1, l2⟩ := sphLine_at d L X U hX i k hi hk mem'
  have eX : ∀ i j k, Spec.view d mem' X i j k = Spec.view d mem X i j k := fun _ _ _ => h.other X _ (Or.inl hX)
  have lin := thetaSum_linear L d.n2 h3
  refine ⟨fun i' j' k' hb hy => ?_, fun i' j' k' hb hy => ?_, fun a p hap => by rw [l2 a p hap, h.other a p hap]⟩
  · rw [l1 i' j' k' hb]
    by_cases e : i' = i ∧ k' = k
    · rw [if_pos e, eX]
      have : thetaSum L d.n2 (fun j => Spec.view d mem' U i' j k') = thetaSum L d.n2 (fun j => Spec.view d mem U i' j k') := by
        refine lin.loc (fun _ => 0) (fun _ => 0) _ _ (fun j hj => ?_) 0 (by omega)
        refine h.no i' j k' ⟨hb.1, hj, hb.2.2⟩ ?_
        rw [e.1, e.2]
        exact hn
      rw [this]
    · rw [if_neg e]
      exact h.yes i' j' k' hb (((hd i' k' hb.1 hb.2.2).1 hy).resolve_right e)
  · rw [l1 i' j' k' hb, if_neg fun e => hy ((hd i' k' hb.1 hb.2.2).2 (Or.inr e))]
    exact h.no i' j' k' hb fun hh => hy ((hd i' k' hb.1 hb.2.2).2 (Or.inl hh))

theorem sphLoop_all (d : Dims) (L : ℝ) (X U : Nat) (hX : X ≠ U) (h3 : 3 ≤ d.n2) (mem : Arrays ℝ) :
    SphDone d L X U (fun _ _ => True) mem
      (upLoop 0 d.n3 (fun k mem => upLoop 0 d.n1 (fun i mem => sphLine d L X U i k mem) mem) mem) := by
  have h := upLoop_inv (Nat.zero_le d.n3) (body := fun k mem => upLoop 0 d.n1 (fun i mem => sphLine d L X U i k mem) mem)
    (s := mem) (fun k m => SphDone d L X U (fun _ k' => k' < k) mem m) (SphDone.zero _ _ _ _ _ (by intros; omega) _) ?_
  · exact ⟨fun i j k hb _ => h.yes i j k hb hb.2.2, fun i j k hb hn => absurd trivial hn, h.other⟩
  · intro k m _ hk hm
    have h' := upLoop_inv (Nat.zero_le d.n1) (body := fun i mem => sphLine d L X U i k mem) (s := m)
      (fun i m => SphDone d L X U (fun i' k' => k' < k ∨ (k' = k ∧ i' < i)) mem m) ?_ ?_
    · exact ⟨fun i j k' hb hd => h'.yes i j k' hb (by have := hb.1; omega),
        fun i j k' hb hn => h'.no i j k' hb (by omega), h'.other⟩
    · exact ⟨fun i j k' hb hd => hm.yes i j k' hb (by omega), fun i j k' hb hn => hm.no i j k' hb (by omega), hm.other⟩
    · intro i m' _ hi hm'
      exact hm'.step hX h3 hi hk (by omega) (by intros; omega)

theorem sphLoop_at (d : Dims) (L : ℝ) (X U i : Nat) (hX : X ≠ U) (h3 : 3 ≤ d.n2) (hi : i < d.n1) (mem : Arrays ℝ) :
    SphDone d L X U (fun i' _ => i' = i) mem (upLoop 0 d.n3 (fun k mem => sphLine d L X U i k mem) mem) := by
  have h := upLoop_inv (Nat.zero_le d.n3) (body := fun k mem => sphLine d L X U i k mem)
    (s := mem) (fun k m => SphDone d L X U (fun i' k' => i' = i ∧ k' < k) mem m) (SphDone.zero _ _ _ _ _ (by intros; omega) _) ?_
  · exact ⟨fun i j k hb hd => h.yes i j k hb ⟨hd, hb.2.2⟩, fun i j k hb hn => h.no i j k hb fun hh => hn hh.1, h.other⟩
  · intro k m _ hk hm
    exact hm.step hX h3 hi hk (by omega) (by intros; omega)

/-! ## Integrals over spheres -/

/-- `∫_0^π dθ ∫ dφ sin θ P(r, θ, φ)`, where `P` is a function of `Y = θ - shift`. -/
noncomputable def Spec.sphereInt (D : Axis → BDir) (P : ℝ → ℝ → ℝ → ℝ) (r : ℝ) : ℝ :=
  Spec.thetaInt (D .two).n fun Y => ∫ Z in (D .three).a..(D .three).b, P r Y Z

variable (g : Nat → (Nat → ℝ) × (Nat → ℝ) × (Nat → ℝ))

/-- The integral over phi and the coefficients in direction 2. -/
theorem sph_first (D : Axis → BDir) (hD : Spec.SphBox D) (fft : Axis → Bool) (W F : Axis → Nat → ℝ) (u U : Nat)
    (mem : Arrays ℝ) :
    ∃ m1, specIntegral1 g (stdBox D fft W F) (fun ax => (D ax).method) (fun ax => (D ax).a) (fun ax => (D ax).b) .three u U
        mem = .ok m1 ∧
      (∀ i j k, Spec.inBox (dirDims D) i j k →
        Spec.view (dirDims D) (specAnalysis1 g (stdBox D fft W F) .two U U m1) U i j k =
          coeffsOp (stdBox D fft W F) .two (fun j => lineInt D (stdBox D fft W F) .three
            fun k => Spec.view (dirDims D) mem u i j k) j) ∧
      ∀ a p, a ≠ U ∨ (dirDims D).n1 * (dirDims D).n2 * (dirDims D).n3 ≤ p →
        specAnalysis1 g (stdBox D fft W F) .two U U m1 a p = mem a p := by
  obtain ⟨m1, r1, a1⟩ := stdBox_integral1 g D hD.good fft W F .three u U mem
  have a2 := C41_analysis g (stdBox D fft W F) .two (stdBox_linear D fft W F .two) U U m1
  refine ⟨m1, r1, fun i j k hb => ?_, fun a p hap => by rw [a2.2 a p hap, a1.2 a p hap]⟩
  refine (a2.1 i j k hb).trans ?_
  exact coeffsOp_local (stdBox_linear D fft W F .two) _ _ (fun j' hj' => a1.1 i j' k ⟨hb.1, hj', hb.2.2⟩) j hb.2.1

theorem sph_value (D : Axis → BDir) (hD : Spec.SphBox D) (fft : Axis → Bool) (W F : Axis → Nat → ℝ) (X u U : Nat)
    (mem m1 m2 : Arrays ℝ) (done : Nat → Nat → Prop) (hX : X ≠ U)
    (hr : ∀ i j k, Spec.inBox (dirDims D) i j k → Spec.view (dirDims D) mem X i j k = (D .one).point i)
    (P : ℝ → ℝ → ℝ → ℝ) (p2 : ∀ x z, (D .two).space fun y => P x y z) (p3 : ∀ x y, (D .three).space fun z => P x y z)
    (hu : ∀ i j k, Spec.inBox (dirDims D) i j k → Spec.view (dirDims D) mem u i j k =
      P ((D .one).point i) ((D .two).point j) ((D .three).point k))
    (h1 : ∀ i j k, Spec.inBox (dirDims D) i j k → Spec.view (dirDims D) m1 U i j k =
      coeffsOp (stdBox D fft W F) .two (fun j => lineInt D (stdBox D fft W F) .three
        fun k => Spec.view (dirDims D) mem u i j k) j)
    (h1' : ∀ a p, a ≠ U ∨ (dirDims D).n1 * (dirDims D).n2 * (dirDims D).n3 ≤ p → m1 a p = mem a p)
    (h2 : SphDone (dirDims D) (2 * π) X U done m1 m2) (i j k : Nat) (hb : Spec.inBox (dirDims D) i j k) (hd : done i k) :
    Spec.view (dirDims D) m2 U i j k = (D .one).point i ^ 2 * Spec.sphereInt D P ((D .one).point i) := by
  have lin := thetaSum_linear (2 * π) (D .two).n hD.n3
  have hlen : (stdBox D fft W F).d.len .two = (D .two).n := dirDims_len D .two
  rw [h2.yes i j k hb hd]
  have eX : Spec.view (dirDims D) m1 X i j k = (D .one).point i := by
    rw [← hr i j k hb]
    exact h1' X _ (Or.inl hX)
  have e : thetaSum (2 * π) (dirDims D).n2 (fun j => Spec.view (dirDims D) m1 U i j k) =
      Spec.sphereInt D P ((D .one).point i) := by
    have q := exact2 (stdBox_quad D hD.good fft W F .three) (theta_exact D hD fft W F) (D .two).space_closed
      (P := fun z y => P ((D .one).point i) y z) (fun y => p3 _ y) (fun z => p2 _ z)
    refine Eq.trans ?_ q
    refine lin.loc (fun _ => 0) (fun _ => 0) _ _ (fun j' hj' => ?_) 0 (hD.good .two).2.1
    rw [h1 i j' k ⟨hb.1, hj', hb.2.2⟩]
    refine coeffsOp_local (stdBox_linear D fft W F .two) _ _ (fun j'' hj'' => ?_) j' (by rw [hlen]; exact hj')
    rw [hlen] at hj''
    exact lineInt_local D hD.good fft W F .three _ _ fun k' hk' => hu i j'' k' ⟨hb.1, hj'', hk'⟩
  rw [e, eX]
  ring

theorem SphBox.method {D : Axis → BDir} (hD : Spec.SphBox D) : (D .two).method = .four := by
  unfold BDir.method
  rw [hD.four]

/-- **C109.** `spec_sphericalDF2dIntegral` writes, at each point of the box, `r^2 ∫_0^π sin θ ∫ P dφ dθ` on the sphere through
the point, if `P` is a Fourier series in `Y` and in the space of direction 3 as function of `Z`. Nothing else changes. -/
theorem C109_sphere (D : Axis → BDir) (hD : Spec.SphBox D) (fft : Axis → Bool) (W F : Axis → Nat → ℝ) (X u U : Nat)
    (mem : Arrays ℝ) (hX : X ≠ U)
    (hr : ∀ i j k, Spec.inBox (dirDims D) i j k → Spec.view (dirDims D) mem X i j k = (D .one).point i)
    (P : ℝ → ℝ → ℝ → ℝ) (p2 : ∀ x z, (D .two).space fun y => P x y z) (p3 : ∀ x y, (D .three).space fun z => P x y z)
    (hu : ∀ i j k, Spec.inBox (dirDims D) i j k → Spec.view (dirDims D) mem u i j k =
      P ((D .one).point i) ((D .two).point j) ((D .three).point k)) :
    ∃ mem', sphIntegral2d g (stdBox D fft W F) (fun ax => (D ax).method) (fun ax => (D ax).a) (fun ax => (D ax).b) X u U
        mem = .ok mem' ∧
      (∀ i j k, Spec.inBox (dirDims D) i j k → Spec.view (dirDims D) mem' U i j k =
        (D .one).point i ^ 2 * Spec.sphereInt D P ((D .one).point i)) ∧
      ∀ a p, a ≠ U ∨ (dirDims D).n1 * (dirDims D).n2 * (dirDims D).n3 ≤ p → mem' a p = mem a p := by
  obtain ⟨m1, r1, h1, h1'⟩ := sph_first g D hD fft W F u U mem
  have h2 := sphLoop_all (dirDims D) (2 * π) X U hX hD.n3 (specAnalysis1 g (stdBox D fft W F) .two U U m1)
  refine ⟨_, ?_, fun i j k hb => sph_value D hD fft W F X u U mem _ _ _ hX hr P p2 p3 hu h1 h1' h2 i j k hb trivial,
    fun a p hap => by rw [h2.other a p hap, h1' a p hap]⟩
  unfold sphIntegral2d
  rw [r1, Res.bind_ok]
  dsimp only
  rw [if_pos (SphBox.method hD), hD.a0, hD.b0, sub_zero]
  rfl

/-- **C109.** `spec_sphericalDF2dIntegral_at_radial_index_i` writes the same on the sphere `i`. -/
theorem C109_at (D : Axis → BDir) (hD : Spec.SphBox D) (fft : Axis → Bool) (W F : Axis → Nat → ℝ) (X u U i : Nat)
    (mem : Arrays ℝ) (hX : X ≠ U) (hi : i < (D .one).n)
    (hr : ∀ i j k, Spec.inBox (dirDims D) i j k → Spec.view (dirDims D) mem X i j k = (D .one).point i)
    (P : ℝ → ℝ → ℝ → ℝ) (p2 : ∀ x z, (D .two).space fun y => P x y z) (p3 : ∀ x y, (D .three).space fun z => P x y z)
    (hu : ∀ i j k, Spec.inBox (dirDims D) i j k → Spec.view (dirDims D) mem u i j k =
      P ((D .one).point i) ((D .two).point j) ((D .three).point k)) :
    ∃ mem', sphIntegral2dAt g (stdBox D fft W F) (fun ax => (D ax).method) (fun ax => (D ax).a) (fun ax => (D ax).b) X u U i
        mem = .ok mem' ∧
      (∀ j k, Spec.inBox (dirDims D) i j k → Spec.view (dirDims D) mem' U i j k =
        (D .one).point i ^ 2 * Spec.sphereInt D P ((D .one).point i)) ∧
      ∀ a p, a ≠ U ∨ (dirDims D).n1 * (dirDims D).n2 * (dirDims D).n3 ≤ p → mem' a p = mem a p := by
  obtain ⟨m1, r1, h1, h1'⟩ := sph_first g D hD fft W F u U mem
  have h2 := sphLoop_at (dirDims D) (2 * π) X U i hX hD.n3 hi (specAnalysis1 g (stdBox D fft W F) .two U U m1)
  refine ⟨_, ?_, fun j k hb => sph_value D hD fft W F X u U mem _ _ _ hX hr P p2 p3 hu h1 h1' h2 i j k hb rfl,
    fun a p hap => by rw [h2.other a p hap, h1' a p hap]⟩
  unfold sphIntegral2dAt
  rw [r1, Res.bind_ok]
  dsimp only
  rw [if_pos (SphBox.method hD), hD.a0, hD.b0, sub_zero]
  rfl

theorem thetaInt_mul (N : Nat) (s : ℝ) (f : ℝ → ℝ) : Spec.thetaInt N (fun Y => s * f Y) = s * Spec.thetaInt N f := by
  unfold Spec.thetaInt
  rw [← intervalIntegral.integral_const_mul]
  congr 1
  funext th
  ring

/-- **C109.** `spec_sphericalDF3dIntegral` returns `∫ r^2 ∫_0^π sin θ ∫ P dφ dθ dr`, if `r^2 P` is in the space of the radial
direction; on return all points of `U` hold this number. -/
theorem C109_volume (D : Axis → BDir) (hD : Spec.SphBox D) (fft : Axis → Bool) (W F : Axis → Nat → ℝ) (X u U : Nat)
    (mem : Arrays ℝ) (hX : X ≠ U)
    (hr : ∀ i j k, Spec.inBox (dirDims D) i j k → Spec.view (dirDims D) mem X i j k = (D .one).point i)
    (P : ℝ → ℝ → ℝ → ℝ) (p1 : ∀ y z, (D .one).space fun x => x ^ 2 * P x y z)
    (p2 : ∀ x z, (D .two).space fun y => P x y z) (p3 : ∀ x y, (D .three).space fun z => P x y z)
    (hu : ∀ i j k, Spec.inBox (dirDims D) i j k → Spec.view (dirDims D) mem u i j k =
      P ((D .one).point i) ((D .two).point j) ((D .three).point k)) :
    ∃ mem', sphIntegral3d g (stdBox D fft W F) (fun ax => (D ax).method) (fun ax => (D ax).a) (fun ax => (D ax).b) X u U
        mem = .ok (mem', ∫ r in (D .one).a..(D .one).b, r ^ 2 * Spec.sphereInt D P r) ∧
      (∀ i j k, Spec.inBox (dirDims D) i j k → Spec.view (dirDims D) mem' U i j k =
        ∫ r in (D .one).a..(D .one).b, r ^ 2 * Spec.sphereInt D P r) ∧
      ∀ a p, a ≠ U ∨ (dirDims D).n1 * (dirDims D).n2 * (dirDims D).n3 ≤ p → mem' a p = mem a p := by
  obtain ⟨m1, r1, v1, o1⟩ := C109_sphere g D hD fft W F X u U mem hX hr P p2 p3 hu
  obtain ⟨m2, r2, a2⟩ := stdBox_integral1 g D hD.good fft W F .one U U m1
  have q3 := stdBox_quad D hD.good fft W F .three
  have q2 := theta_exact D hD fft W F
  have q1 := stdBox_quad D hD.good fft W F .one
  have scale : ∀ (E : BDir) (s : ℝ) (f : ℝ → ℝ), E.space f → E.space fun t => s * f t := by
    intro E s f hf
    have := E.space_closed 1 (fun _ => s) (fun _ => f) (fun _ => hf)
    simpa using this
  have q := exact3 q3 q2 q1 (D .two).space_closed (D .one).space_closed (P := fun z y x => x ^ 2 * P x y z)
    ⟨fun y x => scale _ _ _ (p3 x y), fun z x => scale _ _ _ (p2 x z), fun z y => p1 y z⟩
  have hv : ∀ i j k, Spec.inBox (dirDims D) i j k → Spec.view (dirDims D) m2 U i j k =
      ∫ r in (D .one).a..(D .one).b, r ^ 2 * Spec.sphereInt D P r := by
    intro i j k hb
    rw [a2.1 i j k hb]
    have e2 : ∀ x, (Spec.thetaInt (D .two).n fun Y => ∫ Z in (D .three).a..(D .three).b, x ^ 2 * P x Y Z) =
        x ^ 2 * Spec.sphereInt D P x := by
      intro x
      simp only [intervalIntegral.integral_const_mul]
      exact thetaInt_mul _ _ _
    simp only [e2] at q
    rw [← q]
    refine lineInt_local D hD.good fft W F .one _ _ fun i' hi' => ?_
    rw [v1 i' j k ⟨hi', hb.2⟩, ← e2]
    refine (exact2 q3 q2 (D .two).space_closed (P := fun z y => (D .one).point i' ^ 2 * P ((D .one).point i') y z)
      (fun y => scale _ _ _ (p3 _ y)) (fun z => scale _ _ _ (p2 _ z))).symm
  refine ⟨m2, ?_, hv, fun a p hap => by rw [a2.2 a p hap, o1 a p hap]⟩
  unfold sphIntegral3d
  rw [r1, Res.bind_ok, r2, Res.bind_ok]
  have h0 := hv 0 0 0 ⟨(hD.good .one).2.1, (hD.good .two).2.1, (hD.good .three).2.1⟩
  rw [← h0]
  simp [Spec.view]

/-- **C109.** The routines stop if direction 2 is not Fourier, or if direction 3 has no integration. -/
theorem C109_abort (b : LBox ℝ) (meth : Axis → IMethod) (lo hi : Axis → ℝ) (X u U i : Nat) (mem : Arrays ℝ)
    (h : meth .two ≠ .four ∨ meth .three = .none) :
    sphIntegral2d g b meth lo hi X u U mem = .abort ∧ sphIntegral3d g b meth lo hi X u U mem = .abort ∧
      sphIntegral2dAt g b meth lo hi X u U i mem = .abort := by
  have key : specIntegral1 g b meth lo hi .three u U mem = .abort ∨
      ∃ m, specIntegral1 g b meth lo hi .three u U mem = .ok m ∧ meth .two ≠ .four := by
    unfold specIntegral1
    cases e : meth .three with
    | none => exact Or.inl rfl
    | four => exact Or.inr ⟨_, rfl, h.resolve_right (by rw [e]; decide)⟩
    | cheb => exact Or.inr ⟨_, rfl, h.resolve_right (by rw [e]; decide)⟩
  unfold sphIntegral3d sphIntegral2d sphIntegral2dAt
  rcases key with k | ⟨m, k, hm⟩
  · rw [k]
    exact ⟨rfl, rfl, rfl⟩
  · rw [k]
    simp only [Res.bind_ok, if_neg hm]
    exact ⟨trivial, rfl, trivial⟩

/-- Four points in theta, the function 1 (coefficients 4, 0, 0, 0): the integral of `sin θ` is 2. -/
example : thetaSum (2 * π) 4 (fun j => if j = 0 then 4 else 0) = 2 := by
  rw [C109_line 4 (by norm_num) (by norm_num), thetaInt_series]
  rw [show Ico 1 ((4 + 1) / 2) = {1} by decide]
  norm_num

/-- A box with 4 points in theta and phi, and three Chebyshev points in the radius. -/
example : Spec.SphBox fun ax => match ax with
    | .one => ⟨.extrema, 1, 3, 3⟩
    | .two => ⟨.fourier, 0, 2 * π, 4⟩
    | .three => ⟨.fourier, 0, 2 * π, 4⟩ where
  good ax := by
    cases ax
    · exact ⟨by norm_num, by norm_num, fun _ => by norm_num⟩
    · exact ⟨by positivity, by norm_num, fun h => by cases h⟩
    · exact ⟨by positivity, by norm_num, fun h => by cases h⟩
  four := rfl
  a0 := rfl
  b0 := rfl
  n3 := by norm_num
  n4 := by norm_num

/-- The area of the sphere of radius `r` in this box: `r^2 sphereInt 1 = 4 π r^2`. -/
example (D : Axis → BDir) (h3 : (D .three).a = 0) (h4 : (D .three).b = 2 * π) (r : ℝ) :
    r ^ 2 * Spec.sphereInt D (fun _ _ _ => 1) r = 4 * π * r ^ 2 := by
  unfold Spec.sphereInt Spec.thetaInt
  rw [h3, h4]
  simp only [intervalIntegral.integral_const, smul_eq_mul, mul_one, sub_zero, intervalIntegral.integral_mul_const,
    integral_sin, cos_zero, cos_pi]
  ring

end Sgrid
