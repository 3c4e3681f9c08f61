import Verif.Lemmas.Cosft
import Verif.Props.Fourier
import Verif.Props.Cheb
import Verif.Props.Utilities

/-!
# C102: fast Fourier transforms

The functions `numrec_...` of FFTs_for_sgrid.c compute the sums they stand for if the number of points is a power of
two, and the line routines made of them give the same arrays as the ones in explicit_Four_trafos.c and
explicit_Cheb_trafos.c.
-/

namespace Sgrid
open Real Finset

theorem exp_cis (x : ℝ) : Complex.exp (x * Complex.I) = cis x := by
  rw [Complex.exp_mul_I]
  apply Complex.ext <;> simp [cis, ← Complex.ofReal_cos, ← Complex.ofReal_sin]

/-- **C102.** `numrec_four1`: the k-th complex number is the sum of `data_j exp(isign 2πi jk/nn)`; nothing else is
written. -/
theorem C102_four1 (p : Nat) (isign : Int) (hs : isign = 1 ∨ isign = -1) (data : Nat → ℝ) :
    (∀ k, k < 2 ^ p → ((four1 data (2 ^ p) isign (2 * k + 1) : ℝ) : ℂ) +
        (four1 data (2 ^ p) isign (2 * k + 2) : ℝ) * Complex.I =
      ∑ j ∈ range (2 ^ p), ((data (2 * j + 1) : ℂ) + data (2 * j + 2) * Complex.I) *
        Complex.exp (isign * (2 * π * Complex.I) * (j * k) / 2 ^ p)) ∧
    ∀ i, i = 0 ∨ 2 * 2 ^ p < i → four1 data (2 ^ p) isign i = data i := by
  obtain ⟨h0, h1, h2⟩ := four1_eq isign hs p data
  refine ⟨fun k hk => ?_, ?_⟩
  · rw [← cx_add, h2 k hk]
    refine sum_congr rfl fun j _ => ?_
    rw [cx_add, ← exp_cis]
    congr 2
    push_cast
    ring
  · rintro i (rfl | hi)
    · exact h0
    · have hk := h1 ((i - 1) / 2) (by omega)
      rcases Nat.mod_two_eq_zero_or_one (i - 1) with hm | hm
      · have hi2 : i = 2 * ((i - 1) / 2) + 1 := by omega
        rw [hi2]; exact congrArg Complex.re hk
      · have hi2 : i = 2 * ((i - 1) / 2) + 2 := by omega
        rw [hi2]; exact congrArg Complex.im hk

/-- **C102.** `numrec_realft` with `isign=1`: cosine and sine sums of the N numbers, the sum for k=N/2 in the
second place. -/
theorem C102_realft (p : Nat) (data : Nat → ℝ) :
    let N := 2 ^ (p + 1)
    let r := realft data N 1
    r 1 = ∑ j ∈ range N, data (j + 1) ∧ r 2 = ∑ j ∈ range N, (-1) ^ j * data (j + 1) ∧
    (∀ k, 1 ≤ k → k < N / 2 →
      r (2 * k + 1) = ∑ j ∈ range N, cos (2 * π * k * j / N) * data (j + 1) ∧
      r (2 * k + 2) = ∑ j ∈ range N, sin (2 * π * k * j / N) * data (j + 1)) ∧
    ∀ i, i = 0 ∨ N < i → r i = data i := by
  intro N r
  have hN : N = 2 * 2 ^ p := by rw [show N = 2 ^ (p + 1) from rfl, pow_succ]; ring
  obtain ⟨h0, h1, h2, h3, h4⟩ := realft_fwd p data
  rw [← hN] at h0 h1 h2 h3 h4
  refine ⟨h2, ?_, fun k hk hk2 => ?_, ?_⟩
  · rw [show r 2 = _ from h3]
    refine sum_congr rfl fun j _ => ?_
    rw [mul_comm π, cos_nat_mul_pi]
  · have h := h4 k hk (by omega)
    have hang : ∀ j : Nat, (k : ℝ) * (2 * π / N) * j = 2 * π * k * j / N := fun j => by ring
    constructor
    · have := congrArg Complex.re h
      rw [Complex.re_sum] at this
      rw [show r (2 * k + 1) = (cx r k).re from rfl, this]
      refine sum_congr rfl fun j _ => ?_
      rw [Complex.re_ofReal_mul, mul_comm, hang]; rfl
    · have := congrArg Complex.im h
      rw [Complex.im_sum] at this
      rw [show r (2 * k + 2) = (cx r k).im from rfl, this]
      refine sum_congr rfl fun j _ => ?_
      rw [Complex.im_ofReal_mul, mul_comm, hang]; rfl
  · rintro i (rfl | hi)
    · exact h0
    · exact h1 i hi

/-- **C102.** `numrec_realft` with `isign=-1`: the trigonometric sum with these coefficients. -/
theorem C102_realft_back (p : Nat) (data : Nat → ℝ) :
    let N := 2 ^ (p + 1)
    let r := realft data N (-1)
    (∀ j, j < N → r (j + 1) = 1 / 2 * (data 1 + (-1) ^ j * data 2) + ∑ k ∈ Ico 1 (N / 2),
      (cos (2 * π * k * j / N) * data (2 * k + 1) + sin (2 * π * k * j / N) * data (2 * k + 2))) ∧
    ∀ i, i = 0 ∨ N < i → r i = data i := by
  intro N r
  have hN : N = 2 * 2 ^ p := by rw [show N = 2 ^ (p + 1) from rfl, pow_succ]; ring
  obtain ⟨h0, h1, h2⟩ := realft_bwd p data
  rw [← hN] at h0 h1 h2
  refine ⟨fun j hj => ?_, ?_⟩
  · rw [show r (j + 1) = _ from h2 j hj, mul_comm π, cos_nat_mul_pi, show N / 2 = 2 ^ p by omega]
    congr 1
    · ring
    · refine sum_congr rfl fun k _ => ?_
      rw [show (k : ℝ) * (2 * π / N) * j = 2 * π * k * j / N by ring]; ring
  · rintro i (rfl | hi)
    · exact h0
    · exact h1 i hi

/-- **C102.** `numrec_cosft1`: the cosine transform of N+1 numbers, the first and the last one with weight 1/2. -/
theorem C102_cosft1 (p : Nat) (y : Nat → ℝ) :
    let N := 2 ^ (p + 1)
    let r := cosft1 y N
    (∀ k, k ≤ N → r (k + 1) = 1 / 2 * (y 1 + (-1) ^ k * y (N + 1)) +
      ∑ j ∈ Ico 1 N, cos (π * j * k / N) * y (j + 1)) ∧
    ∀ i, i = 0 ∨ N + 1 < i → r i = y i := by
  intro N r
  have hN : N = 2 * 2 ^ p := by rw [show N = 2 ^ (p + 1) from rfl, pow_succ]; ring
  obtain ⟨h0, h1, h2⟩ := cosft1_eq p y
  rw [← hN] at h0 h1 h2
  refine ⟨fun k hk => ?_, ?_⟩
  · rw [show r (k + 1) = _ from h2 k hk, dct1, cos_nat_mul_pi]
    congr 1
    refine sum_congr rfl fun j _ => ?_
    rw [show (k : ℝ) * (π / N) * j = π * j * k / N by ring]
  · rintro i (rfl | hi)
    · exact h0
    · exact h1 i hi

/-- **C102.** `numrec_cosft2` with `isign=1` and `isign=-1`. -/
theorem C102_cosft2 (p : Nat) (y : Nat → ℝ) :
    let N := 2 ^ (p + 1)
    (∀ k, k < N → cosft2 y N 1 (k + 1) = ∑ j ∈ range N, cos (π * k * (j + 1 / 2) / N) * y (j + 1)) ∧
    (∀ j, j < N → cosft2 y N (-1) (j + 1) = 1 / 2 * y 1 +
      ∑ k ∈ Ico 1 N, cos (π * k * (j + 1 / 2) / N) * y (k + 1)) ∧
    ∀ i, i = 0 ∨ N < i → cosft2 y N 1 i = y i ∧ cosft2 y N (-1) i = y i := by
  intro N
  have hN : N = 2 * 2 ^ p := by rw [show N = 2 ^ (p + 1) from rfl, pow_succ]; ring
  obtain ⟨h0, h1, h2⟩ := cosft2_fwd p y
  obtain ⟨g0, g1, g2⟩ := cosft2_bwd p y
  rw [← hN] at h0 h1 h2 g0 g1 g2
  refine ⟨fun k hk => ?_, fun j hj => ?_, ?_⟩
  · rw [h2 k hk, dct2]
    refine sum_congr rfl fun j _ => ?_
    rw [show (k : ℝ) * (π / N) * (j + 1 / 2) = π * k * (j + 1 / 2) / N by ring]
  · rw [g2 j hj, idct2]
    congr 1
    refine sum_congr rfl fun k _ => ?_
    rw [show (k : ℝ) * (π / N) * (j + 1 / 2) = π * k * (j + 1 / 2) / N by ring]; ring
  · rintro i (rfl | hi)
    · exact ⟨h0, g0⟩
    · exact ⟨h1 i hi, g1 i hi⟩

/-! ### The line routines -/

theorem toOne_succ (c : Nat → ℝ) (i : Nat) : toOne c (i + 1) = c i := rfl

/-- **C102.** `four_coeffs_numrecFFT` sets the same array as `four_coeffs`. -/
theorem C102_four_coeffs (p n : Nat) (hn : n + 1 = 2 ^ (p + 1)) (c u : Nat → ℝ) :
    fourCoeffsNR c u n = fourCoeffs c u n := by
  have hN : n + 1 = 2 * 2 ^ p := by rw [hn, pow_succ]; ring
  have hP : 0 < 2 ^ p := by positivity
  funext m
  unfold fourCoeffsNR
  set c1 := upLoop 0 (n + 1) (fun j c => aset c j (u j)) c with hc1
  have c1v : ∀ i, c1 i = if i < n + 1 then u i else c i := fun i => by
    rw [hc1, upLoop_fill]; exact if_congr (by omega) rfl rfl
  obtain ⟨h0, h1, h2, h3, h4⟩ := realft_fwd p (toOne c1)
  rw [← hN] at h0 h1 h2 h3 h4
  set r := realft (toOne c1) (n + 1) 1 with hr
  have shift : ∀ i, upLoop 2 (n + 1) (fun j c => aset c (j - 1) (c j)) (ofOne r) i =
      if 1 ≤ i ∧ i < n then r (i + 2) else r (i + 1) := by
    have key := upLoop_inv (lo := 2) (hi := n + 1) (by omega) (body := fun j c => aset c (j - 1) (c j)) (s := ofOne r)
      (fun j s => ∀ i, s i = if 1 ≤ i ∧ i < j - 1 then r (i + 2) else r (i + 1))
      (fun i => by rw [if_neg (by omega)]; rfl) (by
        intro j s hj hj2 hs i
        by_cases hi : i = j - 1
        · subst hi
          rw [aset_self, if_pos (by omega), hs, if_neg (by omega), show j - 1 + 2 = j + 1 by omega]
        · rw [aset_ne _ _ hi, hs]
          exact if_congr (by omega) rfl rfl)
    intro i
    rw [key i, Nat.add_sub_cancel]
  rw [Nat.add_sub_cancel, show ofOne r 1 = r 2 from rfl, fourCoeffs_eq]
  have us : ∀ g : Nat → ℝ, ∑ j ∈ range (n + 1), g j * toOne c1 (j + 1) = ∑ j ∈ range (n + 1), g j * u j := fun g =>
    sum_congr rfl fun j hj => by rw [toOne_succ, c1v, if_pos (mem_range.1 hj)]
  have hre : ∀ k, 1 ≤ k → k < 2 ^ p → r (2 * k + 1) =
      ∑ j ∈ range (n + 1), cos (k * (2 * π / (n + 1 : Nat)) * j) * u j := by
    intro k h1 h2
    have := congrArg Complex.re (h4 k h1 h2)
    rw [Complex.re_sum] at this
    rw [show r (2 * k + 1) = (cx r k).re from rfl, this, ← us]
    refine sum_congr rfl fun j _ => ?_
    rw [Complex.re_ofReal_mul, mul_comm]; rfl
  have him : ∀ k, 1 ≤ k → k < 2 ^ p → r (2 * k + 2) =
      ∑ j ∈ range (n + 1), sin (k * (2 * π / (n + 1 : Nat)) * j) * u j := by
    intro k h1 h2
    have := congrArg Complex.im (h4 k h1 h2)
    rw [Complex.im_sum] at this
    rw [show r (2 * k + 2) = (cx r k).im from rfl, this, ← us]
    refine sum_congr rfl fun j _ => ?_
    rw [Complex.im_ofReal_mul, mul_comm]; rfl
  by_cases hm : n < m
  · rw [if_pos hm, aset_ne _ _ (by omega), shift, if_neg (by omega), h1 _ (by omega), toOne_succ, c1v,
      if_neg (by omega)]
  · rw [if_neg hm]
    by_cases hmn : m = n
    · subst hmn
      rw [aset_self, h3, if_neg (by omega), if_pos (by omega), us (fun j => cos (π * j))]
      refine sum_congr rfl fun j _ => ?_
      have hP' : ((2 ^ p : Nat) : ℝ) ≠ 0 := by positivity
      congr 2
      rw [show (m + 1) / 2 = 2 ^ p by omega, hN]
      push_cast at hP' ⊢
      field_simp
    · rw [aset_ne _ _ hmn, shift]
      by_cases h0 : m = 0
      · subst h0
        rw [if_neg (by omega), if_pos rfl, h2]
        have := us (fun _ => 1)
        simp only [one_mul] at this
        exact this
      · rw [if_pos (by omega), if_neg h0]
        rcases Nat.mod_two_eq_zero_or_one m with h2' | h2'
        · rw [if_neg (by omega)]
          have := him (m / 2) (by omega) (by omega)
          rw [show 2 * (m / 2) + 2 = m + 2 by omega] at this
          exact this
        · rw [if_pos h2']
          have := hre ((m + 1) / 2) (by omega) (by omega)
          rw [show 2 * ((m + 1) / 2) + 1 = m + 2 by omega] at this
          exact this

/-- **C102.** `four_eval_numrecFFT` sets the same array as `four_eval`. -/
theorem C102_four_eval (p n : Nat) (hn : n + 1 = 2 ^ (p + 1)) (c u : Nat → ℝ) :
    fourEvalNR c u n = fourEval c u n := by
  have hN : n + 1 = 2 * 2 ^ p := by rw [hn, pow_succ]; ring
  have hP : 0 < 2 ^ p := by positivity
  have hP' : ((2 ^ p : Nat) : ℝ) ≠ 0 := by positivity
  funext j
  unfold fourEvalNR
  set v := upLoop 2 (n + 1) (fun j u => aset u j (2 / ((n + 1 : Nat) : ℝ) * c (j - 1)))
    (aset (aset u 0 (2 / ((n + 1 : Nat) : ℝ) * c 0)) 1 (2 / ((n + 1 : Nat) : ℝ) * c (n + 1 - 1))) with hv
  have vv : ∀ i, v i = if 2 ≤ i ∧ i < n + 1 then 2 / ((n + 1 : Nat) : ℝ) * c (i - 1) else
      aset (aset u 0 (2 / ((n + 1 : Nat) : ℝ) * c 0)) 1 (2 / ((n + 1 : Nat) : ℝ) * c (n + 1 - 1)) i := fun i => by
    rw [hv, upLoop_fill]
  obtain ⟨h0, h1, h2⟩ := realft_bwd p (toOne v)
  rw [← hN] at h0 h1 h2
  show realft (toOne v) (n + 1) (-1) (j + 1) = _
  by_cases hj : n < j
  · rw [h1 _ (by omega), toOne_succ, vv, if_neg (by omega), aset_ne _ _ (by omega), aset_ne _ _ (by omega),
      (C33_rest u c n j hj).2]
  · rw [h2 j (by omega)]
    have hfe : fourEval c u n j = (c 0 + 2 * fourSum c (n + 1) j - c (n + 1 - 1) * cos (π * j)) / (n + 1 : Nat) := by
      unfold fourEval
      have := upLoop_fill (lo := 0) (hi := n + 1) (fun j =>
        if (n + 1) % 2 = 0 then
          (c 0 + 2 * fourSum c (n + 1) j - c (n + 1 - 1) * cos (π * j)) / (n + 1 : Nat)
        else (c 0 + 2 * fourSum c (n + 1) j) / (n + 1 : Nat)) u j
      simp only at this ⊢
      rw [this, if_pos (by omega), if_pos (by omega)]
    have t1 : toOne v 1 = 2 / ((n + 1 : Nat) : ℝ) * c 0 := by
      rw [show toOne v 1 = v 0 from rfl, vv, if_neg (by omega), aset_ne _ _ (by omega), aset_self]
    have t2 : toOne v 2 = 2 / ((n + 1 : Nat) : ℝ) * c n := by
      rw [show toOne v 2 = v 1 from rfl, vv, if_neg (by omega), aset_self, Nat.add_sub_cancel]
    have ts : ∀ k ∈ Ico 1 (2 ^ p), toOne v (2 * k + 1) * cos (k * (2 * π / (n + 1 : Nat)) * j) +
        toOne v (2 * k + 2) * sin (k * (2 * π / (n + 1 : Nat)) * j) = 2 / ((n + 1 : Nat) : ℝ) *
        (c (2 * k - 1) * cos (k * (2 * π / (n + 1 : Nat)) * j) +
          c (2 * k) * sin (k * (2 * π / (n + 1 : Nat)) * j)) := by
      intro k hk
      rw [mem_Ico] at hk
      rw [show toOne v (2 * k + 1) = v (2 * k) from rfl, show toOne v (2 * k + 2) = v (2 * k + 1) from rfl, vv, vv,
        if_pos (by omega), if_pos (by omega), Nat.add_sub_cancel]
      ring
    rw [t1, t2, sum_congr rfl ts, ← mul_sum, hfe, fourSum_eq c (n + 1) j (by omega), if_pos (by omega),
      show (n + 1 + 1) / 2 = 2 ^ p by omega, Nat.add_sub_cancel]
    have hn' : ((n + 1 : Nat) : ℝ) ≠ 0 := by positivity
    field_simp
    ring

/-- **C102.** `four_int_numrecFFT` sets the same array as `four_int`. -/
theorem C102_four_int (p n : Nat) (hn : n + 1 = 2 ^ (p + 1)) (a b : ℝ) (c cint : Nat → ℝ) :
    fourIntNR a b c cint n = fourInt a b c cint n := by
  unfold fourIntNR fourInt
  simp only [C102_four_coeffs p n hn]

/-- **C102.** `cheb_coeffs_fromExtrema_numrecFFT` and `cheb_eval_onExtrema_numrecFFT` set the same arrays as
`cheb_coeffs_fromExtrema` and `cheb_eval_onExtrema`. -/
theorem C102_extrema (p N : Nat) (hN : N = 2 ^ (p + 1)) (c u : Nat → ℝ) :
    chebFromExtremaNR c u N = chebFromExtrema c u N ∧ chebOnExtremaNR c u N = chebOnExtrema c u N := by
  have hN2 : N = 2 * 2 ^ p := by rw [hN, pow_succ]; ring
  have hP : 0 < 2 ^ p := by positivity
  constructor
  · funext k
    unfold chebFromExtremaNR
    set v := upLoop 0 (N + 1) (fun j c => aset c j (2 / (N : ℝ) * u j)) c with hv
    have vv : ∀ i, v i = if i < N + 1 then 2 / (N : ℝ) * u i else c i := fun i => by
      rw [hv, upLoop_fill]; exact if_congr (by omega) rfl rfl
    obtain ⟨h0, h1, h2⟩ := cosft1_eq p (toOne v)
    rw [← hN2] at h0 h1 h2
    have val : ∀ k, k ≤ N → ofOne (cosft1 (toOne v) N) k =
        2 / N * (1 / 2 * (u 0 + cos (k * π) * u N) + ∑ m ∈ Ico 1 N, cos (k * (π / N) * m) * u m) := by
      intro k hk
      rw [show ofOne (cosft1 (toOne v) N) k = cosft1 (toOne v) N (k + 1) from rfl, h2 k hk, dct1]
      simp only [toOne_succ]
      have hs : ∀ m ∈ Ico 1 N, cos (k * (π / N) * m) * v m = 2 / N * (cos (k * (π / N) * m) * u m) := by
        intro m hm
        rw [mem_Ico] at hm
        rw [vv, if_pos (by omega)]; ring
      rw [sum_congr rfl hs, ← mul_sum, vv, vv, if_pos (by omega), if_pos (by omega)]
      ring
    rw [fromExtrema_eq]
    by_cases hk : N < k
    · rw [if_pos hk, aset_ne _ _ (by omega), show ofOne (cosft1 (toOne v) N) k = cosft1 (toOne v) N (k + 1) from rfl,
        h1 _ (by omega), toOne_succ, vv, if_neg (by omega)]
    · rw [if_neg hk]
      by_cases hkN : k = N
      · subst hkN
        rw [aset_self, val k le_rfl, if_pos rfl]; ring
      · rw [aset_ne _ _ hkN, val k (by omega), if_neg hkN, one_mul]
  · funext j
    unfold chebOnExtremaNR
    set v := aset (upLoop 0 N (fun j u => aset u j (c j)) u) N (c N * 2) with hv
    have vv : ∀ i, v i = if i < N then c i else if i = N then c N * 2 else u i := fun i => by
      rw [hv]
      by_cases hi : i = N
      · subst hi; rw [aset_self, if_neg (by omega), if_pos rfl]
      · rw [aset_ne _ _ hi, upLoop_fill, if_neg hi]; exact if_congr (by omega) rfl rfl
    obtain ⟨h0, h1, h2⟩ := cosft1_eq p (toOne v)
    rw [← hN2] at h0 h1 h2
    rw [onExtrema_eq, show ofOne (cosft1 (toOne v) N) j = cosft1 (toOne v) N (j + 1) from rfl]
    by_cases hj : N < j
    · rw [if_pos hj, h1 _ (by omega), toOne_succ, vv, if_neg (by omega), if_neg (by omega)]
    · rw [if_neg hj, h2 j (by omega), dct1]
      simp only [toOne_succ]
      have hs : ∀ m ∈ Ico 1 N, cos (j * (π / N) * m) * v m = c m * cos (m * (π / N) * j) := by
        intro m hm
        rw [mem_Ico] at hm
        rw [vv, if_pos (by omega), show (j : ℝ) * (π / N) * m = m * (π / N) * j by ring, mul_comm]
      have hN' : (N : ℝ) ≠ 0 := by
        have : 0 < N := by omega
        positivity
      rw [sum_congr rfl hs, vv, vv, if_pos (by omega), if_neg (by omega), if_pos rfl,
        sum_Ico_succ_top (by omega), show (N : ℝ) * (π / N) * j = j * π by field_simp]
      ring

/-- **C102.** `cheb_coeffs_fromZeros_numrecFFT` and `cheb_eval_onZeros_numrecFFT` set the same arrays as
`cheb_coeffs_fromZeros` and `cheb_eval_onZeros`. -/
theorem C102_zeros (p n : Nat) (hn : n + 1 = 2 ^ (p + 1)) (c u : Nat → ℝ) :
    chebFromZerosNR c u n = chebFromZeros c u n ∧ chebOnZerosNR c u n = chebOnZeros c u n := by
  have hN : n + 1 = 2 * 2 ^ p := by rw [hn, pow_succ]; ring
  have hP : 0 < 2 ^ p := by positivity
  constructor
  · funext k
    unfold chebFromZerosNR
    set v := upLoop 0 (n + 1) (fun j c => aset c j (2 / ((n + 1 : Nat) : ℝ) * u j)) c with hv
    have vv : ∀ i, v i = if i < n + 1 then 2 / ((n + 1 : Nat) : ℝ) * u i else c i := fun i => by
      rw [hv, upLoop_fill]; exact if_congr (by omega) rfl rfl
    obtain ⟨h0, h1, h2⟩ := cosft2_fwd p (toOne v)
    rw [← hN] at h0 h1 h2
    rw [fromZeros_eq, show ofOne (cosft2 (toOne v) (n + 1) 1) k = cosft2 (toOne v) (n + 1) 1 (k + 1) from rfl]
    by_cases hk : n < k
    · rw [if_pos hk, h1 _ (by omega), toOne_succ, vv, if_neg (by omega)]
    · rw [if_neg hk, h2 k (by omega), dct2, mul_sum]
      refine sum_congr rfl fun j hj => ?_
      rw [mem_range] at hj
      rw [toOne_succ, vv, if_pos hj]; ring
  · funext j
    unfold chebOnZerosNR
    set v := upLoop 0 (n + 1) (fun j u => aset u j (c j)) u with hv
    have vv : ∀ i, v i = if i < n + 1 then c i else u i := fun i => by
      rw [hv, upLoop_fill]; exact if_congr (by omega) rfl rfl
    obtain ⟨h0, h1, h2⟩ := cosft2_bwd p (toOne v)
    rw [← hN] at h0 h1 h2
    rw [onZeros_eq, show ofOne (cosft2 (toOne v) (n + 1) (-1)) j = cosft2 (toOne v) (n + 1) (-1) (j + 1) from rfl]
    by_cases hj : n < j
    · rw [if_pos hj, h1 _ (by omega), toOne_succ, vv, if_neg (by omega)]
    · rw [if_neg hj, h2 j (by omega), idct2]
      congr 1
      · rw [toOne_succ, vv, if_pos (by omega)]
      · refine sum_congr rfl fun k hk => ?_
        rw [mem_Ico] at hk
        rw [toOne_succ, vv, if_pos hk.2]

/-- **C102.** In a direction with at least two points, and three for ChebExtrema, choosing NUMREC_FFT in the
parameters does not change the results of `get_coeffs` and `eval_onPoints`. -/
theorem C102_chosen (numrec fftw : Bool) (m : Int) (bas : BasisWord) (nb : Nat) (h2 : 2 ≤ nb)
    (h3 : bas = .chebExtrema → 3 ≤ nb) (hmax : nb < 2 ^ 31)
    (ht : transformType numrec fftw m bas nb = 1) :
    ∃ f g f' g', specFunctions bas 1 = some (f, g) ∧ specFunctions bas 0 = some (f', g') ∧
      ∀ c u, f c u (nb - 1) = f' c u (nb - 1) ∧ g u c (nb - 1) = g' u c (nb - 1) := by
  unfold transformType at ht
  have hpow : ∀ q : Nat, 2 ≤ q → q < 2 ^ 31 → isPowerOfTwo (q : Int) ≠ 0 → ∃ p, q = 2 ^ (p + 1) := by
    intro q hq hq2 hp
    obtain ⟨h01, hiff⟩ := C55_power_of_two (q : Int) (by omega) (by omega)
    obtain ⟨k, hk⟩ := hiff.1 (by omega)
    have hk' : q = 2 ^ k := by exact_mod_cast hk
    cases k with
    | zero => simp at hk'; omega
    | succ k => exact ⟨k, hk'⟩
  split at ht
  · next hc =>
    obtain ⟨_, _, _, hc⟩ := hc
    rcases hc with ⟨rfl, hp⟩ | ⟨rfl, hp⟩ | ⟨rfl, hp⟩
    · have h3 := h3 rfl
      obtain ⟨p, hp⟩ := hpow (nb - 1) (by omega) (by omega) (by
        rwa [Nat.cast_sub (by omega : 1 ≤ nb)])
      exact ⟨_, _, _, _, rfl, rfl, fun c u =>
        ⟨(C102_extrema p (nb - 1) hp c u).1, (C102_extrema p (nb - 1) hp c u).2⟩⟩
    · obtain ⟨p, hp⟩ := hpow nb h2 hmax hp
      have hn : nb - 1 + 1 = 2 ^ (p + 1) := by omega
      exact ⟨_, _, _, _, rfl, rfl, fun c u =>
        ⟨(C102_zeros p (nb - 1) hn c u).1, (C102_zeros p (nb - 1) hn c u).2⟩⟩
    · obtain ⟨p, hp⟩ := hpow nb h2 hmax hp
      have hn : nb - 1 + 1 = 2 ^ (p + 1) := by omega
      exact ⟨_, _, _, _, rfl, rfl, fun c u =>
        ⟨C102_four_coeffs p (nb - 1) hn c u, C102_four_eval p (nb - 1) hn c u⟩⟩
  · split at ht <;> omega

/-- **C102.** Two points with ChebExtrema pass the test in `set_TransformType_flags_inbox`, but then
`numrec_cosft1` gets `n=1` and the first coefficient is wrong: 3 instead of 1 for the values 0 and 1. -/
theorem C102_two_points_counterexample (c : Nat → ℝ) :
    transformType true false 0 .chebExtrema 2 = 1 ∧
    chebFromExtremaNR c (fun j => if j = 1 then 1 else 0) 1 0 = 3 ∧
    chebFromExtrema c (fun j => if j = 1 then 1 else 0) 1 0 = 1 := by
  refine ⟨by decide +kernel, ?_, ?_⟩
  · unfold chebFromExtremaNR cosft1 realft four1 sortData
    simp only [Nat.reduceDiv, Nat.reduceAdd, Nat.reduceMul, if_true]
    rw [dlStages, if_neg (by omega)]
    simp only [upLoop, aset, ofOne, toOne, Function.update_apply, List.range', List.foldl, sortPass]
    norm_num [toOne, Function.update_apply]
  · rw [fromExtrema_eq]
    norm_num

/-- **C102.** One point with Fourier passes the test, too. Then `numrec_realft` reads and writes the second entry of
an array with one entry, and the result depends on it. -/
theorem C102_one_point_counterexample (c u : Nat → ℝ) :
    transformType true false 0 .fourier 1 = 1 ∧
    fourCoeffsNR c u 0 0 = u 0 - c 1 ∧ fourCoeffsNR c u 0 1 = u 0 - c 1 ∧
    fourCoeffs c u 0 0 = u 0 ∧ fourCoeffs c u 0 1 = c 1 := by
  have h : ∀ m, m < 2 → fourCoeffsNR c u 0 m = u 0 - c 1 := by
    intro m hm
    unfold fourCoeffsNR realft four1 sortData
    simp only [Nat.reduceDiv, Nat.reduceAdd, Nat.reduceMul, if_true]
    rw [dlStages, if_neg (by omega)]
    simp only [upLoop, aset, List.range', List.foldl]
    have : m = 0 ∨ m = 1 := by omega
    rcases this with rfl | rfl <;> norm_num [ofOne, toOne, Function.update_apply]
  refine ⟨by decide +kernel, h 0 (by omega), h 1 (by omega), ?_, ?_⟩
  · rw [fourCoeffs_eq]; simp
  · rw [fourCoeffs_eq]; simp

/-- With four numbers: the transform of 1, 2, 3, 4 is 10, -2-2i, -2, and -2+2i with the other sign. -/
example : let r := realft (fun i => i) 4 1
    r 1 = 10 ∧ r 2 = -2 ∧ r 3 = -2 ∧ r 4 = -2 ∧ r 5 = 5 := by
  have h := C102_realft 1 (fun i => (i : ℝ))
  simp only [Nat.reduceAdd, Nat.reducePow] at h
  obtain ⟨h1, h2, h3, h4⟩ := h
  obtain ⟨h5, h6⟩ := h3 1 (by omega) (by omega)
  have c1 : cos (2 * π * 2 / 4) = -1 := by rw [show 2 * π * 2 / 4 = π by ring, cos_pi]
  have c2 : cos (2 * π / 4) = 0 := by rw [show 2 * π / 4 = π / 2 by ring, cos_pi_div_two]
  have c3 : cos (2 * π * 3 / 4) = 0 := by
    rw [show 2 * π * 3 / 4 = π / 2 + π by ring, cos_add_pi, cos_pi_div_two, neg_zero]
  have s1 : sin (2 * π * 2 / 4) = 0 := by rw [show 2 * π * 2 / 4 = π by ring, sin_pi]
  have s2 : sin (2 * π / 4) = 1 := by rw [show 2 * π / 4 = π / 2 by ring, sin_pi_div_two]
  have s3 : sin (2 * π * 3 / 4) = -1 := by
    rw [show 2 * π * 3 / 4 = π / 2 + π by ring, sin_add_pi, sin_pi_div_two]
  refine ⟨?_, ?_, ?_, ?_, ?_⟩
  · rw [h1]; norm_num [sum_range_succ]
  · rw [h2]; norm_num [sum_range_succ]
  · rw [show (3 : Nat) = 2 * 1 + 1 from rfl, h5]
    norm_num [sum_range_succ, c1, c2, c3]
  · rw [show (4 : Nat) = 2 * 1 + 2 from rfl, h6]
    norm_num [sum_range_succ, s1, s2, s3]
  · rw [h4 5 (by omega)]; norm_num

end Sgrid
