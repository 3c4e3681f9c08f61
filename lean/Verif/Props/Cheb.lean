import Mathlib.Analysis.SpecialFunctions.Trigonometric.Chebyshev.Basic
import Mathlib.Analysis.Calculus.Deriv.Polynomial
import Mathlib.MeasureTheory.Integral.IntervalIntegral.FundThmCalculus
import Verif.Lemmas.Trig
import Verif.Spec.Series
import Verif.Model.Cheb

/-!
Properties C31, C32, C34, C35, C36: Chebyshev transforms.
-/

namespace Sgrid
open Real Finset Polynomial

/-! ## Transforms and their inverses -/

theorem fromExtrema_eq (c u : Nat → ℝ) (N j : Nat) :
    chebFromExtrema c u N j = if N < j then c j else
      (if j = N then 1 / 2 else 1) * (2 / N * (1 / 2 * (u 0 + cos (j * π) * u N) +
        ∑ k ∈ Ico 1 N, cos (j * (π / N) * k) * u k)) := by
  unfold chebFromExtrema
  simp only [upLoop_sum]
  by_cases hN : j = N
  · subst hN
    rw [aset_self, upLoop_fill, if_pos (by omega), if_neg (by omega), if_pos rfl]
    ring
  · rw [aset_ne _ _ hN, upLoop_fill]
    by_cases h : N < j
    · rw [if_neg (by omega), if_pos h]
    · rw [if_pos (by omega), if_neg h, if_neg hN, one_mul]

theorem onExtrema_eq (c u : Nat → ℝ) (N j : Nat) :
    chebOnExtrema c u N j = if N < j then u j else
      1 / 2 * c 0 + ∑ k ∈ Ico 1 (N + 1), c k * cos (k * (π / N) * j) := by
  unfold chebOnExtrema
  simp only [upLoop_sum]
  rw [upLoop_fill]
  by_cases h : N < j
  · rw [if_neg (by omega), if_pos h]
  · rw [if_pos (by omega), if_neg h]

/-- Weights of the trapezoidal sum over the extrema. -/
theorem trapez (N : Nat) (hN : 0 < N) (f : Nat → ℝ) :
    1 / 2 * (f 0 + f N) + ∑ k ∈ Ico 1 N, f k =
      ∑ k ∈ range (N + 1), (if k = 0 ∨ k = N then 1 / 2 else 1) * f k := by
  rw [sum_range_succ, range_eq_Ico, sum_eq_sum_Ico_succ_bot hN, if_pos (.inl rfl),
    if_pos (.inr rfl)]
  have : ∀ k ∈ Ico (0 + 1) N, (if k = 0 ∨ k = N then 1 / 2 else 1) * f k = f k := by
    intro k hk
    have := mem_Ico.1 hk
    rw [if_neg (by omega), one_mul]
  rw [sum_congr rfl this]
  ring

/-- **C31.** Values at the extrema, transformed to coefficients and back, are the same values. -/
theorem C31_extrema (N : Nat) (hN : 0 < N) (u c w : Nat → ℝ) (j : Nat) (hj : j ≤ N) :
    chebOnExtrema (chebFromExtrema c u N) w N j = u j := by
  have hN' : (N : ℝ) ≠ 0 := by positivity
  -- coefficients as one sum
  have hc : ∀ k, k ≤ N → chebFromExtrema c u N k = (if k = N then 1 / 2 else 1) * (2 / N *
      ∑ l ∈ range (N + 1), (if l = 0 ∨ l = N then 1 / 2 else 1) * (cos (k * (π / N) * l) * u l)) := by
    intro k hk
    rw [fromExtrema_eq, if_neg (by omega), ← trapez N hN]
    congr 3
    simp only [Nat.cast_zero, mul_zero, cos_zero, one_mul]
    rw [mul_assoc (k : ℝ), div_mul_cancel₀ _ hN']
  have hc' : ∀ k ∈ Ico 1 N, chebFromExtrema c u N k * cos (k * (π / N) * j) = (2 / N *
      ∑ l ∈ range (N + 1), (if l = 0 ∨ l = N then 1 / 2 else 1) *
        (cos (k * (π / N) * l) * u l)) * cos (k * (π / N) * j) := by
    intro k hk
    have := mem_Ico.1 hk
    rw [hc k (by omega), if_neg (by omega), one_mul]
  rw [onExtrema_eq, if_neg (by omega), sum_Ico_succ_top hN, hc 0 (by omega), hc N (by omega),
    if_neg (by omega), if_pos rfl, sum_congr rfl hc']
  -- exchange the sums
  have key : ∀ l : Nat, 1 / 2 + ∑ k ∈ Ico 1 N, cos (k * (π / N) * l) * cos (k * (π / N) * j) +
      1 / 2 * (cos (N * (π / N) * l) * cos (N * (π / N) * j)) =
        1 / 2 * (kern N ((l : ℤ) - j) + kern N ((l : ℤ) + j)) := by
    intro l
    unfold kern
    rw [sum_congr rfl fun k _ => cos_mul_cos _ _, cos_mul_cos, ← mul_sum, sum_add_distrib]
    have e1 : ∀ k : ℝ, k * (π / N) * l - k * (π / N) * j = k * (((l - j : ℤ) : ℝ) * π / N) := by
      intro k; push_cast; ring
    have e2 : ∀ k : ℝ, k * (π / N) * l + k * (π / N) * j = k * (((l + j : ℤ) : ℝ) * π / N) := by
      intro k; push_cast; ring
    simp only [e1, e2]
    have e3 : ∀ m : ℤ, (N : ℝ) * ((m : ℝ) * π / N) = m * π := by intro m; field_simp
    rw [e3, e3]
    ring
  have hsum : ∀ l : Nat, l ≤ N → (if l = 0 ∨ l = N then 1 / 2 else (1 : ℝ)) *
      (kern N ((l : ℤ) - j) + kern N ((l : ℤ) + j)) = if l = j then (N : ℝ) else 0 := by
    intro l hl
    rw [kern_eq N hN, kern_eq N hN]
    have d1 : (2 * N : ℤ) ∣ (l : ℤ) - j ↔ l = j := by
      constructor
      · intro h
        by_contra hne
        have := Int.le_of_dvd (a := 2 * (N : ℤ)) (b := |(l : ℤ) - j|)
          (abs_pos.2 (by omega)) ((dvd_abs _ _).2 h)
        rcases abs_cases ((l : ℤ) - j) with ⟨h1, _⟩ | ⟨h1, _⟩ <;> omega
      · rintro rfl; simp
    have d2 : (2 * N : ℤ) ∣ (l : ℤ) + j ↔ l = j ∧ (l = 0 ∨ l = N) := by
      constructor
      · intro h
        obtain ⟨q, hq⟩ := h
        have hq0 : 0 ≤ q := by
          by_contra h0
          have : 2 * (N : ℤ) * q < 0 := by nlinarith
          omega
        rcases (by omega : q = 0 ∨ 1 ≤ q) with rfl | h1
        · omega
        · have : 2 * (N : ℤ) ≤ 2 * (N : ℤ) * q := by nlinarith
          omega
      · rintro ⟨rfl, rfl | rfl⟩
        · simp
        · exact ⟨1, by ring⟩
    by_cases h : l = j
    · rw [if_pos (d1.2 h), if_pos h]
      by_cases h0 : l = 0 ∨ l = N
      · rw [if_pos h0, if_pos (d2.2 ⟨h, h0⟩)]; ring
      · rw [if_neg h0, if_neg fun hh => h0 (d2.1 hh).2]; ring
    · rw [if_neg fun hh => h (d1.1 hh), if_neg fun hh => h (d2.1 hh).1, if_neg h]; ring
  calc _ = ∑ l ∈ range (N + 1), (if l = 0 ∨ l = N then 1 / 2 else (1 : ℝ)) * (2 / N) * u l *
        (1 / 2 + ∑ k ∈ Ico 1 N, cos (k * (π / N) * l) * cos (k * (π / N) * j) +
          1 / 2 * (cos (N * (π / N) * l) * cos (N * (π / N) * j))) := by
        simp only [mul_add, sum_add_distrib, mul_sum, sum_mul]
        rw [sum_comm (s := Ico 1 N), add_assoc]
        congr 1
        · apply sum_congr rfl
          intro l _
          simp only [Nat.cast_zero, zero_mul, cos_zero]
          ring
        · congr 1
          · apply sum_congr rfl
            intro l _
            apply sum_congr rfl
            intro k _
            ring
          · apply sum_congr rfl
            intro l _
            ring
    _ = ∑ l ∈ range (N + 1), if l = j then u l else 0 := by
        apply sum_congr rfl
        intro l hl
        rw [key l]
        have h := hsum l (by have := mem_range.1 hl; omega)
        have : (if l = 0 ∨ l = N then 1 / 2 else (1 : ℝ)) * (2 / N) * u l *
          (1 / 2 * (kern N ((l : ℤ) - j) + kern N ((l : ℤ) + j))) = (1 / N) * u l *
          ((if l = 0 ∨ l = N then 1 / 2 else (1 : ℝ)) *
            (kern N ((l : ℤ) - j) + kern N ((l : ℤ) + j))) := by ring
        rw [this, h]
        split
        · field_simp
        · ring
    _ = u j := by
        rw [sum_ite_eq' (range (N + 1)) j u, if_pos (mem_range.2 (by omega))]

theorem fromZeros_eq (c u : Nat → ℝ) (n j : Nat) :
    chebFromZeros c u n j = if n < j then c j else
      2 / (n + 1 : Nat) * ∑ k ∈ range (n + 1), cos (j * (π / (n + 1 : Nat)) * (k + 1 / 2)) * u k := by
  unfold chebFromZeros
  simp only [upLoop_sum]
  rw [upLoop_fill]
  by_cases h : n < j
  · rw [if_neg (by omega), if_pos h]
  · rw [if_pos (by omega), if_neg h, zero_add, range_eq_Ico]

theorem onZeros_eq (c u : Nat → ℝ) (n j : Nat) :
    chebOnZeros c u n j = if n < j then u j else
      1 / 2 * c 0 + ∑ k ∈ Ico 1 (n + 1), c k * cos (k * (π / (n + 1 : Nat)) * (j + 1 / 2)) := by
  unfold chebOnZeros
  simp only [upLoop_sum]
  rw [upLoop_fill]
  by_cases h : n < j
  · rw [if_neg (by omega), if_pos h]
  · rw [if_pos (by omega), if_neg h]

/-- **C32.** Values at the zeros, transformed to coefficients and back, are the same values. -/
theorem C32_zeros (n : Nat) (u c w : Nat → ℝ) (j : Nat) (hj : j ≤ n) :
    chebOnZeros (chebFromZeros c u n) w n j = u j := by
  obtain ⟨N, hNn⟩ : ∃ N, N = n + 1 := ⟨_, rfl⟩
  have hN : 0 < N := by omega
  have hN' : (N : ℝ) ≠ 0 := by positivity
  have hc' : ∀ k ∈ Ico 1 (n + 1), chebFromZeros c u n k * cos (k * (π / N) * (j + 1 / 2)) = (2 / N *
      ∑ l ∈ range N, cos (k * (π / N) * (l + 1 / 2)) * u l) * cos (k * (π / N) * (j + 1 / 2)) := by
    intro k hk
    have := mem_Ico.1 hk
    rw [fromZeros_eq, if_neg (by omega), ← hNn]
  have hs := sum_congr rfl hc'
  rw [onZeros_eq, if_neg (by omega)]
  rw [← hNn] at hs ⊢
  rw [hs, fromZeros_eq, if_neg (by omega), ← hNn]
  have key : ∀ l : Nat, l < N → 1 / 2 + ∑ k ∈ Ico 1 N, cos (k * (π / N) * (l + 1 / 2)) *
      cos (k * (π / N) * (j + 1 / 2)) = if l = j then (N : ℝ) / 2 else 0 := by
    intro l hl
    rw [sum_congr rfl fun k _ => cos_mul_cos _ _, ← mul_sum, sum_add_distrib]
    have e1 : ∀ k : ℝ, k * (π / N) * (l + 1 / 2) - k * (π / N) * (j + 1 / 2) =
        k * (((l - j : ℤ) : ℝ) * π / N) := by
      intro k; push_cast; ring
    have e2 : ∀ k : ℝ, k * (π / N) * (l + 1 / 2) + k * (π / N) * (j + 1 / 2) =
        k * (((l + j + 1 : ℤ) : ℝ) * π / N) := by
      intro k; push_cast; ring
    simp only [e1, e2]
    have k1 := kern_open N hN ((l : ℤ) - j)
    have k2 := kern_open N hN ((l : ℤ) + j + 1)
    have e3 : cos (((l + j + 1 : ℤ) : ℝ) * π) = - cos (((l - j : ℤ) : ℝ) * π) := by
      have : ((l + j + 1 : ℤ) : ℝ) * π = ((l - j : ℤ) : ℝ) * π + π + ((j : ℤ) : ℝ) * (2 * π) := by
        push_cast; ring
      rw [this, cos_add_int_mul_two_pi, cos_add_pi]
    have d2 : ¬ (2 * N : ℤ) ∣ (l : ℤ) + j + 1 := by
      rintro ⟨q, hq⟩
      rcases (by omega : q ≤ 0 ∨ 1 ≤ q) with h1 | h1
      · have : 2 * (N : ℤ) * q ≤ 0 := by nlinarith
        omega
      · have : 2 * (N : ℤ) ≤ 2 * (N : ℤ) * q := by nlinarith
        omega
    have d1 : (2 * N : ℤ) ∣ (l : ℤ) - j ↔ l = j := by
      constructor
      · intro h
        by_contra hne
        have := Int.le_of_dvd (a := 2 * (N : ℤ)) (b := |(l : ℤ) - j|)
          (abs_pos.2 (by omega)) ((dvd_abs _ _).2 h)
        rcases abs_cases ((l : ℤ) - j) with ⟨h1, _⟩ | ⟨h1, _⟩ <;> omega
      · rintro rfl; simp
    rw [if_neg d2, e3] at k2
    by_cases h : l = j
    · rw [if_pos (d1.2 h)] at k1
      rw [if_pos h]
      linarith
    · rw [if_neg fun hh => h (d1.1 hh)] at k1
      rw [if_neg h]
      linarith
  calc _ = ∑ l ∈ range N, 2 / N * u l *
        (1 / 2 + ∑ k ∈ Ico 1 N, cos (k * (π / N) * (l + 1 / 2)) * cos (k * (π / N) * (j + 1 / 2))) := by
        simp only [mul_add, sum_add_distrib, mul_sum, sum_mul]
        rw [sum_comm (s := Ico 1 N)]
        congr 1
        · apply sum_congr rfl
          intro l _
          simp only [Nat.cast_zero, zero_mul, add_zero, cos_zero]
          ring
        · apply sum_congr rfl
          intro l _
          apply sum_congr rfl
          intro k _
          ring
    _ = ∑ l ∈ range N, if l = j then u l else 0 := by
        apply sum_congr rfl
        intro l hl
        rw [key l (mem_range.1 hl)]
        split
        · field_simp
        · ring
    _ = u j := by
        rw [sum_ite_eq' (range N) j u, if_pos (mem_range.2 (by omega))]

/-- **C31, C32.** Entries behind the last one are not touched. -/
theorem C31_rest (c u : Nat → ℝ) (n j : Nat) (hj : n < j) :
    chebFromExtrema c u n j = c j ∧ chebOnExtrema c u n j = u j ∧
    chebFromZeros c u n j = c j ∧ chebOnZeros c u n j = u j := by
  refine ⟨?_, ?_, ?_, ?_⟩
  · rw [fromExtrema_eq, if_pos hj]
  · rw [onExtrema_eq, if_pos hj]
  · rw [fromZeros_eq, if_pos hj]
  · rw [onZeros_eq, if_pos hj]

/-! ## Clenshaw's evaluation -/

section
variable {K : Type} [Field K]

/-- **C36.** `cheb_eval` returns the value of the series. -/
theorem C36_eval (a b : K) (c : Nat → K) (n : Nat) (X : K) :
    chebEval a b c n X = Spec.chebSeries a b c n X := by
  unfold chebEval Spec.chebSeries
  simp only
  change _ = c 0 / 2 + ∑ k ∈ Ico 1 (n + 1), c k * (Chebyshev.T K (k : ℤ)).eval (chebY a b X)
  generalize chebY a b X = y
  obtain ⟨h1, h3⟩ := downLoop_inv (lo := 1) (hi := n + 1) (by omega)
    (body := fun j (s : K × K) => (2 * y * s.1 - s.2 + c j, s.1)) (s := (0, 0))
    (fun j s => s.1 = ∑ k ∈ Ico j (n + 1), c k * (Chebyshev.U K ((k : ℤ) - j)).eval y ∧
      s.2 = ∑ k ∈ Ico j (n + 1), c k * (Chebyshev.U K ((k : ℤ) - j - 1)).eval y)
    (by simp) (by
      rintro j ⟨d, dd⟩ _ hj ⟨e1, e2⟩
      simp only at e1 e2 ⊢
      constructor
      · rw [sum_eq_sum_Ico_succ_bot hj, sub_self, Chebyshev.U_zero, eval_one, mul_one, e1, e2,
          mul_sum, ← sum_sub_distrib, add_comm]
        congr 1
        apply sum_congr rfl
        intro k _
        have := congrArg (eval y) (Chebyshev.U_eq K ((k : ℤ) - j))
        simp only [eval_sub, eval_mul, eval_X, eval_ofNat] at this
        push_cast
        rw [this, show (k : ℤ) - (j + 1) - 1 = k - j - 2 by ring,
          show (k : ℤ) - (j + 1) = k - j - 1 by ring]
        ring
      · rw [sum_eq_sum_Ico_succ_bot hj, sub_self, zero_sub, Chebyshev.U_neg_one, eval_zero,
          mul_zero, zero_add, e1]
        apply sum_congr rfl
        intro k _
        rw [show (k : ℤ) - (j + 1 : ℕ) = k - j - 1 by push_cast; ring])
  rw [h1, h3, mul_sum, ← sum_sub_distrib, add_comm]
  congr 1
  · ring
  · apply sum_congr rfl
    intro k _
    have := congrArg (eval y) (Chebyshev.T_eq_X_mul_U_sub_U K ((k : ℤ) - 2))
    simp only [eval_sub, eval_mul, eval_X] at this
    rw [show (k : ℤ) - 2 + 2 = k by ring, show (k : ℤ) - 2 + 1 = k - 1 by ring] at this
    rw [this]
    push_cast
    rw [show (k : ℤ) - 1 - 1 = k - 2 by ring]
    ring

/-- **C36.** The basis functions from the same recurrence. -/
theorem C36_basis_sum (a b : K) (n : Nat) (X : K) :
    chebBasisFromSum a b n X = if n = 0 then 1 / 2
      else (Chebyshev.T K (n : ℤ)).eval ((2 * X - a - b) / (a - b)) := by
  unfold chebBasisFromSum
  split
  · rfl
  · next hn =>
    simp only
    change _ = (Chebyshev.T K (n : ℤ)).eval (chebY a b X)
    generalize chebY a b X = y
    obtain ⟨h1, h3⟩ := downLoop_inv (lo := 1) (hi := n) (by omega)
      (body := fun _ (s : K × K) => (2 * y * s.1 - s.2, s.1)) (s := (2 * y * 0 - 0 + 1, 0))
      (fun j s => s.1 = (Chebyshev.U K ((n : ℤ) - j)).eval y ∧
        s.2 = (Chebyshev.U K ((n : ℤ) - j - 1)).eval y)
      (by simp) (by
        rintro j ⟨d, dd⟩ _ hj ⟨e1, e2⟩
        simp only at e1 e2 ⊢
        have := congrArg (eval y) (Chebyshev.U_eq K ((n : ℤ) - j))
        simp only [eval_sub, eval_mul, eval_X, eval_ofNat] at this
        rw [e1, e2, this]
        push_cast
        rw [show (n : ℤ) - (j + 1) - 1 = n - j - 2 by ring,
          show (n : ℤ) - (j + 1) = n - j - 1 by ring]
        exact ⟨rfl, rfl⟩)
    rw [h1, h3]
    have := congrArg (eval y) (Chebyshev.T_eq_X_mul_U_sub_U K ((n : ℤ) - 2))
    simp only [eval_sub, eval_mul, eval_X] at this
    rw [show (n : ℤ) - 2 + 2 = n by ring, show (n : ℤ) - 2 + 1 = n - 1 by ring] at this
    rw [this]
    push_cast
    rw [show (n : ℤ) - 1 - 1 = n - 2 by ring]

end

/-! ## Derivatives -/

section
variable {K : Type} [Field K]

/-- What `cheb_deriv` puts into its array. -/
theorem deriv_rec (a b : K) (c cder : Nat → K) (n : Nat) :
    ∃ D : Nat → K, (∀ j, n ≤ j → D j = 0) ∧
      (∀ j, j < n → D j = D (j + 2) + 2 * ((j : K) + 1) * c (j + 1)) ∧
      (∀ j, chebDeriv a b c cder n j = if j ≤ n then D j * (2 / (a - b)) else cder j) := by
  unfold chebDeriv
  generalize hs : (if 1 ≤ n then aset (aset cder n 0) (n - 1) (2 * (n : K) * c n)
    else aset cder n 0) = s
  have hsn : s n = 0 := by
    rw [← hs]; split
    · rw [aset_ne _ _ (by omega), aset_self]
    · rw [aset_self]
  have hso : ∀ j, n < j → s j = cder j := by
    intro j hj
    rw [← hs]; split
    · rw [aset_ne _ _ (by omega), aset_ne _ _ (by omega)]
    · rw [aset_ne _ _ (by omega)]
  have hs1 : 1 ≤ n → s (n - 1) = 2 * (n : K) * c n := by
    intro h; rw [← hs, if_pos h, aset_self]
  obtain ⟨p1, p2, p3⟩ := downLoop_inv (lo := 0) (hi := n - 1) (by omega)
    (body := fun j cder => aset cder j (cder (j + 2) + 2 * ((j : K) + 1) * c (j + 1))) (s := s)
    (fun m t => t n = 0 ∧ (∀ j, n < j → t j = cder j) ∧
      ∀ j, m ≤ j → j < n → t j = (if j + 2 ≤ n then t (j + 2) else 0) + 2 * ((j : K) + 1) * c (j + 1))
    ⟨hsn, hso, by
      intro j h1 h2
      have : j = n - 1 := by omega
      subst this
      rw [if_neg (by omega), hs1 (by omega), zero_add, Nat.cast_sub (by omega),
        Nat.sub_add_cancel (by omega)]
      push_cast; ring⟩ (by
      intro m t _ hm ⟨q1, q2, q3⟩
      refine ⟨by rw [aset_ne _ _ (by omega), q1], fun j hj => by
        rw [aset_ne _ _ (by omega), q2 j hj], fun j h1 h2 => ?_⟩
      by_cases hj : j = m
      · subst hj
        rw [aset_self, if_pos (by omega), aset_ne _ _ (by omega)]
      · rw [aset_ne _ _ hj, q3 j (by omega) h2, aset_ne _ _ (by omega)])
  generalize downLoop 0 (n - 1)
    (fun j cder => aset cder j (cder (j + 2) + 2 * ((j : K) + 1) * c (j + 1))) s = t at *
  refine ⟨fun j => if j < n then t j else 0, fun j hj => if_neg (by omega), fun j hj => ?_,
    fun j => ?_⟩
  · simp only [if_pos hj]
    rw [p3 j (by omega) hj]
    congr 1
    by_cases h : j + 2 < n
    · rw [if_pos (by omega), if_pos h]
    · rw [if_neg h]
      split
      · have : j + 2 = n := by omega
        rw [this, p1]
      · rfl
  · rw [upLoop_mapi (fun _ x => x * (2 / (a - b)))]
    beta_reduce
    by_cases h : j < n
    · rw [if_pos (by omega), if_pos (by omega), if_pos h]
    · rw [if_neg (by omega), if_neg h]
      by_cases h' : j = n
      · subst h'; rw [if_pos (Nat.le_refl _), p1]; ring
      · rw [if_neg (by omega), p2 j (by omega)]

/-- Summation by parts with `U_j - U_{j-2} = 2 T_j`. -/
theorem sum_by_parts (D : Nat → K) (y : K) (n : Nat) :
    ∑ j ∈ range n, (D j - D (j + 2)) * (Chebyshev.U K (j : ℤ)).eval y =
      ∑ j ∈ range n, 2 * D j * (Chebyshev.T K (j : ℤ)).eval y - D 0
        - D n * (Chebyshev.U K ((n : ℤ) - 2)).eval y
        - D (n + 1) * (Chebyshev.U K ((n : ℤ) - 1)).eval y := by
  induction n with
  | zero => simp [Chebyshev.U_neg_two, Chebyshev.U_neg_one]
  | succ n ih =>
    rw [sum_range_succ, sum_range_succ, ih]
    have := congrArg (eval y) (Chebyshev.two_mul_T_eq_U_sub_U K ((n : ℤ) - 2))
    simp only [eval_sub, eval_mul, eval_ofNat] at this
    rw [show (n : ℤ) - 2 + 2 = n by ring] at this
    push_cast
    rw [show (n : ℤ) + 1 - 1 = n by ring, show (n : ℤ) + 1 - 2 = n - 1 by ring]
    linear_combination (-D n) * this

/-- The recurrence gives the coefficients of the derivative with respect to `y`. -/
theorem series_of_rec (h2 : (2 : K) ≠ 0) (c D : Nat → K) (n : Nat) (h0 : ∀ j, n ≤ j → D j = 0)
    (hD : ∀ j, j < n → D j = D (j + 2) + 2 * ((j : K) + 1) * c (j + 1)) (y : K) :
    ∑ k ∈ Ico 1 (n + 1), c k * (derivative (Chebyshev.T K (k : ℤ))).eval y =
      D 0 / 2 + ∑ k ∈ Ico 1 (n + 1), D k * (Chebyshev.T K (k : ℤ)).eval y := by
  have hl : ∑ k ∈ Ico 1 (n + 1), c k * (derivative (Chebyshev.T K (k : ℤ))).eval y =
      ∑ j ∈ range n, (D j - D (j + 2)) / 2 * (Chebyshev.U K (j : ℤ)).eval y := by
    rw [sum_Ico_eq_sum_range]
    apply sum_congr (by simp)
    intro j hj
    rw [hD j (by simpa using hj), Chebyshev.T_derivative_eq_U, eval_mul, eval_intCast]
    push_cast
    rw [show (1 : ℤ) + j - 1 = j by ring, show 1 + j = j + 1 by ring]
    field_simp
    ring
  have hs := sum_by_parts D y n
  rw [h0 n (le_refl _), h0 (n + 1) (by omega)] at hs
  have hr : ∑ j ∈ range n, 2 * D j * (Chebyshev.T K (j : ℤ)).eval y =
      2 * (D 0 + ∑ k ∈ Ico 1 (n + 1), D k * (Chebyshev.T K (k : ℤ)).eval y) := by
    have : ∑ j ∈ range (n + 1), 2 * D j * (Chebyshev.T K (j : ℤ)).eval y =
        ∑ j ∈ range n, 2 * D j * (Chebyshev.T K (j : ℤ)).eval y := by
      rw [sum_range_succ, h0 n (le_refl _)]; ring
    rw [← this, range_eq_Ico, sum_eq_sum_Ico_succ_bot (by omega), mul_add, mul_sum]
    simp only [Nat.cast_zero, Chebyshev.T_zero, eval_one]
    congr 1
    · ring
    · apply sum_congr rfl; intro k _; ring
  rw [hl]
  have : ∑ j ∈ range n, (D j - D (j + 2)) / 2 * (Chebyshev.U K (j : ℤ)).eval y =
      (∑ j ∈ range n, (D j - D (j + 2)) * (Chebyshev.U K (j : ℤ)).eval y) / 2 := by
    rw [sum_div]; apply sum_congr rfl; intro j _; ring
  rw [this, hs, hr]
  field_simp
  ring

end

theorem series_hasDeriv (a b : ℝ) (c : Nat → ℝ) (n : Nat) (X : ℝ) :
    HasDerivAt (fun X => Spec.chebSeries a b c n X)
      (∑ k ∈ Ico 1 (n + 1), c k * (derivative (Chebyshev.T ℝ (k : ℤ))).eval
        ((2 * X - a - b) / (a - b)) * (2 / (a - b))) X := by
  have hy : HasDerivAt (fun X : ℝ => (2 * X - a - b) / (a - b)) (2 / (a - b)) X := by
    have := ((((hasDerivAt_id X).const_mul 2).sub_const a).sub_const b).div_const (a - b)
    simpa using this
  unfold Spec.chebSeries
  apply HasDerivAt.const_add
  apply HasDerivAt.fun_sum
  intro k _
  have := ((Chebyshev.T ℝ (k : ℤ)).hasDerivAt ((2 * X - a - b) / (a - b))).comp X hy
  rw [mul_assoc]
  exact this.const_mul (c k)

/-- **C34.** The coefficients computed by `cheb_deriv` are those of the derivative of the series
with respect to `X`; entries beyond `n` are not touched. -/
theorem C34_deriv (a b : ℝ) (c cder : Nat → ℝ) (n : Nat) (X : ℝ) :
    HasDerivAt (fun X => Spec.chebSeries a b c n X)
      (Spec.chebSeries a b (chebDeriv a b c cder n) n X) X ∧
    ∀ j, n < j → chebDeriv a b c cder n j = cder j := by
  obtain ⟨D, h0, hD, hr⟩ := deriv_rec a b c cder n
  refine ⟨?_, fun j hj => by rw [hr, if_neg (by omega)]⟩
  have := series_hasDeriv a b c n X
  rw [← sum_mul, series_of_rec two_ne_zero c D n h0 hD] at this
  convert this using 1
  unfold Spec.chebSeries
  rw [hr, if_pos (by omega), add_mul, sum_mul]
  congr 1
  · ring
  · apply sum_congr rfl
    intro k hk
    rw [hr, if_pos (by have := mem_Ico.1 hk; omega)]
    ring

/-! ## Integrals -/

/-- What `cheb_int` puts into its array. -/
theorem int_rec {K : Type} [Field K] (a b : K) (c cint : Nat → K) (n : Nat) (hn : 1 ≤ n) :
    ∃ C : Nat → K, chebInt a b c cint n = .ok C ∧
      (∀ j, 1 ≤ j → j < n → C j = 1 / 4 * (a - b) * (c (j - 1) - c (j + 1)) / j) ∧
      C n = 1 / 4 * (a - b) * c (n - 1) / n ∧
      C 0 = 2 * ∑ j ∈ Ico 1 (n + 1), (-1) ^ (j + 1) * C j ∧
      ∀ j, n < j → C j = cint j := by
  unfold chebInt
  rw [if_neg (by omega)]
  refine ⟨_, rfl, ?_⟩
  obtain ⟨h1, h2, h3, h4⟩ := upLoop_inv hn
    (body := fun j (s : (Nat → K) × K × K) =>
      (aset s.1 j (1 / 4 * (a - b) * (c (j - 1) - c (j + 1)) / j),
        s.2.1 + s.2.2 * (1 / 4 * (a - b) * (c (j - 1) - c (j + 1)) / j), -s.2.2))
    (s := (cint, 0, 1))
    (fun m s => (∀ j, 1 ≤ j → j < m → s.1 j = 1 / 4 * (a - b) * (c (j - 1) - c (j + 1)) / j) ∧
      s.2.1 = ∑ j ∈ Ico 1 m, (-1) ^ (j + 1) * s.1 j ∧ s.2.2 = (-1) ^ (m + 1) ∧
      ∀ j, n < j → s.1 j = cint j)
    ⟨fun j h1 h2 => by omega, by simp, by simp, fun j _ => rfl⟩ (by
      rintro m ⟨A, sm, fac⟩ g1 g2 ⟨e1, e2, e3, e4⟩
      simp only at e1 e2 e3 e4 ⊢
      have old : ∀ j, j < m → aset A m (1 / 4 * (a - b) * (c (m - 1) - c (m + 1)) / m) j = A j :=
        fun j hj => aset_ne _ _ (by omega)
      refine ⟨fun j f1 f2 => ?_, ?_, ?_, fun j hj => by rw [aset_ne _ _ (by omega), e4 j hj]⟩
      · by_cases hj : j = m
        · subst hj; rw [aset_self]
        · rw [old j (by omega), e1 j f1 (by omega)]
      · rw [sum_Ico_succ_top g1, aset_self, e2, e3]
        congr 1
        exact sum_congr rfl fun j hj => by rw [old j (mem_Ico.1 hj).2]
      · rw [e3]; ring)
  generalize upLoop 1 n _ (cint, (0 : K), (1 : K)) = s at *
  have hv : ∀ j, 1 ≤ j → j < n → aset (aset s.1 n (1 / 4 * (a - b) * c (n - 1) / n)) 0
      (2 * (s.2.1 + s.2.2 * (1 / 4 * (a - b) * c (n - 1) / n))) j = s.1 j := by
    intro j g1 g2
    rw [aset_ne _ _ (by omega), aset_ne _ _ (by omega)]
  refine ⟨fun j g1 g2 => ?_, ?_, ?_, fun j hj => ?_⟩
  · rw [hv j g1 g2, h1 j g1 g2]
  · rw [aset_ne _ _ (by omega), aset_self]
  · rw [aset_self, sum_Ico_succ_top hn, h2, h3, aset_ne _ _ (by omega), aset_self]
    congr 2
    refine sum_congr rfl fun j hj => ?_
    have := mem_Ico.1 hj
    rw [aset_ne _ _ (by omega), aset_ne _ _ (by omega)]
  · rw [aset_ne _ _ (by omega), aset_ne _ _ (by omega), h4 j hj]

/-- **C35.** The coefficients computed by `cheb_int` belong to the antiderivative that vanishes
at `b`, if the highest coefficient of the series is zero. -/
theorem C35_antiderivative (a b : ℝ) (hab : a ≠ b) (c cint : Nat → ℝ) (n : Nat) (hn : 1 ≤ n)
    (hc : c n = 0) :
    ∃ C, chebInt a b c cint n = .ok C ∧ Spec.chebSeries a b C n b = 0 ∧
      (∀ X, HasDerivAt (fun X => Spec.chebSeries a b C n X) (Spec.chebSeries a b c n X) X) ∧
      ∀ j, n < j → C j = cint j := by
  obtain ⟨C, h1, h2, h3, h4, h5⟩ := int_rec a b c cint n hn
  have hab' : a - b ≠ 0 := sub_ne_zero.2 hab
  refine ⟨C, h1, ?_, fun X => ?_, h5⟩
  · unfold Spec.chebSeries
    have hy : (2 * b - a - b) / (a - b) = -1 := by field_simp; ring
    rw [hy, h4, mul_div_cancel_left₀ _ two_ne_zero, ← sum_add_distrib]
    apply sum_eq_zero
    intro k _
    rw [Chebyshev.T_eval_neg_one]
    simp [pow_succ, Int.negOnePow]
    ring
  · have h := series_hasDeriv a b C n X
    rw [← sum_mul, series_of_rec two_ne_zero C (fun j => if j < n then (a - b) / 2 * c j else 0) n
      (fun j hj => if_neg (by omega)) (fun j hj => ?_)] at h
    · convert h using 1
      unfold Spec.chebSeries
      rw [add_mul, sum_mul, if_pos (by omega)]
      congr 1
      · field_simp
      · apply sum_congr rfl
        intro k hk
        have := mem_Ico.1 hk
        by_cases hkn : k < n
        · rw [if_pos hkn]; field_simp
        · rw [if_neg hkn, show k = n by omega, hc]; ring
    · rw [if_pos hj]
      have hj1 : (j : ℝ) + 1 ≠ 0 := by positivity
      by_cases hjn : j + 1 = n
      · rw [if_neg (by omega), hjn, h3, ← hjn, Nat.add_sub_cancel]
        push_cast
        field_simp
        ring
      · rw [h2 (j + 1) (by omega) (by omega), Nat.add_sub_cancel]
        have : (if j + 2 < n then (a - b) / 2 * c (j + 2) else 0) = (a - b) / 2 * c (j + 2) := by
          by_cases h' : j + 2 < n
          · rw [if_pos h']
          · rw [if_neg h', show j + 2 = n by omega, hc]; ring
        rw [this]
        push_cast
        field_simp
        ring

/-- **C35.** `cheb_int` needs at least two points. -/
theorem C35_one_point {K : Type} [Field K] (a b : K) (c cint : Nat → K) :
    chebInt a b c cint 0 = .ub := rfl

/-- An antiderivative of `T_k`. -/
noncomputable def antiT (k : Nat) : Polynomial ℝ :=
  if k = 1 then C (1 / 2) * X ^ 2
  else C (1 / (2 * ((k : ℝ) + 1))) * Chebyshev.T ℝ ((k : ℤ) + 1) -
    C (1 / (2 * ((k : ℝ) - 1))) * Chebyshev.T ℝ ((k : ℤ) - 1)

theorem cast_sub_one_ne {k : Nat} (h : k ≠ 1) : (k : ℝ) - 1 ≠ 0 :=
  sub_ne_zero.2 (by exact_mod_cast h)

theorem antiT_deriv (k : Nat) : derivative (antiT k) = Chebyshev.T ℝ (k : ℤ) := by
  unfold antiT
  split
  · next h =>
    subst h
    apply Polynomial.funext
    intro x
    simp
    ring
  · next h =>
    apply Polynomial.funext
    intro x
    have hk := cast_sub_one_ne h
    have hk1 : (k : ℝ) + 1 ≠ 0 := by positivity
    have := congrArg (eval x) (Chebyshev.two_mul_T_eq_U_sub_U ℝ ((k : ℤ) - 2))
    simp only [eval_sub, eval_mul, eval_ofNat] at this
    rw [show (k : ℤ) - 2 + 2 = k by ring] at this
    simp only [derivative_sub, derivative_C_mul, Chebyshev.T_derivative_eq_U, eval_sub, eval_mul,
      eval_C, eval_intCast]
    push_cast
    rw [show (k : ℤ) + 1 - 1 = k by ring, show (k : ℤ) - 1 - 1 = k - 2 by ring]
    field_simp
    linarith

theorem antiT_ends (k : Nat) : (antiT k).eval (-1) - (antiT k).eval 1 =
    if k % 2 = 0 then -2 / (1 - (k : ℝ) * k) else 0 := by
  unfold antiT
  by_cases h : k = 1
  · subst h; simp
  · have hk := cast_sub_one_ne h
    have hk1 : (k : ℝ) + 1 ≠ 0 := by positivity
    have hk2 : 1 - (k : ℝ) * k ≠ 0 := by
      have : 1 - (k : ℝ) * k = -(((k : ℝ) - 1) * (k + 1)) := by ring
      rw [this]; exact neg_ne_zero.2 (mul_ne_zero hk hk1)
    rw [if_neg h]
    simp only [eval_sub, eval_mul, eval_C, Chebyshev.T_eval_one, Chebyshev.T_eval_neg_one]
    by_cases he : k % 2 = 0
    · have o1 : Int.negOnePow ((k : ℤ) + 1) = -1 := Int.negOnePow_odd _ ⟨k / 2, by omega⟩
      have o2 : Int.negOnePow ((k : ℤ) - 1) = -1 := Int.negOnePow_odd _ ⟨(k : ℤ) / 2 - 1, by omega⟩
      rw [if_pos he, o1, o2]
      push_cast
      rw [eq_div_iff hk2]
      field_simp
      ring
    · have o1 : Int.negOnePow ((k : ℤ) + 1) = 1 := Int.negOnePow_even _ ⟨((k : ℤ) + 1) / 2, by omega⟩
      have o2 : Int.negOnePow ((k : ℤ) - 1) = 1 := Int.negOnePow_even _ ⟨((k : ℤ) - 1) / 2, by omega⟩
      rw [if_neg he, o1, o2]
      push_cast
      ring

/-- Even indices of a range. -/
theorem sum_even {K : Type} [AddCommMonoid K] (f : Nat → K) (n : Nat) :
    ∑ k ∈ Ico 1 n, (if k % 2 = 0 then f k else 0) = ∑ m ∈ Ico 1 ((n + 1) / 2), f (2 * m) := by
  induction n with
  | zero => simp
  | succ n ih =>
    by_cases h1 : 1 ≤ n
    · rw [sum_Ico_succ_top h1, ih]
      by_cases he : n % 2 = 0
      · rw [if_pos he, show (n + 1 + 1) / 2 = (n + 1) / 2 + 1 by omega, sum_Ico_succ_top (by omega),
          show 2 * ((n + 1) / 2) = n by omega]
      · rw [if_neg he, add_zero, show (n + 1 + 1) / 2 = (n + 1) / 2 by omega]
    · rw [show n = 0 by omega]; simp

/-- **C35.** The formula in `spec_Integral1` is the integral of the series over the interval. -/
theorem C35_definite (a b : ℝ) (hab : a ≠ b) (c : Nat → ℝ) (n : Nat) (hn : 1 ≤ n) :
    ∫ X in a..b, Spec.chebSeries a b c (n - 1) X = chebIntegral a b c n := by
  have hab' : a - b ≠ 0 := sub_ne_zero.2 hab
  have hcont : Continuous fun X => Spec.chebSeries a b c (n - 1) X := by
    exact continuous_iff_continuousAt.2 fun X => (series_hasDeriv a b c (n - 1) X).continuousAt
  rw [intervalIntegral.integral_eq_sub_of_hasDerivAt
    (f := fun X => c 0 / 2 * X + ∑ k ∈ Ico 1 (n - 1 + 1),
      c k * ((a - b) / 2 * (antiT k).eval ((2 * X - a - b) / (a - b))))
    (fun X _ => ?_) (hcont.intervalIntegrable _ _)]
  · have ya : (2 * a - a - b) / (a - b) = 1 := by field_simp; ring
    have yb : (2 * b - a - b) / (a - b) = -1 := by field_simp; ring
    simp only [ya, yb]
    have : ∀ p q r s : ℝ, p + q - (r + s) = p - r + (q - s) := by intros; ring
    rw [this, ← sum_sub_distrib, Nat.sub_add_cancel hn]
    unfold chebIntegral
    simp only [upLoop_sum]
    rw [← sum_even (fun k => c k * (b - a) / (1 - (k : Nat) * (k : Nat))) n]
    congr 1
    · ring
    · apply sum_congr rfl
      intro k _
      rw [← mul_sub, ← mul_sub, antiT_ends]
      split
      · ring
      · ring
  · have hy : HasDerivAt (fun X : ℝ => (2 * X - a - b) / (a - b)) (2 / (a - b)) X := by
      have := ((((hasDerivAt_id X).const_mul 2).sub_const a).sub_const b).div_const (a - b)
      simpa using this
    unfold Spec.chebSeries
    apply HasDerivAt.add
    · simpa using (hasDerivAt_id X).const_mul (c 0 / 2)
    · apply HasDerivAt.fun_sum
      intro k _
      have h1 := ((antiT k).hasDerivAt ((2 * X - a - b) / (a - b))).comp X hy
      have h2 := (h1.const_mul ((a - b) / 2)).const_mul (c k)
      rw [antiT_deriv] at h2
      have e : c k * ((a - b) / 2 * ((Chebyshev.T ℝ (k : ℤ)).eval ((2 * X - a - b) / (a - b)) *
          (2 / (a - b)))) = c k * (Chebyshev.T ℝ (k : ℤ)).eval ((2 * X - a - b) / (a - b)) := by
        field_simp
      rw [e] at h2
      exact h2

/-! ## The basis functions -/

theorem abs_sin_nat_mul (n : Nat) (x : ℝ) : |sin (n * x)| ≤ n * |sin x| := by
  induction n with
  | zero => simp
  | succ n ih =>
    have e : ((n + 1 : Nat) : ℝ) * x = n * x + x := by push_cast; ring
    rw [e, sin_add]
    calc |sin (n * x) * cos x + cos (n * x) * sin x|
        ≤ |sin (n * x) * cos x| + |cos (n * x) * sin x| := abs_add_le _ _
      _ = |sin (n * x)| * |cos x| + |cos (n * x)| * |sin x| := by rw [abs_mul, abs_mul]
      _ ≤ |sin (n * x)| * 1 + 1 * |sin x| := by
          gcongr
          · exact abs_cos_le_one _
          · exact abs_cos_le_one _
      _ ≤ (n + 1 : Nat) * |sin x| := by push_cast; linarith

theorem one_sub_cos_nat_mul (n : Nat) (x : ℝ) : 1 - cos (n * x) ≤ n ^ 2 * (1 - cos x) := by
  have h := abs_sin_nat_mul n (x / 2)
  have h1 : cos x = 1 - 2 * sin (x / 2) ^ 2 := by
    have := cos_two_mul' (x / 2)
    have h2 := sin_sq_add_cos_sq (x / 2)
    rw [show 2 * (x / 2) = x by ring] at this
    linarith
  have h3 : cos (n * x) = 1 - 2 * sin (n * (x / 2)) ^ 2 := by
    have := cos_two_mul' (n * (x / 2))
    have h2 := sin_sq_add_cos_sq (n * (x / 2))
    rw [show 2 * (n * (x / 2)) = n * x by ring] at this
    linarith
  have h4 : sin (n * (x / 2)) ^ 2 ≤ (n * |sin (x / 2)|) ^ 2 := by
    rw [← sq_abs (sin (n * (x / 2)))]
    exact pow_le_pow_left₀ (abs_nonneg _) h 2
  rw [mul_pow, sq_abs] at h4
  rw [h1, h3]
  nlinarith

/-- **C36.** `cheb_basisfunc` is the basis function away from the end points, where the comparison
`dequal` takes effect it is wrong by at most `n² 10⁻¹⁰`. -/
theorem C36_basis (a b : ℝ) (hab : a < b) (n : Nat) (X : ℝ) (hX : a ≤ X ∧ X ≤ b) :
    |chebBasis a b n X - (if n = 0 then 1 / 2
      else (Chebyshev.T ℝ (n : ℤ)).eval ((2 * X - a - b) / (a - b)))| ≤ n ^ 2 / 10 ^ 10 ∧
    ((X - a) / (b - a) > 1 / 10 ^ 10 → (b - X) / (b - a) > 1 / 10 ^ 10 →
      chebBasis a b n X = if n = 0 then 1 / 2
        else (Chebyshev.T ℝ (n : ℤ)).eval ((2 * X - a - b) / (a - b))) ∧
    chebBasis a b n a = (if n = 0 then 1 / 2 else 1) ∧
    chebBasis a b n b = (if n = 0 then 1 / 2 else (-1) ^ n) := by
  have hab' : a - b ≠ 0 := by linarith
  have hba : b - a ≠ 0 := by linarith
  have hba' : 0 < b - a := by linarith
  refine ⟨?_, ?_, ?_, ?_⟩
  · unfold chebBasis
    by_cases hn : n = 0
    · subst hn; simp
    rw [if_neg hn, if_neg hn]
    have hy : ((X - a) + (X - b)) / (a - b) = (2 * X - a - b) / (a - b) := by ring
    rw [hy]
    have hy1 : (2 * X - a - b) / (a - b) = 1 - 2 * ((X - a) / (b - a)) := by
      field_simp; ring
    have hy2 : (2 * X - a - b) / (a - b) = -1 + 2 * ((b - X) / (b - a)) := by
      field_simp; ring
    have l1 : 0 ≤ (X - a) / (b - a) := div_nonneg (by linarith) hba'.le
    have l2 : 0 ≤ (b - X) / (b - a) := div_nonneg (by linarith) hba'.le
    obtain ⟨y, hyd⟩ : ∃ y, y = (2 * X - a - b) / (a - b) := ⟨_, rfl⟩
    rw [← hyd]
    have y1 : y ≤ 1 := by linarith
    have y2 : -1 ≤ y := by linarith
    have hT : ∀ z, -1 ≤ z → z ≤ 1 → (Chebyshev.T ℝ (n : ℤ)).eval z = cos (n * arccos z) := by
      intro z z1 z2
      conv_lhs => rw [← cos_arccos z1 z2]
      rw [Chebyshev.T_real_cos]
      push_cast; rfl
    have hnear : ∀ z, -1 ≤ z → z ≤ 1 → 1 - 1 / 10 ^ 10 ≤ z →
        |1 - (Chebyshev.T ℝ (n : ℤ)).eval z| ≤ n ^ 2 / 10 ^ 10 := by
      intro z z1 z2 z3
      rw [hT z z1 z2, abs_of_nonneg (by linarith [cos_le_one (n * arccos z)])]
      have := one_sub_cos_nat_mul n (arccos z)
      rw [cos_arccos z1 z2] at this
      calc _ ≤ (n : ℝ) ^ 2 * (1 - z) := this
        _ ≤ (n : ℝ) ^ 2 * (1 / 10 ^ 10) := by gcongr; linarith
        _ = _ := by ring
    by_cases hd1 : dequalR y 1
    · rw [if_pos hd1]
      exact hnear y y2 y1 (by unfold dequalR at hd1; push Not at hd1; exact hd1.1)
    · rw [if_neg hd1]
      by_cases hd2 : dequalR y (-1)
      · rw [if_pos hd2]
        have h := hnear (-y) (by linarith) (by linarith)
          (by unfold dequalR at hd2; push Not at hd2; linarith [hd2.2])
        have hneg := Chebyshev.T_eval_neg (R := ℝ) (n : ℤ) (-y)
        rw [neg_neg] at hneg
        rw [hneg]
        by_cases ho : n % 2 = 0
        · rw [Int.negOnePow_even _ ⟨(n : ℤ) / 2, by omega⟩, if_neg (by omega)]
          simpa using h
        · rw [Int.negOnePow_odd _ ⟨(n : ℤ) / 2, by omega⟩, if_pos ho]
          rw [← abs_neg]
          convert h using 2
          push_cast
          ring
      · rw [if_neg hd2, hT y y2 y1, sub_self, abs_zero]
        positivity
  · intro g1 g2
    unfold chebBasis
    by_cases hn : n = 0
    · rw [if_pos hn, if_pos hn]
    rw [if_neg hn, if_neg hn]
    have hy : ((X - a) + (X - b)) / (a - b) = (2 * X - a - b) / (a - b) := by ring
    rw [hy]
    have hy1 : (2 * X - a - b) / (a - b) = 1 - 2 * ((X - a) / (b - a)) := by
      field_simp; ring
    have hy2 : (2 * X - a - b) / (a - b) = -1 + 2 * ((b - X) / (b - a)) := by
      field_simp; ring
    obtain ⟨y, hyd⟩ : ∃ y, y = (2 * X - a - b) / (a - b) := ⟨_, rfl⟩
    rw [← hyd]
    have p : (0 : ℝ) < 1 / 10 ^ 10 := by positivity
    have d1 : ¬ dequalR y 1 := by
      unfold dequalR; rw [not_not]; left; linarith
    have d2 : ¬ dequalR y (-1) := by
      unfold dequalR; rw [not_not]; right; linarith
    rw [if_neg d1, if_neg d2]
    have y1 : y ≤ 1 := by linarith
    have y2 : -1 ≤ y := by linarith
    conv_rhs => rw [← cos_arccos y2 y1]
    rw [Chebyshev.T_real_cos]
    push_cast; rfl
  · unfold chebBasis
    have ya : ((a - a) + (a - b)) / (a - b) = 1 := by field_simp; ring
    rw [ya]
    have : dequalR 1 1 := by unfold dequalR; push Not; constructor <;> norm_num
    simp only [if_pos this]
  · unfold chebBasis
    have yb : ((b - a) + (b - b)) / (a - b) = -1 := by field_simp; ring
    rw [yb]
    have h1 : ¬ dequalR (-1) 1 := by unfold dequalR; rw [not_not]; left; norm_num
    have h2 : dequalR (-1) (-1) := by unfold dequalR; push Not; constructor <;> norm_num
    simp only [if_neg h1, if_pos h2]
    by_cases hn : n = 0
    · rw [if_pos hn, if_pos hn]
    · rw [if_neg hn, if_neg hn]
      by_cases ho : n % 2 = 0
      · rw [if_neg (by omega), Even.neg_one_pow (Nat.even_iff.2 ho)]
      · rw [if_pos ho, Odd.neg_one_pow (Nat.odd_iff.2 (by omega))]

/-! ## Examples -/

/-- Coefficients for the examples. -/
def chebEx : Nat → ℚ := fun j => [2, 3, 5, 0].getD j 7

/-- `1 + 3 y + 5 (2y²-1)` at `y = 1/3`. -/
example : chebEval 0 3 chebEx 2 1 = 1 + 3 * (1 / 3) + 5 * (2 / 9 - 1) := by decide +kernel

/-- The derivative is `(3 + 20 y) (-2/3)`. -/
example : (List.range 5).map (chebDeriv 0 3 chebEx (fun _ => 9) 2) = [-4, -40 / 3, 0, 9, 9] := by
  decide +kernel

/-- The antiderivative of `1 + 3y + 5(2y²-1)` has `T_1` coefficient `-3/2 (1 - 5/2)`. -/
example : (chebInt 0 3 chebEx (fun _ => 9) 3).map (fun C => (List.range 5).map C) =
    .ok [17 / 4, 9 / 4, -9 / 8, -5 / 4, 9] := by
  decide +kernel

/-- The integral of `1 + 3y + 5 T_2(y)` from 0 to 3 is `3 - 5`. -/
example : chebIntegral 0 3 chebEx 3 = -2 := by decide +kernel

/-- With a highest coefficient that is not zero the result is not an antiderivative. -/
example : (chebInt 0 4 (fun j => if j = 1 then 1 else 0) (fun _ => 0) 1).map
    (fun C => (List.range 2).map C) = .ok [0, (0 : ℚ)] := by decide +kernel

/-- `cheb_basisfunc_FromSum` at `y=1/3`, `T_3 = 4y³-3y`. -/
example : chebBasisFromSum (0 : ℚ) 3 3 1 = 4 / 27 - 1 := by decide +kernel

end Sgrid
