import Mathlib.Analysis.SpecialFunctions.Trigonometric.Deriv
import Mathlib.MeasureTheory.Integral.IntervalIntegral.FundThmCalculus
import Verif.Lemmas.Trig
import Verif.Spec.Series
import Verif.Model.Fourier

/-! # Fourier transforms (C33, C37, C68) -/

namespace Sgrid
open Real Finset

theorem sumTo_eq (N : Nat) (f : Nat → ℝ) : sumTo N f = ∑ k ∈ range N, f k := by
  unfold sumTo
  rw [upLoop_sum, zero_add, range_eq_Ico]

/-- Loops that set the entries of an array in pairs. -/
theorem pair_loop (N J : Nat) (hJ : 1 ≤ J) (f g : Nat → (Nat → ℝ) → ℝ) (c : Nat → ℝ)
    (hf : ∀ j x y, (∀ m, 2 * j - 1 ≤ m → x m = y m) → f j x = f j y)
    (hg : ∀ j x y, 1 ≤ j → (∀ m, 2 * j - 1 < m → x m = y m) → g j x = g j y) (m : Nat) :
    upLoop 1 J (fun j c =>
      let c := aset c (2 * j - 1) (f j c)
      if 2 * j < N then aset c (2 * j) (g j c) else c) c m =
    if 1 ≤ m ∧ m < 2 * J - 1 ∧ (m % 2 = 1 ∨ m < N) then
      (if m % 2 = 1 then f ((m + 1) / 2) c else g (m / 2) c) else c m := by
  have := upLoop_inv hJ (body := fun j c =>
      let c := aset c (2 * j - 1) (f j c)
      if 2 * j < N then aset c (2 * j) (g j c) else c) (s := c)
    (fun J t => ∀ m, t m = if 1 ≤ m ∧ m < 2 * J - 1 ∧ (m % 2 = 1 ∨ m < N) then
      (if m % 2 = 1 then f ((m + 1) / 2) c else g (m / 2) c) else c m)
    (by intro m; rw [if_neg (by omega)]) (by
      intro j t h1 h2 ht m
      have hfe : f j t = f j c := hf j t c fun m hm => by rw [ht m, if_neg (by omega)]
      have hge : g j (aset t (2 * j - 1) (f j t)) = g j c := hg j _ _ h1 fun m hm => by
        rw [aset_ne _ _ (by omega), ht m, if_neg (by omega)]
      simp only
      rw [hge, hfe]
      by_cases hm1 : m = 2 * j - 1
      · subst hm1
        have e : (if 1 ≤ 2 * j - 1 ∧ 2 * j - 1 < 2 * (j + 1) - 1 ∧ ((2 * j - 1) % 2 = 1 ∨ 2 * j - 1 < N)
            then (if (2 * j - 1) % 2 = 1 then f ((2 * j - 1 + 1) / 2) c else g ((2 * j - 1) / 2) c)
            else c (2 * j - 1)) = f j c := by
          rw [if_pos (by omega), if_pos (by omega), show (2 * j - 1 + 1) / 2 = j by omega]
        rw [e]
        split
        · rw [aset_ne _ _ (by omega), aset_self]
        · rw [aset_self]
      · by_cases hm2 : m = 2 * j
        · subst hm2
          by_cases hN : 2 * j < N
          · rw [if_pos hN, aset_self, if_pos (by omega), if_neg (by omega),
              show 2 * j / 2 = j by omega]
          · rw [if_neg hN, aset_ne _ _ hm1, ht, if_neg (by omega), if_neg (by omega)]
        · have e : (if 2 * j < N then aset (aset t (2 * j - 1) (f j c)) (2 * j) (g j c)
              else aset t (2 * j - 1) (f j c)) m = t m := by
            split
            · rw [aset_ne _ _ hm2, aset_ne _ _ hm1]
            · rw [aset_ne _ _ hm1]
          rw [e, ht m]
          exact if_congr (by omega) rfl rfl)
  exact this m

/-- What `four_coeffs` puts into its array. -/
theorem fourCoeffs_eq (c u : Nat → ℝ) (n m : Nat) :
    fourCoeffs c u n m = if n < m then c m else if m = 0 then ∑ k ∈ range (n + 1), u k
      else if m % 2 = 1 then
        ∑ k ∈ range (n + 1), cos (((m + 1) / 2 : Nat) * (2 * π / (n + 1 : Nat)) * k) * u k
      else ∑ k ∈ range (n + 1), sin ((m / 2 : Nat) * (2 * π / (n + 1 : Nat)) * k) * u k := by
  unfold fourCoeffs
  simp only [sumTo_eq]
  have := pair_loop (n + 1) ((n + 1) / 2 + 1) (by omega)
    (fun j _ => ∑ k ∈ range (n + 1), cos (j * (2 * π / (n + 1 : Nat)) * k) * u k)
    (fun j _ => ∑ k ∈ range (n + 1), sin (j * (2 * π / (n + 1 : Nat)) * k) * u k)
    (aset c 0 (∑ k ∈ range (n + 1), u k)) (fun _ _ _ _ => rfl) (fun _ _ _ _ _ => rfl) m
  rw [this]
  by_cases h0 : m = 0
  · subst h0
    rw [if_neg (by omega), if_neg (by omega), if_pos rfl, aset_self]
  · by_cases hm : n < m
    · rw [if_neg (by omega), if_pos hm, aset_ne _ _ h0]
    · rw [if_pos (by omega), if_neg hm, if_neg h0]

/-- The sum in `four_eval` as two sums. -/
theorem fourSum_eq (c : Nat → ℝ) (N j : Nat) (hN : 0 < N) :
    fourSum c N j = ∑ k ∈ Ico 1 ((N + 1) / 2), (c (2 * k - 1) * cos (k * (2 * π / N) * j) +
        c (2 * k) * sin (k * (2 * π / N) * j)) +
      if N % 2 = 0 then c (N - 1) * cos (π * j) else 0 := by
  unfold fourSum
  simp only [upLoop_sum, zero_add]
  have hN' : (N : ℝ) ≠ 0 := by positivity
  have hs : ∀ k ∈ Ico 1 ((N + 1) / 2), (cos (k * (2 * π / N) * j) * c (2 * k - 1) +
      sin (k * (2 * π / N) * j) * if 2 * k < N then c (2 * k) else 0) =
      c (2 * k - 1) * cos (k * (2 * π / N) * j) + c (2 * k) * sin (k * (2 * π / N) * j) := by
    intro k hk
    have := mem_Ico.1 hk
    rw [if_pos (by omega)]; ring
  by_cases he : N % 2 = 0
  · rw [if_pos he, show N / 2 + 1 = (N + 1) / 2 + 1 by omega, sum_Ico_succ_top (by omega),
      sum_congr rfl hs, if_neg (by omega), show 2 * ((N + 1) / 2) - 1 = N - 1 by omega]
    congr 1
    have : (((N + 1) / 2 : Nat) : ℝ) * (2 * π / N) * j = π * j := by
      have h2 : (((N + 1) / 2 : Nat) : ℝ) * 2 = N := by
        have : (N + 1) / 2 * 2 = N := by omega
        exact_mod_cast this
      calc _ = ((((N + 1) / 2 : Nat) : ℝ) * 2) * π / N * j := by ring
        _ = π * j := by rw [h2]; field_simp
    rw [this]; ring
  · rw [if_neg he, show N / 2 + 1 = (N + 1) / 2 by omega, sum_congr rfl hs, add_zero]

/-- `four_eval` gives the values of the series at the grid points `a + j (b-a)/N`. -/
theorem C33_eval (a b : ℝ) (hab : a ≠ b) (c u : Nat → ℝ) (n j : Nat) (hj : j ≤ n) :
    fourEval c u n j =
      Spec.fourSeries a b c (n + 1) (a + j * (b - a) / (n + 1 : Nat)) := by
  have hba : b - a ≠ 0 := sub_ne_zero.2 (Ne.symm hab)
  unfold fourEval Spec.fourSeries
  have := upLoop_fill (lo := 0) (hi := n + 1) (fun j =>
    if (n + 1) % 2 = 0 then
      (c 0 + 2 * fourSum c (n + 1) j - c (n + 1 - 1) * cos (π * j)) / (n + 1 : Nat)
    else (c 0 + 2 * fourSum c (n + 1) j) / (n + 1 : Nat)) u j
  simp only at this ⊢
  rw [this, if_pos (by omega), fourSum_eq c (n + 1) j (by omega)]
  have hN : ((n + 1 : Nat) : ℝ) ≠ 0 := by positivity
  have hx : 2 * π * (a + j * (b - a) / (n + 1 : Nat) - a) / (b - a) = 2 * π / (n + 1 : Nat) * j := by
    field_simp
    ring
  simp only [hx, ← mul_assoc]
  by_cases he : (n + 1) % 2 = 0
  · simp only [if_pos he]
    have hl : (((n + 1) / 2 : Nat) : ℝ) * (2 * π / (n + 1 : Nat)) * j = π * j := by
      have h2 : (((n + 1) / 2 : Nat) : ℝ) * 2 = (n + 1 : Nat) := by
        have : (n + 1) / 2 * 2 = n + 1 := by omega
        exact_mod_cast this
      calc _ = ((((n + 1) / 2 : Nat) : ℝ) * 2) * π / (n + 1 : Nat) * j := by ring
        _ = π * j := by rw [h2]; field_simp
    rw [hl]
    ring
  · simp only [if_neg he]
    ring

/-- Sum over the frequencies. -/
theorem four_kernel (N : Nat) (hN : 0 < N) (m : ℤ) :
    1 + 2 * ∑ k ∈ Ico 1 ((N + 1) / 2), cos (k * (2 * π / N * m)) +
      (if N % 2 = 0 then cos (π * m) else 0) = if (N : ℤ) ∣ m then (N : ℝ) else 0 := by
  have hN' : (N : ℝ) ≠ 0 := by positivity
  by_cases he : N % 2 = 0
  · obtain ⟨M, rfl⟩ : ∃ M, N = 2 * M := ⟨N / 2, by omega⟩
    have hM : 0 < M := by omega
    have hM' : (M : ℝ) ≠ 0 := by positivity
    have hk := kern_eq M hM m
    unfold kern at hk
    have e : ∀ k : Nat, (k : ℝ) * (2 * π / (2 * M : Nat) * m) = k * (m * π / M) := by
      intro k; push_cast; field_simp
    rw [if_pos he, show (2 * M + 1) / 2 = M by omega]
    simp only [e]
    rw [mul_comm π (m : ℝ)]
    have : (((2 * M : Nat) : ℤ) ∣ m) = ((2 * (M : ℤ)) ∣ m) := by push_cast; rfl
    simp only [this]
    split at hk
    · rw [if_pos ‹_›]; push_cast; linarith
    · rw [if_neg ‹_›]; linarith
  · obtain ⟨M, rfl⟩ : ∃ M, N = 2 * M + 1 := ⟨N / 2, by omega⟩
    rw [if_neg he, show (2 * M + 1 + 1) / 2 = M + 1 by omega, add_zero]
    split
    · next hd =>
      obtain ⟨q, rfl⟩ := hd
      have hc : ∀ k : Nat, cos ((k : ℝ) * (2 * π / (2 * M + 1 : Nat) *
          (((2 * M + 1 : Nat) * q : ℤ) : ℝ))) = 1 := by
        intro k
        have : (k : ℝ) * (2 * π / (2 * M + 1 : Nat) * (((2 * M + 1 : Nat) * q : ℤ) : ℝ)) =
            ((k * q : ℤ) : ℝ) * (2 * π) := by
          push_cast; push_cast at hN'; field_simp
        rw [this, cos_int_mul_two_pi]
      rw [sum_congr rfl fun k _ => hc k, sum_const, Nat.card_Ico, nsmul_eq_mul]
      push_cast; ring
    · next hd =>
      have hdir := dirichlet M (2 * π / (2 * M + 1 : Nat) * m)
      have e : ((M : ℝ) + 1 / 2) * (2 * π / (2 * M + 1 : Nat) * m) = m * π := by
        push_cast; push_cast at hN'; field_simp
      rw [e, sin_int_mul_pi] at hdir
      rcases mul_eq_zero.1 hdir with h | h
      · exfalso
        obtain ⟨q, hq⟩ := sin_eq_zero_iff.1 (by linarith : sin (2 * π / (2 * M + 1 : Nat) * m / 2) = 0)
        apply hd
        refine ⟨q, ?_⟩
        have hp := pi_pos.ne'
        have : (m : ℝ) = (((2 * M + 1 : Nat) * q : ℤ) : ℝ) := by
          push_cast; push_cast at hN' hq
          field_simp at hq
          linarith
        exact_mod_cast this
      · linarith

/-- **C33.** Values transformed to coefficients and back are the same values, for even and odd
numbers of points. -/
theorem C33_inverse (u c w : Nat → ℝ) (n j : Nat) (hj : j ≤ n) :
    fourEval (fourCoeffs c u n) w n j = u j := by
  obtain ⟨N, hNn⟩ : ∃ N, N = n + 1 := ⟨_, rfl⟩
  have hN : 0 < N := by omega
  have hN' : (N : ℝ) ≠ 0 := by positivity
  rw [C33_eval 0 1 (by norm_num) _ _ _ _ hj]
  unfold Spec.fourSeries
  rw [← hNn]
  have hx : 2 * π * (0 + (j : ℝ) * (1 - 0) / N - 0) / (1 - 0) = 2 * π / N * j := by ring
  rw [hx]
  have h0 : fourCoeffs c u n 0 = ∑ l ∈ range N, u l := by
    rw [fourCoeffs_eq, if_neg (by omega), if_pos rfl, hNn]
  have hodd : ∀ k, 1 ≤ k → 2 * k - 1 < N → fourCoeffs c u n (2 * k - 1) =
      ∑ l ∈ range N, cos (k * (2 * π / N) * l) * u l := by
    intro k h1 h2
    rw [fourCoeffs_eq, if_neg (by omega), if_neg (by omega), if_pos (by omega),
      show (2 * k - 1 + 1) / 2 = k by omega, hNn]
  have heven : ∀ k, 1 ≤ k → 2 * k < N → fourCoeffs c u n (2 * k) =
      ∑ l ∈ range N, sin (k * (2 * π / N) * l) * u l := by
    intro k h1 h2
    rw [fourCoeffs_eq, if_neg (by omega), if_neg (by omega), if_neg (by omega),
      show 2 * k / 2 = k by omega, hNn]
  have hs : ∀ k ∈ Ico 1 ((N + 1) / 2),
      (fourCoeffs c u n (2 * k - 1) * cos (k * (2 * π / N * j)) +
        fourCoeffs c u n (2 * k) * sin (k * (2 * π / N * j))) =
      ∑ l ∈ range N, u l * cos (k * (2 * π / N * ((j - l : ℤ) : ℝ))) := by
    intro k hk
    have := mem_Ico.1 hk
    rw [hodd k (by omega) (by omega), heven k (by omega) (by omega), sum_mul, sum_mul,
      ← sum_add_distrib]
    apply sum_congr rfl
    intro l _
    have e : (k : ℝ) * (2 * π / N * ((j - l : ℤ) : ℝ)) =
        k * (2 * π / N * j) - k * (2 * π / N) * l := by push_cast; ring
    rw [e, cos_sub]; ring
  have hlast : (if N % 2 = 0 then fourCoeffs c u n (N - 1) * cos ((N / 2 : Nat) * (2 * π / N * j))
      else 0) = ∑ l ∈ range N, u l * (if N % 2 = 0 then cos (π * ((j - l : ℤ) : ℝ)) else 0) := by
    by_cases he : N % 2 = 0
    · simp only [if_pos he]
      have h2 : ((N / 2 : Nat) : ℝ) * 2 = N := by
        have : N / 2 * 2 = N := by omega
        exact_mod_cast this
      have hl : ∀ l : ℝ, ((N / 2 : Nat) : ℝ) * (2 * π / N) * l = π * l := by
        intro l
        calc _ = (((N / 2 : Nat) : ℝ) * 2) * π / N * l := by ring
          _ = π * l := by rw [h2]; field_simp
      have := hodd (N / 2) (by omega) (by omega)
      rw [show 2 * (N / 2) - 1 = N - 1 by omega] at this
      rw [this, ← mul_assoc, hl, sum_mul]
      apply sum_congr rfl
      intro l _
      have e : π * ((j - l : ℤ) : ℝ) = π * j - π * l := by push_cast; ring
      have s0 : sin (π * l) = 0 := by rw [mul_comm]; exact sin_nat_mul_pi l
      rw [hl, e, cos_sub, s0]; ring
    · simp only [if_neg he]; simp
  rw [h0, sum_congr rfl hs, hlast, sum_comm, mul_sum, ← sum_add_distrib, ← sum_add_distrib]
  calc (∑ l ∈ range N, (u l + 2 * ∑ k ∈ Ico 1 ((N + 1) / 2), u l *
            cos (k * (2 * π / N * ((j - l : ℤ) : ℝ))) +
          u l * if N % 2 = 0 then cos (π * ((j - l : ℤ) : ℝ)) else 0)) / N
      = (∑ l ∈ range N, if l = j then u l * N else 0) / N := by
        congr 1
        apply sum_congr rfl
        intro l hl
        have hk := four_kernel N hN ((j : ℤ) - l)
        have hd : (N : ℤ) ∣ (j : ℤ) - l ↔ l = j := by
          have := mem_range.1 hl
          constructor
          · intro h
            by_contra hne
            have := Int.le_of_dvd (a := (N : ℤ)) (b := |(j : ℤ) - l|)
              (abs_pos.2 (by omega)) ((dvd_abs _ _).2 h)
            rcases abs_cases ((j : ℤ) - l) with ⟨h1, _⟩ | ⟨h1, _⟩ <;> omega
          · rintro rfl; simp
        rw [← mul_sum, ← mul_assoc, mul_comm 2 (u l), mul_assoc]
        calc _ = u l * (1 + 2 * ∑ k ∈ Ico 1 ((N + 1) / 2), cos (k * (2 * π / N * ((j - l : ℤ) : ℝ))) +
              if N % 2 = 0 then cos (π * ((j - l : ℤ) : ℝ)) else 0) := by ring
          _ = _ := by
            rw [hk]
            by_cases h : l = j
            · rw [if_pos (hd.2 h), if_pos h]
            · rw [if_neg fun hh => h (hd.1 hh), if_neg h, mul_zero]
    _ = u j := by
        rw [sum_ite_eq' (range N) j, if_pos (mem_range.2 (by omega))]
        field_simp

/-- **C33.** Entries behind the last one are not touched. -/
theorem C33_rest (u c : Nat → ℝ) (n j : Nat) (hj : n < j) :
    fourCoeffs c u n j = c j ∧ fourEval c u n j = u j := by
  constructor
  · rw [fourCoeffs_eq, if_pos hj]
  · unfold fourEval
    have := upLoop_fill (lo := 0) (hi := n + 1) (fun j =>
      if (n + 1) % 2 = 0 then
        (c 0 + 2 * fourSum c (n + 1) j - c (n + 1 - 1) * cos (π * j)) / (n + 1 : Nat)
      else (c 0 + 2 * fourSum c (n + 1) j) / (n + 1 : Nat)) u j
    simp only at this ⊢
    rw [this, if_neg (by omega)]

/-! ## The other normalisation -/

/-- What `four_coeffs_alt` puts into its array. -/
theorem fourCoeffsAlt_eq (c u : Nat → ℝ) (n m : Nat) (hm : m ≤ n) :
    fourCoeffsAlt c u n m = fourCoeffs c u n m *
      (if m = 0 ∨ (m = n ∧ n % 2 = 1) then 1 / ((n + 1 : Nat) : ℝ) else 2 / ((n + 1 : Nat) : ℝ)) := by
  have hN : ((n + 1 : Nat) : ℝ) ≠ 0 := by positivity
  have hpi : π * (2 / (n + 1 : Nat)) = 2 * π / (n + 1 : Nat) := by ring
  have key : ∀ m, m ≤ n → upLoop 1 ((n + 1) / 2 + 1) (fun j c =>
      let c := aset c (2 * j - 1)
        ((∑ k ∈ range (n + 1), cos (j * (2 * π / (n + 1 : Nat)) * k) * u k) * (2 / (n + 1 : Nat)))
      if 2 * j < n + 1 then aset c (2 * j)
        ((∑ k ∈ range (n + 1), sin (j * (2 * π / (n + 1 : Nat)) * k) * u k) * (2 / (n + 1 : Nat)))
      else c)
      (aset (aset c 0 (∑ k ∈ range (n + 1), u k)) 0 ((∑ k ∈ range (n + 1), u k) / (n + 1 : Nat))) m =
      fourCoeffs c u n m * (if m = 0 then 1 / ((n + 1 : Nat) : ℝ) else 2 / ((n + 1 : Nat) : ℝ)) := by
    intro m hm
    have := pair_loop (n + 1) ((n + 1) / 2 + 1) (by omega)
      (fun j _ => (∑ k ∈ range (n + 1), cos (j * (2 * π / (n + 1 : Nat)) * k) * u k) *
        (2 / (n + 1 : Nat)))
      (fun j _ => (∑ k ∈ range (n + 1), sin (j * (2 * π / (n + 1 : Nat)) * k) * u k) *
        (2 / (n + 1 : Nat)))
      (aset (aset c 0 (∑ k ∈ range (n + 1), u k)) 0 ((∑ k ∈ range (n + 1), u k) / (n + 1 : Nat)))
      (fun _ _ _ _ => rfl) (fun _ _ _ _ _ => rfl) m
    rw [this, fourCoeffs_eq, if_neg (by omega : ¬ n < m)]
    by_cases h0 : m = 0
    · subst h0
      rw [if_neg (by omega), if_pos rfl, if_pos rfl, aset_self]; ring
    · rw [if_pos (by omega), if_neg h0, if_neg h0]
      split <;> rfl
  unfold fourCoeffsAlt
  simp only [sumTo_eq, hpi, aset_self]
  generalize hc1 : upLoop 1 ((n + 1) / 2 + 1) (fun j c =>
      if 2 * j < n + 1 then aset (aset c (2 * j - 1)
        ((∑ k ∈ range (n + 1), cos (j * (2 * π / (n + 1 : Nat)) * k) * u k) * (2 / (n + 1 : Nat))))
        (2 * j)
        ((∑ k ∈ range (n + 1), sin (j * (2 * π / (n + 1 : Nat)) * k) * u k) * (2 / (n + 1 : Nat)))
      else aset c (2 * j - 1)
        ((∑ k ∈ range (n + 1), cos (j * (2 * π / (n + 1 : Nat)) * k) * u k) * (2 / (n + 1 : Nat))))
      (aset (aset c 0 (∑ k ∈ range (n + 1), u k)) 0 ((∑ k ∈ range (n + 1), u k) / (n + 1 : Nat)))
      = c1
  simp only [hc1] at key
  by_cases he : (n + 1) % 2 = 0
  · rw [if_pos he]
    by_cases hl : m = n
    · subst hl
      rw [Nat.add_sub_cancel, aset_self, key m (le_refl _), if_neg (by omega), if_pos (by omega)]
      ring
    · rw [Nat.add_sub_cancel, aset_ne _ _ hl, key m hm]
      by_cases h0 : m = 0
      · rw [if_pos h0, if_pos (Or.inl h0)]
      · rw [if_neg h0, if_neg (by omega)]
  · rw [if_neg he, key m hm]
    by_cases h0 : m = 0
    · rw [if_pos h0, if_pos (Or.inl h0)]
    · rw [if_neg h0, if_neg (by omega)]

theorem fourEvalAlt_eq (c u : Nat → ℝ) (n j : Nat) (hj : j ≤ n) : fourEvalAlt c u n j =
    c 0 + ∑ k ∈ Ico 1 ((n + 1 + 1) / 2), (c (2 * k - 1) * cos (k * (2 * π / (n + 1 : Nat)) * j) +
        c (2 * k) * sin (k * (2 * π / (n + 1 : Nat)) * j)) := by
  unfold fourEvalAlt
  have := upLoop_fill (lo := 0) (hi := n + 1) (fun j =>
    if (n + 1) % 2 = 0 then c 0 + fourSum c (n + 1) j - c (n + 1 - 1) * cos (π * j)
    else c 0 + fourSum c (n + 1) j) u j
  simp only at this ⊢
  rw [this, if_pos (by omega), fourSum_eq c (n + 1) j (by omega)]
  split <;> ring

/-- **C33.** The pair `four_coeffs_alt`, `four_eval_alt` reproduces the values if the number of
points is odd; if it is even the part with the highest frequency is lost. -/
theorem C33_alt_partial (u c w : Nat → ℝ) (n j : Nat) (hj : j ≤ n) :
    fourEvalAlt (fourCoeffsAlt c u n) w n j = u j -
      if n % 2 = 1 then (∑ l ∈ range (n + 1), cos (π * l) * u l) / (n + 1 : Nat) * cos (π * j)
      else 0 := by
  have hN : ((n + 1 : Nat) : ℝ) ≠ 0 := by positivity
  have h := C33_inverse u c w n j hj
  have hx : 2 * π * (0 + (j : ℝ) * (1 - 0) / (n + 1 : Nat) - 0) / (1 - 0) =
      2 * π / (n + 1 : Nat) * j := by ring
  rw [C33_eval 0 1 (by norm_num) _ _ _ _ hj] at h
  unfold Spec.fourSeries at h
  rw [hx] at h
  rw [fourEvalAlt_eq _ _ _ _ hj, ← h, fourCoeffsAlt_eq c u n 0 (by omega), if_pos (Or.inl rfl)]
  have hs : ∀ k ∈ Ico 1 ((n + 1 + 1) / 2),
      (fourCoeffsAlt c u n (2 * k - 1) * cos (k * (2 * π / (n + 1 : Nat)) * j) +
        fourCoeffsAlt c u n (2 * k) * sin (k * (2 * π / (n + 1 : Nat)) * j)) =
      2 / (n + 1 : Nat) * (fourCoeffs c u n (2 * k - 1) * cos (k * (2 * π / (n + 1 : Nat) * j)) +
        fourCoeffs c u n (2 * k) * sin (k * (2 * π / (n + 1 : Nat) * j))) := by
    intro k hk
    have := mem_Ico.1 hk
    rw [fourCoeffsAlt_eq c u n _ (by omega), fourCoeffsAlt_eq c u n _ (by omega),
      if_neg (by omega), if_neg (by omega)]
    ring_nf
  rw [sum_congr rfl hs, ← mul_sum]
  by_cases he : (n + 1) % 2 = 0
  · rw [if_pos he, if_pos (by omega : n % 2 = 1), Nat.add_sub_cancel]
    have h2 : (((n + 1) / 2 : Nat) : ℝ) * 2 = (n + 1 : Nat) := by
      have : (n + 1) / 2 * 2 = n + 1 := by omega
      exact_mod_cast this
    have hl : ∀ l : ℝ, (((n + 1) / 2 : Nat) : ℝ) * (2 * π / (n + 1 : Nat)) * l = π * l := by
      intro l
      calc _ = ((((n + 1) / 2 : Nat) : ℝ) * 2) * π / (n + 1 : Nat) * l := by ring
        _ = π * l := by rw [h2]; field_simp
    have hc : fourCoeffs c u n n = ∑ l ∈ range (n + 1), cos (π * l) * u l := by
      rw [fourCoeffs_eq, if_neg (by omega), if_neg (by omega), if_pos (by omega)]
      exact sum_congr rfl fun l _ => by rw [hl]
    rw [hc, ← mul_assoc, hl]
    ring
  · rw [if_neg he, if_neg (by omega)]
    ring

/-- **C33.** For two points `four_eval_alt` returns the mean value at both points. -/
theorem C33_alt_counterexample :
    fourEvalAlt (fourCoeffsAlt (fun _ => 0) (fun j => if j = 0 then 1 else 0) 1) (fun _ => 0) 1 0
      = 1 / 2 := by
  rw [C33_alt_partial _ _ _ _ _ (by omega)]
  norm_num [sum_range_succ]

/-! ## Derivatives -/

/-- What `four_deriv` puts into its array. -/
theorem fourDeriv_eq (a b : ℝ) (c cder : Nat → ℝ) (n : Nat) :
    fourDeriv a b c cder n 0 = 0 ∧
    (∀ k, 1 ≤ k → 2 * k ≤ n →
      fourDeriv a b c cder n (2 * k - 1) = c (2 * k) * (2 * π / (b - a)) * k ∧
      fourDeriv a b c cder n (2 * k) = -c (2 * k - 1) * (2 * π / (b - a)) * k) ∧
    ((n + 1) % 2 = 0 → fourDeriv a b c cder n n = 0) ∧
    ∀ m, n < m → fourDeriv a b c cder n m = cder m := by
  have hloop : ∀ m, upLoop 1 ((n + 1 + 1) / 2) (fun j cder =>
      aset (aset cder (2 * j - 1) (c (2 * j) * (2 * π / (b - a)) * j)) (2 * j)
        (-c (2 * j - 1) * (2 * π / (b - a)) * j)) cder m =
      if 1 ≤ m ∧ m < 2 * ((n + 1 + 1) / 2) - 1 ∧ (m % 2 = 1 ∨ m < n + 1) then
      (if m % 2 = 1 then c (2 * ((m + 1) / 2)) * (2 * π / (b - a)) * ((m + 1) / 2 : Nat)
        else -c (2 * (m / 2) - 1) * (2 * π / (b - a)) * (m / 2 : Nat)) else cder m := by
    intro m
    rw [← pair_loop (n + 1) ((n + 1 + 1) / 2) (by omega)
      (fun j _ => c (2 * j) * (2 * π / (b - a)) * j)
      (fun j _ => -c (2 * j - 1) * (2 * π / (b - a)) * j) cder
      (fun _ _ _ _ => rfl) (fun _ _ _ _ _ => rfl) m]
    refine congrFun (upLoop_congr _ ?_) m
    intro j t h1 h2
    simp only
    rw [if_pos (by omega)]
  unfold fourDeriv
  simp only
  generalize upLoop 1 ((n + 1 + 1) / 2) _ cder = t at *
  have hread : ∀ m, (if (n + 1) % 2 = 0 then aset (aset t 0 0) (n + 1 - 1) 0 else aset t 0 0) m =
      if m = 0 ∨ ((n + 1) % 2 = 0 ∧ m = n) then 0 else t m := by
    intro m
    by_cases he : (n + 1) % 2 = 0
    · rw [if_pos he, Nat.add_sub_cancel]
      by_cases hm : m = n
      · rw [hm, aset_self, if_pos (Or.inr ⟨he, rfl⟩)]
      · rw [aset_ne _ _ hm]
        by_cases h0 : m = 0
        · rw [h0, aset_self, if_pos (Or.inl rfl)]
        · rw [aset_ne _ _ h0, if_neg (by omega)]
    · rw [if_neg he]
      by_cases h0 : m = 0
      · rw [h0, aset_self, if_pos (Or.inl rfl)]
      · rw [aset_ne _ _ h0, if_neg (by omega)]
  refine ⟨by rw [hread, if_pos (Or.inl rfl)], fun k h1 h2 => ⟨?_, ?_⟩, fun he => ?_, fun m hm => ?_⟩
  · rw [hread, if_neg (by omega), hloop, if_pos (by omega), if_pos (by omega),
      show (2 * k - 1 + 1) / 2 = k by omega]
  · rw [hread, if_neg (by omega), hloop, if_pos (by omega), if_neg (by omega),
      show 2 * k / 2 = k by omega]
  · rw [hread, if_pos (Or.inr ⟨he, rfl⟩)]
  · rw [hread, if_neg (by omega), hloop, if_neg (by omega)]

/-- Derivative of the angle. -/
theorem angle_hasDeriv (a b k X : ℝ) :
    HasDerivAt (fun X => k * (2 * π * (X - a) / (b - a))) (k * (2 * π / (b - a))) X := by
  have := ((((hasDerivAt_id X).sub_const a).const_mul (2 * π)).div_const (b - a)).const_mul k
  simpa using this

theorem fourSeries_hasDeriv (a b : ℝ) (c : Nat → ℝ) (N : Nat) (X : ℝ) :
    HasDerivAt (fun X => Spec.fourSeries a b c N X)
      ((2 * ∑ k ∈ Ico 1 ((N + 1) / 2),
        (c (2 * k - 1) * (-sin (k * (2 * π * (X - a) / (b - a))) * (k * (2 * π / (b - a)))) +
          c (2 * k) * (cos (k * (2 * π * (X - a) / (b - a))) * (k * (2 * π / (b - a))))) +
        if N % 2 = 0 then c (N - 1) * (-sin ((N / 2 : Nat) * (2 * π * (X - a) / (b - a))) *
          ((N / 2 : Nat) * (2 * π / (b - a)))) else 0) / N) X := by
  unfold Spec.fourSeries
  apply HasDerivAt.div_const
  apply HasDerivAt.add
  · apply HasDerivAt.const_add
    apply HasDerivAt.const_mul
    apply HasDerivAt.fun_sum
    intro k _
    exact (((angle_hasDeriv a b k X).cos).const_mul _).add (((angle_hasDeriv a b k X).sin).const_mul _)
  · split
    · exact ((angle_hasDeriv a b (N / 2 : Nat) X).cos).const_mul _
    · exact hasDerivAt_const _ _

/-- **C37.** The coefficients computed by `four_deriv` are those of the derivative of the series
with respect to `X`, up to the contribution of the highest frequency for an even number of points;
entries beyond `n` are not touched. -/
theorem C37_deriv_partial (a b : ℝ) (c cder : Nat → ℝ) (n : Nat) (X : ℝ) :
    HasDerivAt (fun X => Spec.fourSeries a b c (n + 1) X)
      (Spec.fourSeries a b (fourDeriv a b c cder n) (n + 1) X -
        if n % 2 = 1 then c n * sin (((n + 1) / 2 : Nat) * (2 * π * (X - a) / (b - a))) * (π / (b - a))
        else 0) X ∧
    ∀ j, n < j → fourDeriv a b c cder n j = cder j := by
  obtain ⟨h0, hk, he, hr⟩ := fourDeriv_eq a b c cder n
  refine ⟨?_, hr⟩
  have hN : ((n + 1 : Nat) : ℝ) ≠ 0 := by positivity
  have h := fourSeries_hasDeriv a b c (n + 1) X
  have e : Spec.fourSeries a b (fourDeriv a b c cder n) (n + 1) X -
        (if n % 2 = 1 then c n * sin (((n + 1) / 2 : Nat) * (2 * π * (X - a) / (b - a))) *
          (π / (b - a)) else 0) = (2 * ∑ k ∈ Ico 1 ((n + 1 + 1) / 2),
        (c (2 * k - 1) * (-sin (k * (2 * π * (X - a) / (b - a))) * (k * (2 * π / (b - a)))) +
          c (2 * k) * (cos (k * (2 * π * (X - a) / (b - a))) * (k * (2 * π / (b - a))))) +
        if (n + 1) % 2 = 0 then c (n + 1 - 1) *
          (-sin (((n + 1) / 2 : Nat) * (2 * π * (X - a) / (b - a))) *
          (((n + 1) / 2 : Nat) * (2 * π / (b - a)))) else 0) / (n + 1 : Nat) := by
    unfold Spec.fourSeries
    rw [h0, zero_add]
    have hs : ∀ k ∈ Ico 1 ((n + 1 + 1) / 2),
        (fourDeriv a b c cder n (2 * k - 1) * cos (k * (2 * π * (X - a) / (b - a))) +
          fourDeriv a b c cder n (2 * k) * sin (k * (2 * π * (X - a) / (b - a)))) =
        (c (2 * k - 1) * (-sin (k * (2 * π * (X - a) / (b - a))) * (k * (2 * π / (b - a)))) +
          c (2 * k) * (cos (k * (2 * π * (X - a) / (b - a))) * (k * (2 * π / (b - a))))) := by
      intro k hk'
      have := mem_Ico.1 hk'
      obtain ⟨e1, e2⟩ := hk k (by omega) (by omega)
      rw [e1, e2]; ring
    rw [sum_congr rfl hs]
    by_cases hev : (n + 1) % 2 = 0
    · simp only [if_pos hev, if_pos (by omega : n % 2 = 1), Nat.add_sub_cancel, he hev]
      have h2 : (((n + 1) / 2 : Nat) : ℝ) * 2 = (n + 1 : Nat) := by
        have : (n + 1) / 2 * 2 = n + 1 := by omega
        exact_mod_cast this
      generalize sin (((n + 1) / 2 : Nat) * (2 * π * (X - a) / (b - a))) = S
      have e3 : (((n + 1) / 2 : Nat) : ℝ) * (2 * π / (b - a)) = (n + 1 : Nat) * (π / (b - a)) := by
        rw [← h2]; ring
      rw [e3]
      generalize (∑ k ∈ Ico 1 ((n + 1 + 1) / 2), (_ : ℝ)) = Q
      field_simp
      ring
    · simp only [if_neg hev, if_neg (by omega : ¬ n % 2 = 1)]
      ring
  rw [e]
  exact h

/-- **C37.** With an odd number of points the derivative is exact everywhere. -/
theorem C37_odd (a b : ℝ) (c cder : Nat → ℝ) (n : Nat) (hn : (n + 1) % 2 = 1) (X : ℝ) :
    HasDerivAt (fun X => Spec.fourSeries a b c (n + 1) X)
      (Spec.fourSeries a b (fourDeriv a b c cder n) (n + 1) X) X := by
  have := (C37_deriv_partial a b c cder n X).1
  rwa [if_neg (by omega), sub_zero] at this

/-- **C37.** At the grid points the derivative is exact for every number of points. -/
theorem C37_grid (a b : ℝ) (hab : a ≠ b) (c cder : Nat → ℝ) (n j : Nat) :
    HasDerivAt (fun X => Spec.fourSeries a b c (n + 1) X)
      (Spec.fourSeries a b (fourDeriv a b c cder n) (n + 1) (a + j * (b - a) / (n + 1 : Nat)))
      (a + j * (b - a) / (n + 1 : Nat)) := by
  have hba : b - a ≠ 0 := sub_ne_zero.2 (Ne.symm hab)
  have hN : ((n + 1 : Nat) : ℝ) ≠ 0 := by positivity
  have := (C37_deriv_partial a b c cder n (a + j * (b - a) / (n + 1 : Nat))).1
  by_cases hn : n % 2 = 1
  · have hs : sin (((n + 1) / 2 : Nat) * (2 * π * (a + j * (b - a) / (n + 1 : Nat) - a) / (b - a)))
        = 0 := by
      have h2 : (((n + 1) / 2 : Nat) : ℝ) * 2 = (n + 1 : Nat) := by
        have : (n + 1) / 2 * 2 = n + 1 := by omega
        exact_mod_cast this
      have : (((n + 1) / 2 : Nat) : ℝ) * (2 * π * (a + j * (b - a) / (n + 1 : Nat) - a) / (b - a)) =
          j * π := by
        calc _ = ((((n + 1) / 2 : Nat) : ℝ) * 2) * π * (j * (b - a) / (n + 1 : Nat)) / (b - a) := by
              ring
          _ = j * π := by rw [h2]; field_simp
      rw [this, sin_nat_mul_pi]
    rw [hs] at this
    simpa using this
  · rwa [if_neg hn, sub_zero] at this

/-- **C37.** Between the grid points an even number of points gives a wrong derivative: the series
with two points and the coefficients 0, 2 is `cos φ`. -/
theorem C37_even_counterexample (cder : Nat → ℝ) :
    HasDerivAt (fun X => Spec.fourSeries 0 (2 * π) (fun j => if j = 1 then 2 else 0) 2 X) (-1) (π / 2) ∧
    Spec.fourSeries 0 (2 * π) (fourDeriv 0 (2 * π) (fun j => if j = 1 then 2 else 0) cder 1) 2 (π / 2)
      = 0 := by
  have h := (C37_deriv_partial 0 (2 * π) (fun j => if j = 1 then 2 else 0) cder 1 (π / 2)).1
  have hp := pi_pos.ne'
  obtain ⟨h0, -, he, -⟩ := fourDeriv_eq 0 (2 * π) (fun j => if j = 1 then 2 else 0) cder 1
  have hz : Spec.fourSeries 0 (2 * π) (fourDeriv 0 (2 * π) (fun j => if j = 1 then 2 else 0) cder 1) 2
      (π / 2) = 0 := by
    unfold Spec.fourSeries
    rw [h0, if_pos (by decide), he (by decide)]
    norm_num
  refine ⟨?_, hz⟩
  have h' := h
  rw [hz] at h'
  convert h' using 1
  have e1 : 2 * π * (π / 2 - 0) / (2 * π - 0) = π / 2 := by field_simp; ring
  have e2 : π / (2 * π - 0) = 1 / 2 := by rw [sub_zero]; field_simp
  rw [e1, e2]
  norm_num

/-! ## Integrals -/

theorem fourSeries_congr (a b : ℝ) (c d : Nat → ℝ) (N : Nat) (hN : 0 < N) (X : ℝ)
    (h : ∀ m, m < N → c m = d m) : Spec.fourSeries a b c N X = Spec.fourSeries a b d N X := by
  unfold Spec.fourSeries
  rw [h 0 hN, h (N - 1) (by omega)]
  congr 3
  congr 1
  apply sum_congr rfl
  intro k hk
  have := mem_Ico.1 hk
  rw [h (2 * k - 1) (by omega), h (2 * k) (by omega)]

theorem fourSeries_lin (a b s : ℝ) (p q : Nat → ℝ) (N : Nat) (X : ℝ) :
    Spec.fourSeries a b (fun m => p m * s + q m) N X =
      s * Spec.fourSeries a b p N X + Spec.fourSeries a b q N X := by
  unfold Spec.fourSeries
  have e : ∑ k ∈ Ico 1 ((N + 1) / 2),
      ((p (2 * k - 1) * s + q (2 * k - 1)) * cos (k * (2 * π * (X - a) / (b - a))) +
        (p (2 * k) * s + q (2 * k)) * sin (k * (2 * π * (X - a) / (b - a)))) =
      s * ∑ k ∈ Ico 1 ((N + 1) / 2), (p (2 * k - 1) * cos (k * (2 * π * (X - a) / (b - a))) +
        p (2 * k) * sin (k * (2 * π * (X - a) / (b - a)))) +
      ∑ k ∈ Ico 1 ((N + 1) / 2), (q (2 * k - 1) * cos (k * (2 * π * (X - a) / (b - a))) +
        q (2 * k) * sin (k * (2 * π * (X - a) / (b - a)))) := by
    rw [mul_sum, ← sum_add_distrib]
    exact sum_congr rfl fun k _ => by ring
  rw [e]
  split <;> ring

/-- The periodic part of an antiderivative. -/
noncomputable def fourAnti (a b : ℝ) (c : Nat → ℝ) (m : Nat) : ℝ :=
  if m = 0 then 0
  else if m % 2 = 1 then -c (m + 1) / (2 * π / (b - a) * ((m + 1) / 2 : Nat))
  else c (m - 1) / (2 * π / (b - a) * (m / 2 : Nat))

/-- What `four_int` puts into its array. -/
theorem fourInt_eq (a b : ℝ) (c cint : Nat → ℝ) (n m : Nat) (hm : m ≤ n) :
    fourInt a b c cint n m =
      fourCoeffs cint (upLoop 0 (n + 1) (fun j u => aset u j (j * (b - a) / (n + 1 : Nat)))
        (fun _ => 0)) n m * (c 0 / (n + 1 : Nat)) +
      (if m = n ∧ n % 2 = 1 then 0 else fourAnti a b c m) := by
  unfold fourInt
  simp only
  generalize fourCoeffs cint (upLoop 0 (n + 1) (fun j u => aset u j (j * (b - a) / (n + 1 : Nat)))
    (fun _ => 0)) n = p
  have h1 : ∀ m, upLoop 0 (n + 1) (fun j cint => aset cint j (cint j * (c 0 / (n + 1 : Nat)))) p m =
      if m ≤ n then p m * (c 0 / (n + 1 : Nat)) else p m := by
    intro m
    rw [upLoop_mapi (fun _ x => x * (c 0 / (n + 1 : Nat)))]
    exact if_congr (by omega) rfl rfl
  generalize upLoop 0 (n + 1) (fun j cint => aset cint j (cint j * (c 0 / (n + 1 : Nat)))) p = q at *
  have hloop : ∀ m, m ≤ n → upLoop 1 ((n + 1 + 1) / 2) (fun j cint =>
      aset (aset cint (2 * j - 1) (cint (2 * j - 1) + -c (2 * j) / (2 * π / (b - a) * j))) (2 * j)
        (aset cint (2 * j - 1) (cint (2 * j - 1) + -c (2 * j) / (2 * π / (b - a) * j)) (2 * j) +
          c (2 * j - 1) / (2 * π / (b - a) * j))) q m =
      q m + (if m = n ∧ n % 2 = 1 then 0 else fourAnti a b c m) := by
    intro m hm
    have := pair_loop (n + 1) ((n + 1 + 1) / 2) (by omega)
      (fun j x => x (2 * j - 1) + -c (2 * j) / (2 * π / (b - a) * j))
      (fun j x => x (2 * j) + c (2 * j - 1) / (2 * π / (b - a) * j)) q
      (fun j x y h => by rw [h _ (le_refl _)])
      (fun j x y hj h => by rw [h _ (by omega)]) m
    have e : upLoop 1 ((n + 1 + 1) / 2) (fun j cint =>
        aset (aset cint (2 * j - 1) (cint (2 * j - 1) + -c (2 * j) / (2 * π / (b - a) * j))) (2 * j)
        (aset cint (2 * j - 1) (cint (2 * j - 1) + -c (2 * j) / (2 * π / (b - a) * j)) (2 * j) +
          c (2 * j - 1) / (2 * π / (b - a) * j))) q = upLoop 1 ((n + 1 + 1) / 2) (fun j c_1 =>
        let c_2 := aset c_1 (2 * j - 1) (c_1 (2 * j - 1) + -c (2 * j) / (2 * π / (b - a) * j));
        if 2 * j < n + 1 then aset c_2 (2 * j) (c_2 (2 * j) + c (2 * j - 1) / (2 * π / (b - a) * j))
        else c_2) q := by
      refine upLoop_congr _ ?_
      intro j t h1 h2
      simp only
      rw [if_pos (by omega)]
    rw [e, this]
    unfold fourAnti
    by_cases h0 : m = 0
    · rw [if_neg (by omega), if_pos h0]; simp
    · by_cases hl : m = n ∧ n % 2 = 1
      · rw [if_neg (by omega), if_pos hl, add_zero]
      · rw [if_pos (by omega), if_neg hl, if_neg h0]
        by_cases ho : m % 2 = 1
        · rw [if_pos ho, if_pos ho, show 2 * ((m + 1) / 2) - 1 = m by omega,
            show 2 * ((m + 1) / 2) = m + 1 by omega]
        · rw [if_neg ho, if_neg ho, show 2 * (m / 2) - 1 = m - 1 by omega,
            show 2 * (m / 2) = m by omega]
  have hlast : ∀ t : Nat → ℝ, (if (n + 1) % 2 = 0 then aset t (n + 1 - 1) (t (n + 1 - 1) + 0) else t) m
      = t m := by
    intro t
    split
    · by_cases h : m = n + 1 - 1
      · rw [h, aset_self, add_zero]
      · rw [aset_ne _ _ h]
    · rfl
  rw [hlast, hloop m hm, h1, if_pos hm]

/-- Antiderivative of the series without the highest frequency for even `N`. -/
noncomputable def fourF (a b : ℝ) (c : Nat → ℝ) (N : Nat) (X : ℝ) : ℝ :=
  (c 0 * (X - a) + 2 * ∑ k ∈ Ico 1 ((N + 1) / 2),
    (c (2 * k - 1) / (2 * π / (b - a) * k) * sin (k * (2 * π * (X - a) / (b - a))) -
      c (2 * k) / (2 * π / (b - a) * k) * cos (k * (2 * π * (X - a) / (b - a))))) / N

theorem fourF_hasDeriv (a b : ℝ) (hab : a ≠ b) (c : Nat → ℝ) (N : Nat) (X : ℝ) :
    HasDerivAt (fun X => fourF a b c N X) ((c 0 + 2 * ∑ k ∈ Ico 1 ((N + 1) / 2),
      (c (2 * k - 1) * cos (k * (2 * π * (X - a) / (b - a))) +
        c (2 * k) * sin (k * (2 * π * (X - a) / (b - a))))) / N) X := by
  have hba : b - a ≠ 0 := sub_ne_zero.2 (Ne.symm hab)
  have hp := pi_pos.ne'
  unfold fourF
  apply HasDerivAt.div_const
  apply HasDerivAt.add
  · simpa using ((hasDerivAt_id X).sub_const a).const_mul (c 0)
  · apply HasDerivAt.const_mul
    apply HasDerivAt.fun_sum
    intro k hk
    have hk' : (k : ℝ) ≠ 0 := by
      have := mem_Ico.1 hk
      exact_mod_cast (by omega : k ≠ 0)
    have h := (((angle_hasDeriv a b k X).sin).const_mul (c (2 * k - 1) / (2 * π / (b - a) * k))).sub
      (((angle_hasDeriv a b k X).cos).const_mul (c (2 * k) / (2 * π / (b - a) * k)))
    have e : c (2 * k - 1) / (2 * π / (b - a) * k) *
        (cos (k * (2 * π * (X - a) / (b - a))) * (k * (2 * π / (b - a)))) -
        c (2 * k) / (2 * π / (b - a) * k) *
        (-sin (k * (2 * π * (X - a) / (b - a))) * (k * (2 * π / (b - a)))) =
        c (2 * k - 1) * cos (k * (2 * π * (X - a) / (b - a))) +
        c (2 * k) * sin (k * (2 * π * (X - a) / (b - a))) := by
      generalize cos (k * (2 * π * (X - a) / (b - a))) = C
      generalize sin (k * (2 * π * (X - a) / (b - a))) = S
      field_simp
      ring
    rw [e] at h
    exact h

/-- **C68.** The coefficients computed by `four_int`, evaluated at the grid points, give an
antiderivative of the series there. For an even number of points the term with the highest
frequency is left out of the series. -/
theorem C68_int (a b : ℝ) (hab : a ≠ b) (c cint w : Nat → ℝ) (n : Nat) :
    ∃ F : ℝ → ℝ,
      (∀ X, HasDerivAt F (Spec.fourSeries a b
        (fun m => if m = n ∧ n % 2 = 1 then 0 else c m) (n + 1) X) X) ∧
      ∀ j, j ≤ n → fourEval (fourInt a b c cint n) w n j = F (a + j * (b - a) / (n + 1 : Nat)) := by
  have hba : b - a ≠ 0 := sub_ne_zero.2 (Ne.symm hab)
  have hN : ((n + 1 : Nat) : ℝ) ≠ 0 := by positivity
  refine ⟨fun X => fourF a b c (n + 1) X, fun X => ?_, fun j hj => ?_⟩
  · have h := fourF_hasDeriv a b hab c (n + 1) X
    convert h using 1
    unfold Spec.fourSeries
    congr 1
    have hs : ∀ k ∈ Ico 1 ((n + 1 + 1) / 2),
        ((if 2 * k - 1 = n ∧ n % 2 = 1 then 0 else c (2 * k - 1)) *
          cos (k * (2 * π * (X - a) / (b - a))) +
        (if 2 * k = n ∧ n % 2 = 1 then 0 else c (2 * k)) *
          sin (k * (2 * π * (X - a) / (b - a)))) =
        c (2 * k - 1) * cos (k * (2 * π * (X - a) / (b - a))) +
        c (2 * k) * sin (k * (2 * π * (X - a) / (b - a))) := by
      intro k hk
      have := mem_Ico.1 hk
      rw [if_neg (by omega), if_neg (by omega)]
    beta_reduce
    rw [sum_congr rfl hs, if_neg (by omega), Nat.add_sub_cancel]
    by_cases he : (n + 1) % 2 = 0
    · rw [if_pos he, if_pos ⟨rfl, by omega⟩]; ring
    · rw [if_neg he]; ring
  · rw [C33_eval a b hab _ _ _ _ hj, fourSeries_congr a b _ (fun m =>
      fourCoeffs cint (upLoop 0 (n + 1) (fun j u => aset u j (j * (b - a) / (n + 1 : Nat)))
        (fun _ => 0)) n m * (c 0 / (n + 1 : Nat)) +
      (if m = n ∧ n % 2 = 1 then 0 else fourAnti a b c m)) (n + 1) (by omega) _
      (fun m hm => fourInt_eq a b c cint n m (by omega)), fourSeries_lin, ← C33_eval a b hab _ w _ _ hj,
      C33_inverse _ _ _ _ _ hj, upLoop_fill (fun j => (j : ℝ) * (b - a) / (n + 1 : Nat)),
      if_pos (by omega)]
    unfold fourF Spec.fourSeries
    have h0 : (if 0 = n ∧ n % 2 = 1 then 0 else fourAnti a b c 0) = 0 := by
      unfold fourAnti; simp
    beta_reduce
    rw [h0]
    have hs : ∀ k ∈ Ico 1 ((n + 1 + 1) / 2), ∀ C S : ℝ,
        ((if 2 * k - 1 = n ∧ n % 2 = 1 then 0 else fourAnti a b c (2 * k - 1)) * C +
        (if 2 * k = n ∧ n % 2 = 1 then 0 else fourAnti a b c (2 * k)) * S) =
        c (2 * k - 1) / (2 * π / (b - a) * k) * S - c (2 * k) / (2 * π / (b - a) * k) * C := by
      intro k hk C S
      have := mem_Ico.1 hk
      rw [if_neg (by omega), if_neg (by omega)]
      unfold fourAnti
      rw [if_neg (by omega), if_pos (by omega), if_neg (by omega), if_neg (by omega),
        show 2 * k - 1 + 1 = 2 * k by omega, show 2 * k / 2 = k by omega]
      ring
    rw [sum_congr rfl fun k hk => hs k hk _ _]
    have hl : (if (n + 1) % 2 = 0 then (if n + 1 - 1 = n ∧ n % 2 = 1 then 0
        else fourAnti a b c (n + 1 - 1)) * cos (((n + 1) / 2 : Nat) *
          (2 * π * (a + j * (b - a) / (n + 1 : Nat) - a) / (b - a))) else 0) = 0 := by
      split
      · rw [if_pos ⟨rfl, by omega⟩, zero_mul]
      · rfl
    rw [hl]
    ring

/-- **C68.** The integral over one period. -/
theorem C68_definite (a b : ℝ) (hab : a ≠ b) (c : Nat → ℝ) (N : Nat) (hN : 0 < N) :
    ∫ X in a..b, Spec.fourSeries a b c N X = fourIntegral a b c N := by
  have hba : b - a ≠ 0 := sub_ne_zero.2 (Ne.symm hab)
  have hN' : (N : ℝ) ≠ 0 := by positivity
  have hp := pi_pos.ne'
  have hcont : Continuous fun X => Spec.fourSeries a b c N X :=
    continuous_iff_continuousAt.2 fun X => (fourSeries_hasDeriv a b c N X).continuousAt
  rw [intervalIntegral.integral_eq_sub_of_hasDerivAt
    (f := fun X => fourF a b c N X + (if N % 2 = 0 then c (N - 1) * (b - a) / (N * π) *
      sin ((N / 2 : Nat) * (2 * π * (X - a) / (b - a))) else 0) / N)
    (fun X _ => ?_) (hcont.intervalIntegrable _ _)]
  · have ya : 2 * π * (a - a) / (b - a) = 0 := by simp
    have yb : 2 * π * (b - a) / (b - a) = 2 * π := by field_simp
    have hc : ∀ k : Nat, cos (k * (2 * π)) = 1 := cos_nat_mul_two_pi
    have hs : ∀ k : Nat, sin (k * (2 * π)) = 0 := fun k => by
      have := sin_nat_mul_pi (k * 2)
      push_cast at this
      rw [mul_assoc] at this
      exact this
    unfold fourF fourIntegral
    simp only [ya, yb, hc, hs, mul_zero, sin_zero, cos_zero]
    split <;> ring
  · have h := (fourF_hasDeriv a b hab c N X)
    have h2 : HasDerivAt (fun X => (if N % 2 = 0 then c (N - 1) * (b - a) / (N * π) *
        sin ((N / 2 : Nat) * (2 * π * (X - a) / (b - a))) else 0) / N)
        ((if N % 2 = 0 then c (N - 1) * cos ((N / 2 : Nat) * (2 * π * (X - a) / (b - a))) else 0) / N)
        X := by
      apply HasDerivAt.div_const
      split
      · next he =>
        have h3 := ((angle_hasDeriv a b (N / 2 : Nat) X).sin).const_mul
          (c (N - 1) * (b - a) / (N * π))
        have e : c (N - 1) * (b - a) / (N * π) * (cos ((N / 2 : Nat) * (2 * π * (X - a) / (b - a))) *
            ((N / 2 : Nat) * (2 * π / (b - a)))) =
            c (N - 1) * cos ((N / 2 : Nat) * (2 * π * (X - a) / (b - a))) := by
          generalize cos ((N / 2 : Nat) * (2 * π * (X - a) / (b - a))) = C
          have h2 : ((N / 2 : Nat) : ℝ) * 2 = N := by
            have : N / 2 * 2 = N := by omega
            exact_mod_cast this
          have e4 : ((N / 2 : Nat) : ℝ) * (2 * π / (b - a)) = N * (π / (b - a)) := by
            calc _ = (((N / 2 : Nat) : ℝ) * 2) * (π / (b - a)) := by ring
              _ = _ := by rw [h2]
          rw [e4]
          field_simp
        rw [e] at h3
        exact h3
      · exact hasDerivAt_const _ _
    have h3 := h.add h2
    have e : (c 0 + 2 * ∑ k ∈ Ico 1 ((N + 1) / 2),
        (c (2 * k - 1) * cos (k * (2 * π * (X - a) / (b - a))) +
        c (2 * k) * sin (k * (2 * π * (X - a) / (b - a))))) / N +
        (if N % 2 = 0 then c (N - 1) * cos ((N / 2 : Nat) * (2 * π * (X - a) / (b - a))) else 0) / N =
        Spec.fourSeries a b c N X := by
      unfold Spec.fourSeries
      ring
    rw [e] at h3
    exact h3

/-! ## Examples -/

/-- Four points with the values 1, 0, 0, 0. -/
example : fourCoeffs (fun _ => 7) (fun j => if j = 0 then 1 else 0) 3 3 = 1 ∧
    fourCoeffs (fun _ => 7) (fun j => if j = 0 then 1 else 0) 3 2 = 0 ∧
    fourCoeffs (fun _ => 7) (fun j => if j = 0 then 1 else 0) 3 4 = 7 := by
  refine ⟨?_, ?_, ?_⟩ <;> rw [fourCoeffs_eq] <;> simp

/-- `sin φ` has the derivative `2π/(b-a) cos φ`. -/
example : fourDeriv 0 1 (fun j => if j = 2 then 1 else 0) (fun _ => 0) 2 1 = 2 * π := by
  obtain ⟨_, h, _⟩ := fourDeriv_eq 0 1 (fun j => if j = 2 then 1 else 0) (fun _ => 0) 2
  have := (h 1 (by omega) (by omega)).1
  norm_num at this ⊢
  exact this

/-- The integral of a constant. -/
example : fourIntegral 1 4 (fun _ => 6) 3 = 6 := by unfold fourIntegral; norm_num

end Sgrid
