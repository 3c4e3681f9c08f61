import Verif.Lemmas.Fft

/-! The cosine transforms `numrec_cosft1` and `numrec_cosft2`. -/

namespace Sgrid
open Real Finset

theorem refl_even (N : Nat) (f g : Nat → ℝ) (hg : ∀ j, 1 ≤ j → j < N → g (N - j) = g j) :
    ∑ j ∈ Ico 1 N, f (N - j) * g j = ∑ j ∈ Ico 1 N, f j * g j := by
  rw [← sum_refl N (fun j => f j * g j)]
  exact sum_congr rfl fun j hj => by rw [mem_Ico] at hj; rw [hg j hj.1 hj.2]

theorem refl_odd (N : Nat) (f g : Nat → ℝ) (hg : ∀ j, 1 ≤ j → j < N → g (N - j) = -g j) :
    ∑ j ∈ Ico 1 N, f (N - j) * g j = -∑ j ∈ Ico 1 N, f j * g j := by
  rw [← sum_refl N (fun j => f j * g j), ← sum_neg_distrib]
  exact sum_congr rfl fun j hj => by rw [mem_Ico] at hj; rw [hg j hj.1 hj.2]; ring

/-- The cosine transform of `N+1` numbers. -/
noncomputable def dct1 (f : Nat → ℝ) (N k : Nat) : ℝ :=
  1 / 2 * (f 0 + cos (k * π) * f N) + ∑ m ∈ Ico 1 N, cos (k * (π / N) * m) * f m

/-- What the first loop of `numrec_cosft1` makes of entry `m`. -/
noncomputable def cos1Val (f : Nat → ℝ) (N m : Nat) : ℝ :=
  1 / 2 * (f m + f (N - m)) - sin (π / N * m) * (f m - f (N - m))

theorem sin_refl (N m : Nat) (hN : 0 < N) (hm : m ≤ N) : sin (π / N * (N - m : Nat)) = sin (π / N * m) := by
  have hN' : (N : ℝ) ≠ 0 := by positivity
  have : π / N * (N - m : Nat) = π - π / N * m := by
    rw [Nat.cast_sub hm]; field_simp
  rw [this, sin_pi_sub]

theorem cosft1_loop (nn : Nat) (hn : 0 < nn) (y : Nat → ℝ) (s0 : ℝ) :
    let N := 2 * nn
    let f := fun j => y (j + 1)
    let r := upLoop 2 (N / 2 + 1) (cosft1Pass N (turnBy (π / N))) (y, s0, 1, 0)
    (∀ i, r.1 i = if 2 ≤ i ∧ i ≤ N then cos1Val f N (i - 1) else y i) ∧
    r.2.1 = s0 + ∑ m ∈ Ico 1 nn, cos (π / N * m) * (f m - f (N - m)) := by
  intro N f r
  have hN : N / 2 = nn := by omega
  have key := upLoop_inv (lo := 2) (hi := nn + 1) (by omega) (body := cosft1Pass N (turnBy (π / N)))
    (s := (y, s0, 1, 0))
    (fun j s => cpair s.2.2 = cis (π / N * (j - 2 : Nat)) ∧
      (∀ i, s.1 i = if (2 ≤ i ∧ i < j) ∨ (N + 2 < i + j ∧ i ≤ N) then cos1Val f N (i - 1) else y i) ∧
      s.2.1 = s0 + ∑ m ∈ Ico 1 (j - 1), cos (π / N * m) * (f m - f (N - m)))
    (by
      refine ⟨?_, fun i => by rw [if_neg (by omega)], by simp⟩
      simp only [Nat.sub_self, Nat.cast_zero, mul_zero, cis_zero]; rfl)
    (by
      intro j s hj hj2 hs
      obtain ⟨hw, hv, hsum⟩ := hs
      obtain ⟨m, rfl⟩ : ∃ m, j = m + 1 := ⟨j - 1, by omega⟩
      have ht := turn_cis (π / N) _ _ hw
      have hang : π / N * (m + 1 - 2 : Nat) + π / N = π / N * m := by
        rw [show m + 1 - 2 = m - 1 by omega, Nat.cast_sub (by omega)]; push_cast; ring
      rw [hang] at ht
      have t1 : (turn (turnBy (π / N)) s.2.2).1 = cos (π / N * m) := congrArg Complex.re ht
      have t2 : (turn (turnBy (π / N)) s.2.2).2 = sin (π / N * m) := congrArg Complex.im ht
      have v1 : s.1 (m + 1) = f m := by rw [hv, if_neg (by omega)]
      have e2 : N + 2 - (m + 1) = N - m + 1 := by omega
      have v2 : s.1 (N - m + 1) = f (N - m) := by rw [hv, if_neg (by omega)]
      unfold cosft1Pass
      simp only [e2, v1, v2, t1, t2]
      refine ⟨?_, fun i => ?_, ?_⟩
      · rw [ht, show m + 1 + 1 - 2 = m by omega]
      · by_cases h2 : i = N - m + 1
        · subst h2
          rw [aset_self, if_pos (by omega)]
          unfold cos1Val
          rw [Nat.add_sub_cancel, sin_refl N m (by omega) (by omega), show N - (N - m) = m by omega]
          ring
        · rw [aset_ne _ _ h2]
          by_cases h1 : i = m + 1
          · subst h1
            rw [aset_self, if_pos (by omega)]
            rfl
          · rw [aset_ne _ _ h1, hv]
            exact if_congr (by omega) rfl rfl
      · rw [hsum, Nat.add_sub_cancel, Nat.add_sub_cancel,
          sum_Ico_succ_top (show 1 ≤ m by omega), add_assoc])
  have hr : r = upLoop 2 (nn + 1) (cosft1Pass N (turnBy (π / N))) (y, s0, 1, 0) := by simp only [r, hN]
  rw [hr]
  obtain ⟨_, hv, hsum⟩ := key
  refine ⟨fun i => ?_, by rw [hsum, Nat.add_sub_cancel]⟩
  rw [hv]
  by_cases hi : 2 ≤ i ∧ i ≤ N
  · rw [if_pos hi]
    by_cases hm : i = nn + 1
    · subst hm
      rw [if_neg (by omega), Nat.add_sub_cancel]
      unfold cos1Val
      rw [show N - nn = nn by omega]
      simp only [f]; ring
    · rw [if_pos (by omega)]
  · rw [if_neg (by omega), if_neg hi]

/-- Real and imaginary part of the transform of the numbers made by the first loop. -/
theorem cosft1_sums (N : Nat) (hN : 0 < N) (f : Nat → ℝ) (k : Nat) :
    1 / 2 * (f 0 + f N) + ∑ m ∈ Ico 1 N, cos1Val f N m * cos (k * (2 * π / N) * m) = dct1 f N (2 * k) ∧
    (0 < k → ∑ m ∈ Ico 1 N, cos1Val f N m * sin (k * (2 * π / N) * m) =
      dct1 f N (2 * k + 1) - dct1 f N (2 * k - 1)) := by
  have hN' : (N : ℝ) ≠ 0 := by positivity
  have ang : ∀ m, m < N → (k : ℝ) * (2 * π / N) * (N - m : Nat) = ((k : ℤ) : ℝ) * (2 * π) - k * (2 * π / N) * m := by
    intro m hm
    rw [Nat.cast_sub hm.le]; push_cast; field_simp
  have hc : ∀ m, 1 ≤ m → m < N → cos (k * (2 * π / N) * (N - m : Nat)) = cos (k * (2 * π / N) * m) := by
    intro m _ hm
    rw [ang m hm, cos_sub, cos_int_mul_two_pi]
    have : sin (((k : ℤ) : ℝ) * (2 * π)) = 0 := congrArg Complex.im (cis_int k)
    rw [this]; ring
  have hs : ∀ m, 1 ≤ m → m < N → sin (k * (2 * π / N) * (N - m : Nat)) = -sin (k * (2 * π / N) * m) := by
    intro m _ hm
    rw [ang m hm, sin_sub, cos_int_mul_two_pi]
    have : sin (((k : ℤ) : ℝ) * (2 * π)) = 0 := congrArg Complex.im (cis_int k)
    rw [this]; ring
  have hsn : ∀ m, 1 ≤ m → m < N → sin (π / N * (N - m : Nat)) = sin (π / N * m) := fun m _ hm =>
    sin_refl N m hN hm.le
  constructor
  · have a1 := refl_even N f (fun m => cos (k * (2 * π / N) * m)) hc
    have a2 := refl_even N f (fun m => sin (π / N * m) * cos (k * (2 * π / N) * m)) (fun m h1 h2 => by
      simp only [hc m h1 h2, hsn m h1 h2])
    have : ∑ m ∈ Ico 1 N, cos1Val f N m * cos (k * (2 * π / N) * m) =
        1 / 2 * (∑ m ∈ Ico 1 N, f m * cos (k * (2 * π / N) * m) +
          ∑ m ∈ Ico 1 N, f (N - m) * cos (k * (2 * π / N) * m)) -
        (∑ m ∈ Ico 1 N, f m * (sin (π / N * m) * cos (k * (2 * π / N) * m)) -
          ∑ m ∈ Ico 1 N, f (N - m) * (sin (π / N * m) * cos (k * (2 * π / N) * m))) := by
      rw [← sum_add_distrib, ← sum_sub_distrib, mul_sum, ← sum_sub_distrib]
      refine sum_congr rfl fun m _ => ?_
      unfold cos1Val; ring
    rw [this, a1, a2]
    unfold dct1
    have h1 : cos ((2 * k : Nat) * π) = 1 := by
      rw [show ((2 * k : Nat) : ℝ) * π = ((k : ℤ) : ℝ) * (2 * π) by push_cast; ring, cos_int_mul_two_pi]
    rw [h1]
    have : ∑ m ∈ Ico 1 N, cos ((2 * k : Nat) * (π / N) * m) * f m = ∑ m ∈ Ico 1 N, f m * cos (k * (2 * π / N) * m) := by
      refine sum_congr rfl fun m _ => ?_
      rw [show ((2 * k : Nat) : ℝ) * (π / N) * m = k * (2 * π / N) * m by push_cast; ring]; ring
    rw [this]; ring
  · intro hk
    have a1 := refl_odd N f (fun m => sin (k * (2 * π / N) * m)) hs
    have a2 := refl_odd N f (fun m => sin (π / N * m) * sin (k * (2 * π / N) * m)) (fun m h1 h2 => by
      simp only [hs m h1 h2, hsn m h1 h2]; ring)
    have : ∑ m ∈ Ico 1 N, cos1Val f N m * sin (k * (2 * π / N) * m) =
        1 / 2 * (∑ m ∈ Ico 1 N, f m * sin (k * (2 * π / N) * m) +
          ∑ m ∈ Ico 1 N, f (N - m) * sin (k * (2 * π / N) * m)) -
        (∑ m ∈ Ico 1 N, f m * (sin (π / N * m) * sin (k * (2 * π / N) * m)) -
          ∑ m ∈ Ico 1 N, f (N - m) * (sin (π / N * m) * sin (k * (2 * π / N) * m))) := by
      rw [← sum_add_distrib, ← sum_sub_distrib, mul_sum, ← sum_sub_distrib]
      refine sum_congr rfl fun m _ => ?_
      unfold cos1Val; ring
    rw [this, a1, a2]
    unfold dct1
    have e : ((2 * k - 1 : Nat) : ℝ) = 2 * k - 1 := by rw [Nat.cast_sub (by omega)]; push_cast; ring
    have h1 : cos ((2 * k + 1 : Nat) * π) = cos ((2 * k - 1 : Nat) * π) := by
      rw [e, show (2 * (k : ℝ) - 1) * π = ((2 * k + 1 : Nat) : ℝ) * π - 2 * π by push_cast; ring, cos_sub_two_pi]
    rw [h1, add_sub_add_left_eq_sub, ← sum_sub_distrib]
    have : ∑ m ∈ Ico 1 N, (cos ((2 * k + 1 : Nat) * (π / N) * m) * f m - cos ((2 * k - 1 : Nat) * (π / N) * m) * f m) =
        -2 * ∑ m ∈ Ico 1 N, f m * (sin (π / N * m) * sin (k * (2 * π / N) * m)) := by
      rw [mul_sum]
      refine sum_congr rfl fun m _ => ?_
      rw [e, show ((2 * k + 1 : Nat) : ℝ) * (π / N) * m = k * (2 * π / N) * m + π / N * m by push_cast; ring,
        show (2 * (k : ℝ) - 1) * (π / N) * m = k * (2 * π / N) * m - π / N * m by ring, cos_add, cos_sub]
      ring
    rw [this]; ring

theorem cosft1_eq (p : Nat) (y : Nat → ℝ) :
    let N := 2 * 2 ^ p
    let r := cosft1 y N
    r 0 = y 0 ∧ (∀ i, N + 1 < i → r i = y i) ∧ ∀ k, k ≤ N → r (k + 1) = dct1 (fun j => y (j + 1)) N k := by
  intro N r
  have hP : 0 < 2 ^ p := by positivity
  have hN0 : 0 < N := by omega
  have hN' : (N : ℝ) ≠ 0 := by positivity
  have hN2 : N / 2 = 2 ^ p := by omega
  set f : Nat → ℝ := fun j => y (j + 1) with hf
  set y1 := aset y 1 (1 / 2 * (y 1 + y (N + 1))) with hy1
  set s := upLoop 2 (N / 2 + 1) (cosft1Pass N (turnBy (π / N))) (y1, 1 / 2 * (y 1 - y (N + 1)), 1, 0) with hs
  obtain ⟨l1, l2⟩ := cosft1_loop (2 ^ p) hP y1 (1 / 2 * (y 1 - y (N + 1)))
  have cv : ∀ m, 1 ≤ m → m < N → cos1Val (fun j => y1 (j + 1)) N m = cos1Val f N m := by
    intro m h1 h2
    simp only [cos1Val, hf]
    rw [hy1, aset_ne _ _ (by omega), aset_ne _ _ (by omega)]
  have sv : ∀ i, s.1 i = if i = 1 then 1 / 2 * (f 0 + f N) else
      if 2 ≤ i ∧ i ≤ N then cos1Val f N (i - 1) else y i := by
    intro i
    rw [hs, l1]
    by_cases h2 : 2 ≤ i ∧ i ≤ N
    · rw [if_pos h2, if_neg (by omega), if_pos h2, cv _ (by omega) (by omega)]
    · rw [if_neg h2, if_neg h2]
      by_cases h1 : i = 1
      · rw [if_pos h1, h1, hy1, aset_self]
      · rw [if_neg h1, hy1, aset_ne _ _ h1]
  have ssum : s.2.1 = dct1 f N 1 := by
    rw [hs, l2]
    have : ∀ m ∈ Ico 1 (2 ^ p), cos (π / N * (m : Nat)) * (y1 (m + 1) - y1 (N - m + 1)) =
        cos (π / N * m) * (f m - f (N - m)) := by
      intro m hm
      rw [mem_Ico] at hm
      rw [hy1, aset_ne _ _ (by omega), aset_ne _ _ (by omega)]
    simp only at this ⊢
    rw [sum_congr rfl this]
    unfold dct1
    have h1 : ∑ m ∈ Ico 1 N, cos ((1 : Nat) * (π / N) * m) * f m =
        ∑ m ∈ Ico 1 (2 ^ p), cos (π / N * (m : Nat)) * f m + (cos (π / N * (2 ^ p : Nat)) * f (2 ^ p) +
          ∑ m ∈ Ico (2 ^ p + 1) N, cos (π / N * m) * f m) := by
      rw [← sum_Ico_consecutive _ hP (show 2 ^ p ≤ N by omega), sum_eq_sum_Ico_succ_bot (show 2 ^ p < N by omega)]
      simp only [Nat.cast_one, one_mul]
    have h2 : ∑ m ∈ Ico (2 ^ p + 1) N, cos (π / N * m) * f m =
        ∑ m ∈ Ico 1 (2 ^ p), -(cos (π / N * (m : Nat)) * f (N - m)) := by
      have := sum_Ico_reflect (fun m => cos (π / N * m) * f m) 1 (m := 2 ^ p) (n := N) (by omega)
      rw [show N + 1 - 2 ^ p = 2 ^ p + 1 by omega, Nat.add_sub_cancel] at this
      rw [← this]
      refine sum_congr rfl fun m hm => ?_
      rw [mem_Ico] at hm
      have : π / N * (N - m : Nat) = π - π / N * m := by
        rw [Nat.cast_sub (by omega)]; field_simp
      rw [this, cos_pi_sub]; ring
    have h3 : cos (π / N * (2 ^ p : Nat)) = 0 := by
      have : π / N * (2 ^ p : Nat) = π / 2 := by
        have hP' : ((2 ^ p : Nat) : ℝ) ≠ 0 := by positivity
        simp only [N]; push_cast at hP' ⊢; field_simp
      rw [this, cos_pi_div_two]
    rw [h1, h2, h3, sum_neg_distrib, zero_mul, zero_add]
    simp only [mul_sub, sum_sub_distrib, Nat.cast_one, one_mul, cos_pi, hf]
    ring
  -- the transform of the new numbers
  obtain ⟨q0, q1, q2, q3, q4⟩ := realft_fwd p s.1
  set t := realft s.1 N 1 with ht
  have sumsplit : ∀ g : Nat → ℝ, ∑ j ∈ range N, g j * s.1 (j + 1) =
      g 0 * (1 / 2 * (f 0 + f N)) + ∑ m ∈ Ico 1 N, cos1Val f N m * g m := by
    intro g
    rw [range_eq_Ico, sum_eq_sum_Ico_succ_bot hN0, sv, if_pos (by rfl), zero_add]
    congr 1
    refine sum_congr rfl fun m hm => ?_
    rw [mem_Ico] at hm
    rw [sv, if_neg (by omega), if_pos (by omega), Nat.add_sub_cancel, mul_comm]
  have t1 : t 1 = dct1 f N 0 := by
    have := sumsplit (fun _ => 1)
    simp only [one_mul, mul_one] at this
    rw [q2, this]
    have h := (cosft1_sums N hN0 f 0).1
    simp only [Nat.cast_zero, zero_mul, cos_zero, mul_one, mul_zero] at h
    exact h
  have t2 : t 2 = dct1 f N N := by
    rw [q3, sumsplit (fun j => cos (π * j))]
    have h := (cosft1_sums N hN0 f (2 ^ p)).1
    rw [show 2 * 2 ^ p = N from rfl] at h
    rw [← h]
    simp only [Nat.cast_zero, mul_zero, cos_zero, one_mul]
    congr 1
    refine sum_congr rfl fun m _ => ?_
    congr 2
    have hP' : ((2 ^ p : Nat) : ℝ) ≠ 0 := by positivity
    simp only [N]; push_cast at hP' ⊢; field_simp
  have tre : ∀ k, 1 ≤ k → k < 2 ^ p → t (2 * k + 1) = dct1 f N (2 * k) := by
    intro k h1 h2
    have := congrArg Complex.re (q4 k h1 h2)
    rw [Complex.re_sum] at this
    have h : t (2 * k + 1) = ∑ j ∈ range N, cos (k * (2 * π / N) * j) * s.1 (j + 1) := by
      rw [show t (2 * k + 1) = (cx t k).re from rfl, this]
      refine sum_congr rfl fun j _ => ?_
      rw [Complex.re_ofReal_mul, mul_comm]; rfl
    rw [h, sumsplit (fun j => cos (k * (2 * π / N) * j)), ← (cosft1_sums N hN0 f k).1]
    simp
  have tim : ∀ k, 1 ≤ k → k < 2 ^ p → t (2 * k + 2) = dct1 f N (2 * k + 1) - dct1 f N (2 * k - 1) := by
    intro k h1 h2
    have := congrArg Complex.im (q4 k h1 h2)
    rw [Complex.im_sum] at this
    have h : t (2 * k + 2) = ∑ j ∈ range N, sin (k * (2 * π / N) * j) * s.1 (j + 1) := by
      rw [show t (2 * k + 2) = (cx t k).im from rfl, this]
      refine sum_congr rfl fun j _ => ?_
      rw [Complex.im_ofReal_mul, mul_comm]; rfl
    rw [h, sumsplit (fun j => sin (k * (2 * π / N) * j)), ← (cosft1_sums N hN0 f k).2 h1]
    simp
  -- the last loop
  set z := aset (aset t (N + 1) (t 2)) 2 s.2.1 with hz
  have hr : r = (upLoop 1 (2 ^ p) (fun k (s : (Nat → ℝ) × ℝ) =>
      (aset s.1 (2 * k + 2) (s.2 + s.1 (2 * k + 2)), s.2 + s.1 (2 * k + 2))) (z, s.2.1)).1 := by
    simp only [r, cosft1]
    rw [← hy1, ← hs, ← ht, hN2, hz]
  have key := upLoop_inv (lo := 1) (hi := 2 ^ p) hP (body := fun k (s : (Nat → ℝ) × ℝ) =>
      (aset s.1 (2 * k + 2) (s.2 + s.1 (2 * k + 2)), s.2 + s.1 (2 * k + 2))) (s := (z, s.2.1))
    (fun k s => s.2 = dct1 f N (2 * k - 1) ∧ ∀ i, s.1 i =
      if i % 2 = 0 ∧ 4 ≤ i ∧ i < 2 * k + 2 then dct1 f N (i - 1) else z i)
    ⟨ssum, fun i => by rw [if_neg (by omega)]⟩ (by
      intro k s hk hk2 hs
      obtain ⟨h1, h2⟩ := hs
      have hv : s.2 + s.1 (2 * k + 2) = dct1 f N (2 * k + 1) := by
        rw [h1, h2, if_neg (by omega), hz, aset_ne _ _ (by omega), aset_ne _ _ (by omega), tim k hk hk2]; ring
      refine ⟨by simp only [hv]; congr 1, fun i => ?_⟩
      simp only [hv]
      by_cases hi : i = 2 * k + 2
      · subst hi
        rw [aset_self, if_pos (by omega)]; rfl
      · rw [aset_ne _ _ hi, h2]
        exact if_congr (by omega) rfl rfl)
  rw [← hr] at key
  obtain ⟨_, hv⟩ := key
  refine ⟨?_, ?_, ?_⟩
  · rw [hv, if_neg (by omega), hz, aset_ne _ _ (by omega), aset_ne _ _ (by omega), q0, sv, if_neg (by omega),
      if_neg (by omega)]
  · intro i hi
    rw [hv, if_neg (by omega), hz, aset_ne _ _ (by omega), aset_ne _ _ (by omega), q1 i (by omega), sv,
      if_neg (by omega), if_neg (by omega)]
  · intro k hk
    rw [hv]
    rcases Nat.mod_two_eq_zero_or_one k with hm | hm
    · rw [if_neg (by omega), hz, aset_ne _ _ (by omega)]
      by_cases hkN : k = N
      · rw [hkN, aset_self, t2]
      · rw [aset_ne _ _ (by omega)]
        by_cases h0 : k = 0
        · rw [h0]; exact t1
        · have := tre (k / 2) (by omega) (by omega)
          rw [show 2 * (k / 2) = k by omega] at this
          exact this
    · by_cases h1 : k = 1
      · subst h1
        rw [if_neg (by omega), hz, aset_self, ssum]
      · rw [if_pos (by omega)]; rfl

/-! ### The second kind -/

theorem sum_flip_even (N : Nat) (f g : Nat → ℝ) (hg : ∀ j, j < N → g (N - 1 - j) = g j) :
    ∑ j ∈ range N, f (N - 1 - j) * g j = ∑ j ∈ range N, f j * g j := by
  rw [← sum_range_reflect (fun j => f j * g j)]
  exact sum_congr rfl fun j hj => by rw [hg j (mem_range.1 hj)]

theorem sum_flip_odd (N : Nat) (f g : Nat → ℝ) (hg : ∀ j, j < N → g (N - 1 - j) = -g j) :
    ∑ j ∈ range N, f (N - 1 - j) * g j = -∑ j ∈ range N, f j * g j := by
  rw [← sum_range_reflect (fun j => f j * g j), ← sum_neg_distrib]
  exact sum_congr rfl fun j hj => by rw [hg j (mem_range.1 hj)]; ring

/-- The cosine transform of `N` numbers between the points. -/
noncomputable def dct2 (f : Nat → ℝ) (N k : Nat) : ℝ :=
  ∑ j ∈ range N, cos (k * (π / N) * (j + 1 / 2)) * f j

/-- The inverse up to the factor `N/2`. -/
noncomputable def idct2 (c : Nat → ℝ) (N j : Nat) : ℝ :=
  1 / 2 * c 0 + ∑ k ∈ Ico 1 N, c k * cos (k * (π / N) * (j + 1 / 2))

/-- The angle of point `m`. -/
noncomputable def midAngle (N m : Nat) : ℝ := π / N * (m + 1 / 2)

theorem midAngle_refl (N m : Nat) (hm : m < N) : midAngle N (N - 1 - m) = π - midAngle N m := by
  have hN' : (N : ℝ) ≠ 0 := by
    have : 0 < N := by omega
    positivity
  unfold midAngle
  rw [Nat.cast_sub (by omega), Nat.cast_sub (by omega)]
  push_cast
  field_simp
  ring

theorem sin_mid_refl (N m : Nat) (hm : m < N) : sin (midAngle N (N - 1 - m)) = sin (midAngle N m) := by
  rw [midAngle_refl N m hm, sin_pi_sub]

theorem sin_mid_pos (N m : Nat) (hm : m < N) : 0 < sin (midAngle N m) := by
  have hN : (0 : ℝ) < N := by
    have : 0 < N := by omega
    positivity
  apply sin_pos_of_pos_of_lt_pi
  · unfold midAngle; positivity
  · unfold midAngle
    rw [div_mul_eq_mul_div, div_lt_iff₀ hN]
    have : (m : ℝ) + 1 ≤ N := by exact_mod_cast hm
    nlinarith [pi_pos]

/-- Cosines and sines of multiples of the angles under reflection. -/
theorem cos_even_refl (N m k : Nat) (hm : m < N) :
    cos ((2 * k : Nat) * midAngle N (N - 1 - m)) = cos ((2 * k : Nat) * midAngle N m) := by
  rw [midAngle_refl N m hm, show ((2 * k : Nat) : ℝ) * (π - midAngle N m) =
    ((k : ℤ) : ℝ) * (2 * π) - (2 * k : Nat) * midAngle N m by push_cast; ring, cos_sub, cos_int_mul_two_pi]
  have : sin (((k : ℤ) : ℝ) * (2 * π)) = 0 := congrArg Complex.im (cis_int k)
  rw [this]; ring

theorem sin_even_refl (N m k : Nat) (hm : m < N) :
    sin ((2 * k : Nat) * midAngle N (N - 1 - m)) = -sin ((2 * k : Nat) * midAngle N m) := by
  rw [midAngle_refl N m hm, show ((2 * k : Nat) : ℝ) * (π - midAngle N m) =
    ((k : ℤ) : ℝ) * (2 * π) - (2 * k : Nat) * midAngle N m by push_cast; ring, sin_sub, cos_int_mul_two_pi]
  have : sin (((k : ℤ) : ℝ) * (2 * π)) = 0 := congrArg Complex.im (cis_int k)
  rw [this]; ring

theorem cos_odd_refl (N m k : Nat) (hm : m < N) :
    cos ((2 * k + 1 : Nat) * midAngle N (N - 1 - m)) = -cos ((2 * k + 1 : Nat) * midAngle N m) := by
  have e : ((2 * k + 1 : Nat) : ℝ) * (π - midAngle N m) =
    ((k : ℤ) : ℝ) * (2 * π) + (π - (2 * k + 1 : Nat) * midAngle N m) := by push_cast; ring
  rw [midAngle_refl N m hm, e, cos_add, cos_int_mul_two_pi]
  have : sin (((k : ℤ) : ℝ) * (2 * π)) = 0 := congrArg Complex.im (cis_int k)
  rw [this, cos_pi_sub]; ring

/-- A loop that changes an entry and its mirror image in the same way. -/
noncomputable def pairPass (g : ℝ → ℝ → ℝ → ℝ) (n : Nat) (wp : ℝ × ℝ) (i : Nat) (s : (Nat → ℝ) × ℝ × ℝ) :
    (Nat → ℝ) × ℝ × ℝ :=
  (aset (aset s.1 i (g (s.1 i) (s.1 (n - i + 1)) s.2.2)) (n - i + 1) (g (s.1 (n - i + 1)) (s.1 i) s.2.2),
    turn wp s.2)

theorem cosft2Pass_pair (n : Nat) (wp : ℝ × ℝ) :
    cosft2Pass n wp = pairPass (fun a b s => 1 / 2 * (a + b) + s * (a - b)) n wp := by
  funext i s
  unfold cosft2Pass pairPass
  have : 1 / 2 * (s.1 i + s.1 (n - i + 1)) - s.2.2 * (s.1 i - s.1 (n - i + 1)) =
    1 / 2 * (s.1 (n - i + 1) + s.1 i) + s.2.2 * (s.1 (n - i + 1) - s.1 i) := by ring
  simp only [this]

theorem cosft2Back_pair (n : Nat) (wp : ℝ × ℝ) :
    cosft2Back n wp = pairPass (fun a b s => 1 / 2 * ((a + b) + 1 / 2 / s * (a - b))) n wp := by
  funext i s
  unfold cosft2Back pairPass
  have : 1 / 2 * (s.1 i + s.1 (n - i + 1) - 1 / 2 / s.2.2 * (s.1 i - s.1 (n - i + 1))) =
    1 / 2 * (s.1 (n - i + 1) + s.1 i + 1 / 2 / s.2.2 * (s.1 (n - i + 1) - s.1 i)) := by ring
  simp only [this]

theorem pairLoop_eq (g : ℝ → ℝ → ℝ → ℝ) (nn : Nat) (y : Nat → ℝ) (w : ℝ × ℝ)
    (hw : cpair w = cis (midAngle (2 * nn) 0)) :
    let N := 2 * nn
    ∀ i, (upLoop 1 (nn + 1) (pairPass g N (turnBy (π / N))) (y, w)).1 i =
      if 1 ≤ i ∧ i ≤ N then g (y i) (y (N - i + 1)) (sin (midAngle N (i - 1))) else y i := by
  intro N
  have key := upLoop_inv (lo := 1) (hi := nn + 1) (by omega) (body := pairPass g N (turnBy (π / N)))
    (s := (y, w))
    (fun j s => cpair s.2 = cis (midAngle N (j - 1)) ∧ ∀ i, s.1 i =
      if (1 ≤ i ∧ i < j) ∨ (N + 1 < i + j ∧ i ≤ N) then g (y i) (y (N - i + 1)) (sin (midAngle N (i - 1)))
      else y i)
    ⟨hw, fun i => by rw [if_neg (by omega)]⟩ (by
      intro j s hj hj2 hs
      obtain ⟨h1, h2⟩ := hs
      have s2 : s.2.2 = sin (midAngle N (j - 1)) := congrArg Complex.im h1
      have v1 : s.1 j = y j := by rw [h2, if_neg (by omega)]
      have v2 : s.1 (N - j + 1) = y (N - j + 1) := by rw [h2, if_neg (by omega)]
      unfold pairPass
      simp only [v1, v2, s2]
      refine ⟨?_, fun i => ?_⟩
      · rw [turn_cis _ _ _ h1]
        congr 1
        unfold midAngle
        rw [Nat.cast_sub hj, Nat.cast_sub (by omega)]; push_cast; ring
      · by_cases hi : i = N - j + 1
        · subst hi
          rw [aset_self, if_pos (by omega), show N - (N - j + 1) + 1 = j by omega,
            show N - j + 1 - 1 = N - 1 - (j - 1) by omega, sin_mid_refl N (j - 1) (by omega)]
        · rw [aset_ne _ _ hi]
          by_cases hi2 : i = j
          · subst hi2
            rw [aset_self, if_pos (by omega)]
          · rw [aset_ne _ _ hi2, h2]
            exact if_congr (by omega) rfl rfl)
  intro i
  rw [key.2]
  exact if_congr (by omega) rfl rfl

theorem turnBy_double (x : ℝ) : (-2 * sin x * sin x, sin (2 * x)) = turnBy (2 * x) := by
  unfold turnBy
  rw [show 1 / 2 * (2 * x) = x by ring]

theorem rotPass_zero (e : ℝ) (wp : ℝ × ℝ) (k : Nat) (s : (Nat → ℝ) × ℝ × ℝ) : (rotPass e wp k s).1 0 = s.1 0 := by
  unfold rotPass
  simp only
  rw [aset_ne _ _ (by omega), aset_ne _ _ (by omega)]

theorem rotLoop_eq (e : ℝ) (he : e = 1 ∨ e = -1) (nn : Nat) (hn : 0 < nn) (x : ℝ) (y : Nat → ℝ) :
    let r := (upLoop 1 nn (rotPass e (turnBy x)) (y, 1, 0)).1
    r 0 = y 0 ∧ ∀ k, cx r k = if 1 ≤ k ∧ k < nn then cis (e * (x * k)) * cx y k else cx y k := by
  intro r
  have key := upLoop_inv (lo := 1) (hi := nn) hn (body := rotPass e (turnBy x)) (s := (y, 1, 0))
    (fun k s => cpair s.2 = cis (x * (k - 1 : Nat)) ∧ s.1 0 = y 0 ∧ ∀ m, cx s.1 m =
      if 1 ≤ m ∧ m < k then cis (e * (x * m)) * cx y m else cx y m)
    (by
      refine ⟨?_, rfl, fun m => by rw [if_neg (by omega)]⟩
      simp only [Nat.sub_self, Nat.cast_zero, mul_zero, cis_zero]; rfl)
    (by
      intro k s hk hk2 hs
      obtain ⟨hw, h0, hv⟩ := hs
      have ht := turn_cis x _ _ hw
      have hang : x * (k - 1 : Nat) + x = x * k := by rw [Nat.cast_sub hk]; push_cast; ring
      rw [hang] at ht
      refine ⟨ht, by rw [rotPass_zero, h0], fun m => ?_⟩
      have t1 : (turn (turnBy x) s.2).1 = cos (x * k) := congrArg Complex.re ht
      have t2 : (turn (turnBy x) s.2).2 = sin (x * k) := congrArg Complex.im ht
      have v : cx s.1 k = cx y k := by rw [hv, if_neg (by omega)]
      have v1 : s.1 (2 * k + 1) = y (2 * k + 1) := congrArg Complex.re v
      have v2 : s.1 (2 * k + 1 + 1) = y (2 * k + 2) := congrArg Complex.im v
      by_cases hm : m = k
      · subst hm
        rw [if_pos (by omega)]
        unfold rotPass
        simp only [t1, t2, v1, v2]
        apply Complex.ext
        · simp only [cx, Complex.mul_re]
          rw [aset_ne _ _ (by omega), aset_self]
          rcases he with rfl | rfl
          · simp [cis]; ring
          · simp [cis]; ring
        · simp only [cx, Complex.mul_im]
          rw [aset_self]
          rcases he with rfl | rfl
          · simp [cis]; ring
          · simp [cis]; ring
      · have : cx (rotPass e (turnBy x) k s).1 m = cx s.1 m := by
          unfold rotPass cx
          simp only
          rw [aset_ne _ _ (by omega), aset_ne _ _ (by omega), aset_ne _ _ (by omega), aset_ne _ _ (by omega)]
        rw [this, hv]
        exact if_congr (by omega) rfl rfl)
  exact ⟨key.2.1, key.2.2⟩

/-- What the first loop of `numrec_cosft2` makes of entry `m`. -/
noncomputable def cos2Val (f : Nat → ℝ) (N m : Nat) : ℝ :=
  1 / 2 * (f m + f (N - 1 - m)) + sin (midAngle N m) * (f m - f (N - 1 - m))

theorem dct2_mid (f : Nat → ℝ) (N k : Nat) : dct2 f N k = ∑ j ∈ range N, f j * cos (k * midAngle N j) := by
  unfold dct2 midAngle
  exact sum_congr rfl fun j _ => by rw [mul_comm, mul_assoc]

theorem cosft2_sums (N : Nat) (f : Nat → ℝ) (k : Nat) :
    ∑ m ∈ range N, cos2Val f N m * cos ((2 * k : Nat) * midAngle N m) = dct2 f N (2 * k) ∧
    (0 < k → ∑ m ∈ range N, cos2Val f N m * sin ((2 * k : Nat) * midAngle N m) =
      dct2 f N (2 * k - 1) - dct2 f N (2 * k + 1)) := by
  have expand : ∀ g : Nat → ℝ, ∑ m ∈ range N, cos2Val f N m * g m =
      1 / 2 * (∑ m ∈ range N, f m * g m + ∑ m ∈ range N, f (N - 1 - m) * g m) +
        (∑ m ∈ range N, f m * (sin (midAngle N m) * g m) -
          ∑ m ∈ range N, f (N - 1 - m) * (sin (midAngle N m) * g m)) := by
    intro g
    rw [← sum_add_distrib, ← sum_sub_distrib, mul_sum, ← sum_add_distrib]
    refine sum_congr rfl fun m _ => ?_
    unfold cos2Val; ring
  constructor
  · rw [expand, sum_flip_even N f _ (fun m hm => cos_even_refl N m k hm),
      sum_flip_even N f _ (fun m hm => by rw [cos_even_refl N m k hm, sin_mid_refl N m hm]), dct2_mid]
    ring
  · intro hk
    rw [expand, sum_flip_odd N f _ (fun m hm => sin_even_refl N m k hm),
      sum_flip_odd N f _ (fun m hm => by rw [sin_even_refl N m k hm, sin_mid_refl N m hm]; ring), dct2_mid, dct2_mid]
    rw [← sum_sub_distrib]
    have : ∑ m ∈ range N, (f m * cos ((2 * k - 1 : Nat) * midAngle N m) - f m * cos ((2 * k + 1 : Nat) * midAngle N m)) =
        2 * ∑ m ∈ range N, f m * (sin (midAngle N m) * sin ((2 * k : Nat) * midAngle N m)) := by
      rw [mul_sum]
      refine sum_congr rfl fun m _ => ?_
      have e : ((2 * k - 1 : Nat) : ℝ) = (2 * k : Nat) - 1 := by rw [Nat.cast_sub (by omega)]; push_cast; ring
      rw [e, show ((2 * k : Nat) - 1 : ℝ) * midAngle N m = (2 * k : Nat) * midAngle N m - midAngle N m by ring,
        show ((2 * k + 1 : Nat) : ℝ) * midAngle N m = (2 * k : Nat) * midAngle N m + midAngle N m by
          push_cast; ring, cos_add, cos_sub]
      ring
    rw [this]; ring

theorem cosft2_fwd (p : Nat) (y : Nat → ℝ) :
    let N := 2 * 2 ^ p
    let r := cosft2 y N 1
    r 0 = y 0 ∧ (∀ i, N < i → r i = y i) ∧ ∀ k, k < N → r (k + 1) = dct2 (fun j => y (j + 1)) N k := by
  intro N r
  have hP : 0 < 2 ^ p := by positivity
  have hN0 : 0 < N := by omega
  have hN' : (N : ℝ) ≠ 0 := by positivity
  have hN2 : N / 2 = 2 ^ p := by omega
  have hN3 : (N + 1) / 2 = 2 ^ p := by omega
  set f : Nat → ℝ := fun j => y (j + 1) with hf
  set x : ℝ := 1 / 2 * π / N with hx
  have h2x : 2 * x = π / N := by rw [hx]; ring
  have hw : cpair (cos x, sin x) = cis (midAngle (2 * 2 ^ p) 0) := by
    have : midAngle (2 * 2 ^ p) 0 = x := by rw [midAngle, hx]; simp only [N]; push_cast; ring
    rw [this]; rfl
  set a := (upLoop 1 (N / 2 + 1) (cosft2Pass N (turnBy (π / N))) (y, cos x, sin x)).1 with ha
  have av : ∀ i, a i = if 1 ≤ i ∧ i ≤ N then cos2Val f N (i - 1) else y i := by
    intro i
    rw [ha, hN2, cosft2Pass_pair, pairLoop_eq _ (2 ^ p) y _ hw]
    by_cases hi : 1 ≤ i ∧ i ≤ N
    · rw [if_pos hi, if_pos hi]
      simp only [cos2Val, hf]
      rw [show i - 1 + 1 = i by omega, show 2 * 2 ^ p - i + 1 = N - 1 - (i - 1) + 1 by omega]
    · rw [if_neg hi, if_neg hi]
  obtain ⟨q0, q1, q2, q3, q4⟩ := realft_fwd p a
  set t := realft a N 1 with ht
  obtain ⟨u0, u1⟩ := rotLoop_eq 1 (.inl rfl) (2 ^ p) hP (π / N) t
  set u := (upLoop 1 (2 ^ p) (rotPass 1 (turnBy (π / N))) (t, 1, 0)).1 with hu
  have hr : r = (downLoop 1 (2 ^ p + 1) (fun k (s : (Nat → ℝ) × ℝ) =>
      (aset s.1 (2 * k) s.2, s.2 + s.1 (2 * k))) (u, 1 / 2 * u 2)).1 := by
    simp only [r, cosft2, if_true]
    rw [← hx, turnBy_double, h2x, ← ha, ← ht, hN2, hN3, ← hu]
  have asum : ∀ g : Nat → ℝ, ∑ j ∈ range N, a (j + 1) * g j = ∑ m ∈ range N, cos2Val f N m * g m := by
    intro g
    refine sum_congr rfl fun m hm => ?_
    rw [mem_range] at hm
    rw [av, if_pos (by omega), Nat.add_sub_cancel]
  have uc : ∀ k, 1 ≤ k → k < 2 ^ p → cx u k =
      ∑ j ∈ range N, (a (j + 1) : ℂ) * cis ((2 * k : Nat) * midAngle N j) := by
    intro k h1 h2
    rw [u1, if_pos ⟨h1, h2⟩, q4 k h1 h2, mul_sum]
    refine sum_congr rfl fun j _ => ?_
    have : cis ((2 * k : Nat) * midAngle N j) = cis (1 * (π / N * k)) * cis (k * (2 * π / N) * j) := by
      rw [← cis_add]; congr 1; unfold midAngle; push_cast; ring
    rw [this]; ring
  have ure : ∀ k, 1 ≤ k → k < 2 ^ p → u (2 * k + 1) = dct2 f N (2 * k) := by
    intro k h1 h2
    have := congrArg Complex.re (uc k h1 h2)
    rw [Complex.re_sum] at this
    rw [show u (2 * k + 1) = (cx u k).re from rfl, this, ← (cosft2_sums N f k).1, ← asum]
    refine sum_congr rfl fun j _ => ?_
    rw [Complex.re_ofReal_mul]; rfl
  have uim : ∀ k, 1 ≤ k → k < 2 ^ p → u (2 * k + 2) = dct2 f N (2 * k - 1) - dct2 f N (2 * k + 1) := by
    intro k h1 h2
    have := congrArg Complex.im (uc k h1 h2)
    rw [Complex.im_sum] at this
    rw [show u (2 * k + 2) = (cx u k).im from rfl, this, ← (cosft2_sums N f k).2 h1, ← asum]
    refine sum_congr rfl fun j _ => ?_
    rw [Complex.im_ofReal_mul]; rfl
  have uc0 : cx u 0 = cx t 0 := by rw [u1, if_neg (by omega)]
  have ua : u 1 = dct2 f N 0 := by
    rw [show u 1 = t 1 from congrArg Complex.re uc0, q2]
    have h := (cosft2_sums N f 0).1
    rw [← asum] at h
    simp only [mul_zero, Nat.cast_zero, zero_mul, cos_zero, mul_one] at h
    exact h
  have ub : 1 / 2 * u 2 = dct2 f N (N - 1) := by
    rw [show u 2 = t 2 from congrArg Complex.im uc0, q3]
    have h := (cosft2_sums N f (2 ^ p)).2 hP
    rw [show 2 * 2 ^ p = N from rfl, ← asum] at h
    have hs : ∑ j ∈ range N, a (j + 1) * sin (N * midAngle N j) = ∑ j ∈ range N, cos (π * j) * a (j + 1) := by
      refine sum_congr rfl fun j _ => ?_
      rw [show N * midAngle N j = π * j + π / 2 by unfold midAngle; field_simp, sin_add_pi_div_two]; ring
    have hneg : dct2 f N (N + 1) = -dct2 f N (N - 1) := by
      rw [dct2_mid, dct2_mid, ← sum_neg_distrib]
      refine sum_congr rfl fun j _ => ?_
      have e1 : ((N + 1 : Nat) : ℝ) * midAngle N j = (π * j + π / 2) + midAngle N j := by
        unfold midAngle; push_cast; field_simp
      have e2 : ((N - 1 : Nat) : ℝ) * midAngle N j = (π * j + π / 2) - midAngle N j := by
        rw [Nat.cast_sub (by omega)]; unfold midAngle; push_cast; field_simp
      have c0 : cos (π * j + π / 2) = 0 := by
        rw [cos_add_pi_div_two, mul_comm, sin_nat_mul_pi, neg_zero]
      rw [e1, e2, cos_add, cos_sub, c0]; ring
    rw [hs, hneg] at h
    rw [h]; ring
  have key := downLoop_inv (lo := 1) (hi := 2 ^ p + 1) (by omega) (body := fun k (s : (Nat → ℝ) × ℝ) =>
      (aset s.1 (2 * k) s.2, s.2 + s.1 (2 * k))) (s := (u, 1 / 2 * u 2))
    (fun k s => (2 ≤ k → s.2 = dct2 f N (2 * k - 3)) ∧ ∀ i, s.1 i =
      if i % 2 = 0 ∧ 2 * k ≤ i ∧ i ≤ N then dct2 f N (i - 1) else u i)
    (by
      refine ⟨fun _ => ?_, fun i => by rw [if_neg (by omega)]⟩
      rw [show 2 * (2 ^ p + 1) - 3 = N - 1 by omega]; exact ub)
    (by
      intro k s hk hk2 hs
      obtain ⟨h1, h2⟩ := hs
      have h1 := h1 (by omega)
      refine ⟨fun hk3 => ?_, fun i => ?_⟩
      · have := uim (k - 1) (by omega) (by omega)
        rw [show 2 * (k - 1) + 2 = 2 * k by omega, show 2 * (k - 1) - 1 = 2 * k - 3 by omega,
          show 2 * (k - 1) + 1 = 2 * k - 1 by omega] at this
        simp only
        rw [h1, h2, if_neg (by omega), this, show 2 * (k + 1) - 3 = 2 * k - 1 by omega]
        ring
      · by_cases hi : i = 2 * k
        · subst hi
          simp only
          rw [aset_self, if_pos (by omega), h1]
          congr 1
        · simp only
          rw [aset_ne _ _ hi, h2]
          exact if_congr (by omega) rfl rfl)
  rw [← hr] at key
  obtain ⟨_, hv⟩ := key
  refine ⟨?_, ?_, ?_⟩
  · rw [hv, if_neg (by omega), u0, q0, av, if_neg (by omega)]
  · intro i hi
    rw [hv, if_neg (by omega)]
    have hc : cx u ((i - 1) / 2) = cx t ((i - 1) / 2) := by rw [u1, if_neg (by omega)]
    have : u i = t i := by
      rcases Nat.mod_two_eq_zero_or_one (i - 1) with hm | hm
      · have hi2 : i = 2 * ((i - 1) / 2) + 1 := by omega
        rw [hi2]; exact congrArg Complex.re hc
      · have hi2 : i = 2 * ((i - 1) / 2) + 2 := by omega
        rw [hi2]; exact congrArg Complex.im hc
    rw [this, q1 i hi, av, if_neg (by omega)]
  · intro k hk
    rw [hv]
    rcases Nat.mod_two_eq_zero_or_one k with hm | hm
    · rw [if_neg (by omega)]
      by_cases h0 : k = 0
      · rw [h0]; exact ua
      · have := ure (k / 2) (by omega) (by omega)
        rw [show 2 * (k / 2) = k by omega] at this
        exact this
    · rw [if_pos (by omega), Nat.add_sub_cancel]

/-- Summation by parts. -/
theorem abel (n : Nat) (F : Nat → ℝ) (s : Nat → ℝ) (h0 : s 0 = 0) :
    ∑ k ∈ Ico 1 (n + 1), (F k - F (k + 1)) * s k + s (n + 1) * F (n + 1) =
      ∑ k ∈ Ico 1 (n + 2), F k * (s k - s (k - 1)) := by
  induction n with
  | zero => simp [h0]; ring
  | succ n ih =>
    rw [sum_Ico_succ_top (by omega), sum_Ico_succ_top (show 1 ≤ n + 1 + 1 by omega), ← ih, Nat.add_sub_cancel]
    ring

theorem sum_Ico_even_odd (n : Nat) (f : Nat → ℝ) :
    ∑ k ∈ Ico 1 (2 * (n + 1)), f k = ∑ k ∈ Ico 1 (n + 1), f (2 * k) + ∑ k ∈ Ico 1 (n + 2), f (2 * k - 1) := by
  induction n with
  | zero => simp
  | succ n ih =>
    rw [show 2 * (n + 1 + 1) = 2 * (n + 1) + 1 + 1 by ring, sum_Ico_succ_top (by omega), sum_Ico_succ_top (by omega),
      ih, sum_Ico_succ_top (show 1 ≤ n + 1 by omega) (fun k => f (2 * k)),
      sum_Ico_succ_top (show 1 ≤ n + 2 by omega) (fun k => f (2 * k - 1)),
      show 2 * (n + 2) - 1 = 2 * (n + 1) + 1 by omega]
    ring

theorem cosft2_bwd (p : Nat) (y : Nat → ℝ) :
    let N := 2 * 2 ^ p
    let r := cosft2 y N (-1)
    r 0 = y 0 ∧ (∀ i, N < i → r i = y i) ∧ ∀ j, j < N → r (j + 1) = idct2 (fun k => y (k + 1)) N j := by
  intro N r
  have hP : 0 < 2 ^ p := by positivity
  have hN0 : 0 < N := by omega
  have hN' : (N : ℝ) ≠ 0 := by positivity
  have hN2 : N / 2 = 2 ^ p := by omega
  have hN3 : (N + 1) / 2 = 2 ^ p := by omega
  set c : Nat → ℝ := fun j => y (j + 1) with hc
  set x : ℝ := 1 / 2 * π / N with hx
  have h2x : 2 * x = π / N := by rw [hx]; ring
  have hw : cpair (cos x, sin x) = cis (midAngle (2 * 2 ^ p) 0) := by
    have : midAngle (2 * 2 ^ p) 0 = x := by rw [midAngle, hx]; simp only [N]; push_cast; ring
    rw [this]; rfl
  -- the differences
  set a := downLoop 2 (2 ^ p + 1) (fun k y => aset y (2 * k) (y (2 * k - 2) - y (2 * k))) y with ha
  have av : ∀ i, a i = if i % 2 = 0 ∧ 4 ≤ i ∧ i ≤ N then y (i - 2) - y i else y i := by
    intro i
    rcases Nat.lt_or_ge (2 ^ p + 1) 2 with hlt | hge
    · rw [ha, downLoop_nil (by omega), if_neg (by omega)]
    · have key := downLoop_inv (lo := 2) (hi := 2 ^ p + 1) hge
        (body := fun k y => aset y (2 * k) (y (2 * k - 2) - y (2 * k))) (s := y)
        (fun k s => ∀ i, s i = if i % 2 = 0 ∧ 2 * k ≤ i ∧ i ≤ N then y (i - 2) - y i else y i)
        (fun i => by rw [if_neg (by omega)]) (by
          intro k s hk hk2 hs i
          by_cases hi : i = 2 * k
          · subst hi
            rw [aset_self, if_pos (by omega), hs, hs, if_neg (by omega), if_neg (by omega)]
          · rw [aset_ne _ _ hi, hs]
            exact if_congr (by omega) rfl rfl)
      rw [ha, key]
  set b := aset a 2 (2 * y N) with hb
  obtain ⟨u0, u1⟩ := rotLoop_eq (-1) (.inr rfl) (2 ^ p) hP (π / N) b
  set u := (upLoop 1 (2 ^ p) (rotPass (-1) (turnBy (π / N))) (b, 1, 0)).1 with hu
  obtain ⟨q0, q1, q2⟩ := realft_bwd p u
  set t := realft u N (-1) with ht
  have hr : r = (upLoop 1 (2 ^ p + 1) (cosft2Back N (turnBy (π / N))) (t, cos x, sin x)).1 := by
    simp only [r, cosft2]
    rw [if_neg (by decide), if_pos trivial, ← hx, turnBy_double, h2x, hN2, hN3, ← ha, ← hb, ← hu, ← ht]
  have rv : ∀ i, r i = if 1 ≤ i ∧ i ≤ N then 1 / 2 * ((t i + t (N - i + 1)) +
      1 / 2 / sin (midAngle N (i - 1)) * (t i - t (N - i + 1))) else t i := by
    intro i
    rw [hr, cosft2Back_pair, pairLoop_eq _ (2 ^ p) t _ hw]
  have b1 : b 1 = c 0 := by rw [hb, aset_ne _ _ (by omega), av, if_neg (by omega)]
  have b2 : b 2 = 2 * c (N - 1) := by
    rw [hb, aset_self]; simp only [hc]; rw [Nat.sub_add_cancel hN0]
  have bo : ∀ k, 1 ≤ k → k < 2 ^ p → b (2 * k + 1) = c (2 * k) := fun k h1 h2 => by
    rw [hb, aset_ne _ _ (by omega), av, if_neg (by omega)]
  have be : ∀ k, 1 ≤ k → k < 2 ^ p → b (2 * k + 2) = c (2 * k - 1) - c (2 * k + 1) := fun k h1 h2 => by
    rw [hb, aset_ne _ _ (by omega), av, if_pos (by omega)]
    simp only [hc]
    rw [show 2 * k + 2 - 2 = 2 * k - 1 + 1 by omega]
  have ub : cx u 0 = cx b 0 := by rw [u1, if_neg (by omega)]
  have um1 : u 1 = c 0 := by rw [show u 1 = b 1 from congrArg Complex.re ub, b1]
  have um2 : u 2 = 2 * c (N - 1) := by rw [show u 2 = b 2 from congrArg Complex.im ub, b2]
  have frame : ∀ i, N < i → u i = b i := by
    intro i hi
    have hc : cx u ((i - 1) / 2) = cx b ((i - 1) / 2) := by rw [u1, if_neg (by omega)]
    rcases Nat.mod_two_eq_zero_or_one (i - 1) with hm | hm
    · have hi2 : i = 2 * ((i - 1) / 2) + 1 := by omega
      rw [hi2]; exact congrArg Complex.re hc
    · have hi2 : i = 2 * ((i - 1) / 2) + 2 := by omega
      rw [hi2]; exact congrArg Complex.im hc
  -- even and odd part
  set E : Nat → ℝ := fun m => 1 / 2 * c 0 + ∑ k ∈ Ico 1 (2 ^ p), c (2 * k) * cos ((2 * k : Nat) * midAngle N m)
    with hE
  set O : Nat → ℝ := fun m => ∑ k ∈ Ico 1 (2 ^ p + 1), c (2 * k - 1) * cos ((2 * k - 1 : Nat) * midAngle N m)
    with hO
  have tv : ∀ m, m < N → t (m + 1) = E m + 2 * sin (midAngle N m) * O m := by
    intro m hm
    rw [q2 m hm, um1, um2]
    have term : ∀ k ∈ Ico 1 (2 ^ p), u (2 * k + 1) * cos (k * (2 * π / N) * m) + u (2 * k + 2) * sin (k * (2 * π / N) * m) =
        c (2 * k) * cos ((2 * k : Nat) * midAngle N m) +
          (c (2 * k - 1) - c (2 * (k + 1) - 1)) * sin ((2 * k : Nat) * midAngle N m) := by
      intro k hk
      rw [mem_Ico] at hk
      have hk' := u1 k
      rw [if_pos hk] at hk'
      have h1 := congrArg Complex.re hk'
      have h2 := congrArg Complex.im hk'
      simp only [cx, cis, Complex.mul_re, Complex.mul_im] at h1 h2
      rw [bo k hk.1 hk.2, be k hk.1 hk.2] at h1 h2
      rw [h1, h2, show 2 * (k + 1) - 1 = 2 * k + 1 by omega]
      have e : ((2 * k : Nat) : ℝ) * midAngle N m = k * (2 * π / N) * m - -1 * (π / N * k) := by
        unfold midAngle; push_cast; ring
      rw [e, cos_sub, sin_sub]
      ring
    have hlast : cos (π * m) = sin ((2 * 2 ^ p : Nat) * midAngle N m) := by
      rw [show ((2 * 2 ^ p : Nat) : ℝ) * midAngle N m = π * m + π / 2 by
        unfold midAngle; rw [show ((2 * 2 ^ p : Nat) : ℝ) = (N : ℝ) from rfl]; field_simp, sin_add_pi_div_two]
    rw [show (2 * 2 ^ p : Nat) = N from rfl] at *
    have hsum : ∑ k ∈ Ico 1 (2 ^ p), (u (2 * k + 1) * cos (k * (2 * π / N) * m) + u (2 * k + 2) * sin (k * (2 * π / N) * m)) =
        ∑ k ∈ Ico 1 (2 ^ p), c (2 * k) * cos ((2 * k : Nat) * midAngle N m) +
        ∑ k ∈ Ico 1 (2 ^ p), (c (2 * k - 1) - c (2 * (k + 1) - 1)) * sin ((2 * k : Nat) * midAngle N m) := by
      rw [← sum_add_distrib]; exact sum_congr rfl term
    rw [hsum]
    obtain ⟨q, hq⟩ : ∃ q, 2 ^ p = q + 1 := ⟨2 ^ p - 1, by omega⟩
    have hab := abel q (fun k => c (2 * k - 1)) (fun k => sin ((2 * k : Nat) * midAngle N m)) (by simp)
    have hterm : ∑ k ∈ Ico 1 (q + 2), c (2 * k - 1) * (sin ((2 * k : Nat) * midAngle N m) -
        sin ((2 * (k - 1) : Nat) * midAngle N m)) = 2 * sin (midAngle N m) * O m := by
      rw [hO]
      simp only
      rw [mul_sum, hq]
      refine sum_congr rfl fun k hk => ?_
      rw [mem_Ico] at hk
      have e0 : ((2 * k - 1 : Nat) : ℝ) = 2 * k - 1 := by rw [Nat.cast_sub (by omega)]; push_cast; ring
      have e1 : ((2 * k : Nat) : ℝ) * midAngle N m = (2 * k - 1 : Nat) * midAngle N m + midAngle N m := by
        rw [e0]; push_cast; ring
      have e2 : ((2 * (k - 1) : Nat) : ℝ) * midAngle N m = (2 * k - 1 : Nat) * midAngle N m - midAngle N m := by
        rw [e0, Nat.cast_mul, Nat.cast_sub hk.1]; push_cast; ring
      rw [e1, e2, sin_add, sin_sub]; ring
    rw [hterm] at hab
    rw [← hab, hE, hlast]
    simp only
    rw [hq, show 2 * (q + 1) - 1 = N - 1 by omega, show 2 * (q + 1) = N by omega]
    ring
  have Er : ∀ m, m < N → E (N - 1 - m) = E m := fun m hm => by
    simp only [hE]
    congr 1
    exact sum_congr rfl fun k _ => by rw [cos_even_refl N m k hm]
  have Or : ∀ m, m < N → O (N - 1 - m) = -O m := fun m hm => by
    simp only [hO]
    rw [← sum_neg_distrib]
    refine sum_congr rfl fun k hk => ?_
    rw [mem_Ico] at hk
    have := cos_odd_refl N m (k - 1) hm
    rw [show 2 * (k - 1) + 1 = 2 * k - 1 by omega] at this
    rw [this]; ring
  refine ⟨?_, ?_, ?_⟩
  · rw [rv, if_neg (by omega), q0, u0, hb, aset_ne _ _ (by omega), av, if_neg (by omega)]
  · intro i hi
    rw [rv, if_neg (by omega), q1 i hi, frame i hi, hb, aset_ne _ _ (by omega), av, if_neg (by omega)]
  · intro j hj
    rw [rv, if_pos (by omega), Nat.add_sub_cancel, show N - (j + 1) + 1 = N - 1 - j + 1 by omega, tv j hj,
      tv (N - 1 - j) (by omega), sin_mid_refl N j hj, Er j hj, Or j hj]
    have hs := (sin_mid_pos N j hj).ne'
    have : idct2 c N j = E j + O j := by
      unfold idct2
      obtain ⟨q, hq⟩ : ∃ q, 2 ^ p = q + 1 := ⟨2 ^ p - 1, by omega⟩
      have hNq : N = 2 * (q + 1) := by omega
      have h := sum_Ico_even_odd q (fun k => c k * cos (k * midAngle N j))
      rw [← hNq] at h
      have h2 : ∑ k ∈ Ico 1 N, c k * cos (k * (π / N) * (j + 1 / 2)) = ∑ k ∈ Ico 1 N, c k * cos (k * midAngle N j) :=
        sum_congr rfl fun k _ => by rw [midAngle, mul_assoc]
      rw [h2, h, hE, hO]
      simp only
      rw [hq]
      ring
    rw [this]
    field_simp
    ring

end Sgrid
