import Verif.Model.Wigner
import Verif.Lemmas.Legendre
import Mathlib.Data.Nat.Choose.Vandermonde
import Mathlib.Analysis.SpecialFunctions.Integrals.Basic
import Mathlib.Analysis.SpecialFunctions.Trigonometric.Deriv
import Mathlib.MeasureTheory.Integral.IntervalIntegral.IntegrationByParts

/-!
# C110: spin weighted spherical harmonics
-/

namespace Sgrid
open Real Finset

/-! ## Factorials and the two loops -/

theorem factD_nat (n : Nat) : factD n = n.factorial := by
  induction n with
  | zero => rw [factD]; simp
  | succ n ih =>
    rw [factD]
    split
    · have : n = 0 := by omega
      subst this; simp
    · rw [show ((n + 1 : Nat) : ℤ) - 1 = n by push_cast; ring, ih, Nat.factorial_succ]
      push_cast; ring

/-- `fact` returns `n!`, and 1 for negative numbers. -/
theorem C110_fact (n : ℤ) : factD n = n.toNat.factorial := by
  rcases le_or_gt 0 n with h | h
  · rw [← factD_nat, Int.toNat_of_nonneg h]
  · rw [factD, if_pos (by omega), show n.toNat = 0 by omega]
    simp

theorem byTwo_sum (lo hi : ℤ) (g : ℤ → ℝ) (w : ℝ) :
    byTwo lo hi (fun k w => w + g k) w = w + ∑ k ∈ Icc lo hi, if (k - lo) % 2 = 0 then g k else 0 := by
  induction h : (hi - lo + 1).toNat using Nat.strong_induction_on generalizing lo w with
  | _ n ih =>
    rw [byTwo]
    split
    · rename_i hle
      rw [ih _ (by omega) (lo + 2) (w + g lo) rfl, add_assoc]
      congr 1
      rcases eq_or_lt_of_le hle with e | hlt
      · subst e
        rw [Icc_eq_empty (by omega), Icc_self]
        simp
      · have e : Icc lo hi = insert lo (insert (lo + 1) (Icc (lo + 2) hi)) := by
          ext k; simp only [mem_Icc, mem_insert]; omega
        rw [e, sum_insert (by simp only [mem_insert, mem_Icc]; omega), sum_insert (by simp only [mem_Icc]; omega),
          if_pos (by omega), if_neg (by omega), zero_add]
        congr 1
        refine sum_congr rfl fun k _ => ?_
        congr 1
        exact propext ⟨fun h => by omega, fun h => by omega⟩
    · rw [Icc_eq_empty (by omega)]
      simp

theorem byTwo_both (lo hi : ℤ) (g : ℤ → ℝ) (w : ℝ) :
    byTwo (lo + 1) hi (fun k w => w - g k) (byTwo lo hi (fun k w => w + g k) w) =
      w + ∑ k ∈ Icc lo hi, (-1) ^ (k - lo) * g k := by
  have e1 : (fun k (w : ℝ) => w - g k) = fun k w => w + (fun k => -g k) k := by
    funext k w; exact sub_eq_add_neg _ _
  rw [e1, byTwo_sum, byTwo_sum, add_assoc]
  congr 1
  have e2 : ∑ k ∈ Icc (lo + 1) hi, (if (k - (lo + 1)) % 2 = 0 then -g k else 0) =
      ∑ k ∈ Icc lo hi, if (k - (lo + 1)) % 2 = 0 then -g k else 0 := by
    refine sum_subset (fun k hk => ?_) fun k hk hn => ?_
    · rw [mem_Icc] at hk ⊢; omega
    · rw [mem_Icc] at hk hn
      rw [if_neg (by omega)]
  rw [e2, ← sum_add_distrib]
  refine sum_congr rfl fun k hk => ?_
  rcases Int.emod_two_eq_zero_or_one (k - lo) with e | e
  · rw [if_pos e, if_neg (by omega), Even.neg_one_zpow (Int.even_iff.2 e)]; ring
  · rw [if_neg (by omega), if_pos (by omega), Odd.neg_one_zpow (Int.odd_iff.2 e)]; ring

theorem wignerLoops_sum (l m s : ℤ) (C S : ℝ) (k1 k2 : ℤ) :
    wignerLoops l m s C S k1 k2 = ∑ k ∈ Icc k1 k2, (-1) ^ k * wignerTerm l m s C S k := by
  unfold wignerLoops
  dsimp only
  split
  · rename_i h
    rw [byTwo_both, zero_add]
    refine sum_congr rfl fun k _ => ?_
    rw [zpow_sub₀ (by norm_num), Even.neg_one_zpow (Int.even_iff.2 h), div_one]
  · rename_i h
    have e1 : (fun k (w : ℝ) => w + wignerTerm l m s C S k) = fun k w => w - (fun k => -wignerTerm l m s C S k) k := by
      funext k w; simp
    have e2 : (fun k (w : ℝ) => w - wignerTerm l m s C S k) = fun k w => w + (fun k => -wignerTerm l m s C S k) k := by
      funext k w; simp [sub_eq_add_neg]
    rw [e1, e2, byTwo_both, zero_add]
    refine sum_congr rfl fun k _ => ?_
    rw [zpow_sub₀ (by norm_num), Odd.neg_one_zpow (n := k1) (Int.odd_iff.2 (by omega))]
    ring

/-- The sum with the binomial factors, as in astro-ph/0508514. -/
noncomputable def wignerSum (l m s : ℤ) (C S : ℝ) : ℝ :=
  ∑ k ∈ Icc (max 0 (m - s)) (min (l + m) (l - s)), (-1) ^ k * wignerTerm l m s C S k

noncomputable def wignerRoot (l m s : ℤ) : ℝ := √(factD (l + m) * factD (l - m) * factD (l + s) * factD (l - s))

theorem wignerWT_eq (l m s : ℤ) (th : ℝ) :
    wignerWT l m s th = wignerRoot l m s * wignerSum l m s (cos (th / 2)) (sin (th / 2)) := by
  unfold wignerWT wignerRoot wignerSum
  dsimp only
  rw [wignerLoops_sum, show th * 0.5 = th / 2 by ring, show (if s > m then 0 else m - s) = max 0 (m - s) by
    rcases le_or_gt s m with h | h
    · rw [if_neg (by omega)]; omega
    · rw [if_pos h]; omega, show (if m < -s then l + m else l - s) = min (l + m) (l - s) by
    rcases lt_or_ge m (-s) with h | h
    · rw [if_pos h]; omega
    · rw [if_neg (by omega)]; omega]

/-- **C110.** The two versions of the function agree for `0 ≤ θ ≤ π`. -/
theorem C110_versions (l m s : ℤ) (hm : |m| ≤ l) (hs : |s| ≤ l) (th : ℝ) (h0 : 0 ≤ th) (h1 : th ≤ π) :
    wignerPG l m s th = wignerWT l m s th := by
  have ac : √(0.5 * (1 + cos th)) = cos (th / 2) := by
    rw [show 0.5 * (1 + cos th) = cos (th / 2) ^ 2 by
      rw [cos_sq, show 2 * (th / 2) = th by ring]; ring]
    exact sqrt_sq (cos_nonneg_of_mem_Icc ⟨by linarith [pi_pos], by linarith⟩)
  have as : √(0.5 * (1 - cos th)) = sin (th / 2) := by
    rw [show 0.5 * (1 - cos th) = sin (th / 2) ^ 2 by
      rw [sin_sq, cos_sq, show 2 * (th / 2) = th by ring]; ring]
    exact sqrt_sq (sin_nonneg_of_nonneg_of_le_pi (by linarith) (by linarith))
  rw [wignerWT_eq]
  unfold wignerPG wignerRoot wignerSum
  dsimp only
  rw [wignerLoops_sum, ac, as, show (if s > m then 0 else m - s) = max 0 (m - s) by
    rcases le_or_gt s m with h | h
    · rw [if_neg (by omega)]; omega
    · rw [if_pos h]; omega, show (if m < -s then l + m else l - s) = min (l + m) (l - s) by
    rcases lt_or_ge m (-s) with h | h
    · rw [if_pos h]; omega
    · rw [if_neg (by omega)]; omega]
  rw [abs_le] at hm hs
  congr 2
  rcases lt_or_ge (max 0 (m - s)) (min (l + m) (l - s)) with h | h
  · rw [if_pos h, if_pos h]
  · have : max 0 (m - s) = min (l + m) (l - s) := by omega
    rw [this, if_neg (lt_irrefl _)]

/-! ## Symmetries -/

/-- **C110.** `d^l_{ms} = d^l_{-s,-m}`. -/
theorem C110_symmetry (l m s : ℤ) (th : ℝ) : wignerWT l (-s) (-m) th = wignerWT l m s th := by
  rw [wignerWT_eq, wignerWT_eq]
  unfold wignerRoot wignerSum wignerTerm
  congr 1
  · congr 1
    rw [show l + -s = l - s by ring, show l - -s = l + s by ring, show l + -m = l - m by ring, show l - -m = l + m by ring]
    ring
  · rw [show l + -s = l - s by ring, show l - -m = l + m by ring, show -s - -m = m - s by ring, min_comm]
    refine sum_congr rfl fun k _ => ?_
    rw [show 2 * l + -s - -m - 2 * k = 2 * l + m - s - 2 * k by ring, show 2 * k + -m - -s = 2 * k + s - m by ring,
      show k + -m - -s = k + s - m by ring]
    ring

/-- **C110.** `d^l_{sm} = (-1)^(m-s) d^l_{ms}`. -/
theorem C110_transpose (l m s : ℤ) (th : ℝ) : wignerWT l s m th = (-1) ^ (m - s) * wignerWT l m s th := by
  rw [wignerWT_eq, wignerWT_eq]
  unfold wignerRoot wignerSum wignerTerm
  rw [mul_left_comm]
  congr 1
  · congr 1; ring
  · rw [mul_sum]
    symm
    refine sum_nbij' (fun k => k + (s - m)) (fun k => k - (s - m)) ?_ ?_ (fun k _ => by ring) (fun k _ => by ring) ?_
    · intro k hk; rw [mem_Icc] at hk ⊢; omega
    · intro k hk; rw [mem_Icc] at hk ⊢; omega
    · intro k _
      rw [show 2 * l + s - m - 2 * (k + (s - m)) = 2 * l + m - s - 2 * k by ring,
        show 2 * (k + (s - m)) + m - s = 2 * k + s - m by ring, show l + s - (k + (s - m)) = l + m - k by ring,
        show l - m - (k + (s - m)) = l - s - k by ring, show k + (s - m) + m - s = k by ring,
        show k + (s - m) = k + s - m by ring, ← mul_assoc, ← zpow_add₀ (by norm_num)]
      have : ((-1 : ℝ)) ^ (m - s + k) = (-1) ^ (k + s - m) := by
        rw [show k + s - m = (m - s + k) + 2 * (s - m) by ring, zpow_add₀ (by norm_num) (m - s + k), zpow_mul]
        norm_num
      rw [this]
      ring

/-! ## In natural numbers -/

/-- The sum for `a = l+m`, `b = l-m`, `d = l-s`. -/
noncomputable def wigN (a b d : Nat) (C S : ℝ) : ℝ :=
  ∑ i ∈ range (a + 1), if i ≤ d ∧ d ≤ b + i then
    (-1) ^ i * (C ^ (a + d - 2 * i) * S ^ (b + 2 * i - d)) / ((a - i).factorial * (d - i).factorial * i.factorial *
      (b + i - d).factorial) else 0

theorem wignerSum_nat {l m s : ℤ} {a b d : Nat} (ha : l + m = a) (hb : l - m = b) (hd : l - s = d) (C S : ℝ) :
    wignerSum l m s C S = wigN a b d C S := by
  unfold wignerSum wigN
  rw [← sum_filter]
  refine sum_nbij' (fun k => k.toNat) (fun i => (i : ℤ)) ?_ ?_ ?_ ?_ ?_
  · intro k hk; rw [mem_Icc] at hk; rw [mem_filter, mem_range]; omega
  · intro i hi; rw [mem_filter, mem_range] at hi; rw [mem_Icc]; omega
  · intro k hk; rw [mem_Icc] at hk; omega
  · intro i _; simp
  · intro k hk
    rw [mem_Icc] at hk
    obtain ⟨i, rfl⟩ : ∃ i : Nat, k = i := ⟨k.toNat, by omega⟩
    unfold wignerTerm
    rw [Int.toNat_natCast, show 2 * l + m - s - 2 * (i : ℤ) = ((a + d - 2 * i : Nat) : ℤ) by omega,
      show 2 * (i : ℤ) + s - m = ((b + 2 * i - d : Nat) : ℤ) by omega, show l + m - (i : ℤ) = ((a - i : Nat) : ℤ) by omega,
      show l - s - (i : ℤ) = ((d - i : Nat) : ℤ) by omega, show (i : ℤ) + s - m = ((b + i - d : Nat) : ℤ) by omega,
      factD_nat, factD_nat, factD_nat, factD_nat, zpow_natCast, zpow_natCast, zpow_natCast]
    ring

theorem wignerRoot_nat {l m s : ℤ} {a b e d : Nat} (ha : l + m = a) (hb : l - m = b) (he : l + s = e) (hd : l - s = d) :
    wignerRoot l m s = √(a.factorial * b.factorial * e.factorial * d.factorial) := by
  unfold wignerRoot
  rw [ha, hb, he, hd, factD_nat, factD_nat, factD_nat, factD_nat]


/-! ## Rotations -/

theorem sum_mul_diag (a b : Nat) (f g : Nat → ℝ) (hg : ∀ j, b < j → g j = 0) :
    (∑ i ∈ range (a + 1), f i) * ∑ j ∈ range (b + 1), g j =
      ∑ d ∈ range (a + b + 1), ∑ i ∈ range (a + 1), if i ≤ d then f i * g (d - i) else 0 := by
  rw [sum_comm, sum_mul]
  refine sum_congr rfl fun i hi => ?_
  have hi := mem_range.1 hi
  rw [mul_sum, ← sum_filter]
  symm
  have e : ∑ j ∈ range (b + 1), f i * g j = ∑ j ∈ range (a + b + 1 - i), f i * g j := by
    refine sum_subset (fun j hj => ?_) fun j _ hn => ?_
    · rw [mem_range] at hj ⊢; omega
    · rw [mem_range] at hn
      rw [hg j (by omega), mul_zero]
  rw [e]
  refine sum_nbij' (fun d => d - i) (fun j => j + i) ?_ ?_ ?_ ?_ ?_
  · intro d hd; rw [mem_filter, mem_range] at hd; rw [mem_range]; omega
  · intro j hj; rw [mem_range] at hj; rw [mem_filter, mem_range]; omega
  · intro d hd; rw [mem_filter] at hd; omega
  · intro j _; omega
  · intro d _; rfl

theorem wigN_choose (a b d : Nat) (C S : ℝ) :
    a.factorial * b.factorial * wigN a b d C S = ∑ i ∈ range (a + 1), if i ≤ d then
      (-1) ^ i * (a.choose i * b.choose (d - i)) * (C ^ (a + d - 2 * i) * S ^ (b + 2 * i - d)) else 0 := by
  unfold wigN
  rw [mul_sum]
  refine sum_congr rfl fun i hi => ?_
  have hi := mem_range.1 hi
  by_cases h1 : i ≤ d
  · rw [if_pos h1]
    by_cases h2 : d ≤ b + i
    · rw [if_pos ⟨h1, h2⟩]
      have hA : (a.choose i * i.factorial * (a - i).factorial : ℝ) = a.factorial := by
        exact_mod_cast Nat.choose_mul_factorial_mul_factorial (show i ≤ a by omega)
      have hB : (b.choose (d - i) * (d - i).factorial * (b + i - d).factorial : ℝ) = b.factorial := by
        rw [show b + i - d = b - (d - i) by omega]
        exact_mod_cast Nat.choose_mul_factorial_mul_factorial (show d - i ≤ b by omega)
      rw [← hA, ← hB]
      field_simp
    · rw [if_neg (by omega), Nat.choose_eq_zero_of_lt (show b < d - i by omega)]
      simp
  · rw [if_neg (by omega), if_neg h1, mul_zero]

/-- The binomial theorem for the two rotated variables. -/
theorem wigN_rotation (a b : Nat) (C S x y : ℝ) :
    (C * x - S * y) ^ a * (S * x + C * y) ^ b =
      ∑ d ∈ range (a + b + 1), a.factorial * b.factorial * wigN a b d C S * (x ^ (a + b - d) * y ^ d) := by
  have e1 : (C * x - S * y) ^ a = ∑ i ∈ range (a + 1), (a.choose i * (C * x) ^ (a - i) * (-(S * y)) ^ i) := by
    rw [sub_eq_neg_add, add_pow]
    exact sum_congr rfl fun i _ => by ring
  have e2 : (S * x + C * y) ^ b = ∑ j ∈ range (b + 1), (b.choose j * (S * x) ^ (b - j) * (C * y) ^ j) := by
    rw [add_comm, add_pow]
    exact sum_congr rfl fun i _ => by ring
  rw [e1, e2, sum_mul_diag a b _ _ fun j hj => by rw [Nat.choose_eq_zero_of_lt hj]; simp]
  refine sum_congr rfl fun d hd => ?_
  rw [wigN_choose, sum_mul]
  refine sum_congr rfl fun i hi => ?_
  have hi := mem_range.1 hi
  by_cases h1 : i ≤ d
  · rw [if_pos h1, if_pos h1]
    by_cases h2 : d - i ≤ b
    · obtain ⟨p, rfl⟩ := Nat.exists_eq_add_of_le (show i ≤ a by omega)
      obtain ⟨q, rfl⟩ := Nat.exists_eq_add_of_le h1
      rw [Nat.add_sub_cancel_left] at h2
      obtain ⟨r, rfl⟩ := Nat.exists_eq_add_of_le h2
      rw [show i + p - i = p by omega, show i + q - i = q by omega, show q + r - q = r by omega,
        show i + p + (i + q) - 2 * i = p + q by omega, show q + r + 2 * i - (i + q) = r + i by omega,
        show i + p + (q + r) - (i + q) = p + r by omega, neg_pow (S * y) i]
      ring
    · rw [Nat.choose_eq_zero_of_lt (show b < d - i by omega)]
      simp
  · rw [if_neg h1, if_neg h1, zero_mul]

/-- **C110.** The functions are the matrix elements of a rotation by θ in the representation on polynomials of degree 2l: with
`f_s = x^(l+s) y^(l-s) / √((l+s)! (l-s)!)`, the rotated `f_m` is `Σ_s d^l_{ms}(θ) f_s`. -/
theorem C110_rotation (l : Nat) (m : ℤ) (hm : |m| ≤ l) (th x y : ℝ) :
    (cos (th / 2) * x - sin (th / 2) * y) ^ (l + m).toNat * (sin (th / 2) * x + cos (th / 2) * y) ^ (l - m).toNat /
        √((l + m).toNat.factorial * (l - m).toNat.factorial) =
      ∑ s ∈ Icc (-l : ℤ) l, wignerWT l m s th * (x ^ (l + s).toNat * y ^ (l - s).toNat /
        √((l + s).toNat.factorial * (l - s).toNat.factorial)) := by
  rw [abs_le] at hm
  obtain ⟨a, ha⟩ : ∃ a : Nat, (l : ℤ) + m = a := ⟨(l + m).toNat, by omega⟩
  obtain ⟨b, hb⟩ : ∃ b : Nat, (l : ℤ) - m = b := ⟨(l - m).toNat, by omega⟩
  rw [ha, hb, Int.toNat_natCast, Int.toNat_natCast, wigN_rotation, sum_div]
  refine sum_nbij' (fun d => (l : ℤ) - d) (fun s => (l - s).toNat) ?_ ?_ ?_ ?_ ?_
  · intro d hd; rw [mem_range] at hd; rw [mem_Icc]; omega
  · intro s hs; rw [mem_Icc] at hs; rw [mem_range]; omega
  · intro d hd; omega
  · intro s hs; rw [mem_Icc] at hs; omega
  · intro d hd
    have hd := mem_range.1 hd
    obtain ⟨e, he⟩ : ∃ e : Nat, (l : ℤ) + (l - d) = e := ⟨(l + (l - d) : ℤ).toNat, by omega⟩
    have hd' : (l : ℤ) - (l - d) = d := by omega
    rw [wignerWT_eq, wignerSum_nat ha hb hd', wignerRoot_nat ha hb he hd', he, hd', Int.toNat_natCast, Int.toNat_natCast,
      show a + b - d = e by omega]
    have h0 : √((a.factorial : ℝ) * b.factorial * e.factorial * d.factorial) =
        √((a.factorial : ℝ) * b.factorial) * √((e.factorial : ℝ) * d.factorial) := by
      rw [mul_assoc ((a.factorial : ℝ) * b.factorial), sqrt_mul (by positivity)]
    rw [h0]
    have h1 : √((a.factorial : ℝ) * b.factorial) ≠ 0 := by positivity
    have h2 : √((e.factorial : ℝ) * d.factorial) ≠ 0 := by positivity
    have h3 : (a.factorial : ℝ) * b.factorial = √((a.factorial : ℝ) * b.factorial) * √((a.factorial : ℝ) * b.factorial) :=
      (mul_self_sqrt (by positivity)).symm
    rw [show (a.factorial : ℝ) * b.factorial * wigN a b d (cos (th / 2)) (sin (th / 2)) =
      √((a.factorial : ℝ) * b.factorial) * √((a.factorial : ℝ) * b.factorial) * wigN a b d (cos (th / 2)) (sin (th / 2)) by
        rw [← h3]]
    generalize √((a.factorial : ℝ) * b.factorial) = A at h1 ⊢
    generalize √((e.factorial : ℝ) * d.factorial) = B at h2 ⊢
    field_simp

theorem monomials_unique (l : Nat) (c c' : ℤ → ℝ) (w : ℤ → ℝ) (hw : ∀ s, w s ≠ 0)
    (h : ∀ x y : ℝ, ∑ s ∈ Icc (-l : ℤ) l, c s * (x ^ (l + s).toNat * y ^ (l - s).toNat / w s) =
      ∑ s ∈ Icc (-l : ℤ) l, c' s * (x ^ (l + s).toNat * y ^ (l - s).toNat / w s)) (s : ℤ) (hs : |s| ≤ l) : c s = c' s := by
  rw [abs_le] at hs
  have key : ∀ c : ℤ → ℝ, ∀ x : ℝ, ∑ s ∈ Icc (-l : ℤ) l, c s * (x ^ (l + s).toNat * (1 : ℝ) ^ (l - s).toNat / w s) =
      (∑ s ∈ Icc (-l : ℤ) l, Polynomial.C (c s / w s) * Polynomial.X ^ (l + s).toNat).eval x := by
    intro c x
    rw [Polynomial.eval_finsetSum]
    refine sum_congr rfl fun s _ => ?_
    simp only [Polynomial.eval_mul, Polynomial.eval_C, Polynomial.eval_pow, Polynomial.eval_X, one_pow]
    ring
  have e : (∑ s ∈ Icc (-l : ℤ) l, Polynomial.C (c s / w s) * Polynomial.X ^ (l + s).toNat) =
      ∑ s ∈ Icc (-l : ℤ) l, Polynomial.C (c' s / w s) * Polynomial.X ^ (l + s).toNat :=
    Polynomial.funext fun x => by rw [← key, ← key, h x 1]
  have co : ∀ c : ℤ → ℝ, (∑ s ∈ Icc (-l : ℤ) l, Polynomial.C (c s / w s) * Polynomial.X ^ (l + s).toNat).coeff (l + s).toNat =
      c s / w s := by
    intro c
    rw [Polynomial.finsetSum_coeff, sum_eq_single s]
    · rw [Polynomial.coeff_C_mul, Polynomial.coeff_X_pow, if_pos rfl, mul_one]
    · intro t ht hne
      rw [mem_Icc] at ht
      rw [Polynomial.coeff_C_mul, Polynomial.coeff_X_pow, if_neg (by omega), mul_zero]
    · intro hn
      exact absurd (mem_Icc.2 ⟨hs.1, hs.2⟩) hn
  have := co c
  rw [e, co c'] at this
  exact (div_left_inj' (hw s)).1 this.symm

theorem sqrt_fact_ne (p q : Nat) : √((p.factorial : ℝ) * q.factorial) ≠ 0 := by positivity

/-- **C110.** The addition theorem: `d^l(θ + θ') = d^l(θ) d^l(θ')`. -/
theorem C110_addition (l : Nat) (m s : ℤ) (hm : |m| ≤ l) (hs : |s| ≤ l) (th th' : ℝ) :
    wignerWT l m s (th + th') = ∑ t ∈ Icc (-l : ℤ) l, wignerWT l m t th * wignerWT l t s th' := by
  refine monomials_unique l (fun s => wignerWT l m s (th + th'))
    (fun s => ∑ t ∈ Icc (-l : ℤ) l, wignerWT l m t th * wignerWT l t s th')
    (fun s => √((l + s).toNat.factorial * (l - s).toNat.factorial)) (fun s => sqrt_fact_ne _ _) (fun x y => ?_) s hs
  rw [← C110_rotation l m hm (th + th') x y]
  have h1 := C110_rotation l m hm th (cos (th' / 2) * x - sin (th' / 2) * y) (sin (th' / 2) * x + cos (th' / 2) * y)
  rw [show cos (th / 2) * (cos (th' / 2) * x - sin (th' / 2) * y) - sin (th / 2) * (sin (th' / 2) * x + cos (th' / 2) * y) =
      cos ((th + th') / 2) * x - sin ((th + th') / 2) * y by
    rw [add_div, cos_add, sin_add]; ring, show sin (th / 2) * (cos (th' / 2) * x - sin (th' / 2) * y) +
      cos (th / 2) * (sin (th' / 2) * x + cos (th' / 2) * y) = sin ((th + th') / 2) * x + cos ((th + th') / 2) * y by
    rw [add_div, cos_add, sin_add]; ring] at h1
  rw [h1]
  have h2 : ∀ t ∈ Icc (-l : ℤ) l, wignerWT l m t th * ((cos (th' / 2) * x - sin (th' / 2) * y) ^ (l + t).toNat *
      (sin (th' / 2) * x + cos (th' / 2) * y) ^ (l - t).toNat / √((l + t).toNat.factorial * (l - t).toNat.factorial)) =
      ∑ s ∈ Icc (-l : ℤ) l, wignerWT l m t th * wignerWT l t s th' * (x ^ (l + s).toNat * y ^ (l - s).toNat /
        √((l + s).toNat.factorial * (l - s).toNat.factorial)) := by
    intro t ht
    rw [mem_Icc] at ht
    rw [C110_rotation l t (abs_le.2 ht) th' x y, mul_sum]
    exact sum_congr rfl fun s _ => by ring
  rw [sum_congr rfl h2, sum_comm]
  exact sum_congr rfl fun s _ => by rw [sum_mul]

/-- **C110.** No rotation: the unit matrix. -/
theorem C110_zero (l : Nat) (m s : ℤ) (hm : |m| ≤ l) (hs : |s| ≤ l) : wignerWT l m s 0 = if s = m then 1 else 0 := by
  refine monomials_unique l (fun s => wignerWT l m s 0) (fun s => if s = m then 1 else 0)
    (fun s => √((l + s).toNat.factorial * (l - s).toNat.factorial)) (fun s => sqrt_fact_ne _ _) (fun x y => ?_) s hs
  rw [← C110_rotation l m hm 0 x y, zero_div, cos_zero, sin_zero, sum_eq_single m]
  · rw [if_pos rfl]
    simp
  · intro t _ ht
    rw [if_neg ht, zero_mul]
  · intro hn
    rw [abs_le] at hm
    exact absurd (mem_Icc.2 hm) hn

/-- **C110.** The rotation backwards has the transposed matrix. -/
theorem C110_inverse (l : Nat) (m s : ℤ) (hm : |m| ≤ l) (hs : |s| ≤ l) (th : ℝ) : wignerWT l m s (-th) = wignerWT l s m th := by
  rw [C110_transpose l m s th, wignerWT_eq, wignerWT_eq]
  rw [abs_le] at hm hs
  obtain ⟨a, ha⟩ : ∃ a : Nat, (l : ℤ) + m = a := ⟨(l + m).toNat, by omega⟩
  obtain ⟨b, hb⟩ : ∃ b : Nat, (l : ℤ) - m = b := ⟨(l - m).toNat, by omega⟩
  obtain ⟨d, hd⟩ : ∃ d : Nat, (l : ℤ) - s = d := ⟨(l - s).toNat, by omega⟩
  rw [wignerSum_nat ha hb hd, wignerSum_nat ha hb hd, neg_div, cos_neg, sin_neg, mul_left_comm]
  congr 1
  unfold wigN
  rw [mul_sum]
  refine sum_congr rfl fun i hi => ?_
  split
  · rename_i h
    have e : ((-1 : ℝ)) ^ (m - s) = (-1) ^ (b + 2 * i - d) := by
      rw [← zpow_natCast, show ((b + 2 * i - d : Nat) : ℤ) = (m - s) + 2 * (i + s - m) by omega, zpow_add₀ (by norm_num),
        zpow_mul]
      norm_num
    rw [e, neg_pow (sin (th / 2))]
    ring
  · rw [mul_zero]

/-- **C110.** The matrices are orthogonal. -/
theorem C110_orthogonal (l : Nat) (m s : ℤ) (hm : |m| ≤ l) (hs : |s| ≤ l) (th : ℝ) :
    ∑ t ∈ Icc (-l : ℤ) l, wignerWT l m t th * wignerWT l s t th = if s = m then 1 else 0 := by
  rw [← C110_zero l m s hm hs, show (0 : ℝ) = th + -th by ring, C110_addition l m s hm hs]
  refine sum_congr rfl fun t ht => ?_
  rw [mem_Icc] at ht
  rw [C110_inverse l t s (abs_le.2 ht) hs]

/-! ## Integrals -/

open Polynomial in
/-- The integral from 0 to 1. -/
noncomputable def int01 (p : ℝ[X]) : ℝ := ∫ x in (0 : ℝ)..1, p.eval x

section
open Polynomial

theorem int01_add (p q : ℝ[X]) : int01 (p + q) = int01 p + int01 q := by
  unfold int01
  simp only [eval_add]
  exact intervalIntegral.integral_add (p.differentiable.continuous.intervalIntegrable _ _)
    (q.differentiable.continuous.intervalIntegrable _ _)

theorem int01_C_mul (c : ℝ) (p : ℝ[X]) : int01 (C c * p) = c * int01 p := by
  unfold int01
  simp only [eval_mul, eval_C]
  exact intervalIntegral.integral_const_mul _ _

theorem int01_derivative (p : ℝ[X]) : int01 (derivative p) = p.eval 1 - p.eval 0 := by
  unfold int01
  exact intervalIntegral.integral_eq_sub_of_hasDerivAt (fun x _ => p.hasDerivAt x)
    ((derivative p).differentiable.continuous.intervalIntegrable _ _)

/-- `x^a (1-x)^b`. -/
noncomputable def betaP (a b : Nat) : ℝ[X] := X ^ a * (1 - X) ^ b

theorem betaP_deriv (a b : Nat) : derivative (betaP (a + 1) (b + 1)) =
    C ((a : ℝ) + 1) * betaP a (b + 1) - C ((b : ℝ) + 1) * betaP (a + 1) b := by
  unfold betaP
  rw [derivative_mul, derivative_X_pow, derivative_pow, derivative_sub, derivative_one, derivative_X]
  simp only [Nat.add_sub_cancel, Nat.cast_add, Nat.cast_one]
  ring

theorem int01_beta (a b : Nat) : ((a + b + 1).factorial : ℝ) * int01 (betaP a b) = a.factorial * b.factorial := by
  induction b generalizing a with
  | zero =>
    have h := int01_derivative (X ^ (a + 1))
    rw [derivative_X_pow, int01_C_mul] at h
    simp only [Nat.add_sub_cancel, eval_pow, eval_X, one_pow, zero_pow (Nat.succ_ne_zero a), sub_zero] at h
    unfold betaP
    rw [pow_zero, mul_one, Nat.add_zero, Nat.factorial_succ, Nat.cast_mul, mul_comm ((a + 1 : Nat) : ℝ), mul_assoc, h]
    simp
  | succ b ih =>
    have h := int01_derivative (betaP (a + 1) (b + 1))
    rw [betaP_deriv, sub_eq_add_neg, int01_add, ← neg_mul, ← C_neg, int01_C_mul, int01_C_mul] at h
    have e : eval 1 (betaP (a + 1) (b + 1)) - eval 0 (betaP (a + 1) (b + 1)) = 0 := by
      unfold betaP; simp
    rw [e] at h
    have h2 := ih (a + 1)
    rw [show a + 1 + b + 1 = a + (b + 1) + 1 by ring, Nat.factorial_succ a, Nat.factorial_succ (a + (b + 1))] at h2
    have ha : ((a : ℝ) + 1) ≠ 0 := by positivity
    apply mul_left_cancel₀ ha
    rw [Nat.factorial_succ b, Nat.factorial_succ (a + (b + 1))]
    push_cast at h2 ⊢
    have h3 : ((a : ℝ) + 1) * int01 (betaP a (b + 1)) = (b + 1) * int01 (betaP (a + 1) b) := by linarith
    calc _ = (((a : ℝ) + (b + 1) + 1) * ((a + (b + 1)).factorial : ℝ)) * (((a : ℝ) + 1) * int01 (betaP a (b + 1))) := by ring
      _ = (b + 1) * ((((a : ℝ) + (b + 1) + 1) * ((a + (b + 1)).factorial : ℝ)) * int01 (betaP (a + 1) b)) := by rw [h3]; ring
      _ = _ := by rw [h2]; ring

/-- The derivatives of `x^a (1-x)^b` keep the factors. -/
theorem betaP_iterate (a b j : Nat) (ha : j ≤ a) (hb : j ≤ b) : ∃ R, derivative^[j] (betaP a b) = betaP (a - j) (b - j) * R := by
  induction j with
  | zero => exact ⟨1, by simp⟩
  | succ j ih =>
    obtain ⟨R, hR⟩ := ih (by omega) (by omega)
    rw [Function.iterate_succ', Function.comp_apply, hR, derivative_mul]
    obtain ⟨a', ha'⟩ : ∃ a', a - j = a' + 1 := ⟨a - j - 1, by omega⟩
    obtain ⟨b', hb'⟩ : ∃ b', b - j = b' + 1 := ⟨b - j - 1, by omega⟩
    rw [ha', hb', betaP_deriv, show a - (j + 1) = a' by omega, show b - (j + 1) = b' by omega]
    refine ⟨(C ((a' : ℝ) + 1) * (1 - X) - C ((b' : ℝ) + 1) * X) * R + X * (1 - X) * derivative R, ?_⟩
    unfold betaP
    ring

theorem betaP_parts (a b j : Nat) (ha : j ≤ a) (hb : j ≤ b) (q : ℝ[X]) :
    int01 (derivative^[j] (betaP a b) * q) = (-1) ^ j * int01 (betaP a b * derivative^[j] q) := by
  induction j generalizing q with
  | zero => simp
  | succ j ih =>
    obtain ⟨R, hR⟩ := betaP_iterate a b j (by omega) (by omega)
    have h := int01_derivative (derivative^[j] (betaP a b) * q)
    rw [derivative_mul, int01_add, ih (by omega) (by omega)] at h
    have e : eval 1 (derivative^[j] (betaP a b) * q) - eval 0 (derivative^[j] (betaP a b) * q) = 0 := by
      rw [hR]
      unfold betaP
      simp [zero_pow (show a - j ≠ 0 by omega), zero_pow (show b - j ≠ 0 by omega)]
    rw [e] at h
    rw [Function.iterate_succ_apply' derivative j (betaP a b), Function.iterate_succ_apply derivative j q, pow_succ]
    linarith

/-- The polynomial in `cos(θ/2)^2` (for `d ≤ a`, `d ≤ b`). -/
noncomputable def jacP (a b d : Nat) : ℝ[X] :=
  ∑ i ∈ range (d + 1), C ((-1 : ℝ) ^ i / ((a - i).factorial * (d - i).factorial * i.factorial * (b + i - d).factorial)) *
    (X ^ (d - i) * (1 - X) ^ i)

theorem wigN_jac (a b d : Nat) (ha : d ≤ a) (hb : d ≤ b) (c s : ℝ) (h : c ^ 2 + s ^ 2 = 1) :
    wigN a b d c s = c ^ (a - d) * s ^ (b - d) * (jacP a b d).eval (c ^ 2) := by
  unfold wigN jacP
  rw [eval_finsetSum, mul_sum]
  symm
  refine (sum_congr rfl fun i hi => ?_).trans (sum_subset (fun i hi => ?_) fun i _ hn => ?_)
  · have hi := mem_range.1 hi
    rw [if_pos ⟨by omega, by omega⟩]
    simp only [eval_mul, eval_C, eval_pow, eval_X, eval_sub, eval_one]
    rw [show 1 - c ^ 2 = s ^ 2 by linarith, ← pow_mul, ← pow_mul,
      show a + d - 2 * i = (a - d) + 2 * (d - i) by omega, show b + 2 * i - d = (b - d) + 2 * i by omega, pow_add, pow_add]
    ring
  · rw [mem_range] at hi ⊢; omega
  · rw [mem_range] at hn
    rw [if_neg (by omega)]

theorem iterate_one_sub (b k : Nat) : derivative^[k] ((1 - X) ^ b : ℝ[X]) =
    C ((-1) ^ k * (b.descFactorial k : ℝ)) * (1 - X) ^ (b - k) := by
  induction k with
  | zero => simp
  | succ k ih =>
    rw [Function.iterate_succ_apply', ih, derivative_C_mul, derivative_pow, derivative_sub, derivative_one, derivative_X,
      Nat.descFactorial_succ, show b - (k + 1) = b - k - 1 by omega]
    simp only [pow_succ, Nat.cast_mul, C_mul, C_neg, C_1, C_pow]
    ring

theorem rodrigues (a b d : Nat) (ha : d ≤ a) (hb : d ≤ b) :
    betaP (a - d) (b - d) * jacP a b d = C ((-1 : ℝ) ^ d / (a.factorial * b.factorial * d.factorial)) * derivative^[d] (betaP a b) := by
  unfold betaP jacP
  rw [mul_comm (X ^ a), iterate_derivative_mul, mul_sum, mul_sum]
  refine sum_congr rfl fun i hi => ?_
  have hi : i ≤ d := by have := mem_range.1 hi; omega
  rw [iterate_one_sub, iterate_derivative_X_pow_eq_C_mul, nsmul_eq_mul, ← C_eq_natCast]
  have hA : ((a - i).factorial * a.descFactorial i : ℝ) = a.factorial := by
    exact_mod_cast Nat.factorial_mul_descFactorial (show i ≤ a by omega)
  have hB : ((b + i - d).factorial * b.descFactorial (d - i) : ℝ) = b.factorial := by
    rw [show b + i - d = b - (d - i) by omega]
    exact_mod_cast Nat.factorial_mul_descFactorial (show d - i ≤ b by omega)
  have hC : (d.choose i * i.factorial * (d - i).factorial : ℝ) = d.factorial := by
    exact_mod_cast Nat.choose_mul_factorial_mul_factorial hi
  have hd0 : (a.descFactorial i : ℝ) ≠ 0 := by
    intro h0
    rw [h0, mul_zero] at hA
    exact (Nat.cast_ne_zero.2 (Nat.factorial_ne_zero a)) hA.symm
  have hd1 : (b.descFactorial (d - i) : ℝ) ≠ 0 := by
    intro h0
    rw [h0, mul_zero] at hB
    exact (Nat.cast_ne_zero.2 (Nat.factorial_ne_zero b)) hB.symm
  have hd2 : (d.choose i : ℝ) ≠ 0 := Nat.cast_ne_zero.2 (Nat.choose_pos hi).ne'
  have e : ((-1 : ℝ)) ^ i / ((a - i).factorial * (d - i).factorial * i.factorial * (b + i - d).factorial) =
      (-1) ^ d / (a.factorial * b.factorial * d.factorial) * (d.choose i * ((-1) ^ (d - i) * (b.descFactorial (d - i) : ℝ) *
        a.descFactorial i)) := by
    rw [← hA, ← hB, ← hC]
    have hs : ((-1 : ℝ)) ^ d * (-1) ^ (d - i) = (-1) ^ i := by
      rw [← pow_add, show d + (d - i) = 2 * (d - i) + i by omega, pow_add, pow_mul]
      norm_num
    rw [← hs]
    have f1 : ((a - i).factorial : ℝ) ≠ 0 := Nat.cast_ne_zero.2 (Nat.factorial_ne_zero _)
    have f2 : ((b + i - d).factorial : ℝ) ≠ 0 := Nat.cast_ne_zero.2 (Nat.factorial_ne_zero _)
    have f3 : ((d - i).factorial : ℝ) ≠ 0 := Nat.cast_ne_zero.2 (Nat.factorial_ne_zero _)
    have f4 : ((i).factorial : ℝ) ≠ 0 := Nat.cast_ne_zero.2 (Nat.factorial_ne_zero _)
    field_simp
  rw [e, show b - (d - i) = (b - d) + i by omega, show a - i = (a - d) + (d - i) by omega]
  simp only [C_mul, pow_add]
  ring

theorem jacP_degree (a b d : Nat) : (jacP a b d).natDegree ≤ d := by
  unfold jacP
  refine natDegree_sum_le_of_forall_le _ _ fun i hi => ?_
  have hi : i ≤ d := by have := mem_range.1 hi; omega
  refine (natDegree_C_mul_le _ _).trans (natDegree_mul_le.trans ?_)
  have h1 : (X ^ (d - i) : ℝ[X]).natDegree ≤ d - i := (natDegree_X_pow _).le
  have h2 : ((1 - X : ℝ[X]) ^ i).natDegree ≤ i := by
    refine natDegree_pow_le.trans ?_
    have : (1 - X : ℝ[X]).natDegree ≤ 1 := (natDegree_sub_le _ _).trans (by simp)
    nlinarith
  omega

theorem jacP_coeff (a b d : Nat) (ha : d ≤ a) (hb : d ≤ b) :
    (a.factorial * b.factorial : ℝ) * (jacP a b d).coeff d = (a + b).choose d := by
  unfold jacP
  rw [finsetSum_coeff, mul_sum, Nat.add_choose_eq, Finset.Nat.sum_antidiagonal_eq_sum_range_succ fun i j => a.choose i * b.choose j,
    Nat.cast_sum]
  refine sum_congr rfl fun i hi => ?_
  have hi : i ≤ d := by have := mem_range.1 hi; omega
  have e : (X ^ (d - i) * (1 - X : ℝ[X]) ^ i).coeff d = (-1) ^ i := by
    have h1 : ((1 - X : ℝ[X]) ^ i).coeff (i * 1) = (-1) ^ i := by
      rw [coeff_pow_of_natDegree_le ((natDegree_sub_le _ _).trans (by simp))]
      simp [coeff_one]
    rw [mul_one] at h1
    have h2 := coeff_X_pow_mul ((1 - X : ℝ[X]) ^ i) (d - i) i
    rw [show i + (d - i) = d by omega, h1] at h2
    exact h2
  rw [coeff_C_mul, e]
  have hA : (a.choose i * i.factorial * (a - i).factorial : ℝ) = a.factorial := by
    exact_mod_cast Nat.choose_mul_factorial_mul_factorial (show i ≤ a by omega)
  have hB : (b.choose (d - i) * (d - i).factorial * (b + i - d).factorial : ℝ) = b.factorial := by
    rw [show b + i - d = b - (d - i) by omega]
    exact_mod_cast Nat.choose_mul_factorial_mul_factorial (show d - i ≤ b by omega)
  rw [← hA, ← hB, Nat.cast_mul]
  have hs : ((-1 : ℝ)) ^ i * (-1) ^ i = 1 := by rw [← mul_pow]; norm_num
  have f1 : ((a - i).factorial : ℝ) ≠ 0 := Nat.cast_ne_zero.2 (Nat.factorial_ne_zero _)
  have f2 : ((b + i - d).factorial : ℝ) ≠ 0 := Nat.cast_ne_zero.2 (Nat.factorial_ne_zero _)
  have f3 : ((d - i).factorial : ℝ) ≠ 0 := Nat.cast_ne_zero.2 (Nat.factorial_ne_zero _)
  have f4 : ((i).factorial : ℝ) ≠ 0 := Nat.cast_ne_zero.2 (Nat.factorial_ne_zero _)
  field_simp
  rw [sq, hs, mul_one]

theorem jac_ortho_lt (a b d a' b' d' : Nat) (ha : d ≤ a) (hb : d ≤ b) (h : d' < d) :
    int01 (betaP (a - d) (b - d) * jacP a b d * jacP a' b' d') = 0 := by
  rw [rodrigues a b d ha hb, mul_assoc, int01_C_mul, betaP_parts a b d ha hb,
    iterate_derivative_eq_zero (lt_of_le_of_lt (jacP_degree a' b' d') h), mul_zero]
  unfold int01
  simp

theorem jac_norm (a b d : Nat) (ha : d ≤ a) (hb : d ≤ b) :
    (a.factorial * b.factorial * (a + b - d).factorial * d.factorial : ℝ) *
      int01 (betaP (a - d) (b - d) * jacP a b d * jacP a b d) = 1 / (a + b + 1) := by
  have hD : derivative^[d] (jacP a b d) = C (d.factorial * (jacP a b d).coeff d) := by
    have h0 : (derivative^[d] (jacP a b d)).natDegree = 0 := by
      have := natDegree_iterate_derivative (jacP a b d) d
      have := jacP_degree a b d
      omega
    rw [eq_C_of_natDegree_eq_zero h0, coeff_iterate_derivative, zero_add, Nat.descFactorial_self, nsmul_eq_mul]
  rw [rodrigues a b d ha hb, mul_assoc (C _), int01_C_mul, betaP_parts a b d ha hb, hD, mul_comm (betaP a b), int01_C_mul]
  have hβ := int01_beta a b
  have hc := jacP_coeff a b d ha hb
  have hch : ((a + b).choose d * d.factorial * (a + b - d).factorial : ℝ) = (a + b).factorial := by
    exact_mod_cast Nat.choose_mul_factorial_mul_factorial (show d ≤ a + b by omega)
  rw [Nat.factorial_succ] at hβ
  push_cast at hβ
  have hs : ((-1 : ℝ)) ^ d * (-1) ^ d = 1 := by rw [← mul_pow]; norm_num
  have f1 : (a.factorial : ℝ) ≠ 0 := Nat.cast_ne_zero.2 (Nat.factorial_ne_zero _)
  have f2 : (b.factorial : ℝ) ≠ 0 := Nat.cast_ne_zero.2 (Nat.factorial_ne_zero _)
  have f3 : (d.factorial : ℝ) ≠ 0 := Nat.cast_ne_zero.2 (Nat.factorial_ne_zero _)
  have f4 : ((a + b).factorial : ℝ) ≠ 0 := Nat.cast_ne_zero.2 (Nat.factorial_ne_zero _)
  have f5 : ((a : ℝ) + b + 1) ≠ 0 := by positivity
  have hβ' : int01 (betaP a b) = a.factorial * b.factorial / ((a + b + 1) * (a + b).factorial) := by
    rw [eq_div_iff (mul_ne_zero f5 f4), mul_comm]; exact hβ
  have hc' : (jacP a b d).coeff d = (a + b).choose d / (a.factorial * b.factorial) := by
    rw [eq_div_iff (mul_ne_zero f1 f2), mul_comm]; exact hc
  rw [hβ', hc', ← hch]
  have f6 : ((a + b).choose d : ℝ) ≠ 0 := Nat.cast_ne_zero.2 (Nat.choose_pos (by omega)).ne'
  have f7 : ((a + b - d).factorial : ℝ) ≠ 0 := Nat.cast_ne_zero.2 (Nat.factorial_ne_zero _)
  field_simp
  rw [sq, hs]

theorem int_theta (p : ℝ[X]) : ∫ th in (0 : ℝ)..π, p.eval (cos (th / 2) ^ 2) * sin th = 2 * int01 p := by
  have h := intervalIntegral.integral_comp_mul_deriv (a := (0 : ℝ)) (b := π) (f := fun th => cos (th / 2) ^ 2)
    (f' := fun th => -(sin th / 2)) (g := fun x => p.eval x) (fun th _ => by
      have d1 : HasDerivAt (fun th : ℝ => th / 2) (1 / 2) th := (hasDerivAt_id th).div_const 2
      refine (d1.cos.pow 2).congr_deriv ?_
      rw [show sin th = 2 * sin (th / 2) * cos (th / 2) by rw [← sin_two_mul]; congr 1; ring]
      push_cast
      ring) (by fun_prop) p.differentiable.continuous
  rw [zero_div, cos_zero, cos_pi_div_two, one_pow, zero_pow (by norm_num), intervalIntegral.integral_symm (0 : ℝ) 1] at h
  have e : (fun th : ℝ => p.eval (cos (th / 2) ^ 2) * sin th) =
      fun th => (-2) * (((fun x => p.eval x) ∘ fun th => cos (th / 2) ^ 2) th * -(sin th / 2)) := by
    funext th
    simp only [Function.comp_apply]
    ring
  rw [e, intervalIntegral.integral_const_mul, h]
  unfold int01
  ring

end

/-- The integral of products, as claimed by C110. -/
def WignerOrtho (m s : ℤ) : Prop := ∀ l l' : Nat, |m| ≤ l → |s| ≤ l → |m| ≤ l' → |s| ≤ l' →
  ∫ th in (0 : ℝ)..π, wignerWT l m s th * wignerWT l' m s th * sin th = if l = l' then 2 / (2 * (l : ℝ) + 1) else 0

theorem wignerOrtho_main (m s : ℤ) (h : |m| ≤ s) : WignerOrtho m s := by
  rw [abs_le] at h
  have key : ∀ l l' : Nat, l' ≤ l → |m| ≤ l → |s| ≤ l → |m| ≤ l' → |s| ≤ l' →
      ∫ th in (0 : ℝ)..π, wignerWT l m s th * wignerWT l' m s th * sin th = if l = l' then 2 / (2 * (l : ℝ) + 1) else 0 := by
    intro l l' hl hm hs hm' hs'
    rw [abs_le] at hm hs hm' hs'
    obtain ⟨a, ha⟩ : ∃ a : Nat, (l : ℤ) + m = a := ⟨(l + m).toNat, by omega⟩
    obtain ⟨b, hb⟩ : ∃ b : Nat, (l : ℤ) - m = b := ⟨(l - m).toNat, by omega⟩
    obtain ⟨e, he⟩ : ∃ e : Nat, (l : ℤ) + s = e := ⟨(l + s).toNat, by omega⟩
    obtain ⟨d, hd⟩ : ∃ d : Nat, (l : ℤ) - s = d := ⟨(l - s).toNat, by omega⟩
    obtain ⟨a', ha'⟩ : ∃ a : Nat, (l' : ℤ) + m = a := ⟨(l' + m).toNat, by omega⟩
    obtain ⟨b', hb'⟩ : ∃ b : Nat, (l' : ℤ) - m = b := ⟨(l' - m).toNat, by omega⟩
    obtain ⟨e', he'⟩ : ∃ e : Nat, (l' : ℤ) + s = e := ⟨(l' + s).toNat, by omega⟩
    obtain ⟨d', hd'⟩ : ∃ d : Nat, (l' : ℤ) - s = d := ⟨(l' - s).toNat, by omega⟩
    have e1 : ∀ th : ℝ, wignerWT l m s th * wignerWT l' m s th * sin th = (wignerRoot l m s * wignerRoot l' m s) *
        ((betaP (a - d) (b - d) * jacP a b d * jacP a' b' d').eval (cos (th / 2) ^ 2) * sin th) := by
      intro th
      rw [wignerWT_eq, wignerWT_eq, wignerSum_nat ha hb hd, wignerSum_nat ha' hb' hd',
        wigN_jac a b d (by omega) (by omega) _ _ (cos_sq_add_sin_sq _),
        wigN_jac a' b' d' (by omega) (by omega) _ _ (cos_sq_add_sin_sq _),
        show a' - d' = a - d by omega, show b' - d' = b - d by omega, Polynomial.eval_mul, Polynomial.eval_mul]
      have : (betaP (a - d) (b - d)).eval (cos (th / 2) ^ 2) = (cos (th / 2) ^ (a - d)) ^ 2 * (sin (th / 2) ^ (b - d)) ^ 2 := by
        unfold betaP
        simp only [Polynomial.eval_mul, Polynomial.eval_pow, Polynomial.eval_X, Polynomial.eval_sub, Polynomial.eval_one]
        rw [show 1 - cos (th / 2) ^ 2 = sin (th / 2) ^ 2 by rw [sin_sq]]
        ring
      rw [this]
      ring
    simp only [e1]
    rw [intervalIntegral.integral_const_mul, int_theta]
    by_cases hll : l = l'
    · subst hll
      rw [if_pos rfl]
      obtain rfl : a' = a := by omega
      obtain rfl : b' = b := by omega
      obtain rfl : d' = d := by omega
      rw [wignerRoot_nat ha hb he hd, mul_self_sqrt (by positivity), mul_left_comm, show e = a' + b' - d' by omega,
        jac_norm a' b' d' (by omega) (by omega), show (a' : ℝ) + b' + 1 = 2 * l + 1 by
          have : ((a' + b' : Nat) : ℤ) = ((2 * l : Nat) : ℤ) := by omega
          have : ((a' + b' : Nat) : ℝ) = ((2 * l : Nat) : ℝ) := by exact_mod_cast this
          push_cast at this
          rw [this]]
      ring
    · rw [if_neg hll, jac_ortho_lt a b d a' b' d' (by omega) (by omega) (by omega)]
      ring
  intro l l' hm hs hm' hs'
  rcases le_total l' l with hl | hl
  · exact key l l' hl hm hs hm' hs'
  · have := key l' l hl hm' hs' hm hs
    rw [show (fun th => wignerWT l m s th * wignerWT l' m s th * sin th) =
      fun th => wignerWT l' m s th * wignerWT l m s th * sin th from funext fun th => by ring, this]
    by_cases e : l = l'
    · subst e; rfl
    · rw [if_neg e, if_neg fun h => e h.symm]

theorem wignerOrtho_swap {m s : ℤ} (h : WignerOrtho m s) : WignerOrtho s m := by
  intro l l' hm hs hm' hs'
  rw [← h l l' hs hm hs' hm']
  congr 1
  funext th
  rw [C110_transpose l m s th, C110_transpose l' m s th]
  have : ((-1 : ℝ)) ^ (m - s) * (-1) ^ (m - s) = 1 := by
    rw [← mul_zpow]; norm_num
  linear_combination (wignerWT l m s th * wignerWT l' m s th * sin th) * this

theorem wignerOrtho_neg {m s : ℤ} (h : WignerOrtho m s) : WignerOrtho (-s) (-m) := by
  intro l l' hm hs hm' hs'
  rw [abs_neg] at hm hs hm' hs'
  rw [← h l l' hs hm hs' hm']
  congr 1
  funext th
  rw [C110_symmetry l m s th, C110_symmetry l' m s th]

/-- **C110.** The functions are orthogonal: `∫_0^π d^l_{ms} d^l'_{ms} sin θ dθ = 2/(2l+1) δ_{ll'}`. -/
theorem C110_integral (l l' : Nat) (m s : ℤ) (hm : |m| ≤ l) (hs : |s| ≤ l) (hm' : |m| ≤ l') (hs' : |s| ≤ l') :
    ∫ th in (0 : ℝ)..π, wignerWT l m s th * wignerWT l' m s th * sin th = if l = l' then 2 / (2 * (l : ℝ) + 1) else 0 := by
  have : WignerOrtho m s := by
    rcases le_total |m| |s| with h | h
    · rcases le_total 0 s with h0 | h0
      · exact wignerOrtho_main m s (by rwa [abs_of_nonneg h0] at h)
      · have := wignerOrtho_neg (wignerOrtho_swap (wignerOrtho_main (-m) (-s) (by rwa [abs_of_nonpos h0, ← abs_neg m] at h)))
        simpa using this
    · rcases le_total 0 m with h0 | h0
      · exact wignerOrtho_swap (wignerOrtho_main s m (by rwa [abs_of_nonneg h0] at h))
      · have := wignerOrtho_neg (wignerOrtho_main (-s) (-m) (by rwa [abs_of_nonpos h0, ← abs_neg s] at h))
        simpa using this
  exact this l l' hm hs hm' hs'

/-! ## Spherical harmonics -/

/-- **C110.** For `l < |s|` the function is zero: there are no such harmonics. -/
theorem C110_small (l m s : ℤ) (hm : |m| ≤ l) (hs : l < |s|) (th phi : ℝ) :
    wignerWT l m s th = 0 ∧ reSYlm l m s th phi = 0 ∧ imSYlm l m s th phi = 0 := by
  have key : ∀ s : ℤ, l < |s| → wignerWT l m s th = 0 := by
    intro s hs
    rw [abs_le] at hm
    rw [wignerWT_eq]
    unfold wignerSum
    rw [Icc_eq_empty, sum_empty, mul_zero]
    rcases lt_abs.1 hs with h | h <;> omega
  unfold reSYlm imSYlm
  rw [key s hs, key (-s) (by rwa [abs_neg])]
  simp

theorem sYlmFactor_mul (l l' : Nat) (s : ℤ) : sYlmFactor l s * sYlmFactor l' s =
    √((2 * l + 1) / (4 * π)) * √((2 * l' + 1) / (4 * π)) := by
  unfold sYlmFactor
  dsimp only
  push_cast
  split <;> ring

theorem int_cos_int (n : ℤ) : ∫ phi in (0 : ℝ)..(2 * π), cos (n * phi) = if n = 0 then 2 * π else 0 := by
  split
  · rename_i h
    subst h
    simp
  · rename_i h
    have hn : (n : ℝ) ≠ 0 := by exact_mod_cast h
    rw [intervalIntegral.integral_comp_mul_left (fun x => cos x) hn, integral_cos, mul_zero, sin_zero,
      show (n : ℝ) * (2 * π) = 0 + n * (2 * π) by ring, sin_add_int_mul_two_pi, sin_zero]
    simp

theorem int_sin_int (n : ℤ) : ∫ phi in (0 : ℝ)..(2 * π), sin (n * phi) = 0 := by
  by_cases h : n = 0
  · subst h; simp
  · have hn : (n : ℝ) ≠ 0 := by exact_mod_cast h
    rw [intervalIntegral.integral_comp_mul_left (fun x => sin x) hn, integral_sin, mul_zero, cos_zero,
      show (n : ℝ) * (2 * π) = 0 + n * (2 * π) by ring, cos_add_int_mul_two_pi, cos_zero]
    simp

/-- **C110.** The harmonics are orthonormal: `∫ sYlm conj(sYl'm') dΩ = δ_{ll'} δ_{mm'}` (real and imaginary part). -/
theorem C110_orthonormal (l l' : Nat) (m m' s : ℤ) (hm : |m| ≤ l) (hs : |s| ≤ l) (hm' : |m'| ≤ l') (hs' : |s| ≤ l') :
    (∫ phi in (0 : ℝ)..(2 * π), ∫ th in (0 : ℝ)..π, (reSYlm l m s th phi * reSYlm l' m' s th phi +
        imSYlm l m s th phi * imSYlm l' m' s th phi) * sin th) = (if l = l' ∧ m = m' then 1 else 0) ∧
    (∫ phi in (0 : ℝ)..(2 * π), ∫ th in (0 : ℝ)..π, (imSYlm l m s th phi * reSYlm l' m' s th phi -
        reSYlm l m s th phi * imSYlm l' m' s th phi) * sin th) = 0 := by
  have e1 : ∀ phi th : ℝ, (reSYlm l m s th phi * reSYlm l' m' s th phi + imSYlm l m s th phi * imSYlm l' m' s th phi) * sin th =
      (sYlmFactor l s * sYlmFactor l' s * cos (((m - m' : ℤ) : ℝ) * phi)) *
        (wignerWT l m (-s) th * wignerWT l' m' (-s) th * sin th) := by
    intro phi th
    unfold reSYlm imSYlm
    push_cast
    rw [sub_mul (m : ℝ), cos_sub]
    ring
  have e2 : ∀ phi th : ℝ, (imSYlm l m s th phi * reSYlm l' m' s th phi - reSYlm l m s th phi * imSYlm l' m' s th phi) * sin th =
      (sYlmFactor l s * sYlmFactor l' s * sin (((m - m' : ℤ) : ℝ) * phi)) *
        (wignerWT l m (-s) th * wignerWT l' m' (-s) th * sin th) := by
    intro phi th
    unfold reSYlm imSYlm
    push_cast
    rw [sub_mul (m : ℝ), sin_sub]
    ring
  simp only [e1, e2, intervalIntegral.integral_const_mul, intervalIntegral.integral_mul_const, int_cos_int, int_sin_int]
  refine ⟨?_, by ring⟩
  by_cases hmm : m = m'
  · subst hmm
    rw [sub_self, if_pos rfl, C110_integral l l' m (-s) hm (by rwa [abs_neg]) hm' (by rwa [abs_neg])]
    by_cases hl : l = l'
    · subst hl
      rw [if_pos rfl, if_pos ⟨rfl, rfl⟩, sYlmFactor_mul, mul_self_sqrt (by positivity)]
      have := pi_pos.ne'
      have h2 : (2 * (l : ℝ) + 1) ≠ 0 := by positivity
      field_simp
      ring
    · rw [if_neg hl, if_neg fun h => hl h.1, mul_zero]
  · rw [if_neg (show m - m' ≠ 0 by omega), if_neg fun h => hmm h.2]
    ring

/-- **C110.** The version that is not used in the code is not zero for `l < |s|`. -/
theorem C110_PG_counterexample : wignerPG 0 0 2 (π / 3) ≠ 0 ∧ wignerWT 0 0 2 (π / 3) = 0 := by
  refine ⟨?_, (C110_small 0 0 2 (by norm_num) (by norm_num) _ 0).1⟩
  have h : ∀ c1 c2 : ℤ, (let C1 : ℤ := if (2 : ℤ) > 0 then 0 else 0 - 2; let C2 : ℤ := if (0 : ℤ) < -2 then 0 + 0 else 0 - 2;
      if C1 < C2 then C1 else C2) = c1 →
      (let C1 : ℤ := if (2 : ℤ) > 0 then 0 else 0 - 2; let C2 : ℤ := if (0 : ℤ) < -2 then 0 + 0 else 0 - 2;
      if C1 < C2 then C2 else C1) = c2 → wignerPG 0 0 2 (π / 3) = √(factD (0 + 0) * factD (0 - 0) * factD (0 + 2) * factD (0 - 2)) *
        wignerLoops 0 0 2 (√(0.5 * (1 + cos (π / 3)))) (√(0.5 * (1 - cos (π / 3)))) c1 c2 := by
    rintro _ _ rfl rfl
    rfl
  rw [h (-2) 0 (by decide) (by decide), wignerLoops_sum, show (Icc (-2) 0 : Finset ℤ) = {-2, -1, 0} by decide]
  rw [sum_insert (by decide), sum_insert (by decide), sum_singleton]
  unfold wignerTerm
  simp only [C110_fact, cos_pi_div_three]
  have h1 : (√(0.5 * (1 + 1 / 2)) : ℝ) ^ (2 : Nat) = 3 / 4 := by rw [sq_sqrt (by norm_num)]; norm_num
  have h2 : (√(0.5 * (1 - 1 / 2)) : ℝ) ^ (2 : Nat) = 1 / 4 := by rw [sq_sqrt (by norm_num)]; norm_num
  refine mul_ne_zero ?_ ?_
  · norm_num
    exact ⟨Nat.factorial_ne_zero _, Nat.factorial_ne_zero _⟩
  · generalize √(0.5 * (1 + 1 / 2)) = c at h1 ⊢
    generalize √(0.5 * (1 - 1 / 2)) = s at h2 ⊢
    norm_num [zpow_neg, zpow_ofNat, h1, h2]
    rw [show (Int.toNat 2).factorial = 2 from rfl, show (Int.toNat (-2)).factorial = 1 from rfl,
      show (Int.toNat (-1)).factorial = 1 from rfl]
    norm_num

/-- `d^1_{00} = cos θ`. -/
example (th : ℝ) : wignerWT 1 0 0 th = cos th := by
  rw [wignerWT_eq]
  unfold wignerRoot wignerSum wignerTerm
  simp only [C110_fact]
  rw [show (Icc (max 0 (0 - 0)) (min (1 + 0) (1 - 0)) : Finset ℤ) = {0, 1} by decide, sum_pair (by norm_num)]
  norm_num [Nat.factorial, zpow_ofNat]
  rw [show th = 2 * (th / 2) by ring, cos_two_mul, show 2 * (th / 2) / 2 = th / 2 by ring, sin_sq]
  ring

/-- `Y_11 = -√(3/(8π)) sin θ e^{iφ}`. -/
example (th phi : ℝ) : reSYlm 1 1 0 th phi = -√(3 / (4 * π)) * (sin th / √2) * cos phi := by
  unfold reSYlm sYlmFactor
  rw [wignerWT_eq]
  unfold wignerRoot wignerSum wignerTerm
  simp only [C110_fact]
  rw [show (Icc (max 0 (1 - -0)) (min (1 + 1) (1 - -0)) : Finset ℤ) = {1} by decide, sum_singleton]
  norm_num [Nat.factorial, zpow_ofNat]
  rw [show (Int.toNat 2).factorial = 2 from rfl]
  rw [show sin th = 2 * sin (th / 2) * cos (th / 2) by rw [← sin_two_mul]; congr 1; ring]
  have : √(2 : ℝ) * √2 = 2 := mul_self_sqrt (by norm_num)
  have h2 : √(2 : ℝ) ≠ 0 := by positivity
  left; left
  field_simp
  push_cast
  linear_combination (sin (th / 2) * cos (th / 2)) * this

end Sgrid
