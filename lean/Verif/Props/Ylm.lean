import Verif.Lemmas.Legendre
import Verif.Model.Ylm
import Verif.Props.Filters

/-!
# C108: associated Legendre functions and the filter that projects onto spherical harmonics
-/

namespace Sgrid
open Real Finset Polynomial

/-! ## Specification -/

/-- `q l` for `l ≥ m` are the polynomials in the associated Legendre functions
`P_l^m(x) = (-1)^m (1-x²)^(m/2) q_l(x)` that are normalised: degree `l-m`, positive leading coefficient, and
orthonormal on `[-1,1]`. This determines them, see `C108_unique`. -/
structure Spec.LegendreFns (m : Nat) (q : Nat → ℝ[X]) : Prop where
  degree : ∀ l, m ≤ l → (q l).natDegree = l - m
  leading : ∀ l, m ≤ l → 0 < (q l).leadingCoeff
  ortho : ∀ l k, m ≤ l → m ≤ k →
    ∫ x in (-1 : ℝ)..1, (1 - x ^ 2) ^ m * ((q l).eval x * (q k).eval x) = if l = k then 1 else 0

/-- The angles at which the functions are sampled. -/
noncomputable def Spec.ylmTheta (bw j : Nat) : ℝ := (2 * j + 1) * π / (4 * bw)

/-- `P_l^m` at `cos θ`. -/
noncomputable def Spec.legP (m : Nat) (q : Nat → ℝ[X]) (l : Nat) (th : ℝ) : ℝ :=
  (-1) ^ m * sin th ^ m * (q l).eval (cos th)

/-! ## Unrolled loops -/

theorem unroll4_eq {σ : Type} (n : Nat) (body : Nat → σ → σ) (s : σ) : unroll4 n body s = upLoop 0 n body s := by
  unfold unroll4
  have : ∀ k, k ≤ n / 4 → upLoop 0 k (fun q s => body (n % 4 + 4 * q + 3) (body (n % 4 + 4 * q + 2)
      (body (n % 4 + 4 * q + 1) (body (n % 4 + 4 * q) s)))) (upLoop 0 (n % 4) body s) =
      upLoop 0 (n % 4 + 4 * k) body s := by
    intro k hk
    induction k with
    | zero => rw [upLoop_nil (le_refl _)]; rfl
    | succ k ih =>
      rw [upLoop_succ (Nat.zero_le _), ih (by omega), show n % 4 + 4 * (k + 1) = n % 4 + 4 * k + 3 + 1 by ring,
        upLoop_succ (Nat.zero_le _), upLoop_succ (Nat.zero_le _), upLoop_succ (Nat.zero_le _),
        upLoop_succ (Nat.zero_le _)]
  have h := this (n / 4) (le_refl _)
  rw [show n % 4 + 4 * (n / 4) = n by omega] at h
  exact h

/-- **C108.** `vec_add`, `vec_mul` and `vec_pt_mul` set all entries below `n`. -/
theorem C108_vec (f g r : Nat → ℝ) (c : ℝ) (n k : Nat) :
    vecAdd f g r n k = (if k < n then f k + g k else r k) ∧
    vecMul c f r n k = (if k < n then c * f k else r k) ∧
    vecPtMul f g r n k = (if k < n then f k * g k else r k) := by
  unfold vecAdd vecMul vecPtMul
  simp only [unroll4_eq, upLoop_fill, Nat.zero_le, true_and]

theorem dot4_eq (n : Nat) (w p : Nat → ℝ) : dot4 n w p = ∑ j ∈ range n, w j * p j := by
  unfold dot4
  have : ∀ k, k ≤ n / 4 → ∀ r : ℝ × ℝ × ℝ × ℝ,
      r = upLoop 0 k (fun q (r : ℝ × ℝ × ℝ × ℝ) =>
        let j := n % 4 + 4 * q
        (r.1 + w j * p j, r.2.1 + w (j + 1) * p (j + 1), r.2.2.1 + w (j + 2) * p (j + 2),
          r.2.2.2 + w (j + 3) * p (j + 3))) (upLoop 0 (n % 4) (fun j r => r + w j * p j) 0, 0, 0, 0) →
      r.1 + r.2.1 + r.2.2.1 + r.2.2.2 = ∑ j ∈ range (n % 4 + 4 * k), w j * p j := by
    intro k hk
    induction k with
    | zero =>
      rintro r rfl
      rw [upLoop_nil (le_refl _)]
      simp only [upLoop_sum, mul_zero, add_zero, range_eq_Ico, zero_add]
    | succ k ih =>
      rintro r rfl
      rw [upLoop_succ (Nat.zero_le _)]
      have := ih (by omega) _ rfl
      rw [show n % 4 + 4 * (k + 1) = n % 4 + 4 * k + 1 + 1 + 1 + 1 by ring, sum_range_succ, sum_range_succ,
        sum_range_succ, sum_range_succ, ← this]
      ring
  have h := this (n / 4) (le_refl _) _ rfl
  rw [show n % 4 + 4 * (n / 4) = n by omega] at h
  exact h

/-! ## Coefficients of the recurrence -/

/-- Coefficient of the recurrence in the symmetric form. -/
noncomputable def legA (m l : Nat) : ℝ := sqrt (((l : ℝ) ^ 2 - m ^ 2) / (4 * l ^ 2 - 1))

theorem legA_sq {m l : Nat} (h : m ≤ l) (hl : 0 < l) : legA m l ^ 2 = ((l : ℝ) ^ 2 - m ^ 2) / (4 * l ^ 2 - 1) := by
  unfold legA
  rw [sq_sqrt]
  have h1 : (m : ℝ) ≤ l := by exact_mod_cast h
  have h2 : (1 : ℝ) ≤ l := by exact_mod_cast hl
  have h3 : (0 : ℝ) ≤ m := Nat.cast_nonneg m
  apply div_nonneg <;> nlinarith

theorem legA_pos {m l : Nat} (h : m < l) : 0 < legA m l := by
  unfold legA
  apply sqrt_pos.2
  have h1 : (m : ℝ) < l := by exact_mod_cast h
  have h2 : (1 : ℝ) ≤ l := by exact_mod_cast (by omega : 1 ≤ l)
  have h3 : (0 : ℝ) ≤ m := Nat.cast_nonneg m
  apply div_pos <;> nlinarith

theorem legA_self (m : Nat) : legA m m = 0 := by simp [legA]

theorem sq_eq_of_pos {x y : ℝ} (hx : 0 ≤ x) (hy : 0 ≤ y) (h : x ^ 2 = y ^ 2) : x = y := by
  rwa [sq_eq_sq₀ hx hy] at h

theorem l2an_eq {m l : Nat} (h : m ≤ l) : l2an m l * legA m (l + 1) = 1 := by
  have h1 : (m : ℝ) ≤ l := by exact_mod_cast h
  have h3 : (0 : ℝ) ≤ m := Nat.cast_nonneg m
  have p1 : (0 : ℝ) < l - m + 1 := by linarith
  have p2 : (0 : ℝ) < l + m + 1 := by positivity
  have p3 : (0 : ℝ) < 2 * l + 1 := by positivity
  have p4 : (0 : ℝ) < 2 * l + 3 := by positivity
  have hpos := (legA_pos (m := m) (l := l + 1) (by omega)).le
  refine sq_eq_of_pos (mul_nonneg ?_ hpos) zero_le_one ?_
  · unfold l2an; positivity
  · rw [mul_pow, legA_sq (by omega) (by omega), l2an, mul_pow, sq_sqrt (by positivity)]
    have e1 : ((l + 1 : ℕ) : ℝ) ^ 2 - m ^ 2 = (l - m + 1) * (l + m + 1) := by push_cast; ring
    have e2 : 4 * ((l + 1 : ℕ) : ℝ) ^ 2 - 1 = (2 * l + 1) * (2 * l + 3) := by push_cast; ring
    rw [e1, e2]
    field_simp

theorem l2cn_eq {m l : Nat} (h : m ≤ l) : l2cn m l * legA m (l + 1) = -legA m l := by
  rcases Nat.eq_zero_or_pos l with hl | hl
  · have hm : m = 0 := by omega
    subst hl hm
    simp [l2cn, legA_self]
  · rw [l2cn, if_pos (by omega)]
    have h1 : (m : ℝ) ≤ l := by exact_mod_cast h
    have h2 : (1 : ℝ) ≤ l := by exact_mod_cast hl
    have h3 : (0 : ℝ) ≤ m := Nat.cast_nonneg m
    have p0 : (0 : ℝ) ≤ l - m := by linarith
    have p1 : (0 : ℝ) < l - m + 1 := by linarith
    have p2 : (0 : ℝ) < l + m + 1 := by positivity
    have p3 : (0 : ℝ) < 2 * l - 1 := by linarith
    have p4 : (0 : ℝ) < 2 * l + 3 := by positivity
    have p5 : (0 : ℝ) < l + m := by linarith
    have p6 : (0 : ℝ) < 2 * l + 1 := by linarith
    have hpos := (legA_pos (m := m) (l := l + 1) (by omega)).le
    have e : sqrt ((2 * l + 3) / (2 * l - 1) * ((l - m + 1) / (l + m + 1)) * (((l : ℝ) - m) / (l + m))) *
        ((l + m) / (l - m + 1)) * legA m (l + 1) = legA m l := by
      refine sq_eq_of_pos (by positivity) (by unfold legA; positivity) ?_
      rw [mul_pow, mul_pow, legA_sq (by omega) (by omega), legA_sq h hl, sq_sqrt (by positivity)]
      have e1 : ((l + 1 : ℕ) : ℝ) ^ 2 - m ^ 2 = (l - m + 1) * (l + m + 1) := by push_cast; ring
      have e2 : 4 * ((l + 1 : ℕ) : ℝ) ^ 2 - 1 = (2 * l + 1) * (2 * l + 3) := by push_cast; ring
      have e3 : (l : ℝ) ^ 2 - m ^ 2 = (l - m) * (l + m) := by ring
      have e4 : 4 * (l : ℝ) ^ 2 - 1 = (2 * l - 1) * (2 * l + 1) := by ring
      rw [e1, e2, e3, e4]
      field_simp
    linear_combination -e

/-- **C108.** The functions for the reverse recurrence are what their comments say: `L2_cn_inv = 1/L2_cn` and
`L2_ancn = -L2_an/L2_cn`. -/
theorem C108_reverse {m l : Nat} (h : m < l) :
    l2cnInv m l * l2cn m l = 1 ∧ l2ancn m l * l2cn m l = -l2an m l := by
  have h1 : (m : ℝ) < l := by exact_mod_cast h
  have h2 : (1 : ℝ) ≤ l := by exact_mod_cast (by omega : 1 ≤ l)
  have h3 : (0 : ℝ) ≤ m := Nat.cast_nonneg m
  have p0 : (0 : ℝ) < l - m := by linarith
  have p1 : (0 : ℝ) < l - m + 1 := by linarith
  have p2 : (0 : ℝ) < l + m + 1 := by positivity
  have p3 : (0 : ℝ) < 2 * l - 1 := by linarith
  have p4 : (0 : ℝ) < 2 * l + 3 := by positivity
  have p5 : (0 : ℝ) < l + m := by linarith
  have p6 : (0 : ℝ) < 2 * l + 1 := by linarith
  have ha := legA_pos (m := m) (l := l + 1) (by omega)
  have hl := legA_pos h
  have hc := l2cn_eq (m := m) (l := l) h.le
  have e1 : ((l + 1 : ℕ) : ℝ) ^ 2 - m ^ 2 = (l - m + 1) * (l + m + 1) := by push_cast; ring
  have e2 : 4 * ((l + 1 : ℕ) : ℝ) ^ 2 - 1 = (2 * l + 1) * (2 * l + 3) := by push_cast; ring
  have e3 : (l : ℝ) ^ 2 - m ^ 2 = (l - m) * (l + m) := by ring
  have e4 : 4 * (l : ℝ) ^ 2 - 1 = (2 * l - 1) * (2 * l + 1) := by ring
  constructor
  · have ei : l2cnInv m l * legA m l = -legA m (l + 1) := by
      unfold l2cnInv
      simp only
      have s1 : (l : ℝ) + l * l + m + 2 * l * m + m * m = (l + m) * (l + m + 1) := by ring
      have s2 : (l : ℝ) + l * l - m - 2 * l * m + m * m = (l - m) * (l - m + 1) := by ring
      have s3 : (1 : ℝ) + (1 - 2 * m) / (m + l) = (l - m + 1) / (l + m) := by field_simp; ring
      have s4 : (-1 + 2 * (l : ℝ)) = 2 * l - 1 := by ring
      have s5 : (3 + 2 * (l : ℝ)) = 2 * l + 3 := by ring
      rw [s1, s2, s3, s4, s5]
      have : (l - m + 1) / (l + m) * sqrt ((2 * l - 1) / (2 * l + 3) * ((l + m) * (l + m + 1) / (((l : ℝ) - m) * (l - m + 1)))) *
          legA m l = legA m (l + 1) := by
        refine sq_eq_of_pos (by positivity) ha.le ?_
        rw [mul_pow, mul_pow, legA_sq h.le (by omega), legA_sq (l := l + 1) (by omega) (by omega), sq_sqrt (by positivity), e1, e2, e3, e4]
        field_simp
        exact div_self (by linarith : (0 : ℝ) < l * 2 - 1).ne'
      linear_combination -this
    apply mul_right_cancel₀ (mul_pos hl ha).ne'
    linear_combination (l2cn m l * legA m (l + 1)) * ei - legA m (l + 1) * hc
  · have ei : l2ancn m l * legA m l = 1 := by
      refine sq_eq_of_pos (mul_nonneg (by unfold l2ancn; positivity) hl.le) zero_le_one ?_
      have hz : (4 : ℝ) + (4 * m * m - 1) / (l * l - m * m) = (2 * l - 1) * (2 * l + 1) / ((l - m) * (l + m)) := by
        have : (l : ℝ) * l - m * m = (l - m) * (l + m) := by ring
        rw [this]
        field_simp
        ring
      rw [mul_pow, legA_sq h.le (by omega)]
      unfold l2ancn
      simp only
      rw [hz, sq_sqrt (by positivity), e3, e4]
      field_simp
    have hn := l2an_eq h.le
    apply mul_right_cancel₀ (mul_pos hl ha).ne'
    linear_combination l2ancn m l * legA m l * hc + legA m l * hn - legA m l * ei

/-! ## Normalisation -/

theorem pmmCons_abs (m : Nat) :
    ∃ c, 0 < c ∧ pmmCons m = (-1) ^ m * c ∧ c ^ 2 * intP (legW m) = 1 := by
  have hloop : ∀ k ≤ m, upLoop 0 k (fun _ (s : ℝ × ℝ) => (s.1 * sqrt (((m : ℝ) - s.2 / 2) / (m - s.2)), s.2 + 1))
      (sqrt ((m : ℝ) + 0.5), (0 : ℝ)) =
      (sqrt ((m : ℝ) + 0.5) * ∏ i ∈ range k, sqrt (((m : ℝ) - i / 2) / (m - i)), (k : ℝ)) := by
    intro k hk
    induction k with
    | zero => rw [upLoop_nil (le_refl _)]; simp
    | succ k ih =>
      rw [upLoop_succ (Nat.zero_le _), ih (by omega), prod_range_succ]
      refine Prod.ext ?_ ?_
      · simp only; ring
      · simp
  set M : ℝ := sqrt ((m : ℝ) + 0.5) * ∏ i ∈ range m, sqrt (((m : ℝ) - i / 2) / (m - i)) with hM
  have hterm : ∀ i ∈ range m, 0 < ((m : ℝ) - i / 2) / (m - i) := by
    intro i hi
    have : (i : ℝ) < m := by exact_mod_cast mem_range.1 hi
    have : (0 : ℝ) ≤ i := Nat.cast_nonneg i
    apply div_pos <;> linarith
  have hMpos : 0 < M := by
    rw [hM]
    refine mul_pos (sqrt_pos.2 (by positivity)) (prod_pos fun i hi => sqrt_pos.2 (hterm i hi))
  refine ⟨M * (2 : ℝ) ^ (-(m : ℝ) / 2), by positivity, ?_, ?_⟩
  · unfold pmmCons
    simp only
    rw [hloop m (le_refl _)]
    simp only
    rw [← hM]
    by_cases h0 : m = 0
    · subst h0
      simp
    · rw [if_pos h0]
      rcases Nat.mod_two_eq_zero_or_one m with h | h
      · rw [if_neg (by omega), (Nat.even_iff.2 h).neg_one_pow]; ring
      · rw [if_pos (by omega), (Nat.odd_iff.2 h).neg_one_pow]; ring
  · have hp2 : ((2 : ℝ) ^ (-(m : ℝ) / 2)) ^ 2 = (2 ^ m)⁻¹ := by
      rw [← rpow_natCast, ← rpow_mul (by norm_num), ← rpow_natCast, ← rpow_neg (by norm_num)]
      congr 1
      push_cast; ring
    have hprod : (∏ i ∈ range m, (((m : ℝ) - i / 2) / (m - i))) * (2 ^ m * m.factorial * m.factorial) =
        (2 * m).factorial := by
      have d1 : ∏ i ∈ range m, ((2 * m : ℝ) - i) = (2 * m).descFactorial m := by
        rw [Nat.descFactorial_eq_prod_range, Nat.cast_prod]
        refine prod_congr rfl fun i hi => ?_
        have := mem_range.1 hi
        rw [Nat.cast_sub (by omega)]; push_cast; ring
      have d2 : ∏ i ∈ range m, ((m : ℝ) - i) = m.factorial := by
        rw [← Nat.descFactorial_self, Nat.descFactorial_eq_prod_range, Nat.cast_prod]
        refine prod_congr rfl fun i hi => ?_
        have := mem_range.1 hi
        rw [Nat.cast_sub (by omega)]
      have d3 : ∏ i ∈ range m, ((m : ℝ) - i / 2) * 2 = ∏ i ∈ range m, ((2 * m : ℝ) - i) :=
        prod_congr rfl fun i _ => by ring
      have hf := Nat.factorial_mul_descFactorial (show m ≤ 2 * m by omega)
      rw [show 2 * m - m = m by omega] at hf
      have hf' : (m.factorial : ℝ) * (2 * m).descFactorial m = (2 * m).factorial := by exact_mod_cast hf
      rw [prod_mul_distrib, prod_const, card_range, d1] at d3
      rw [prod_div_distrib, d2, ← hf', ← d3]
      have : (m.factorial : ℝ) ≠ 0 := by positivity
      field_simp
    have hsq : M ^ 2 = (m + 0.5) * ∏ i ∈ range m, (((m : ℝ) - i / 2) / (m - i)) := by
      rw [hM, mul_pow, sq_sqrt (by positivity), ← prod_pow]
      congr 1
      exact prod_congr rfl fun i hi => sq_sqrt (hterm i hi).le
    have hi := intP_legW m
    rw [Nat.factorial_succ] at hi
    rw [mul_pow, hp2, hsq]
    have hm : (m.factorial : ℝ) ≠ 0 := by positivity
    have h2m : ((2 * m).factorial : ℝ) ≠ 0 := by positivity
    push_cast at hi
    have e4 : (4 : ℝ) ^ m = 2 ^ m * 2 ^ m := by rw [← mul_pow]; norm_num
    rw [e4] at hi
    rw [← hprod] at hi h2m
    set Q := ∏ i ∈ range m, (((m : ℝ) - i / 2) / (m - i)) with hQ
    have hp : (2 : ℝ) ^ m ≠ 0 := by positivity
    have hc : (2 * (m : ℝ) + 1) * Q * intP (legW m) = 2 * 2 ^ m := by
      apply mul_left_cancel₀ (show (2 : ℝ) ^ m * m.factorial ^ 2 ≠ 0 by positivity)
      linear_combination hi
    rw [show ((m : ℝ) + 0.5) * Q * (2 ^ m)⁻¹ * intP (legW m) = ((2 * (m : ℝ) + 1) * Q * intP (legW m)) / (2 * 2 ^ m) by
      field_simp; ring, hc]
    field_simp

/-! ## The table -/

/-- The polynomials of the recurrence. -/
noncomputable def legQ (m : Nat) : Nat → ℝ[X]
  | 0 => C (pmmCons m)
  | n + 1 => C (l2an m (m + n)) * (X * legQ m n) + C (l2cn m (m + n)) * legQ m (n - 1)
  termination_by n => n
  decreasing_by all_goals omega

theorem legQ_zero (m : Nat) : legQ m 0 = C (pmmCons m) := by rw [legQ]

theorem legQ_succ (m n : Nat) :
    legQ m (n + 1) = C (l2an m (m + n)) * (X * legQ m n) + C (l2cn m (m + n)) * legQ m (n - 1) := by rw [legQ]

theorem legQ_rec (m : Nat) : LegRec m (fun n => legA m (m + n)) (legQ m) where
  a0 := legA_self m
  apos n := legA_pos (by omega)
  asq n := by
    rcases Nat.eq_zero_or_pos (m + n) with h | h
    · have hm : m = 0 := by omega
      have hn : n = 0 := by omega
      subst hm hn
      rw [legA_self, legA_sq (by omega) (by omega)]
      norm_num
    · rw [legA_sq (by omega) h, legA_sq (by omega) (by omega)]
      have h2 : (1 : ℝ) ≤ m + n := by exact_mod_cast h
      have p1 : (0 : ℝ) < 2 * (m + n) - 1 := by linarith
      have p2 : (0 : ℝ) < 2 * (m + n) + 1 := by linarith
      have p3 : (0 : ℝ) < 2 * (m + n) + 3 := by linarith
      have e1 : 4 * ((m + n : ℕ) : ℝ) ^ 2 - 1 = (2 * (m + n) - 1) * (2 * (m + n) + 1) := by push_cast; ring
      have e2 : 4 * ((m + (n + 1) : ℕ) : ℝ) ^ 2 - 1 = (2 * (m + n) + 1) * (2 * (m + n) + 3) := by push_cast; ring
      rw [e1, e2]
      push_cast
      rw [← mul_div_assoc, ← mul_div_assoc, mul_div_mul_left _ _ p1.ne', mul_comm (2 * ((m : ℝ) + n) + 1) _,
        mul_div_mul_left _ _ p3.ne']
      field_simp
      ring
  q0 := by rw [legQ_zero, derivative_C]
  rec' n := by
    rw [legQ_succ]
    have h1 := congrArg (C : ℝ → ℝ[X]) (l2an_eq (m := m) (l := m + n) (by omega))
    have h2 := congrArg (C : ℝ → ℝ[X]) (l2cn_eq (m := m) (l := m + n) (by omega))
    rw [C_mul] at h1 h2
    rw [C_neg] at h2
    rw [C_1] at h1
    rw [← Nat.add_assoc]
    linear_combination (X * legQ m n) * h1 + legQ m (n - 1) * h2

/-- What is in the table: `sin^m θ_j q_i(cos θ_j)`. -/
noncomputable def legT (bw m i j : Nat) : ℝ :=
  sin (Spec.ylmTheta bw j) ^ m * (legQ m i).eval (cos (Spec.ylmTheta bw j))

theorem legT_zero (bw m j : Nat) : legT bw m 0 j = pmmCons m * sin (Spec.ylmTheta bw j) ^ m := by
  rw [legT, legQ_zero, eval_C, mul_comm]

theorem legT_succ (bw m i j : Nat) : legT bw m (i + 1) j =
    l2an m (m + i) * (legT bw m i j * cos (Spec.ylmTheta bw j)) + l2cn m (m + i) * legT bw m (i - 1) j := by
  rw [legT, legQ_succ, legT, legT]
  simp only [eval_add, eval_mul, eval_C, eval_X]
  ring

theorem firstP_at (m : Nat) (pts : Nat → ℝ) (n : Nat) (prev : Nat → ℝ) {j : Nat} (hj : j < n) :
    firstP m pts n prev j = pmmCons m * sin (pts j) ^ m := by
  unfold firstP
  split
  · rename_i h
    subst h
    rw [upLoop_fill, if_pos ⟨Nat.zero_le _, hj⟩]
    unfold pmmCons
    dsimp only
    rw [upLoop_nil (le_refl _)]
    simp only [Nat.cast_zero, zero_add, pow_zero, mul_one]
    rw [if_neg (by simp), if_neg (by simp), show (0.5 : ℝ) = 1 / 2 by norm_num, sqrt_div zero_le_one, sqrt_one]
  · unfold pmmL2
    rw [upLoop_fill, if_pos ⟨Nat.zero_le _, hj⟩, rpow_natCast]

theorem nextP_at (m i n : Nat) (x prev pp w : Nat → ℝ) {j : Nat} (hj : j < n) :
    nextP m i n x prev pp w j = l2an m (m + i) * (prev j * x j) + l2cn m (m + i) * pp j := by
  unfold nextP
  simp only [(C108_vec _ _ _ 0 _ _).1, (C108_vec _ (fun _ => 0) _ _ _ _).2.1, (C108_vec _ _ _ 0 _ _).2.2, if_pos hj]

theorem memcpyAt_at (dst src : Nat → ℝ) (off n p : Nat) :
    memcpyAt dst off src n p = if off ≤ p ∧ p < off + n then src (p - off) else dst p := by
  unfold memcpyAt
  have h := upLoop_inv (Nat.zero_le n) (body := fun j d => aset d (off + j) (src j)) (s := dst)
    (fun k d => ∀ p, d p = if off ≤ p ∧ p < off + k then src (p - off) else dst p)
    (fun p => by rw [if_neg (by omega)]) (fun k d _ _ hd p => by
      by_cases hp : p = off + k
      · subst hp
        rw [aset_self, if_pos (by omega), Nat.add_sub_cancel_left]
      · rw [aset_ne _ _ hp, hd]
        by_cases hq : off ≤ p ∧ p < off + k
        · rw [if_pos hq, if_pos (by omega)]
        · rw [if_neg hq, if_neg (by omega)])
  exact h p

theorem evalPts_at (bw : Nat) (w : Nat → ℝ) {j : Nat} (hj : j < 2 * bw) :
    evalPts (2 * bw) w j = cos (Spec.ylmTheta bw j) := by
  unfold evalPts
  rw [upLoop_fill, if_pos ⟨Nat.zero_le _, hj⟩, Spec.ylmTheta]
  push_cast
  rw [← mul_assoc]
  norm_num

theorem arcCosEvalPts_at (bw : Nat) (w : Nat → ℝ) {j : Nat} (hj : j < 2 * bw) :
    arcCosEvalPts (2 * bw) w j = Spec.ylmTheta bw j := by
  unfold arcCosEvalPts
  rw [upLoop_fill, if_pos ⟨Nat.zero_le _, hj⟩, Spec.ylmTheta]
  push_cast
  rw [← mul_assoc]
  norm_num

theorem l2cn_self (m : Nat) : l2cn m m = 0 := by
  have h := l2cn_eq (le_refl m)
  rw [legA_self, neg_zero] at h
  exact (mul_eq_zero.1 h).resolve_right (legA_pos (by omega)).ne'

theorem pmlTableGen_at {bw m : Nat} (hm : m < bw) (store w : Nat → ℝ) :
    (∀ i j, i < bw - m → j < 2 * bw → pmlTableGen bw m store w (2 * bw * i + j) = legT bw m i j) ∧
    ∀ p, 2 * bw * (bw - m) ≤ p → pmlTableGen bw m store w p = store p := by
  unfold pmlTableGen
  simp only
  have h := upLoop_inv (Nat.zero_le (bw - m - 1)) (body := fun i (s : (Nat → ℝ) × (Nat → ℝ) × (Nat → ℝ)) =>
      (memcpyAt s.1 (2 * bw * (i + 1)) (nextP m i (2 * bw) (evalPts (2 * bw) w) s.2.1 s.2.2 w) (2 * bw),
        memcpyAt s.2.1 0 (nextP m i (2 * bw) (evalPts (2 * bw) w) s.2.1 s.2.2 w) (2 * bw),
        memcpyAt s.2.2 0 s.2.1 (2 * bw)))
    (s := (memcpyAt store 0 (firstP m (arcCosEvalPts (2 * bw) w) (2 * bw) w) (2 * bw),
      firstP m (arcCosEvalPts (2 * bw) w) (2 * bw) w, upLoop 0 (2 * bw) (fun i p => aset p i 0) w))
    (fun i s => (∀ i' ≤ i, ∀ j < 2 * bw, s.1 (2 * bw * i' + j) = legT bw m i' j) ∧
      (∀ p, 2 * bw * (i + 1) ≤ p → s.1 p = store p) ∧ (∀ j < 2 * bw, s.2.1 j = legT bw m i j) ∧
      (∀ j < 2 * bw, l2cn m (m + i) * s.2.2 j = l2cn m (m + i) * legT bw m (i - 1) j))
    (by
      have hf : ∀ j < 2 * bw, firstP m (arcCosEvalPts (2 * bw) w) (2 * bw) w j = legT bw m 0 j := fun j hj => by
        rw [firstP_at _ _ _ _ hj, arcCosEvalPts_at _ _ hj, legT_zero]
      refine ⟨fun i' hi' j hj => ?_, fun p hp => ?_, hf, fun j _ => ?_⟩
      · have : i' = 0 := by omega
        subst this
        simp only
        rw [memcpyAt_at, Nat.mul_zero, if_pos (by omega), Nat.sub_zero, Nat.zero_add, hf j hj]
      · simp only
        rw [memcpyAt_at, if_neg (by omega)]
      · rw [Nat.add_zero, l2cn_self]; ring)
    (fun i s _ hi ⟨h1, h2, h3, h4⟩ => by
      have hn : ∀ j < 2 * bw, nextP m i (2 * bw) (evalPts (2 * bw) w) s.2.1 s.2.2 w j = legT bw m (i + 1) j :=
        fun j hj => by rw [nextP_at _ _ _ _ _ _ _ hj, h4 j hj, h3 j hj, evalPts_at _ _ hj, legT_succ]
      have hs : 2 * bw * (i + 1 + 1) = 2 * bw * (i + 1) + 2 * bw := by ring
      refine ⟨fun i' hi' j hj => ?_, fun p hp => ?_, fun j hj => ?_, fun j hj => ?_⟩
      · simp only
        rw [memcpyAt_at]
        rcases Nat.lt_or_ge i i' with hl | hl
        · have : i' = i + 1 := by omega
          subst this
          rw [if_pos (by omega), Nat.add_sub_cancel_left, hn j hj]
        · have : 2 * bw * i' + j < 2 * bw * (i + 1) := by
            have := Nat.mul_le_mul_left (2 * bw) hl
            have e : 2 * bw * (i + 1) = 2 * bw * i + 2 * bw := by ring
            omega
          rw [if_neg (by omega), h1 i' hl j hj]
      · simp only
        rw [memcpyAt_at, if_neg (by omega), h2 p (by omega)]
      · simp only
        rw [memcpyAt_at, if_pos (by omega), Nat.sub_zero, hn j hj]
      · simp only
        rw [memcpyAt_at, if_pos (by omega), Nat.sub_zero, h3 j hj, Nat.add_sub_cancel])
  refine ⟨fun i j hi hj => h.1 i (by omega) j hj, fun p hp => h.2.1 p ?_⟩
  rwa [show bw - m - 1 + 1 = bw - m by omega]

/-- The functions of the recurrence. -/
noncomputable def legF (m : Nat) : Nat → ℝ[X] := fun l => C ((-1) ^ m) * legQ m (l - m)

/-- The sign and the polynomial with positive leading coefficient. -/
theorem legQ_spec (m : Nat) : Spec.LegendreFns m (legF m) := by
  unfold legF
  obtain ⟨c, hc0, hc, hn⟩ := pmmCons_abs m
  have h := legQ_rec m
  have hq0 : legQ m 0 = C (pmmCons m) := legQ_zero m
  have hs : ((-1 : ℝ) ^ m) * (-1) ^ m = 1 := by rw [← mul_pow]; norm_num
  have hs0 : ((-1 : ℝ) ^ m) ≠ 0 := by positivity
  -- positive leading coefficients
  have hpos : ∀ n, 0 < (C ((-1 : ℝ) ^ m) * legQ m n).coeff n := by
    have h' : LegRec m (fun n => legA m (m + n)) (fun n => C ((-1 : ℝ) ^ m) * legQ m n) :=
      ⟨h.a0, h.apos, h.asq, by rw [derivative_C_mul, h.q0, mul_zero], fun n => by
        linear_combination C ((-1 : ℝ) ^ m) * h.rec' n⟩
    exact h'.leading (c := c) (by rw [hq0, hc, ← C_mul, ← mul_assoc, hs, one_mul]) hc0
  have hdeg : ∀ n, (C ((-1 : ℝ) ^ m) * legQ m n).natDegree = n := fun n => by
    refine le_antisymm ((natDegree_C_mul_le _ _).trans (h.degree_le hq0 n)) (le_natDegree_of_ne_zero (hpos n).ne')
  refine ⟨fun l _ => hdeg _, fun l _ => ?_, fun l k hl hk => ?_⟩
  · rw [leadingCoeff, hdeg]; exact hpos _
  · have := h.ortho hq0 (by rw [hc, mul_pow, ← pow_mul, mul_comm m 2, pow_mul]; norm_num; exact hn) (l - m) (k - m)
    unfold intP legW at this
    rw [show (if l = k then (1 : ℝ) else 0) = if l - m = k - m then 1 else 0 by
      by_cases e : l = k
      · rw [if_pos e, if_pos (by omega)]
      · rw [if_neg e, if_neg (by omega)], ← this]
    congr 1
    funext x
    simp only [eval_mul, eval_pow, eval_sub, eval_one, eval_X, eval_C]
    linear_combination ((1 - x ^ 2) ^ m * (eval x (legQ m (l - m)) * eval x (legQ m (k - m)))) * hs

/-! ## Weights -/

/-- The entries of `weights`. -/
theorem makeweights_at (bw : Nat) (w0 : Nat → ℝ) :
    (∀ j < 2 * bw, makeweights bw w0 j = 2 / bw * sin (Spec.ylmTheta bw j) *
      (∑ k ∈ range bw, 1 / (2 * k + 1) * sin ((2 * k + 1) * Spec.ylmTheta bw j))) ∧
    (∀ j < 2 * bw, makeweights bw w0 (j + 2 * bw) = makeweights bw w0 j * sin (Spec.ylmTheta bw j)) ∧
    ∀ p, 4 * bw ≤ p → makeweights bw w0 p = w0 p := by
  set W : Nat → ℝ := fun j => 2 / bw * sin (Spec.ylmTheta bw j) *
      (∑ k ∈ range bw, 1 / (2 * k + 1) * sin ((2 * k + 1) * Spec.ylmTheta bw j)) with hW
  have hs : ∀ j : Nat, sin (((2 * j + 1 : Nat) : ℝ) * (π / ((4 * bw : Nat) : ℝ))) = sin (Spec.ylmTheta bw j) := by
    intro j
    unfold Spec.ylmTheta
    congr 1
    push_cast; ring
  have ht : ∀ j : Nat, upLoop 0 bw (fun k s => s + 1 / ((2 * k + 1 : Nat) : ℝ) *
      sin ((((2 * j + 1) * (2 * k + 1) : Nat) : ℝ) * (π / ((4 * bw : Nat) : ℝ)))) (0 : ℝ) *
      sin (Spec.ylmTheta bw j) * (2 / bw) = W j := by
    intro j
    rw [upLoop_sum, hW, zero_add, ← range_eq_Ico]
    simp only
    rw [sum_congr rfl (fun k _ => show 1 / ((2 * k + 1 : Nat) : ℝ) *
      sin ((((2 * j + 1) * (2 * k + 1) : Nat) : ℝ) * (π / ((4 * bw : Nat) : ℝ))) =
      1 / (2 * k + 1) * sin ((2 * k + 1) * Spec.ylmTheta bw j) by
        unfold Spec.ylmTheta
        push_cast
        congr 2
        ring)]
    ring
  have h := upLoop_inv (Nat.zero_le (2 * bw)) (body := fun j w => aset (aset w j (W j)) (j + 2 * bw)
      (W j * sin (Spec.ylmTheta bw j))) (s := w0)
    (fun n w => (∀ j < n, w j = W j ∧ w (j + 2 * bw) = W j * sin (Spec.ylmTheta bw j)) ∧ ∀ p, 4 * bw ≤ p → w p = w0 p)
    ⟨fun j hj => absurd hj (by omega), fun _ _ => rfl⟩ (fun n w _ hn ⟨h1, h2⟩ => by
      refine ⟨fun j hj => ?_, fun p hp => ?_⟩
      · by_cases e : j = n
        · subst e
          rw [aset_ne _ _ (by omega), aset_self, aset_self]
          exact ⟨rfl, rfl⟩
        · rw [aset_ne _ _ (by omega), aset_ne _ _ e, aset_ne _ _ (by omega), aset_ne _ _ (by omega)]
          exact h1 j (by omega)
      · rw [aset_ne _ _ (by omega), aset_ne _ _ (by omega), h2 p hp])
  have e : makeweights bw w0 = upLoop 0 (2 * bw) (fun j w => aset (aset w j (W j)) (j + 2 * bw)
      (W j * sin (Spec.ylmTheta bw j))) w0 := by
    unfold makeweights
    simp only [hs, ht]
  rw [e]
  exact ⟨fun j hj => (h.1 j hj).1, fun j hj => by rw [(h.1 j hj).2, (h.1 j hj).1], h.2⟩

/-- Weights at the angles that integrate all polynomials in `cos θ` with a degree below the number of points. There
is only one choice of such weights. -/
def Spec.QuadWeights (bw : Nat) (w : Nat → ℝ) : Prop :=
  ∀ p : ℝ[X], p.natDegree < 2 * bw →
    ∑ j ∈ range (2 * bw), w j * p.eval (cos (Spec.ylmTheta bw j)) = ∫ x in (-1 : ℝ)..1, p.eval x

/-- **C108.** `makeweights`: the first `2*bw` weights integrate all polynomials of degree below `2*bw`, the other ones
are the first ones times `sin θ_j`. -/
theorem C108_weights {bw : Nat} (hb : 0 < bw) (w0 : Nat → ℝ) :
    Spec.QuadWeights bw (makeweights bw w0) ∧
    (∀ j < 2 * bw, makeweights bw w0 (j + 2 * bw) = makeweights bw w0 j * sin (Spec.ylmTheta bw j)) ∧
    ∀ p, 4 * bw ≤ p → makeweights bw w0 p = w0 p := by
  have h := makeweights_at bw w0
  refine ⟨fun p hp => ?_, h.2⟩
  exact quad_weights hb (makeweights bw w0) (fun j hj => h.1 j hj) p hp

/-! ## Analysis and synthesis -/

theorem naiveAnalysisX_at (data : Nat → ℝ) (bw m : Nat) (weights result plm ws : Nat → ℝ) (i : Nat) :
    naiveAnalysisX data bw m weights result plm ws i =
      if i < bw - m then ∑ j ∈ range (2 * bw), data j * weights j * plm (2 * bw * i + j) else result i := by
  unfold naiveAnalysisX
  rw [upLoop_fill]
  by_cases hi : i < bw - m
  · rw [if_pos ⟨Nat.zero_le _, hi⟩, if_pos hi, dot4_eq]
    refine sum_congr rfl fun j hj => ?_
    rw [upLoop_fill, if_pos ⟨Nat.zero_le _, mem_range.1 hj⟩]
  · rw [if_neg (by omega), if_neg hi, upLoop_fill, if_neg (by omega)]

theorem naiveSynthesizeX_at (coeffs : Nat → ℝ) (bw m : Nat) (result plm : Nat → ℝ) (j : Nat) :
    naiveSynthesizeX coeffs bw m result plm j =
      if j < 2 * bw then ∑ i ∈ range (bw - m), coeffs i * plm (2 * bw * i + j) else result j := by
  unfold naiveSynthesizeX
  simp only
  have h := upLoop_inv (Nat.zero_le (bw - m)) (body := fun i r =>
      if coeffs i ≠ 0 then upLoop 0 (2 * bw) (fun j r => aset r j (r j + coeffs i * plm (2 * bw * i + j))) r else r)
    (s := upLoop 0 (2 * bw) (fun j r => aset r j 0) result)
    (fun n r => ∀ j, r j = if j < 2 * bw then ∑ i ∈ range n, coeffs i * plm (2 * bw * i + j) else result j)
    (fun j => by
      rw [upLoop_fill, range_zero, sum_empty]
      by_cases hj : j < 2 * bw
      · rw [if_pos ⟨Nat.zero_le _, hj⟩, if_pos hj]
      · rw [if_neg (by omega), if_neg hj])
    (fun n r _ _ hr j => by
      by_cases hc : coeffs n = 0
      · rw [if_neg (by simpa using hc), hr j, sum_range_succ, hc, zero_mul, add_zero]
      · rw [if_pos hc, upLoop_mapi (fun j x => x + coeffs n * plm (2 * bw * n + j)), hr j]
        by_cases hj : j < 2 * bw
        · rw [if_pos ⟨Nat.zero_le _, hj⟩, if_pos hj, if_pos hj, sum_range_succ]
        · rw [if_neg (by omega), if_neg hj, if_neg hj])
  exact h j

/-- The functions at the points are orthonormal with the weights. -/
theorem legP_discrete {bw m : Nat} {q : Nat → ℝ[X]} (hq : Spec.LegendreFns m q) {w : Nat → ℝ}
    (hw : Spec.QuadWeights bw w) {l k : Nat} (hl : m ≤ l) (hk : m ≤ k) (hlb : l < bw) (hkb : k < bw) :
    ∑ j ∈ range (2 * bw), w j * (Spec.legP m q l (Spec.ylmTheta bw j) * Spec.legP m q k (Spec.ylmTheta bw j)) =
      if l = k then 1 else 0 := by
  have hs : ((-1 : ℝ) ^ m) * (-1) ^ m = 1 := by rw [← mul_pow]; norm_num
  rw [← hq.ortho l k hl hk]
  have hdeg : ((1 - X ^ 2 : ℝ[X]) ^ m * (q l * q k)).natDegree < 2 * bw := by
    have h1 : ((1 - X ^ 2 : ℝ[X]) ^ m).natDegree ≤ m * 2 := by
      refine natDegree_pow_le.trans (Nat.mul_le_mul_left _ ?_)
      refine (natDegree_sub_le _ _).trans (max_le ?_ ?_) <;> simp
    have h2 : (q l * q k).natDegree ≤ (l - m) + (k - m) := by
      refine natDegree_mul_le.trans ?_
      rw [hq.degree l hl, hq.degree k hk]
    have h3 := natDegree_mul_le (p := (1 - X ^ 2 : ℝ[X]) ^ m) (q := q l * q k)
    omega
  have h := hw _ hdeg
  simp only [eval_mul, eval_pow, eval_sub, eval_one, eval_X] at h
  rw [← h]
  refine sum_congr rfl fun j _ => ?_
  unfold Spec.legP
  have e : (1 - cos (Spec.ylmTheta bw j) ^ 2) ^ m = sin (Spec.ylmTheta bw j) ^ m * sin (Spec.ylmTheta bw j) ^ m := by
    rw [← mul_pow, ← sq, ← sin_sq]
  rw [e]
  linear_combination (w j * (sin (Spec.ylmTheta bw j) ^ m * sin (Spec.ylmTheta bw j) ^ m *
    (eval (cos (Spec.ylmTheta bw j)) (q l) * eval (cos (Spec.ylmTheta bw j)) (q k)))) * hs

theorem legT_eq (bw m i j : Nat) : legT bw m i j = Spec.legP m (legF m) (m + i) (Spec.ylmTheta bw j) := by
  have hs : ((-1 : ℝ) ^ m) * (-1) ^ m = 1 := by rw [← mul_pow]; norm_num
  unfold legT Spec.legP legF
  rw [eval_mul, eval_C, Nat.add_sub_cancel_left]
  linear_combination -(sin (Spec.ylmTheta bw j) ^ m * eval (cos (Spec.ylmTheta bw j)) (legQ m i)) * hs

/-- **C108.** `PmlTableGen`: row `i` of the table has the normalised associated Legendre function `P_(m+i)^m` at the
points `cos θ_j`; the table has `bw-m` rows, and nothing else is written. -/
theorem C108_table (m : Nat) : ∃ q, Spec.LegendreFns m q ∧ ∀ bw, m < bw → ∀ store w,
    (∀ i j, i < bw - m → j < 2 * bw →
      pmlTableGen bw m store w (2 * bw * i + j) = Spec.legP m q (m + i) (Spec.ylmTheta bw j)) ∧
    ∀ p, 2 * bw * (bw - m) ≤ p → pmlTableGen bw m store w p = store p :=
  ⟨legF m, legQ_spec m, fun _ hb store w => ⟨fun i j hi hj => by
    rw [(pmlTableGen_at hb store w).1 i j hi hj, legT_eq], (pmlTableGen_at hb store w).2⟩⟩

/-- **C108.** Synthesis followed by analysis gives the coefficients back, for every band width and every order. -/
theorem C108_sampling {bw m : Nat} (hm : m < bw) (c samples store w ws w0 r : Nat → ℝ) {i : Nat} (hi : i < bw - m) :
    naiveAnalysisX (naiveSynthesizeX c bw m samples (pmlTableGen bw m store w)) bw m (makeweights bw w0) r
      (pmlTableGen bw m store w) ws i = c i := by
  rw [naiveAnalysisX_at, if_pos hi]
  have ht := (pmlTableGen_at hm store w).1
  have hw := (C108_weights (show 0 < bw by omega) w0).1
  have e : ∀ j ∈ range (2 * bw), naiveSynthesizeX c bw m samples (pmlTableGen bw m store w) j * makeweights bw w0 j *
      pmlTableGen bw m store w (2 * bw * i + j) =
      ∑ k ∈ range (bw - m), c k * (makeweights bw w0 j * (Spec.legP m (legF m) (m + k) (Spec.ylmTheta bw j) *
        Spec.legP m (legF m) (m + i) (Spec.ylmTheta bw j))) := by
    intro j hj
    have hj := mem_range.1 hj
    rw [naiveSynthesizeX_at, if_pos hj, ht i j hi hj, legT_eq, sum_mul, sum_mul]
    refine sum_congr rfl fun k hk => ?_
    rw [ht k j (mem_range.1 hk) hj, legT_eq]
    ring
  rw [sum_congr rfl e, sum_comm]
  have e2 : ∀ k ∈ range (bw - m), ∑ j ∈ range (2 * bw), c k * (makeweights bw w0 j *
      (Spec.legP m (legF m) (m + k) (Spec.ylmTheta bw j) * Spec.legP m (legF m) (m + i) (Spec.ylmTheta bw j))) =
      if k = i then c k else 0 := by
    intro k hk
    have hk := mem_range.1 hk
    rw [← mul_sum, legP_discrete (legQ_spec m) hw (by omega) (by omega) (by omega) (by omega)]
    by_cases h : k = i
    · rw [if_pos h, if_pos (by omega), mul_one]
    · rw [if_neg h, if_neg (by omega), mul_zero]
  rw [sum_congr rfl e2, sum_ite_eq' (range (bw - m)) i c, if_pos (mem_range.2 hi)]

/-- **C108.** `P_eval` at the angles `θ_j`: the sum of the functions. -/
theorem C108_P_eval (m : Nat) : ∃ q, Spec.LegendreFns m q ∧ ∀ bw, m < bw → ∀ c args result w : Nat → ℝ,
    (∀ j < 2 * bw, args j = Spec.ylmTheta bw j) → ∀ j,
    pEval m c args result w bw j =
      if j < 2 * bw then ∑ i ∈ range (bw - m), c i * Spec.legP m q (m + i) (Spec.ylmTheta bw j) else result j := by
  refine ⟨legF m, legQ_spec m, fun bw hm c args result w ha j => ?_⟩
  unfold pEval
  simp only [← legT_eq]
  have h := upLoop_inv (Nat.zero_le (bw - m - 1)) (body := fun i (s : (Nat → ℝ) × (Nat → ℝ) × (Nat → ℝ)) =>
      (upLoop 0 (2 * bw) (fun j r => aset r j (r j + c (i + 1) *
          nextP m i (2 * bw) (evalPts (2 * bw) w) s.2.1 s.2.2 w j)) s.1,
        memcpyAt s.2.1 0 (nextP m i (2 * bw) (evalPts (2 * bw) w) s.2.1 s.2.2 w) (2 * bw),
        memcpyAt s.2.2 0 s.2.1 (2 * bw)))
    (s := (upLoop 0 (2 * bw) (fun i r => aset r i (c 0 * firstP m args (2 * bw) w i)) result,
      firstP m args (2 * bw) w, upLoop 0 (2 * bw) (fun i p => aset p i 0) w))
    (fun i s => (∀ j, s.1 j = if j < 2 * bw then ∑ i' ∈ range (i + 1), c i' * legT bw m i' j else result j) ∧
      (∀ j < 2 * bw, s.2.1 j = legT bw m i j) ∧
      (∀ j < 2 * bw, l2cn m (m + i) * s.2.2 j = l2cn m (m + i) * legT bw m (i - 1) j))
    (by
      have hf : ∀ j < 2 * bw, firstP m args (2 * bw) w j = legT bw m 0 j := fun j hj => by
        rw [firstP_at _ _ _ _ hj, ha j hj, legT_zero]
      refine ⟨fun j => ?_, hf, fun j _ => ?_⟩
      · simp only
        rw [upLoop_fill (fun i => c 0 * firstP m args (2 * bw) w i)]
        by_cases hj : j < 2 * bw
        · rw [if_pos ⟨Nat.zero_le _, hj⟩, if_pos hj, hf j hj]
          simp
        · rw [if_neg (by omega), if_neg hj]
      · rw [Nat.add_zero, l2cn_self]; ring)
    (fun i s _ hi ⟨h1, h3, h4⟩ => by
      have hn : ∀ j < 2 * bw, nextP m i (2 * bw) (evalPts (2 * bw) w) s.2.1 s.2.2 w j = legT bw m (i + 1) j :=
        fun j hj => by rw [nextP_at _ _ _ _ _ _ _ hj, h4 j hj, h3 j hj, evalPts_at _ _ hj, legT_succ]
      refine ⟨fun j => ?_, fun j hj => ?_, fun j hj => ?_⟩
      · simp only
        rw [upLoop_mapi (fun j x => x + c (i + 1) * nextP m i (2 * bw) (evalPts (2 * bw) w) s.2.1 s.2.2 w j), h1 j]
        by_cases hj : j < 2 * bw
        · rw [if_pos ⟨Nat.zero_le _, hj⟩, if_pos hj, if_pos hj, sum_range_succ _ (i + 1), hn j hj]
        · rw [if_neg (by omega), if_neg hj, if_neg hj]
      · simp only
        rw [memcpyAt_at, if_pos (by omega), Nat.sub_zero, hn j hj]
      · simp only
        rw [memcpyAt_at, if_pos (by omega), Nat.sub_zero, h3 j hj, Nat.add_sub_cancel])
  have := h.1 j
  rwa [show bw - m - 1 + 1 = bw - m by omega] at this

/-! ## Uniqueness -/

theorem expand_legendre {m : Nat} {q : Nat → ℝ[X]} (h : Spec.LegendreFns m q) (n : Nat) (p : ℝ[X])
    (hp : p.degree < n) : ∃ c : Nat → ℝ, p = ∑ k ∈ range n, C (c k) * q (m + k) := by
  induction n generalizing p with
  | zero =>
    refine ⟨fun _ => 0, ?_⟩
    have : p = 0 := by
      by_contra hne
      rw [degree_eq_natDegree hne] at hp
      have : p.natDegree < 0 := by exact_mod_cast hp
      omega
    simp [this]
  | succ n ih =>
    have hdeg := h.degree (m + n) (by omega)
    rw [Nat.add_sub_cancel_left] at hdeg
    have hlc := h.leading (m + n) (by omega)
    have hco : (q (m + n)).coeff n = (q (m + n)).leadingCoeff := by rw [leadingCoeff, hdeg]
    have hne : (q (m + n)).leadingCoeff ≠ 0 := hlc.ne'
    have hq0 : q (m + n) ≠ 0 := leadingCoeff_ne_zero.1 hne
    obtain ⟨c, hc⟩ := ih (p - C (p.coeff n / (q (m + n)).leadingCoeff) * q (m + n)) (by
      rw [degree_lt_iff_coeff_zero]
      intro k hk
      rw [coeff_sub, coeff_C_mul]
      rcases Nat.eq_or_lt_of_le hk with e | e
      · subst e
        rw [hco]
        field_simp
        ring
      · have h1 : p.coeff k = 0 := by
          rw [degree_lt_iff_coeff_zero] at hp
          exact hp k (by omega)
        have h2 : (q (m + n)).coeff k = 0 := coeff_eq_zero_of_natDegree_lt (by omega)
        rw [h1, h2]; ring)
    refine ⟨fun k => if k = n then p.coeff n / (q (m + n)).leadingCoeff else c k, ?_⟩
    dsimp only
    rw [sum_range_succ, if_pos rfl, sum_congr rfl (fun k hk => by
      rw [if_neg (by have := mem_range.1 hk; omega)]), ← hc]
    ring

theorem ortho_intP {m : Nat} {q : Nat → ℝ[X]} (h : Spec.LegendreFns m q) {l k : Nat} (hl : m ≤ l) (hk : m ≤ k) :
    intP (legW m * (q l * q k)) = if l = k then 1 else 0 := by
  rw [← h.ortho l k hl hk]
  unfold intP legW
  congr 1
  funext x
  simp

theorem intP_sum (s : Finset Nat) (f : Nat → ℝ[X]) : intP (∑ k ∈ s, f k) = ∑ k ∈ s, intP (f k) := by
  classical
  induction s using Finset.induction_on with
  | empty => simp [intP]
  | insert a s ha ih => rw [sum_insert ha, sum_insert ha, intP_add, ih]

/-- **C108.** There is only one choice for the polynomials. -/
theorem C108_unique {m : Nat} {q q' : Nat → ℝ[X]} (h : Spec.LegendreFns m q) (h' : Spec.LegendreFns m q') {l : Nat}
    (hl : m ≤ l) : q l = q' l := by
  induction l using Nat.strong_induction_on with
  | _ l ih =>
    obtain ⟨n, rfl⟩ := Nat.exists_eq_add_of_le hl
    have hd := h.degree (m + n) hl
    have hd' := h'.degree (m + n) hl
    rw [Nat.add_sub_cancel_left] at hd hd'
    have hp := h.leading (m + n) hl
    have hp' := h'.leading (m + n) hl
    set r := (q' (m + n)).leadingCoeff / (q (m + n)).leadingCoeff with hr
    have hr0 : 0 < r := div_pos hp' hp
    obtain ⟨c, hc⟩ := expand_legendre h n (q' (m + n) - C r * q (m + n)) (by
      rw [degree_lt_iff_coeff_zero]
      intro k hk
      rw [coeff_sub, coeff_C_mul]
      rcases Nat.eq_or_lt_of_le hk with e | e
      · subst e
        have e1 : (q (m + n)).coeff n = (q (m + n)).leadingCoeff := by rw [leadingCoeff, hd]
        have e2 : (q' (m + n)).coeff n = (q' (m + n)).leadingCoeff := by rw [leadingCoeff, hd']
        rw [e1, e2, hr]
        field_simp
        ring
      · have h1 : (q' (m + n)).coeff k = 0 := coeff_eq_zero_of_natDegree_lt (by omega)
        have h2 : (q (m + n)).coeff k = 0 := coeff_eq_zero_of_natDegree_lt (by omega)
        rw [h1, h2]; ring)
    have hz : ∀ j < n, c j = 0 := by
      intro j hj
      have e1 : intP (legW m * ((q' (m + n) - C r * q (m + n)) * q (m + j))) = 0 := by
        have : legW m * ((q' (m + n) - C r * q (m + n)) * q (m + j)) =
            legW m * (q' (m + n) * q' (m + j)) - C r * (legW m * (q (m + n) * q (m + j))) := by
          rw [ih (m + j) (by omega) (by omega)]; ring
        rw [this, intP_sub, intP_C_mul, ortho_intP h' hl (by omega), ortho_intP h hl (by omega), if_neg (by omega)]
        ring
      have e2 : intP (legW m * ((q' (m + n) - C r * q (m + n)) * q (m + j))) = c j := by
        rw [hc, sum_mul, mul_sum, intP_sum, sum_eq_single j]
        · rw [show legW m * (C (c j) * q (m + j) * q (m + j)) = C (c j) * (legW m * (q (m + j) * q (m + j))) by ring,
            intP_C_mul, ortho_intP h (by omega) (by omega), if_pos rfl, mul_one]
        · intro k _ hk
          rw [show legW m * (C (c k) * q (m + k) * q (m + j)) = C (c k) * (legW m * (q (m + k) * q (m + j))) by ring,
            intP_C_mul, ortho_intP h (by omega) (by omega), if_neg (by omega), mul_zero]
        · intro hk
          exact absurd (mem_range.2 hj) hk
      rw [← e2, e1]
    have hq : q' (m + n) = C r * q (m + n) := by
      have : q' (m + n) - C r * q (m + n) = 0 := by
        rw [hc]
        refine sum_eq_zero fun k hk => ?_
        rw [hz k (mem_range.1 hk), C_0, zero_mul]
      linear_combination this
    have hn := ortho_intP h' hl hl
    rw [if_pos rfl, hq, show legW m * (C r * q (m + n) * (C r * q (m + n))) =
      C (r * r) * (legW m * (q (m + n) * q (m + n))) by rw [C_mul]; ring, intP_C_mul, ortho_intP h hl hl, if_pos rfl,
      mul_one] at hn
    have hr1 : r = 1 := by nlinarith
    rw [hq, hr1, C_1, one_mul]

/-- **C108.** There is only one choice for the weights. -/
theorem C108_unique_weights {bw : Nat} {w w' : Nat → ℝ} (h : Spec.QuadWeights bw w) (h' : Spec.QuadWeights bw w')
    {j : Nat} (hj : j < 2 * bw) : w j = w' j := by
  classical
  have hb : (0 : ℝ) < bw := by exact_mod_cast (by omega : 0 < bw)
  set p : ℝ[X] := ∏ i ∈ (range (2 * bw)).erase j, (X - C (cos (Spec.ylmTheta bw i))) with hp
  have hdeg : p.natDegree < 2 * bw := by
    rw [hp]
    refine lt_of_le_of_lt (natDegree_prod_le _ _) ?_
    refine lt_of_le_of_lt (sum_le_card_nsmul _ _ 1 fun i _ => natDegree_X_sub_C_le _) ?_
    rw [card_erase_of_mem (mem_range.2 hj), card_range, smul_eq_mul]
    omega
  have hinj : ∀ i < 2 * bw, i ≠ j → cos (Spec.ylmTheta bw j) - cos (Spec.ylmTheta bw i) ≠ 0 := by
    intro i hi hne e
    have hmem : ∀ i < 2 * bw, Spec.ylmTheta bw i ∈ Set.Icc 0 π := by
      intro i hi
      unfold Spec.ylmTheta
      refine ⟨by positivity, ?_⟩
      rw [div_le_iff₀ (by positivity)]
      have : ((2 * i + 1 : ℕ) : ℝ) ≤ ((4 * bw : ℕ) : ℝ) := by exact_mod_cast (by omega)
      push_cast at this
      nlinarith [pi_pos]
    have := injOn_cos (hmem j hj) (hmem i hi) (by linarith)
    unfold Spec.ylmTheta at this
    rw [div_left_inj' (by positivity)] at this
    have := mul_right_cancel₀ pi_pos.ne' this
    have : (j : ℝ) = i := by linarith
    exact hne (by exact_mod_cast this.symm)
  have hz : ∀ i < 2 * bw, i ≠ j → p.eval (cos (Spec.ylmTheta bw i)) = 0 := by
    intro i hi hne
    rw [hp, eval_prod]
    exact prod_eq_zero (mem_erase.2 ⟨hne, mem_range.2 hi⟩) (by simp)
  have hnz : p.eval (cos (Spec.ylmTheta bw j)) ≠ 0 := by
    rw [hp, eval_prod]
    refine prod_ne_zero_iff.2 fun i hi => ?_
    rw [eval_sub, eval_X, eval_C]
    exact hinj i (mem_range.1 (mem_erase.1 hi).2) (mem_erase.1 hi).1
  have e1 := h p hdeg
  have e2 := h' p hdeg
  rw [sum_eq_single j (fun i hi hne => by rw [hz i (mem_range.1 hi) hne, mul_zero])
    (fun hn => absurd (mem_range.2 hj) hn)] at e1 e2
  exact mul_right_cancel₀ hnz (e1.trans e2.symm)

/-! ## The filter -/

/-- Projection of `f` onto the functions `P_l^m` with `l < L`. -/
noncomputable def Spec.legProj (bw L m : Nat) (q : Nat → ℝ[X]) (w f : Nat → ℝ) (j : Nat) : ℝ :=
  ∑ l ∈ Ico m L, (∑ j' ∈ range (2 * bw), w j' * (Spec.legP m q l (Spec.ylmTheta bw j') * f j')) *
    Spec.legP m q l (Spec.ylmTheta bw j)

theorem legProj_unique {bw L m : Nat} {q q' : Nat → ℝ[X]} (h : Spec.LegendreFns m q) (h' : Spec.LegendreFns m q')
    {w w' : Nat → ℝ} (hw : Spec.QuadWeights bw w) (hw' : Spec.QuadWeights bw w') {f f' : Nat → ℝ}
    (hf : ∀ j < 2 * bw, f j = f' j) (j : Nat) :
    Spec.legProj bw L m q w f j = Spec.legProj bw L m q' w' f' j := by
  unfold Spec.legProj
  refine sum_congr rfl fun l hl => ?_
  have e : ∀ th, Spec.legP m q l th = Spec.legP m q' l th := fun th => by
    unfold Spec.legP; rw [C108_unique h h' (mem_Ico.1 hl).1]
  rw [e]
  congr 1
  refine sum_congr rfl fun j' hj' => ?_
  rw [e, C108_unique_weights hw hw' (mem_range.1 hj'), hf j' (mem_range.1 hj')]

/-- The projection keeps what is already a sum of these functions. -/
theorem legProj_span {bw L m : Nat} (hL : L ≤ bw) {q : Nat → ℝ[X]} (h : Spec.LegendreFns m q) {w : Nat → ℝ}
    (hw : Spec.QuadWeights bw w) {f : Nat → ℝ} (c : Nat → ℝ)
    (hf : ∀ j < 2 * bw, f j = ∑ l ∈ Ico m L, c l * Spec.legP m q l (Spec.ylmTheta bw j)) {j : Nat} (hj : j < 2 * bw) :
    Spec.legProj bw L m q w f j = f j := by
  rw [hf j hj]
  unfold Spec.legProj
  refine sum_congr rfl fun l hl => ?_
  have hl' := mem_Ico.1 hl
  congr 1
  have e : ∀ j' ∈ range (2 * bw), w j' * (Spec.legP m q l (Spec.ylmTheta bw j') * f j') =
      ∑ k ∈ Ico m L, c k * (w j' * (Spec.legP m q l (Spec.ylmTheta bw j') * Spec.legP m q k (Spec.ylmTheta bw j'))) := by
    intro j' hj'
    rw [hf j' (mem_range.1 hj'), mul_sum, mul_sum]
    refine sum_congr rfl fun k _ => ?_
    ring
  rw [sum_congr rfl e, sum_comm, sum_eq_single l]
  · rw [← mul_sum, legP_discrete h hw hl'.1 hl'.1 (by omega) (by omega), if_pos rfl, mul_one]
  · intro k hk hne
    have hk' := mem_Ico.1 hk
    rw [← mul_sum, legP_discrete h hw hl'.1 hk'.1 (by omega) (by omega), if_neg (by omega), mul_zero]
  · intro hn
    exact absurd hl hn

theorem ylmLine_at {bw m : Nat} {lmshift : Int} (hs : lmshift ≤ 0) (hm : (m : Int) < bw + lmshift)
    {weights plm : Nat → ℝ}
    (hplm : ∀ i j, i < bw - m → j < 2 * bw → plm (2 * bw * i + j) = legT bw m i j) (samples coeffs ws : Nat → ℝ) (j : Nat) :
    (ylmLine bw m lmshift weights plm samples coeffs ws).1 j =
      if j < 2 * bw then Spec.legProj bw ((bw : Int) + lmshift).toNat m (legF m) weights samples j else samples j := by
  unfold ylmLine
  simp only
  rw [naiveSynthesizeX_at]
  by_cases hj : j < 2 * bw
  swap
  · rw [if_neg hj, if_neg hj]
  rw [if_pos hj, if_pos hj]
  unfold Spec.legProj
  obtain ⟨d, hd⟩ : ∃ d : Nat, ((bw : Int) + lmshift).toNat = m + d := ⟨((bw : Int) + lmshift).toNat - m, by omega⟩
  have hlo : ((bw : Int) - m + lmshift).toNat = d := by omega
  have hdb : d ≤ bw - m := by omega
  rw [hd, sum_Ico_eq_sum_range, Nat.add_sub_cancel_left, hlo, ← sum_range_add_sum_Ico _ hdb]
  have h0 : ∑ i ∈ Ico d (bw - m), upLoop d (bw - m) (fun l c => aset c l 0)
      (naiveAnalysisX samples bw m weights coeffs plm ws) i * plm (2 * bw * i + j) = 0 := by
    refine sum_eq_zero fun i hi => ?_
    rw [upLoop_fill, if_pos (mem_Ico.1 hi), zero_mul]
  rw [h0, add_zero]
  refine sum_congr rfl fun i hi => ?_
  have hi' := mem_range.1 hi
  rw [upLoop_fill, if_neg (by omega), naiveAnalysisX_at, if_pos (by omega), hplm i j (by omega) hj, legT_eq]
  congr 1
  refine sum_congr rfl fun j' hj' => ?_
  rw [hplm i j' (by omega) (mem_range.1 hj'), legT_eq]
  ring

/-- One `k`. -/
theorem ylmMode_at {d : Dims} {bw : Nat} (hbw : d.n2 = 4 * bw) {lmshift : Int} (hs : lmshift ≤ 0) {weights : Nat → ℝ}
    {plm : Nat → Nat → ℝ} (hw : Spec.QuadWeights bw weights)
    (hplm : ∀ m < bw, ∀ i j, i < bw - m → j < 2 * bw → plm m (2 * bw * i + j) = legT bw m i j)
    (buf : (Nat → ℝ) × (Nat → ℝ) × (Nat → ℝ)) {k : Nat} (hk : k < d.n3) (vc : Nat → ℝ) :
    (∀ i j, i < d.n1 → j < 2 * bw → ylmMode d bw lmshift weights plm buf k vc (d.idx i j k) =
      Spec.legProj bw ((bw : Int) + lmshift).toNat ((k + 1) / 2) (legF ((k + 1) / 2)) weights
        (fun j => vc (d.idx i j k)) j) ∧
    ∀ p, (∀ i j, i < d.n1 → j < d.n2 → p ≠ d.idx i j k) → ylmMode d bw lmshift weights plm buf k vc p = vc p := by
  unfold ylmMode
  simp only
  set m := (k + 1) / 2 with hm
  split
  · rename_i hlt
    have h := upLoop_inv (Nat.zero_le d.n1) (body := fun i (s : (Nat → ℝ) × (Nat → ℝ) × (Nat → ℝ)) =>
        (putMemline d .two s.1 (ylmLine bw m lmshift weights (plm m) (getMemline d .two s.1 s.2.1 i k) s.2.2 buf.2.2).1 i k,
          (ylmLine bw m lmshift weights (plm m) (getMemline d .two s.1 s.2.1 i k) s.2.2 buf.2.2).1,
          (ylmLine bw m lmshift weights (plm m) (getMemline d .two s.1 s.2.1 i k) s.2.2 buf.2.2).2))
      (s := (vc, buf.1, buf.2.1))
      (fun n s => (∀ i j, i < n → j < 2 * bw → s.1 (d.idx i j k) =
          Spec.legProj bw ((bw : Int) + lmshift).toNat m (legF m) weights (fun j => vc (d.idx i j k)) j) ∧
        ∀ p, (∀ i j, i < n → j < d.n2 → p ≠ d.idx i j k) → s.1 p = vc p)
      ⟨fun i j hi => absurd hi (by omega), fun _ _ => rfl⟩
      (fun n s _ hn ⟨h1, h2⟩ => by
        have hput := putMemline_eq d .two s.1
          (ylmLine bw m lmshift weights (plm m) (getMemline d .two s.1 s.2.1 n k) s.2.2 buf.2.2).1 n k hn hk
        simp only [place_two] at hput
        refine ⟨fun i j hi hj => ?_, fun p hp => ?_⟩
        · simp only
          rcases Nat.lt_or_ge i n with hl | hl
          · rw [hput.2 _ fun j' hj' e => ?_, h1 i j hl hj]
            have := (idx_inj (by omega) hn (by omega) hj' e).1
            omega
          · have : i = n := by omega
            subst this
            rw [hput.1 j (show j < d.n2 by omega), ylmLine_at hs hlt (hplm m (by omega)), if_pos hj]
            refine legProj_unique (legQ_spec m) (legQ_spec m) hw hw (fun j' hj' => ?_) j
            rw [getMemline_eq d .two s.1 s.2.1 i k j' (show j' < d.n2 by omega), place_two]
            refine h2 _ fun i' j'' hi' hj'' e => ?_
            have := (idx_inj hn (by omega) (by omega) hj'' e).1
            omega
        · simp only
          rw [hput.2 p fun j' hj' => hp n j' (by omega) hj', h2 p fun i j hi hj => hp i j (by omega) hj])
    exact h
  · rename_i hge
    have hz : ∀ p, ((∃ j, 0 ≤ j ∧ j < d.n2 ∧ ∃ i, 0 ≤ i ∧ i < d.n1 ∧ p = d.idx i j k) →
        upLoop 0 d.n2 (fun j vc => upLoop 0 d.n1 (fun i vc => aset vc (d.idx i j k) (0 : ℝ)) vc) vc p = 0) ∧
        ((∀ j, 0 ≤ j → j < d.n2 → ¬ ∃ i, 0 ≤ i ∧ i < d.n1 ∧ p = d.idx i j k) →
        upLoop 0 d.n2 (fun j vc => upLoop 0 d.n1 (fun i vc => aset vc (d.idx i j k) (0 : ℝ)) vc) vc p = vc p) := by
      intro p
      refine upLoop_set 0 (fun j p => ∃ i, 0 ≤ i ∧ i < d.n1 ∧ p = d.idx i j k) (fun j v p => ?_) vc p
      have hi := upLoop_set 0 (fun i p => p = d.idx i j k) (lo := 0) (hi := d.n1)
        (body := fun i c => aset c (d.idx i j k) (0 : ℝ)) (fun i v p =>
          ⟨fun h => by rw [h, aset_self], fun h => aset_ne _ _ h⟩) v p
      exact ⟨hi.1, fun h => hi.2 fun i h1 h2 h3 => h ⟨i, h1, h2, h3⟩⟩
    refine ⟨fun i j hi hj => ?_, fun p hp => ?_⟩
    · rw [(hz _).1 ⟨j, Nat.zero_le _, by omega, i, Nat.zero_le _, hi, rfl⟩]
      unfold Spec.legProj
      rw [Ico_eq_empty (by omega), sum_empty]
    · refine (hz p).2 ?_
      rintro j - hj ⟨i, -, hi, e⟩
      exact hp i j hi hj e

/-- All `k`. -/
theorem ylmModes_at {d : Dims} {bw : Nat} (hbw : d.n2 = 4 * bw) {lmshift : Int} (hs : lmshift ≤ 0) {weights : Nat → ℝ}
    {plm : Nat → Nat → ℝ} (hw : Spec.QuadWeights bw weights)
    (hplm : ∀ m < bw, ∀ i j, i < bw - m → j < 2 * bw → plm m (2 * bw * i + j) = legT bw m i j)
    (buf : Nat → (Nat → ℝ) × (Nat → ℝ) × (Nat → ℝ)) (vc : Nat → ℝ) {i j k : Nat} (hi : i < d.n1) (hj : j < 2 * bw)
    (hk : k < d.n3) :
    upLoop 0 d.n3 (fun k vc => ylmMode d bw lmshift weights plm (buf k) k vc) vc (d.idx i j k) =
      Spec.legProj bw ((bw : Int) + lmshift).toNat ((k + 1) / 2) (legF ((k + 1) / 2)) weights
        (fun j => vc (d.idx i j k)) j := by
  have h := upLoop_inv (Nat.zero_le d.n3) (body := fun k vc => ylmMode d bw lmshift weights plm (buf k) k vc) (s := vc)
    (fun n v => (∀ i j k, i < d.n1 → j < 2 * bw → k < n → v (d.idx i j k) =
      Spec.legProj bw ((bw : Int) + lmshift).toNat ((k + 1) / 2) (legF ((k + 1) / 2)) weights
        (fun j => vc (d.idx i j k)) j) ∧ ∀ i j k, i < d.n1 → j < d.n2 → n ≤ k → v (d.idx i j k) = vc (d.idx i j k))
    ⟨fun i j k _ _ h => absurd h (by omega), fun _ _ _ _ _ _ => rfl⟩
    (fun n v _ hn ⟨h1, h2⟩ => by
      have hmo := ylmMode_at hbw hs hw hplm (buf n) hn v
      refine ⟨fun i j k hi hj hk => ?_, fun i j k hi hj hk => ?_⟩
      · rcases Nat.lt_or_ge k n with hl | hl
        · rw [hmo.2 _ fun i' j' hi' hj' e => ?_, h1 i j k hi hj hl]
          have := (idx_inj hi hi' (by omega) hj' e).2.2
          omega
        · have : k = n := by omega
          subst this
          rw [hmo.1 i j hi hj]
          exact legProj_unique (legQ_spec _) (legQ_spec _) hw hw (fun j' hj' => h2 i j' k hi (by omega) (le_refl _)) j
      · rw [hmo.2 _ fun i' j' hi' hj' e => ?_, h2 i j k hi hj (by omega)]
        have := (idx_inj hi hi' hj hj' e).2.2
        omega)
  exact h.1 i j k hi hj hk

/-- A loop that stores the values `F` in the entries `W i` and needs `I`. -/
theorem upLoop_store {lo hi : Nat} {body : Nat → (Nat → ℝ) → Nat → ℝ} (I : (Nat → ℝ) → Prop) (F : Nat → ℝ)
    (W : Nat → Nat → Prop)
    (hb : ∀ i u, lo ≤ i → i < hi → I u → I (body i u) ∧
      ∀ p, (W i p → body i u p = F p) ∧ (¬ W i p → body i u p = u p)) (u : Nat → ℝ) (hu : I u) :
    I (upLoop lo hi body u) ∧ ∀ p, ((∃ i, lo ≤ i ∧ i < hi ∧ W i p) → upLoop lo hi body u p = F p) ∧
      ((¬ ∃ i, lo ≤ i ∧ i < hi ∧ W i p) → upLoop lo hi body u p = u p) := by
  rcases Nat.lt_or_ge hi lo with h | h
  · rw [upLoop_nil (by omega)]
    exact ⟨hu, fun p => ⟨fun ⟨i, h1, h2, _⟩ => absurd h1 (by omega), fun _ => rfl⟩⟩
  · refine upLoop_inv h (fun n v => I v ∧ ∀ p, ((∃ i, lo ≤ i ∧ i < n ∧ W i p) → v p = F p) ∧
      ((¬ ∃ i, lo ≤ i ∧ i < n ∧ W i p) → v p = u p))
      ⟨hu, fun p => ⟨fun ⟨i, h1, h2, _⟩ => absurd h1 (by omega), fun _ => rfl⟩⟩ fun n v hn1 hn2 ⟨h1, h2⟩ => ?_
    obtain ⟨h3, h4⟩ := hb n v hn1 hn2 h1
    refine ⟨h3, fun p => ⟨?_, fun hno => ?_⟩⟩
    · rintro ⟨i, hi1, hi2, hi3⟩
      by_cases hw : W n p
      · exact (h4 p).1 hw
      · rw [(h4 p).2 hw]
        refine (h2 p).1 ⟨i, hi1, ?_, hi3⟩
        rcases Nat.lt_or_ge i n with e | e
        · exact e
        · have : i = n := by omega
          exact absurd (this ▸ hi3) hw
    · rw [(h4 p).2 fun hw => hno ⟨n, hn1, by omega, hw⟩]
      exact (h2 p).2 fun ⟨i, h1, h2, h3⟩ => hno ⟨i, h1, by omega, h3⟩

theorem box_function (d : Dims) (f : Nat → Nat → Nat → ℝ) :
    ∃ F : Nat → ℝ, ∀ i j k, Spec.inBox d i j k → F (d.idx i j k) = f i j k := by
  classical
  refine ⟨fun p => if h : ∃ x : Nat × Nat × Nat, Spec.inBox d x.1 x.2.1 x.2.2 ∧ p = d.idx x.1 x.2.1 x.2.2 then
    f h.choose.1 h.choose.2.1 h.choose.2.2 else 0, fun i j k hb => ?_⟩
  have h : ∃ x : Nat × Nat × Nat, Spec.inBox d x.1 x.2.1 x.2.2 ∧ d.idx i j k = d.idx x.1 x.2.1 x.2.2 :=
    ⟨(i, j, k), hb, rfl⟩
  dsimp only
  rw [dif_pos h]
  obtain ⟨h1, h2⟩ := h.choose_spec
  obtain ⟨e1, e2, e3⟩ := idx_inj hb.1 h1.1 hb.2.1 h1.2.1 h2
  rw [← e1, ← e2, ← e3]

/-- One of the two loops of the copy. -/
theorem ylmCopyPass {d : Dims} (h2 : d.n2 % 2 = 0) (lo hi : Nat) (hhi : hi ≤ d.n3) (src : Nat → Nat)
    (hsrc : ∀ k, lo ≤ k → k < hi → src k < d.n3) (u : Nat → ℝ) :
    let u' := upLoop lo hi (fun k u => upLoop (d.n2 / 2) d.n2 (fun j u => upLoop 0 d.n1 (fun i u =>
      aset u (d.idx i j k) (u (d.idx i (d.n2 - j - 1) (src k)))) u) u) u
    (∀ i j k, Spec.inBox d i j k → u' (d.idx i j k) = if d.n2 / 2 ≤ j ∧ lo ≤ k ∧ k < hi then
      u (d.idx i (d.n2 - 1 - j) (src k)) else u (d.idx i j k)) ∧ ∀ p, d.n1 * d.n2 * d.n3 ≤ p → u' p = u p := by
  intro u'
  obtain ⟨F, hF⟩ := box_function d fun i j k => u (d.idx i (d.n2 - 1 - j) (src k))
  set I : (Nat → ℝ) → Prop := fun v => ∀ i j k, i < d.n1 → j < d.n2 / 2 → k < d.n3 → v (d.idx i j k) = u (d.idx i j k)
    with hI
  have hloop : I u' ∧ ∀ p, ((∃ k, lo ≤ k ∧ k < hi ∧ ∃ j, d.n2 / 2 ≤ j ∧ j < d.n2 ∧ ∃ i, 0 ≤ i ∧ i < d.n1 ∧
      p = d.idx i j k) → u' p = F p) ∧ ((¬ ∃ k, lo ≤ k ∧ k < hi ∧ ∃ j, d.n2 / 2 ≤ j ∧ j < d.n2 ∧ ∃ i, 0 ≤ i ∧ i < d.n1 ∧
      p = d.idx i j k) → u' p = u p) := by
    refine upLoop_store I F (fun k p => ∃ j, d.n2 / 2 ≤ j ∧ j < d.n2 ∧ ∃ i, 0 ≤ i ∧ i < d.n1 ∧ p = d.idx i j k)
      (fun k v hk1 hk2 hv => ?_) u fun _ _ _ _ _ _ => rfl
    refine upLoop_store I F (fun j p => ∃ i, 0 ≤ i ∧ i < d.n1 ∧ p = d.idx i j k) (fun j v hj1 hj2 hv => ?_) v hv
    refine upLoop_store I F (fun i p => p = d.idx i j k) (fun i v _ hi2 hv => ⟨?_, fun p => ⟨fun e => ?_, fun e => ?_⟩⟩) v hv
    · intro i' j' k' hi' hj' hk'
      rw [aset_ne _ _ fun e => ?_, hv i' j' k' hi' hj' hk']
      have := (idx_inj hi' hi2 (by omega) hj2 e).2.1
      omega
    · rw [e, aset_self, hF i j k ⟨hi2, hj2, by omega⟩, hv _ _ _ hi2 (by omega) (hsrc k hk1 hk2),
        show d.n2 - j - 1 = d.n2 - 1 - j by omega]
    · exact aset_ne _ _ e
  refine ⟨fun i j k hb => ?_, fun p hp => ?_⟩
  · split
    · rename_i h
      rw [(hloop.2 _).1 ⟨k, h.2.1, h.2.2, j, h.1, hb.2.1, i, Nat.zero_le _, hb.1, rfl⟩, hF i j k hb]
    · rename_i h
      refine (hloop.2 _).2 ?_
      rintro ⟨k', h1, h2, j', h3, h4, i', -, h5, e⟩
      obtain ⟨-, e2, e3⟩ := idx_inj hb.1 h5 hb.2.1 h4 e
      exact h ⟨by omega, by omega, by omega⟩
  · refine (hloop.2 _).2 ?_
    rintro ⟨k', h1, h2, j', h3, h4, i', -, h5, e⟩
    have := idx_lt (d := d) (i := i') (j := j') (k := k') ⟨h5, h4, by omega⟩
    omega

theorem ylmCopy_at {d : Dims} (h2 : d.n2 % 2 = 0) (h3 : d.n3 % 2 = 0) (u : Nat → ℝ) :
    (∀ i j k, Spec.inBox d i j k → ylmCopy d u (d.idx i j k) =
      if d.n2 / 2 ≤ j then u (d.idx i (d.n2 - 1 - j) ((k + d.n3 / 2) % d.n3)) else u (d.idx i j k)) ∧
    ∀ p, d.n1 * d.n2 * d.n3 ≤ p → ylmCopy d u p = u p := by
  unfold ylmCopy
  have p1 := ylmCopyPass h2 0 (d.n3 / 2) (by omega) (fun k => k + d.n3 / 2) (fun k _ h => by omega) u
  dsimp only at p1
  generalize upLoop 0 (d.n3 / 2) (fun k u => upLoop (d.n2 / 2) d.n2 (fun j u => upLoop 0 d.n1 (fun i u =>
    aset u (d.idx i j k) (u (d.idx i (d.n2 - j - 1) (k + d.n3 / 2)))) u) u) u = v at p1 ⊢
  have p2 := ylmCopyPass h2 (d.n3 / 2) d.n3 (le_refl _) (fun k => k - d.n3 / 2) (fun k _ h => by omega) v
  dsimp only at p2
  refine ⟨fun i j k hb => ?_, fun p hp => by rw [p2.2 p hp, p1.2 p hp]⟩
  obtain ⟨hi, hj, hk⟩ := hb
  rw [p2.1 i j k ⟨hi, hj, hk⟩]
  by_cases hj2 : d.n2 / 2 ≤ j
  · rw [if_pos hj2]
    by_cases hk2 : d.n3 / 2 ≤ k
    · rw [if_pos ⟨hj2, hk2, hk⟩, p1.1 i _ _ ⟨hi, by omega, by omega⟩, if_neg (by omega),
        show (k + d.n3 / 2) % d.n3 = k - d.n3 / 2 by
          rw [show k + d.n3 / 2 = (k - d.n3 / 2) + d.n3 by omega, Nat.add_mod_right, Nat.mod_eq_of_lt (by omega)]]
    · rw [if_neg (by omega), p1.1 i j k ⟨hi, hj, hk⟩, if_pos ⟨hj2, by omega, by omega⟩,
        Nat.mod_eq_of_lt (show k + d.n3 / 2 < d.n3 by omega)]
  · rw [if_neg hj2, if_neg (by omega), p1.1 i j k ⟨hi, hj, hk⟩, if_neg (by omega)]

/-- What the filter does with the values of a variable in a box with `n2/2 = 2 bw` different polar angles: for
`j < n2/2` the Fourier coefficient `k`, which belongs to `m = (k+1)/2`, is projected onto the functions `P_l^m` with
`l < bw + lmshift`, and the values for other `j` are copies. -/
structure Spec.YlmFiltered (b : LBox ℝ) (lmshift : Int) (u u' : Nat → Nat → Nat → ℝ) : Prop where
  proj : ∀ (q : Nat → Nat → ℝ[X]) (w : Nat → ℝ), (∀ m, Spec.LegendreFns m (q m)) → Spec.QuadWeights (b.d.n2 / 4) w →
    ∀ i j k, Spec.inBox b.d i j k → j < b.d.n2 / 2 → Spec.coeffs1 b .three u' i j k =
      Spec.legProj (b.d.n2 / 4) (((b.d.n2 / 4 : Nat) : Int) + lmshift).toNat ((k + 1) / 2) (q ((k + 1) / 2)) w
        (fun j => Spec.coeffs1 b .three u i j k) j
  cover : ∀ i j k, Spec.inBox b.d i j k → b.d.n2 / 2 ≤ j →
    u' i j k = u' i (b.d.n2 - 1 - j) ((k + b.d.n3 / 2) % b.d.n3)

/-- **C108.** The filter on one variable. -/
theorem C108_filter (a : YlmBufs) (b : LBox ℝ) (hgood : Spec.GoodBox b) {lmshift : Int} (hs : lmshift ≤ 0)
    (h2 : b.d.n2 % 4 = 0) (h3 : b.d.n3 % 2 = 0) {t v : Nat} (htv : t ≠ v) (mem : Arrays ℝ) :
    Spec.YlmFiltered b lmshift (Spec.view b.d mem v) (Spec.view b.d (ylmVar a b lmshift t v mem) v) ∧
    ∀ x p, x ≠ t → x ≠ v ∨ b.d.n1 * b.d.n2 * b.d.n3 ≤ p → ylmVar a b lmshift t v mem x p = mem x p := by
  obtain ⟨hl, hec, hce⟩ := hgood
  obtain ⟨bw, hbw⟩ : ∃ bw, b.d.n2 = 4 * bw := ⟨b.d.n2 / 4, by omega⟩
  have hbw' : b.d.n2 / 4 = bw := by omega
  unfold ylmVar
  dsimp only
  rw [hbw']
  set plm : Nat → Nat → ℝ := upLoop 0 bw (fun m p => aset p m (pmlTableGen bw m (a.plm m) a.workspace0)) a.plm with hplm
  have hA := C41_analysis a.g b .three (hl .three) v t mem
  generalize specAnalysis1 a.g b .three v t mem = m1 at hA ⊢
  set c := upLoop 0 b.d.n3 (fun k vc => ylmMode b.d bw lmshift (makeweights bw a.weights) plm (a.buf k) k vc) (m1 t) with hc
  have hS := C41_synthesis a.g b .three (hl .three) v t (aset m1 t c)
  generalize specSynthesis1 a.g b .three v t (aset m1 t c) = m2 at hS ⊢
  have hC := ylmCopy_at (d := b.d) (by omega) h3 (m2 v)
  have hview : ∀ i j k, Spec.inBox b.d i j k → j < b.d.n2 / 2 →
      Spec.view b.d (aset m2 v (ylmCopy b.d (m2 v))) v i j k = evalOp b .three (fun l => c (b.d.idx i j l)) k := by
    intro i j k hb hj
    have e1 : Spec.view b.d (aset m2 v (ylmCopy b.d (m2 v))) v i j k = Spec.view b.d m2 v i j k := by
      unfold Spec.view
      rw [aset_self]
      have := hC.1 i j k hb
      rw [if_neg (by omega)] at this
      exact this
    rw [e1, hS.1 i j k hb]
    refine evalOp_local (hl .three) _ _ (fun l hl' => ?_) k hb.2.2
    show Spec.view b.d (aset m1 t c) t i j l = _
    unfold Spec.view
    rw [aset_self]
    rfl
  refine ⟨⟨fun q w hq hw i j k hb hj => ?_, fun i j k hb hj => ?_⟩, fun x p hxt hx => ?_⟩
  · have hb0 : 0 < bw := by have := hb.2.1; omega
    rw [hbw'] at hw ⊢
    have e1 : Spec.coeffs1 b .three (Spec.view b.d (aset m2 v (ylmCopy b.d (m2 v))) v) i j k = c (b.d.idx i j k) := by
      show coeffsOp b .three (fun l => Spec.view b.d (aset m2 v (ylmCopy b.d (m2 v))) v i j l) k = _
      rw [coeffsOp_local (hl .three) _ (evalOp b .three (fun l => c (b.d.idx i j l)))
        (fun l hl' => hview i j l ⟨hb.1, hb.2.1, hl'⟩ hj) k hb.2.2]
      exact hce .three _ k hb.2.2
    rw [e1, hc, ylmModes_at hbw hs (C108_weights hb0 a.weights).1 (fun m hm i' j' hi' hj' => by
      rw [hplm, upLoop_fill, if_pos ⟨Nat.zero_le _, hm⟩]
      exact (pmlTableGen_at hm _ _).1 i' j' hi' hj') a.buf (m1 t) hb.1 (by omega) hb.2.2]
    refine legProj_unique (legQ_spec _) (hq _) (C108_weights hb0 a.weights).1 hw (fun j' hj' => ?_) j
    exact hA.1 i j' k ⟨hb.1, by omega, hb.2.2⟩
  · have hkm : (k + b.d.n3 / 2) % b.d.n3 < b.d.n3 := Nat.mod_lt _ (by have := hb.2.2; omega)
    unfold Spec.view
    rw [aset_self]
    have e1 := hC.1 i j k hb
    have e2 := hC.1 i (b.d.n2 - 1 - j) ((k + b.d.n3 / 2) % b.d.n3) ⟨hb.1, by have := hb.2.1; omega, hkm⟩
    rw [if_pos hj] at e1
    rw [if_neg (by have := hb.2.1; omega)] at e2
    exact e1.trans e2.symm
  · by_cases hxv : x = v
    · subst hxv
      have hp := hx.resolve_left (not_not.2 rfl)
      rw [aset_self, hC.2 p hp, hS.2 x p (Or.inr hp), aset_ne _ _ hxt, hA.2 x p (Or.inl hxt)]
    · rw [aset_ne _ _ hxv, hS.2 x p (Or.inl hxv), aset_ne _ _ hxt, hA.2 x p (Or.inl hxt)]

/-- **C108.** The filter keeps data with `l < bw + lmshift` only. -/
theorem C108_keep {b : LBox ℝ} (hgood : Spec.GoodBox b) {lmshift : Int} (hs : lmshift ≤ 0) (h2 : b.d.n2 % 4 = 0)
    {u u' : Nat → Nat → Nat → ℝ} (h : Spec.YlmFiltered b lmshift u u') {q : Nat → Nat → ℝ[X]}
    (hq : ∀ m, Spec.LegendreFns m (q m)) (c : Nat → Nat → Nat → ℝ)
    (hu : ∀ i j k, Spec.inBox b.d i j k → j < b.d.n2 / 2 → Spec.coeffs1 b .three u i j k =
      ∑ l ∈ Ico ((k + 1) / 2) (((b.d.n2 / 4 : Nat) : Int) + lmshift).toNat,
        c i k l * Spec.legP ((k + 1) / 2) (q ((k + 1) / 2)) l (Spec.ylmTheta (b.d.n2 / 4) j)) :
    (∀ i j k, Spec.inBox b.d i j k → j < b.d.n2 / 2 → u' i j k = u i j k) ∧
    ((∀ i j k, Spec.inBox b.d i j k → b.d.n2 / 2 ≤ j → u i j k = u i (b.d.n2 - 1 - j) ((k + b.d.n3 / 2) % b.d.n3)) →
      ∀ i j k, Spec.inBox b.d i j k → u' i j k = u i j k) := by
  obtain ⟨hl, hec, hce⟩ := hgood
  have h1 : ∀ i j k, Spec.inBox b.d i j k → j < b.d.n2 / 2 → u' i j k = u i j k := by
    intro i j k hb hj
    have hw := (C108_weights (show 0 < b.d.n2 / 4 by omega) fun _ => 0).1
    have e : ∀ l < b.d.n3, coeffsOp b .three (fun l => u' i j l) l = coeffsOp b .three (fun l => u i j l) l := by
      intro l hl'
      have e1 := h.proj q _ hq hw i j l ⟨hb.1, hb.2.1, hl'⟩ hj
      rw [legProj_span (by omega) (hq _) hw (c i l) (fun j' hj' => hu i j' l ⟨hb.1, by omega, hl'⟩ (by omega))
        (by omega)] at e1
      exact e1
    have e1 := hec .three (fun l => u' i j l) k hb.2.2
    have e2 := hec .three (fun l => u i j l) k hb.2.2
    rw [← e1, ← e2]
    exact evalOp_local (hl .three) _ _ e k hb.2.2
  refine ⟨h1, fun hcov i j k hb => ?_⟩
  rcases Nat.lt_or_ge j (b.d.n2 / 2) with hj | hj
  · exact h1 i j k hb hj
  · rw [h.cover i j k hb hj, hcov i j k hb hj]
    exact h1 _ _ _ ⟨hb.1, by have := hb.2.1; omega, Nat.mod_lt _ (by have := hb.2.2; omega)⟩ (by have := hb.2.1; omega)

/-- **C108.** Filtering again changes nothing. -/
theorem C108_idempotent {b : LBox ℝ} (hgood : Spec.GoodBox b) {lmshift : Int} (hs : lmshift ≤ 0) (h2 : b.d.n2 % 4 = 0)
    {u u' u'' : Nat → Nat → Nat → ℝ} (h : Spec.YlmFiltered b lmshift u u') (h' : Spec.YlmFiltered b lmshift u' u'') :
    ∀ i j k, Spec.inBox b.d i j k → u'' i j k = u' i j k := by
  intro i j k hb
  have hw := (C108_weights (show 0 < b.d.n2 / 4 by have := hb.2.1; omega) fun _ => 0).1
  refine (C108_keep hgood hs h2 h' legQ_spec (fun i k l => ∑ j' ∈ range (2 * (b.d.n2 / 4)),
    makeweights (b.d.n2 / 4) (fun _ => 0) j' * (Spec.legP ((k + 1) / 2) (legF ((k + 1) / 2)) l
      (Spec.ylmTheta (b.d.n2 / 4) j') * Spec.coeffs1 b .three u i j' k)) (fun i j k hb hj => ?_)).2 h.cover i j k hb
  exact h.proj (fun m => legF m) _ legQ_spec hw i j k hb hj

/-- **C108.** The filter on all boxes. -/
theorem C108_grid (a : YlmBufs) (box : Nat → LBox ℝ) (lmshift : Int) (t : Nat) (vars : List Nat) (hnd : vars.Nodup)
    (ht : t ∉ vars) (bs : List Nat) (hbs : bs.Nodup) (hgood : ∀ b ∈ bs, Spec.GoodBox (box b)) (m : Nat → Arrays ℝ) :
    ((lmshift ≤ 0 ∧ ∀ b ∈ bs, (box b).d.n2 % 4 = 0 ∧ (box b).d.n3 % 2 = 0) →
      ∃ m', ylmFilter a box lmshift t vars bs m = .ok m' ∧
        (∀ b ∈ bs, ∀ v ∈ vars, Spec.YlmFiltered (box b) lmshift (Spec.view (box b).d (m b) v)
          (Spec.view (box b).d (m' b) v)) ∧
        (∀ b x p, x ≠ t → x ∉ vars ∨ (box b).d.n1 * (box b).d.n2 * (box b).d.n3 ≤ p → m' b x p = m b x p) ∧
        ∀ b, b ∉ bs → m' b = m b) ∧
    (¬ (lmshift ≤ 0 ∧ ∀ b ∈ bs, (box b).d.n2 % 4 = 0 ∧ (box b).d.n3 % 2 = 0) →
      ylmFilter a box lmshift t vars bs m = .abort) := by
  induction bs generalizing m with
  | nil =>
    unfold ylmFilter
    constructor
    · rintro ⟨h, -⟩
      rw [if_neg (by omega)]
      exact ⟨m, rfl, by simp, fun _ _ _ _ _ => rfl, fun _ _ => rfl⟩
    · intro h
      have : ¬ lmshift ≤ 0 := fun h' => h ⟨h', by simp⟩
      rw [if_pos (by omega)]
  | cons b bs ih =>
    rw [List.nodup_cons] at hbs
    obtain ⟨ih1, ih2⟩ := ih hbs.2 (fun b' hb' => hgood b' (List.mem_cons_of_mem _ hb'))
      (aset m b (vars.foldl (fun mb v => ylmVar a (box b) lmshift t v mb) (m b)))
    unfold ylmFilter
    constructor
    · rintro ⟨h1, h2⟩
      have hb := h2 b (List.mem_cons_self ..)
      rw [if_neg (by omega), if_neg (not_not.2 hb.1), if_neg (not_not.2 hb.2)]
      obtain ⟨m', e, f1, f2, f3⟩ := ih1 ⟨h1, fun b' hb' => h2 b' (List.mem_cons_of_mem _ hb')⟩
      have hv := varsLoop (box b).d (Spec.YlmFiltered (box b) lmshift) t (fun v mb => ylmVar a (box b) lmshift t v mb)
        vars ht (fun _ => True) (fun _ _ _ _ => trivial)
        (fun v hv mem _ => C108_filter a (box b) (hgood b (List.mem_cons_self ..)) h1 hb.1 hb.2
          (fun e => ht (by rw [e]; exact hv)) mem) vars (fun _ h => h) hnd (m b) trivial
      refine ⟨m', e, fun b' hb' v hv' => ?_, fun b' x p hx hxp => ?_, fun b' hb' => ?_⟩
      · rcases List.mem_cons.1 hb' with e' | e'
        · subst e'
          rw [f3 b' hbs.1, aset_self]
          exact hv.1 v hv'
        · have := f1 b' e' v hv'
          rw [aset_ne _ _ (fun e'' => hbs.1 (by rw [← e'']; exact e'))] at this
          exact this
      · rw [f2 b' x p hx hxp]
        by_cases e' : b' = b
        · subst e'
          rw [aset_self]
          exact hv.2 x p hx hxp
        · rw [aset_ne _ _ e']
      · rw [List.mem_cons, not_or] at hb'
        rw [f3 b' hb'.2, aset_ne _ _ hb'.1]
    · intro h
      split
      · rfl
      split
      · rfl
      split
      · rfl
      rename_i h1 h2 h3
      refine ih2 fun h' => h ⟨h'.1, fun b' hb' => ?_⟩
      rcases List.mem_cons.1 hb' with e' | e'
      · subst e'
        exact ⟨not_not.1 h2, not_not.1 h3⟩
      · exact h'.2 b' e'

/-! ## Examples -/

/-- With band width 1 both weights are 1. -/
example (w : Nat → ℝ) : makeweights 1 w 0 = 1 ∧ makeweights 1 w 1 = 1 := by
  have h := (C108_weights (bw := 1) (by norm_num) w).1
  have h0 := h 1 (by simp)
  have h1 := h X (by simp)
  simp only [sum_range_succ, sum_range_zero, Spec.ylmTheta, eval_one, eval_X, integral_one, integral_id] at h0 h1
  norm_num at h0 h1
  rw [show 3 * π / 4 = π - π / 4 by ring, cos_pi_sub, cos_pi_div_four] at h1
  have h2 : (makeweights 1 w 0 - makeweights 1 w 1) * (√2 / 2) = 0 := by linarith
  have h3 : (√2 / 2 : ℝ) ≠ 0 := by positivity
  have h4 := (mul_eq_zero.1 h2).resolve_right h3
  constructor <;> linarith

/-- `P_0^0 = 1/√2` and `P_1^0 = √(3/2) cos θ` in the table for band width 2. -/
example (store w : Nat → ℝ) : pmlTableGen 2 0 store w 1 = 1 / √2 ∧
    pmlTableGen 2 0 store w (4 + 1) = √(3 / 2) * cos (3 * π / 8) := by
  have h := (pmlTableGen_at (bw := 2) (m := 0) (by norm_num) store w).1
  have h0 := h 0 1 (by norm_num) (by norm_num)
  have h1 := h 1 1 (by norm_num) (by norm_num)
  norm_num at h0 h1
  rw [h0, show 4 + 1 = 5 from rfl, h1]
  have e1 : pmmCons 0 = 1 / √2 := by
    norm_num [pmmCons, upLoop_nil]
  have e2 : l2an 0 0 = √3 := by
    norm_num [l2an]
  simp only [legT, legQ, pow_zero, one_mul, eval_C, eval_add, eval_mul, eval_X, l2cn_self, e1, e2, add_zero, zero_mul,
    true_and, Spec.ylmTheta]
  rw [sqrt_div (by norm_num), show (2 * ((1 : ℕ) : ℝ) + 1) * π / (4 * ((2 : ℕ) : ℝ)) = 3 * π / 8 by norm_num]
  ring

/-- With `lmshift = -bw` nothing is left, here in a box with 8 different polar angles and 16 azimuthal angles. -/
example (a : YlmBufs) (D : Axis → BDir) (hD : ∀ ax, (D ax).good) (fft : Axis → Bool) (W F : Axis → Nat → ℝ)
    (h2 : (D .two).n = 16) (h3 : (D .three).n = 16) (mem : Arrays ℝ) (i j k : Nat)
    (hb : Spec.inBox (stdBox D fft W F).d i j k) (hj : j < 8) :
    Spec.coeffs1 (stdBox D fft W F) .three
      (Spec.view (stdBox D fft W F).d (ylmVar a (stdBox D fft W F) (-4) 7 3 mem) 3) i j k = 0 := by
  have e2 : (stdBox D fft W F).d.n2 = 16 := h2
  have e3 : (stdBox D fft W F).d.n3 = 16 := h3
  have h := (C108_filter a (stdBox D fft W F) (C107_std D hD fft W F) (lmshift := -4) (by norm_num) (by omega) (by omega)
    (t := 7) (v := 3) (by norm_num) mem).1.proj (fun m => legF m) _ legQ_spec
    (C108_weights (by omega) fun _ => 0).1 i j k hb (by omega)
  rw [h, e2]
  unfold Spec.legProj
  rw [Ico_eq_empty (by norm_num), sum_empty]

end Sgrid
