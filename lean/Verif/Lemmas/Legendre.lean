import Mathlib.Analysis.SpecialFunctions.Trigonometric.Chebyshev.Basic
import Mathlib.Analysis.Calculus.Deriv.Polynomial
import Mathlib.MeasureTheory.Integral.IntervalIntegral.FundThmCalculus
import Verif.Lemmas.Trig

/-! Polynomials that are orthogonal on `[-1,1]` with the weight `(1-x²)^m`, and a quadrature at Chebyshev points. -/

namespace Sgrid
open Real Finset Polynomial

/-! ## Integrals of polynomials -/

/-- Integral over `[-1,1]`. -/
noncomputable def intP (p : ℝ[X]) : ℝ := ∫ x in (-1 : ℝ)..1, p.eval x

theorem intP_add (p q : ℝ[X]) : intP (p + q) = intP p + intP q := by
  unfold intP
  simp only [eval_add]
  exact intervalIntegral.integral_add (p.differentiable.continuous.intervalIntegrable _ _) (q.differentiable.continuous.intervalIntegrable _ _)

theorem intP_sub (p q : ℝ[X]) : intP (p - q) = intP p - intP q := by
  unfold intP
  simp only [eval_sub]
  exact intervalIntegral.integral_sub (p.differentiable.continuous.intervalIntegrable _ _) (q.differentiable.continuous.intervalIntegrable _ _)

theorem intP_C_mul (c : ℝ) (p : ℝ[X]) : intP (C c * p) = c * intP p := by
  unfold intP
  simp only [eval_mul, eval_C]
  exact intervalIntegral.integral_const_mul _ _

theorem intP_derivative (p : ℝ[X]) : intP (derivative p) = p.eval 1 - p.eval (-1) := by
  unfold intP
  exact intervalIntegral.integral_eq_sub_of_hasDerivAt (fun x _ => p.hasDerivAt x)
    ((derivative p).differentiable.continuous.intervalIntegrable _ _)

/-! ## Orthogonal polynomials -/

/-- Weight. -/
noncomputable def legW (m : Nat) : ℝ[X] := (1 - X ^ 2) ^ m

theorem intP_legW_succ (m : Nat) : (2 * m + 3) * intP (legW (m + 1)) = (2 * m + 2) * intP (legW m) := by
  have h := intP_derivative (X * (1 - X ^ 2) ^ (m + 1))
  have e : derivative (X * (1 - X ^ 2 : ℝ[X]) ^ (m + 1)) =
      C (2 * m + 3 : ℝ) * legW (m + 1) - C (2 * m + 2 : ℝ) * legW m := by
    simp only [derivative_mul, derivative_X, derivative_pow, derivative_sub, derivative_one, legW, map_add, map_mul,
      map_ofNat, map_natCast, Nat.add_sub_cancel, Nat.cast_add, Nat.cast_one]
    norm_num
    ring
  rw [e, intP_sub, intP_C_mul, intP_C_mul] at h
  simp at h
  linarith

theorem intP_legW (m : Nat) : (2 * m + 1).factorial * intP (legW m) = 2 * 4 ^ m * (m.factorial : ℝ) ^ 2 := by
  induction m with
  | zero =>
    have := intP_derivative (X : ℝ[X])
    simp at this
    simp [legW, this]
    norm_num
  | succ m ih =>
    have h := intP_legW_succ m
    have e : (2 * (m + 1) + 1).factorial = (2 * m + 3) * ((2 * m + 2) * (2 * m + 1).factorial) := by
      rw [show 2 * (m + 1) + 1 = (2 * m + 1) + 1 + 1 by ring, Nat.factorial_succ, Nat.factorial_succ]
    rw [e, Nat.factorial_succ m]
    generalize (2 * m + 1).factorial = f at ih
    generalize m.factorial = f' at ih
    push_cast
    linear_combination (2 * (m : ℝ) + 2) * f * h + (2 * (m : ℝ) + 2) ^ 2 * ih

/-- Integration by parts. -/
theorem intP_parts (m : Nat) (p : ℝ[X]) :
    intP (legW m * ((1 - X ^ 2) * derivative p)) = (2 * m + 2) * intP (legW m * (X * p)) := by
  have h := intP_derivative ((1 - X ^ 2) ^ (m + 1) * p)
  have e : derivative ((1 - X ^ 2) ^ (m + 1) * p) =
      legW m * ((1 - X ^ 2) * derivative p) - C (2 * m + 2 : ℝ) * (legW m * (X * p)) := by
    simp only [derivative_mul, derivative_X, derivative_pow, derivative_sub, derivative_one, legW, map_add, map_mul,
      map_ofNat, map_natCast, Nat.add_sub_cancel, Nat.cast_add, Nat.cast_one]
    norm_num
    ring
  rw [e, intP_sub, intP_C_mul] at h
  simp at h
  linarith

/-- Polynomials with the three-term recurrence of the normalised associated Legendre functions of order `m`. -/
structure LegRec (m : Nat) (a : Nat → ℝ) (q : Nat → ℝ[X]) : Prop where
  a0 : a 0 = 0
  apos : ∀ n, 0 < a (n + 1)
  asq : ∀ n, (2 * (m + n) - 1) * a n ^ 2 + 1 = (2 * (m + n) + 3) * a (n + 1) ^ 2
  q0 : derivative (q 0) = 0
  rec' : ∀ n, C (a (n + 1)) * q (n + 1) = X * q n - C (a n) * q (n - 1)

namespace LegRec
variable {m : Nat} {a : Nat → ℝ} {q : Nat → ℝ[X]} (h : LegRec m a q)
include h

/-- The derivative. -/
theorem ladder (n : Nat) :
    (1 - X ^ 2) * derivative (q n) = -(n : ℝ[X]) * X * q n + C ((2 * (m + n) + 1) * a n) * q (n - 1) := by
  induction n using Nat.strong_induction_on with
  | _ n ih =>
    rcases n with _ | n
    · rw [h.q0, h.a0]; simp
    · have hn := ih n (by omega)
      have hr := h.rec' n
      have hd := congrArg derivative hr
      simp only [derivative_mul, derivative_C, zero_mul, zero_add, derivative_sub, derivative_X, one_mul] at hd
      have hne : (C (a (n + 1)) : ℝ[X]) ≠ 0 := C_ne_zero.2 (h.apos n).ne'
      have hs : (C (a (n + 1)) : ℝ[X]) ^ 2 * (2 * (m + n) + 3) = (2 * (m + n) - 1) * C (a n) ^ 2 + 1 := by
        have := congrArg C (h.asq n)
        simp only [map_add, map_mul, map_sub, map_pow, map_one, map_ofNat, map_natCast] at this
        linear_combination -this
      -- the derivative before
      have hp : C (a n) * ((1 - X ^ 2) * derivative (q (n - 1))) =
          C (a n) * ((2 * (m : ℝ[X]) + (n : ℝ[X])) * X * q (n - 1)) -
            (2 * ((m : ℝ[X]) + (n : ℝ[X])) - 1) * C (a n) ^ 2 * q n := by
        rcases n with _ | k
        · rw [h.a0]; simp
        · have hk := ih k (by omega)
          have hrk := h.rec' k
          simp only [Nat.add_sub_cancel, map_add, map_mul, map_one, map_ofNat, map_natCast] at hk hrk ⊢
          push_cast
          linear_combination C (a (k + 1)) * hk + (2 * ((m : ℝ[X]) + (k + 1)) - 1) * C (a (k + 1)) * hrk
      apply mul_left_cancel₀ hne
      simp only [Nat.add_sub_cancel, map_add, map_mul, map_one, map_ofNat, map_natCast] at hn ⊢
      push_cast
      linear_combination (1 - X ^ 2) * hd + X * hn - hp + (n + 1) * X * hr - q n * hs

theorem int_zero (n : Nat) : intP (legW m * q (n + 1)) = 0 := by
  induction n using Nat.strong_induction_on with
  | _ n ih =>
    have hl := congrArg (fun p => intP (legW m * p)) (h.ladder n)
    rw [intP_parts] at hl
    have e1 : legW m * (-(n : ℝ[X]) * X * q n + C ((2 * (m + n) + 1) * a n) * q (n - 1)) =
        C (-(n : ℝ)) * (legW m * (X * q n)) + C ((2 * (m + n) + 1) * a n) * (legW m * q (n - 1)) := by
      simp only [map_neg, map_natCast]; ring
    rw [e1, intP_add, intP_C_mul, intP_C_mul] at hl
    have hr := congrArg (fun p => intP (legW m * p)) (h.rec' n)
    have e2 : legW m * (C (a (n + 1)) * q (n + 1)) = C (a (n + 1)) * (legW m * q (n + 1)) := by ring
    have e3 : legW m * (X * q n - C (a n) * q (n - 1)) = legW m * (X * q n) - C (a n) * (legW m * q (n - 1)) := by ring
    rw [e2, e3, intP_sub, intP_C_mul, intP_C_mul] at hr
    have hk : ((n : ℝ) - 1) * (a n * intP (legW m * q (n - 1))) = 0 := by
      rcases n with _ | _ | k
      · rw [h.a0]; ring
      · norm_num
      · have := ih k (by omega)
        simp only [Nat.add_sub_cancel, this]; ring
    have hpos : (n : ℝ) + 2 * m + 2 ≠ 0 := by positivity
    have : ((n : ℝ) + 2 * m + 2) * (a (n + 1) * intP (legW m * q (n + 1))) = 0 := by
      rw [hr]
      linear_combination hl + hk
    have := (mul_eq_zero.1 this).resolve_left hpos
    exact (mul_eq_zero.1 this).resolve_left (h.apos n).ne'

/-- The polynomials are orthonormal. -/
theorem ortho {c : ℝ} (hc : q 0 = C c) (hn : c ^ 2 * intP (legW m) = 1) (k n : Nat) :
    intP (legW m * (q k * q n)) = if k = n then 1 else 0 := by
  induction k using Nat.strong_induction_on generalizing n with
  | _ k ih =>
    rcases k with _ | k
    · rcases n with _ | n
      · rw [if_pos rfl, hc, show legW m * (C c * C c) = C (c ^ 2) * legW m by rw [C_pow]; ring, intP_C_mul, hn]
      · rw [if_neg (by omega), hc, show legW m * (C c * q (n + 1)) = C c * (legW m * q (n + 1)) by ring, intP_C_mul,
          h.int_zero, mul_zero]
    · have hr := h.rec' k
      have hr2 := h.rec' n
      have e : C (a (k + 1)) * (legW m * (q (k + 1) * q n)) =
          C (a (n + 1)) * (legW m * (q k * q (n + 1))) + C (a n) * (legW m * (q k * q (n - 1))) -
            C (a k) * (legW m * (q (k - 1) * q n)) := by
        linear_combination (legW m * q n) * hr - legW m * q k * hr2
      have e' := congrArg intP e
      rw [intP_sub, intP_add, intP_C_mul, intP_C_mul, intP_C_mul, intP_C_mul, ih k (by omega), ih k (by omega),
        ih (k - 1) (by omega)] at e'
      apply mul_left_cancel₀ (h.apos k).ne'
      rw [e']
      have ha := h.a0
      by_cases h1 : n = k + 1
      · subst h1
        rw [if_neg (by omega), if_pos (by omega), if_neg (by omega), if_pos rfl]; ring
      · by_cases h2 : k = n + 1
        · subst h2
          rw [if_pos rfl, if_neg (by omega), if_pos (by omega), if_neg (by omega)]; ring
        · have t1 : a n * (if k = n - 1 then (1 : ℝ) else 0) = 0 := by
            rcases n with _ | n
            · rw [ha]; ring
            · rw [if_neg (by omega), mul_zero]
          have t2 : a k * (if k - 1 = n then (1 : ℝ) else 0) = 0 := by
            rcases k with _ | k
            · rw [ha]; ring
            · rw [if_neg (by omega), mul_zero]
          rw [t1, t2, if_neg h2, if_neg (by omega)]; ring

theorem degree_le {c : ℝ} (hc : q 0 = C c) (n : Nat) : (q n).natDegree ≤ n := by
  induction n using Nat.strong_induction_on with
  | _ n ih =>
    rcases n with _ | n
    · rw [hc]; simp
    · have hr := h.rec' n
      have h1 : (C (a (n + 1)) * q (n + 1)).natDegree = (q (n + 1)).natDegree :=
        natDegree_C_mul (h.apos n).ne'
      rw [← h1, hr]
      refine (natDegree_sub_le _ _).trans (max_le ?_ ?_)
      · refine natDegree_mul_le.trans ?_
        rw [natDegree_X]
        have := ih n (by omega)
        omega
      · refine (natDegree_C_mul_le _ _).trans ((ih (n - 1) (by omega)).trans (by omega))

/-- The leading coefficients have the sign of the first one. -/
theorem leading {c : ℝ} (hc : q 0 = C c) (hc0 : 0 < c) (n : Nat) : 0 < (q n).coeff n := by
  induction n with
  | zero => rw [hc]; simpa using hc0
  | succ n ih =>
    have hr := congrArg (fun p => p.coeff (n + 1)) (h.rec' n)
    simp only [coeff_C_mul, coeff_sub, coeff_X_mul] at hr
    have : (q (n - 1)).coeff (n + 1) = 0 := coeff_eq_zero_of_natDegree_lt (by have := h.degree_le hc (n - 1); omega)
    rw [this, mul_zero, sub_zero] at hr
    have hp : 0 < a (n + 1) * (q (n + 1)).coeff (n + 1) := by rw [hr]; exact ih
    exact (mul_pos_iff_of_pos_left (h.apos n)).1 hp

end LegRec

/-! ## Quadrature -/

/-- Sums of cosines at the zeros of a Chebyshev polynomial. -/
theorem sum_cos_zeros {N : Nat} (hN : 0 < N) {k : Nat} (hk : 0 < k) (hk2 : k < 2 * N) :
    ∑ j ∈ range N, cos (k * ((2 * j + 1) * π / (2 * N))) = 0 := by
  have hN' : (N : ℝ) ≠ 0 := by positivity
  have hs : sin (k * π / (2 * N)) ≠ 0 := by
    apply ne_of_gt
    apply sin_pos_of_pos_of_lt_pi
    · positivity
    · rw [div_lt_iff₀ (by positivity)]
      have : (k : ℝ) < 2 * N := by exact_mod_cast hk2
      nlinarith [pi_pos]
  have ht : ∀ n : Nat, 2 * sin (k * π / (2 * N)) * ∑ j ∈ range n, cos (k * ((2 * j + 1) * π / (2 * N))) =
      sin (2 * n * (k * π / (2 * N))) := by
    intro n
    induction n with
    | zero => simp
    | succ n ih =>
      rw [sum_range_succ, mul_add, ih]
      have e1 : (2 * n : ℝ) * (k * π / (2 * N)) = k * ((2 * n + 1) * π / (2 * N)) - k * π / (2 * N) := by
        field_simp; ring
      have e2 : (2 * (n + 1 : ℕ) : ℝ) * (k * π / (2 * N)) = k * ((2 * n + 1) * π / (2 * N)) + k * π / (2 * N) := by
        push_cast; field_simp; ring
      rw [e1, e2, sin_sub, sin_add]; ring
  have := ht N
  have e : (2 * N : ℝ) * (k * π / (2 * N)) = k * π := by field_simp
  rw [e, sin_nat_mul_pi] at this
  rcases mul_eq_zero.1 this with h | h
  · exact absurd (by linarith : sin (k * π / (2 * N)) = 0) hs
  · exact h

theorem sum_sin_sin {N : Nat} (hN : 0 < N) {p n : Nat} (hp : 0 < p) (hpN : p < N) (hn : 0 < n) (hnN : n ≤ N) :
    ∑ j ∈ range N, sin (p * ((2 * j + 1) * π / (2 * N))) * sin (n * ((2 * j + 1) * π / (2 * N))) =
      if p = n then (N : ℝ) / 2 else 0 := by
  have e : ∀ j ∈ range N, sin (p * ((2 * (j : ℝ) + 1) * π / (2 * N))) * sin (n * ((2 * j + 1) * π / (2 * N))) =
      1 / 2 * cos (((max p n - min p n : ℕ) : ℝ) * ((2 * j + 1) * π / (2 * N))) -
        1 / 2 * cos (((p + n : ℕ) : ℝ) * ((2 * j + 1) * π / (2 * N))) := by
    intro j _
    generalize (2 * (j : ℝ) + 1) * π / (2 * N) = x
    have hc : cos (((max p n - min p n : ℕ) : ℝ) * x) = cos (p * x - n * x) := by
      rcases le_total p n with h | h
      · rw [max_eq_right h, min_eq_left h, Nat.cast_sub h, ← cos_neg]
        congr 1; ring
      · rw [max_eq_left h, min_eq_right h, Nat.cast_sub h]
        congr 1; ring
    rw [hc, Nat.cast_add, add_mul, cos_sub, cos_add]; ring
  rw [sum_congr rfl e, sum_sub_distrib, ← mul_sum, ← mul_sum, sum_cos_zeros hN (k := p + n) (by omega) (by omega)]
  split
  · rename_i h
    subst h
    simp
    ring
  · rename_i h
    rw [sum_cos_zeros hN (by omega) (by omega)]; ring

/-- A quadrature at the zeros: if it is exact for the first polynomials of the second kind it is exact for all
polynomials. -/
theorem quad_of_U (N : Nat) (x w : Nat → ℝ) (h : ∀ n < N, ∑ j ∈ range N, w j * (Chebyshev.U ℝ n).eval (x j) = intP (Chebyshev.U ℝ n))
    (p : ℝ[X]) (hp : p.natDegree < N) : ∑ j ∈ range N, w j * p.eval (x j) = intP p := by
  induction hd : p.natDegree using Nat.strong_induction_on generalizing p with
  | _ n ih =>
    have hU : (Chebyshev.U ℝ n).natDegree = n := Chebyshev.natDegree_U_natCast ℝ n
    have hlc : (Chebyshev.U ℝ n).leadingCoeff ≠ 0 := by
      rw [Chebyshev.leadingCoeff_U_natCast]; positivity
    set r := p - C (p.leadingCoeff / (Chebyshev.U ℝ n).leadingCoeff) * Chebyshev.U ℝ n with hr
    have hpr : p = r + C (p.leadingCoeff / (Chebyshev.U ℝ n).leadingCoeff) * Chebyshev.U ℝ n := by rw [hr]; ring
    have hrq : ∑ j ∈ range N, w j * r.eval (x j) = intP r := by
      rcases Nat.eq_zero_or_pos n with h0 | h0
      · have : r = 0 := by
          rw [hr]
          subst h0
          rw [eq_C_of_natDegree_eq_zero hd]
          simp
        rw [this]
        simp [intP]
      · have hlt : r.natDegree < n := by
          have hle : r.natDegree ≤ n := by
            rw [hr]
            refine (natDegree_sub_le _ _).trans (max_le hd.le ((natDegree_C_mul_le _ _).trans hU.le))
          have hc : r.coeff n = 0 := by
            rw [hr, coeff_sub, coeff_C_mul]
            have h1 : p.coeff n = p.leadingCoeff := by rw [leadingCoeff, hd]
            have h2 : (Chebyshev.U ℝ n).coeff n = (Chebyshev.U ℝ n).leadingCoeff := by rw [leadingCoeff, hU]
            rw [h1, h2]
            field_simp; ring
          rcases lt_or_eq_of_le hle with hh | hh
          · exact hh
          · exfalso
            have : r.leadingCoeff = 0 := by rw [leadingCoeff, hh, hc]
            rw [leadingCoeff_eq_zero] at this
            rw [this] at hh
            simp at hh
            omega
        exact ih _ hlt r (by omega) rfl
    rw [hpr, intP_add, intP_C_mul, ← h n (by omega), ← hrq, mul_sum, ← sum_add_distrib]
    refine sum_congr rfl fun j _ => ?_
    rw [eval_add, eval_mul, eval_C]; ring

theorem intP_U (n : Nat) : (n + 1) * intP (Chebyshev.U ℝ n) = if n % 2 = 0 then 2 else 0 := by
  have h := intP_derivative (Chebyshev.T ℝ ((n : ℤ) + 1))
  rw [Chebyshev.T_derivative_eq_U, Chebyshev.T_eval_one, Chebyshev.T_eval_neg_one] at h
  have e : ((((n : ℤ) + 1 : ℤ) : ℝ[X]) * Chebyshev.U ℝ ((n : ℤ) + 1 - 1)) = C ((n : ℝ) + 1) * Chebyshev.U ℝ n := by
    simp
  rw [e, intP_C_mul] at h
  rw [h]
  split
  · rename_i h2
    rw [Int.negOnePow_odd _ (by exact_mod_cast (Nat.even_iff.2 h2).add_one)]
    norm_num
  · rename_i h2
    rw [Int.negOnePow_even _ (by exact_mod_cast (Nat.odd_iff.2 (by omega)).add_one)]
    norm_num

/-- The weights. -/
theorem quad_weights {B : Nat} (hB : 0 < B) (w : Nat → ℝ)
    (hw : ∀ j < 2 * B, w j = 2 / B * sin ((2 * j + 1) * π / (4 * B)) *
      ∑ k ∈ range B, 1 / (2 * k + 1) * sin ((2 * k + 1) * ((2 * j + 1) * π / (4 * B))))
    (p : ℝ[X]) (hp : p.natDegree < 2 * B) :
    ∑ j ∈ range (2 * B), w j * p.eval (cos ((2 * j + 1) * π / (4 * B))) = intP p := by
  have hB' : (B : ℝ) ≠ 0 := by positivity
  refine quad_of_U (2 * B) (fun j => cos ((2 * j + 1) * π / (4 * B))) w (fun n hn => ?_) p hp
  have e : ∀ j ∈ range (2 * B), w j * (Chebyshev.U ℝ n).eval (cos ((2 * j + 1) * π / (4 * B))) =
      ∑ k ∈ range B, 2 / B * (1 / (2 * k + 1)) * (sin ((2 * k + 1 : ℕ) * ((2 * j + 1) * π / (2 * (2 * B : ℕ)))) *
        sin ((n + 1 : ℕ) * ((2 * j + 1) * π / (2 * (2 * B : ℕ))))) := by
    intro j hj
    rw [hw j (mem_range.1 hj)]
    have hu := Chebyshev.U_real_cos ((2 * j + 1) * π / (4 * B)) n
    have e4 : (2 * ((2 * B : ℕ) : ℝ)) = 4 * B := by push_cast; ring
    simp only [e4]
    push_cast at hu ⊢
    rw [← hu, mul_sum, sum_mul]
    refine sum_congr rfl fun k _ => ?_
    ring
  rw [sum_congr rfl e, sum_comm]
  have e2 : ∀ k ∈ range B, ∑ j ∈ range (2 * B), 2 / B * (1 / (2 * (k : ℝ) + 1)) *
      (sin ((2 * k + 1 : ℕ) * ((2 * j + 1) * π / (2 * (2 * B : ℕ)))) *
        sin ((n + 1 : ℕ) * ((2 * j + 1) * π / (2 * (2 * B : ℕ))))) = if 2 * k = n then 2 / ((n : ℝ) + 1) else 0 := by
    intro k hk
    have := mem_range.1 hk
    rw [← mul_sum, sum_sin_sin (by omega) (by omega) (by omega) (by omega) (by omega)]
    by_cases h : 2 * k = n
    · rw [if_pos (by omega), if_pos h]
      subst h
      push_cast
      field_simp
    · rw [if_neg (by omega), if_neg h, mul_zero]
  rw [sum_congr rfl e2]
  have hn1 : ((n : ℝ) + 1) ≠ 0 := by positivity
  have hi := intP_U n
  apply mul_left_cancel₀ hn1
  rw [hi]
  split
  · rename_i h2
    rw [sum_eq_single (n / 2) (fun k _ hk => if_neg (by omega)) (fun hk => absurd (mem_range.2 (by omega)) hk),
      if_pos (by omega)]
    field_simp
  · rename_i h2
    rw [sum_eq_zero fun k _ => if_neg (by omega), mul_zero]

end Sgrid
