import Mathlib.Tactic.FieldSimp
import Mathlib.Tactic.Ring
import Mathlib.Tactic.LinearCombination
import Mathlib.Algebra.Field.Rat
import Mathlib.Algebra.Order.Field.Basic
import Verif.Model.FiniteDiff

/-!
# C40: finite difference stencils
-/

namespace Sgrid
variable {K : Type} [Field K]

/-- Three writes that fill an array: interior, first and last entry. -/
theorem fill3 {α : Type} (f : Nat → α) (l r : α) (w : Nat → α) (n j : Nat) (hn : 0 < n) :
    aset (aset (upLoop 1 n (fun j a => aset a j (f j)) w) 0 l) n r j =
      if j = n then r else if j = 0 then l else if j < n then f j else w j := by
  by_cases h : j = n
  · subst h; simp
  · rw [aset_ne _ _ h, if_neg h]
    by_cases h0 : j = 0
    · subst h0; simp
    · rw [aset_ne _ _ h0, if_neg h0, upLoop_fill]
      exact if_congr (by omega) rfl rfl

/-- C40, one sided stencil on `x_j = j (b-a)/n + a`: at every point, also at the two boundary points,
the derivative of a quadratic polynomial is exact. -/
theorem C40_onesided (a b p0 p1 p2 : K) (n : Nat) (hn : 2 ≤ n) (h2 : (2 : K) ≠ 0)
    (hnK : (n : K) ≠ 0) (hab : b - a ≠ 0) (x c w : Nat → K)
    (hx : ∀ j, j ≤ n → x j = j * (b - a) / n + a)
    (hc : ∀ j, j ≤ n → c j = p0 + p1 * x j + p2 * x j ^ 2) (j : Nat) (hj : j ≤ n) :
    fd2DerivOneSided a b c w n j = p1 + 2 * p2 * x j := by
  unfold fd2DerivOneSided
  rw [fill3 _ _ _ _ _ _ (by omega)]
  have e1 : ((n - 1 : Nat) : K) = n - 1 := by rw [Nat.cast_sub (by omega)]; simp
  have e2 : ((n - 2 : Nat) : K) = n - 2 := by rw [Nat.cast_sub (by omega)]; simp
  split
  · subst j
    rw [hc n le_rfl, hc (n - 1) (by omega), hc (n - 2) (by omega), hx n le_rfl, hx (n - 1) (by omega),
      hx (n - 2) (by omega), e1, e2]
    field_simp; ring
  · split
    · subst j
      rw [hc 0 (by omega), hc 1 (by omega), hc 2 (by omega), hx 0 (by omega), hx 1 (by omega),
        hx 2 (by omega)]
      push_cast
      field_simp; ring
    · rw [if_pos (by omega)]
      obtain ⟨i, rfl⟩ : ∃ i, j = i + 1 := ⟨j - 1, by omega⟩
      rw [Nat.add_sub_cancel, hc _ (by omega : i + 1 + 1 ≤ n), hc i (by omega),
        hx _ (by omega : i + 1 + 1 ≤ n), hx i (by omega), hx (i + 1) hj]
      push_cast
      field_simp; ring

/-- C40, second derivatives: the one sided stencil is exact on cubic polynomials at every point. -/
theorem C40_onesided_second (a b p0 p1 p2 p3 : K) (n : Nat) (hn : 3 ≤ n)
    (hnK : (n : K) ≠ 0) (hab : b - a ≠ 0) (x c w : Nat → K)
    (hx : ∀ j, j ≤ n → x j = j * (b - a) / n + a)
    (hc : ∀ j, j ≤ n → c j = p0 + p1 * x j + p2 * x j ^ 2 + p3 * x j ^ 3) (j : Nat) (hj : j ≤ n) :
    fd2Deriv2OneSided a b c w n j = 2 * p2 + 6 * p3 * x j := by
  unfold fd2Deriv2OneSided
  rw [fill3 _ _ _ _ _ _ (by omega)]
  have e1 : ((n - 1 : Nat) : K) = n - 1 := by rw [Nat.cast_sub (by omega)]; simp
  have e2 : ((n - 2 : Nat) : K) = n - 2 := by rw [Nat.cast_sub (by omega)]; simp
  have e3 : ((n - 3 : Nat) : K) = n - 3 := by rw [Nat.cast_sub (by omega)]; simp
  split
  · subst j
    rw [hc n le_rfl, hc (n - 1) (by omega), hc (n - 2) (by omega), hc (n - 3) (by omega), hx n le_rfl,
      hx (n - 1) (by omega), hx (n - 2) (by omega), hx (n - 3) (by omega), e1, e2, e3]
    field_simp; ring
  · split
    · subst j
      rw [hc 0 (by omega), hc 1 (by omega), hc 2 (by omega), hc 3 (by omega), hx 0 (by omega),
        hx 1 (by omega), hx 2 (by omega), hx 3 (by omega)]
      push_cast
      field_simp; ring
    · rw [if_pos (by omega)]
      obtain ⟨i, rfl⟩ : ∃ i, j = i + 1 := ⟨j - 1, by omega⟩
      rw [Nat.add_sub_cancel, hc _ (by omega : i + 1 + 1 ≤ n), hc i (by omega), hc (i + 1) hj,
        hx _ (by omega : i + 1 + 1 ≤ n), hx i (by omega), hx (i + 1) hj]
      push_cast
      field_simp; ring

/-- C40, periodic stencils: for data with period `n+1` both stencils are the centred differences with
spacing `h = (b-a)/(n+1)` at every point, so the two boundary points use the periodic neighbours. -/
theorem C40_periodic (a b h : K) (n : Nat) (hn : 0 < n) (h2 : (2 : K) ≠ 0)
    (hnK : (n : K) + 1 ≠ 0) (hab : b - a ≠ 0) (hh : h = (b - a) / (n + 1)) (f : ℤ → K)
    (hf : ∀ i, f (i + (n + 1)) = f i) (c w : Nat → K) (hc : ∀ j : Nat, j ≤ n → c j = f j)
    (j : Nat) (hj : j ≤ n) :
    fd2DerivPeriodic a b c w n j = (f (j + 1) - f (j - 1)) / (2 * h) ∧
    fd2Deriv2Periodic a b c w n j = (f (j + 1) - 2 * f j + f (j - 1)) / h ^ 2 := by
  have hf0 : f (-1) = f n := by rw [← hf (-1)]; congr 1; omega
  have hfn : f ((n : ℤ) + 1) = f 0 := by rw [← hf 0, zero_add]
  subst hh
  unfold fd2DerivPeriodic fd2Deriv2Periodic
  rw [fill3 _ _ _ _ _ _ hn, fill3 _ _ _ _ _ _ hn]
  split
  · subst j
    have e1 : c (n - 1) = f ((n : ℤ) - 1) := by
      rw [hc _ (by omega)]; congr 1; omega
    rw [hfn, e1, hc n le_rfl, hc 0 (by omega)]
    push_cast
    constructor <;> field_simp
  · split
    · subst j
      have e1 : f ((0 : Nat) - 1 : ℤ) = f n := by rw [← hf0]; congr 1
      have e2 : f ((0 : Nat) + 1 : ℤ) = f (1 : Nat) := by congr 1
      rw [e1, e2, hc n le_rfl, hc 0 (by omega), hc 1 (by omega)]
      constructor <;> field_simp
    · rw [if_pos (by omega), if_pos (by omega)]
      obtain ⟨i, rfl⟩ : ∃ i, j = i + 1 := ⟨j - 1, by omega⟩
      have e1 : f (((i + 1 : Nat) : ℤ) - 1) = f i := by congr 1; omega
      rw [e1, Nat.add_sub_cancel, hc _ (by omega : i + 1 + 1 ≤ n), hc i (by omega), hc (i + 1) hj]
      have e2 : ((i + 1 + 1 : Nat) : ℤ) = ((i + 1 : Nat) : ℤ) + 1 := by omega
      rw [e2]
      constructor <;> field_simp

/-- C40, periodic stencils on polynomials: on `x_j = j (b-a)/(n+1) + a` they are exact at interior
points, the first derivative on quadratic and the second one on cubic polynomials. -/
theorem C40_periodic_interior (a b p0 p1 p2 p3 : K) (n : Nat) (h2 : (2 : K) ≠ 0)
    (hnK : (n : K) + 1 ≠ 0) (hab : b - a ≠ 0) (x c w : Nat → K)
    (hx : ∀ j, j ≤ n → x j = j * (b - a) / (n + 1) + a)
    (hc : ∀ j, j ≤ n → c j = p0 + p1 * x j + p2 * x j ^ 2 + p3 * x j ^ 3) (j : Nat) (h0 : 0 < j)
    (hj : j < n) :
    (p3 = 0 → fd2DerivPeriodic a b c w n j = p1 + 2 * p2 * x j) ∧
    fd2Deriv2Periodic a b c w n j = 2 * p2 + 6 * p3 * x j := by
  unfold fd2DerivPeriodic fd2Deriv2Periodic
  rw [fill3 _ _ _ _ _ _ (by omega), fill3 _ _ _ _ _ _ (by omega), if_neg (by omega), if_neg (by omega),
    if_pos hj, if_neg (by omega), if_neg (by omega), if_pos hj]
  obtain ⟨i, rfl⟩ : ∃ i, j = i + 1 := ⟨j - 1, by omega⟩
  rw [Nat.add_sub_cancel, hc _ (by omega : i + 1 + 1 ≤ n), hc i (by omega), hc (i + 1) (by omega),
    hx _ (by omega : i + 1 + 1 ≤ n), hx i (by omega), hx (i + 1) (by omega)]
  push_cast
  constructor
  · rintro rfl
    field_simp; ring
  · field_simp; ring

/-- C40, stencils for non-uniform grids: on a quadratic polynomial the centred stencil returns the
derivative half way between the two points that it uses, and so do the forward and the backward one. -/
theorem C40_nonuniform (p0 p1 p2 : K) (n : Nat) (hn : 0 < n) (x c w : Nat → K)
    (hx : ∀ i j, i ≤ n → j ≤ n → x i = x j → i = j)
    (hc : ∀ j, j ≤ n → c j = p0 + p1 * x j + p2 * x j ^ 2) (j : Nat) (hj : j ≤ n) :
    fdCentered x c w n j = p1 + p2 * (x (min (j + 1) n) + x (j - 1)) ∧
    fdDp x c w n j = (if j < n then p1 + p2 * (x (j + 1) + x j) else p1 + p2 * (x n + x (n - 1))) ∧
    fdDm x c w n j = (if 0 < j then p1 + p2 * (x j + x (j - 1)) else p1 + p2 * (x 1 + x 0)) := by
  have key : ∀ i k, i ≤ n → k ≤ n → i ≠ k → (c i - c k) / (x i - x k) = p1 + p2 * (x i + x k) := by
    intro i k hi hk hik
    have hne : x i - x k ≠ 0 := sub_ne_zero.2 fun h => hik (hx i k hi hk h)
    rw [hc i hi, hc k hk]
    field_simp; ring
  refine ⟨?_, ?_, ?_⟩
  · unfold fdCentered
    rw [fill3 _ _ _ _ _ _ hn]
    split
    · subst j
      rw [key _ _ le_rfl (by omega) (by omega), Nat.min_eq_right (by omega)]
    · split
      · subst j
        rw [key _ _ (by omega) (by omega) (by omega), Nat.min_eq_left (by omega)]
      · rw [if_pos (by omega), key _ _ (by omega) (by omega) (by omega), Nat.min_eq_left (by omega)]
  · unfold fdDp
    by_cases h : j = n
    · subst h
      rw [aset_self, if_neg (by omega), key _ _ le_rfl (by omega) (by omega)]
    · rw [aset_ne _ _ h, upLoop_fill, if_pos (by omega), if_pos (by omega),
        key _ _ (by omega) (by omega) (by omega)]
  · unfold fdDm
    by_cases h : j = 0
    · subst h
      rw [aset_self, if_neg (by omega), key _ _ (by omega) (by omega) (by omega)]
    · rw [aset_ne _ _ h, upLoop_fill, if_pos (by omega), if_pos (by omega),
        key _ _ (by omega) (by omega) (by omega)]

/-- C40 for non-uniform grids, what holds: the centred stencil is exact on linear polynomials
everywhere, and on quadratic ones at interior points half way between their neighbours. The full
statement asks for quadratic polynomials at all points, which the next theorem refutes. -/
theorem C40_nonuniform_partial (p0 p1 p2 : K) (n : Nat) (hn : 0 < n) (x c w : Nat → K)
    (hx : ∀ i j, i ≤ n → j ≤ n → x i = x j → i = j)
    (hc : ∀ j, j ≤ n → c j = p0 + p1 * x j + p2 * x j ^ 2) (j : Nat) (hj : j ≤ n) :
    (p2 = 0 → fdCentered x c w n j = p1 ∧ fdDp x c w n j = p1 ∧ fdDm x c w n j = p1) ∧
    (0 < j → j < n → x (j + 1) - x j = x j - x (j - 1) →
      fdCentered x c w n j = p1 + 2 * p2 * x j) := by
  obtain ⟨h1, h2, h3⟩ := C40_nonuniform p0 p1 p2 n hn x c w hx hc j hj
  constructor
  · rintro rfl
    rw [h1, h2, h3]
    simp
  · intro h0 hjn hm
    rw [h1, Nat.min_eq_left (by omega)]
    have : x (j + 1) + x (j - 1) = 2 * x j := by linear_combination hm
    rw [this]; ring

/-- C40, disagreement: on the grid 0, 1, 3 the centred stencil gives 3 instead of 2 for the derivative
of `x²` at 1, and on the uniform grid 0, 1, 2 it gives 1 instead of 0 at the left boundary. -/
theorem C40_nonuniform_counterexample :
    fdCentered (K := ℚ) (fun j => [0, 1, 3].getD j 0) (fun j => [0, 1, 9].getD j 0) (fun _ => 0) 2 1
      = 3 ∧
    fdCentered (K := ℚ) (fun j => (j : ℚ)) (fun j => (j : ℚ) ^ 2) (fun _ => 0) 2 0 = 1 := by
  decide +kernel

/-- The entries behind the last one are not written by any stencil. -/
theorem C40_rest (a b : K) (x c w : Nat → K) (n j : Nat) (hn : 0 < n) (hj : n < j) :
    fd2DerivPeriodic a b c w n j = w j ∧ fd2DerivOneSided a b c w n j = w j ∧
    fd2Deriv2Periodic a b c w n j = w j ∧ fd2Deriv2OneSided a b c w n j = w j ∧
    fdCentered x c w n j = w j ∧ fdDp x c w n j = w j ∧ fdDm x c w n j = w j := by
  refine ⟨?_, ?_, ?_, ?_, ?_, ?_, ?_⟩
  iterate 5
    first
      | unfold fd2DerivPeriodic | unfold fd2DerivOneSided | unfold fd2Deriv2Periodic
      | unfold fd2Deriv2OneSided | unfold fdCentered
    rw [fill3 _ _ _ _ _ _ hn, if_neg (by omega), if_neg (by omega), if_neg (by omega)]
  · unfold fdDp
    rw [aset_ne _ _ (by omega), upLoop_fill, if_neg (by omega)]
  · unfold fdDm
    rw [aset_ne _ _ (by omega), upLoop_fill, if_neg (by omega)]

/-- `x²` on the points 1, 3/2, 2, 5/2, 3: one sided stencil. -/
example : (List.range 5).map
    (fd2DerivOneSided (K := ℚ) 1 3 (fun j => (1 + j / 2) ^ 2) (fun _ => 0) 4) = [2, 3, 4, 5, 6] := by
  decide +kernel

/-- `x³` on the same points: second derivative. -/
example : (List.range 5).map
    (fd2Deriv2OneSided (K := ℚ) 1 3 (fun j => (1 + j / 2) ^ 3) (fun _ => 0) 4) =
    [6, 9, 12, 15, 18] := by
  decide +kernel

/-- Four points 0, 1, 2, 3 with period 4. -/
example : (List.range 4).map
    (fd2DerivPeriodic (K := ℚ) 0 4 (fun j => [0, 2, 0, -2].getD j 0) (fun _ => 0) 3) = [2, 0, -2, 0] := by
  decide +kernel

end Sgrid
