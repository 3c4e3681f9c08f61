import Mathlib.Analysis.SpecialFunctions.Trigonometric.Basic
import Mathlib.Algebra.BigOperators.Intervals
import Mathlib.Tactic.Ring
import Mathlib.Tactic.FieldSimp
import Mathlib.Tactic.LinearCombination
import Mathlib.Tactic.Linarith

/-! Sums of cosines at equidistant angles. -/

namespace Sgrid
open Real Finset

/-- Dirichlet kernel. -/
theorem dirichlet (n : Nat) (x : ℝ) :
    2 * sin (x / 2) * (1 / 2 + ∑ k ∈ Ico 1 (n + 1), cos (k * x)) = sin ((n + 1 / 2) * x) := by
  induction n with
  | zero => simp; ring_nf
  | succ n ih =>
    rw [sum_Ico_succ_top (by omega), ← add_assoc, mul_add, ih]
    have e1 : ((n : ℝ) + 1 / 2) * x = ((n + 1 : ℕ) : ℝ) * x - x / 2 := by push_cast; ring
    have e2 : (((n + 1 : ℕ) : ℝ) + 1 / 2) * x = ((n + 1 : ℕ) : ℝ) * x + x / 2 := by ring
    rw [e1, e2, sin_sub, sin_add]
    ring

/-- The kernel of the transforms: half weight for the first and the last frequency. -/
noncomputable def kern (M : Nat) (m : ℤ) : ℝ :=
  1 / 2 + ∑ k ∈ Ico 1 M, cos (k * (m * π / M)) + 1 / 2 * cos (m * π)

theorem sin_half_ne {M : Nat} (hM : 0 < M) {m : ℤ} (hm : ¬ (2 * M : ℤ) ∣ m) :
    sin (m * π / M / 2) ≠ 0 := by
  intro h
  obtain ⟨k, hk⟩ := sin_eq_zero_iff.1 h
  apply hm
  refine ⟨k, ?_⟩
  have hM' : (M : ℝ) ≠ 0 := by positivity
  have hp := pi_pos.ne'
  have : (k : ℝ) * (2 * M) = m := by
    field_simp at hk
    linarith
  have h2 : ((k * (2 * M) : ℤ) : ℝ) = (m : ℝ) := by push_cast; exact this
  have := Int.cast_injective h2
  linarith

theorem kern_eq (M : Nat) (hM : 0 < M) (m : ℤ) : kern M m = if (2 * M : ℤ) ∣ m then (M : ℝ) else 0 := by
  have hM' : (M : ℝ) ≠ 0 := by positivity
  split
  · next h =>
    obtain ⟨q, rfl⟩ := h
    have hc : ∀ k : Nat, cos ((k : ℝ) * (((2 * M * q : ℤ) : ℝ) * π / M)) = 1 := by
      intro k
      have : (k : ℝ) * (((2 * M * q : ℤ) : ℝ) * π / M) = ((k * q : ℤ) : ℝ) * (2 * π) := by
        push_cast; field_simp
      rw [this, cos_int_mul_two_pi]
    have hl : cos (((2 * M * q : ℤ) : ℝ) * π) = 1 := by
      have : ((2 * M * q : ℤ) : ℝ) * π = ((M * q : ℤ) : ℝ) * (2 * π) := by push_cast; ring
      rw [this, cos_int_mul_two_pi]
    unfold kern
    rw [sum_congr rfl fun k _ => hc k, hl, sum_const, Nat.card_Ico, nsmul_eq_mul, mul_one,
      Nat.cast_sub hM]
    push_cast; ring
  · next h =>
    have hs := sin_half_ne hM h
    obtain ⟨n, rfl⟩ : ∃ n, M = n + 1 := ⟨M - 1, by omega⟩
    have hd := dirichlet n (m * π / (n + 1 : ℕ))
    have e : ((n : ℝ) + 1 / 2) * (m * π / (n + 1 : ℕ)) = m * π - m * π / (n + 1 : ℕ) / 2 := by
      have : ((n + 1 : ℕ) : ℝ) ≠ 0 := hM'
      have e2 : (n : ℝ) = ((n + 1 : ℕ) : ℝ) - 1 := by push_cast; ring
      rw [e2]
      field_simp
      ring
    rw [e, sin_sub, sin_int_mul_pi] at hd
    have : 2 * sin (m * π / (n + 1 : ℕ) / 2) * kern (n + 1) m = 0 := by
      unfold kern
      rw [mul_add, hd]
      ring
    rcases mul_eq_zero.1 this with h' | h'
    · exact absurd (by linarith : sin (m * π / (n + 1 : ℕ) / 2) = 0) hs
    · exact h'

/-- The same without the last frequency. -/
theorem kern_open (M : Nat) (hM : 0 < M) (m : ℤ) :
    1 / 2 + ∑ k ∈ Ico 1 M, cos (k * (m * π / M)) =
      (if (2 * M : ℤ) ∣ m then (M : ℝ) else 0) - 1 / 2 * cos (m * π) := by
  rw [← kern_eq M hM m, kern]; ring

theorem cos_int_pi_sq (m : ℤ) : cos (m * π) * cos (m * π) = 1 := by
  have := sin_sq_add_cos_sq (m * π)
  rw [sin_int_mul_pi] at this
  nlinarith

theorem cos_mul_cos (x y : ℝ) : cos x * cos y = 1 / 2 * (cos (x - y) + cos (x + y)) := by
  rw [cos_sub, cos_add]; ring

end Sgrid
