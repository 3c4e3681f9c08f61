import Mathlib.Tactic.Linarith
import Mathlib.Tactic.FieldSimp
import Mathlib.Tactic.Ring
import Mathlib.Tactic.NormNum
import Mathlib.Tactic.Positivity
import Verif.Model.Output0d

/-!
C162: maximum, minimum and mean values of a variable in a box.
-/

namespace Sgrid

namespace Spec

/-- A volume integral over the points of a box: linear, and not negative for functions that are not negative. -/
structure IsIntegral (n : Nat) (I : (Nat → ℝ) → ℝ) : Prop where
  add : ∀ u v, I (fun p => u p + v p) = I u + I v
  smul : ∀ c u, I (fun p => c * u p) = c * I u
  nonneg : ∀ u, (∀ p < n, 0 ≤ u p) → 0 ≤ I u

end Spec

theorem out0d_extrema (n : Nat) (hn : 0 < n) (var : Nat → ℝ) (I : (Nat → ℝ) → ℝ) :
    (∀ p < n, var p ≤ (output0dBoxvar n I var).max) ∧ (∃ p < n, var p = (output0dBoxvar n I var).max) ∧
    (∀ p < n, (output0dBoxvar n I var).min ≤ var p) ∧ (∃ p < n, var p = (output0dBoxvar n I var).min) := by
  have key := upLoop_inv (lo := 0) (hi := n) (Nat.zero_le _)
    (body := fun i (m : ℝ × ℝ) =>
      let m := if var i > m.1 then (var i, m.2) else m
      if var i < m.2 then (m.1, var i) else m) (s := (var 0, var 0))
    (fun k m => (∀ p < k, var p ≤ m.1) ∧ (∃ p < n, var p = m.1) ∧ (∀ p < k, m.2 ≤ var p) ∧ (∃ p < n, var p = m.2))
    ⟨by intro p hp; omega, ⟨0, hn, rfl⟩, by intro p hp; omega, ⟨0, hn, rfl⟩⟩
    (by
      rintro k ⟨a, b⟩ - hk ⟨h1, h2, h3, h4⟩
      dsimp only at h1 h2 h3 h4 ⊢
      have lt : ∀ p, p < k + 1 → p < k ∨ p = k := fun p hp => by omega
      split_ifs with c1 c2 c2
      · refine ⟨fun p hp => ?_, ⟨k, hk, rfl⟩, fun p hp => ?_, ⟨k, hk, rfl⟩⟩
        · rcases lt p hp with h | rfl
          · exact (h1 p h).trans c1.le
          · exact le_rfl
        · rcases lt p hp with h | rfl
          · exact c2.le.trans (h3 p h)
          · exact le_rfl
      · refine ⟨fun p hp => ?_, ⟨k, hk, rfl⟩, fun p hp => ?_, h4⟩
        · rcases lt p hp with h | rfl
          · exact (h1 p h).trans c1.le
          · exact le_rfl
        · rcases lt p hp with h | rfl
          · exact h3 p h
          · exact not_lt.1 c2
      · refine ⟨fun p hp => ?_, h2, fun p hp => ?_, ⟨k, hk, rfl⟩⟩
        · rcases lt p hp with h | rfl
          · exact h1 p h
          · exact not_lt.1 c1
        · rcases lt p hp with h | rfl
          · exact c2.le.trans (h3 p h)
          · exact le_rfl
      · refine ⟨fun p hp => ?_, h2, fun p hp => ?_, h4⟩
        · rcases lt p hp with h | rfl
          · exact h1 p h
          · exact not_lt.1 c1
        · rcases lt p hp with h | rfl
          · exact h3 p h
          · exact not_lt.1 c2)
  exact key

/-- C162: the maximum and the minimum are values at points of the box, and no value is above or below. -/
theorem C162_extrema (n : Nat) (hn : 0 < n) (var : Nat → ℝ) (I : (Nat → ℝ) → ℝ) :
    IsGreatest {v | ∃ p < n, var p = v} (output0dBoxvar n I var).max ∧
      IsLeast {v | ∃ p < n, var p = v} (output0dBoxvar n I var).min := by
  obtain ⟨a, b, c, d⟩ := out0d_extrema n hn var I
  exact ⟨⟨b, by rintro v ⟨p, hp, rfl⟩; exact a p hp⟩, ⟨d, by rintro v ⟨p, hp, rfl⟩; exact c p hp⟩⟩

/-- C162: with volume integrals the numbers are what their names say, and in order: the mean is between minimum and
maximum, its absolute value is at most the mean of the absolute value, and this is at most the root of the mean
square. -/
theorem C162_integrals (n : Nat) (hn : 0 < n) (I : (Nat → ℝ) → ℝ) (hI : Spec.IsIntegral n I) (hV : 0 < I fun _ => 1)
    (var : Nat → ℝ) :
    (output0dBoxvar n I var).volInt = I var ∧
    (output0dBoxvar n I var).mean * I (fun _ => 1) = I var ∧
    (output0dBoxvar n I var).meanAbs * I (fun _ => 1) = I (fun p => |var p|) ∧
    (output0dBoxvar n I var).rms ^ 2 * I (fun _ => 1) = I (fun p => var p ^ 2) ∧ 0 ≤ (output0dBoxvar n I var).rms ∧
    (output0dBoxvar n I var).min ≤ (output0dBoxvar n I var).mean ∧
    (output0dBoxvar n I var).mean ≤ (output0dBoxvar n I var).max ∧
    |(output0dBoxvar n I var).mean| ≤ (output0dBoxvar n I var).meanAbs ∧
    (output0dBoxvar n I var).meanAbs ≤ (output0dBoxvar n I var).rms := by
  have hsq : 0 ≤ I (fun p => var p ^ 2) := hI.nonneg _ fun p _ => sq_nonneg _
  have e1 : (output0dBoxvar n I var).volInt = I var := by simp [output0dBoxvar]
  have e2 : (output0dBoxvar n I var).mean * I (fun _ => 1) = I var := by
    simp [output0dBoxvar, hV.ne']
  have e3 : (output0dBoxvar n I var).meanAbs * I (fun _ => 1) = I (fun p => |var p|) := by
    simp [output0dBoxvar, hV.ne']
  have e4 : (output0dBoxvar n I var).rms ^ 2 * I (fun _ => 1) = I (fun p => var p ^ 2) := by
    have : (output0dBoxvar n I var).rms = Real.sqrt (I (fun p => var p ^ 2) / I (fun _ => 1)) := by
      simp only [output0dBoxvar, mul_one, if_neg hV.ne', pow_two]
    rw [this, Real.sq_sqrt (div_nonneg hsq hV.le), div_mul_cancel₀ _ hV.ne']
  have e5 : 0 ≤ (output0dBoxvar n I var).rms := by
    simp only [output0dBoxvar]; exact Real.sqrt_nonneg _
  obtain ⟨x1, -, x3, -⟩ := out0d_extrema n hn var I
  generalize output0dBoxvar n I var = o at *
  have sub : ∀ u v, I (fun p => u p - v p) = I u - I v := by
    intro u v
    have h1 := hI.add u (fun p => -1 * v p)
    rw [hI.smul] at h1
    have h2 : (fun p => u p - v p) = fun p => u p + -1 * v p := by funext p; ring
    rw [h2, h1]; ring
  have const : ∀ c : ℝ, I (fun _ => c) = c * I (fun _ => 1) := by
    intro c
    rw [← hI.smul]
    simp
  refine ⟨e1, e2, e3, e4, e5, ?_, ?_, ?_, ?_⟩
  · have h := hI.nonneg (fun p => var p - o.min) fun p hp => by have := x3 p hp; linarith
    rw [sub, const, ← e2, ← sub_mul] at h
    have := nonneg_of_mul_nonneg_left h hV
    linarith
  · have h := hI.nonneg (fun p => o.max - var p) fun p hp => by have := x1 p hp; linarith
    rw [sub, const, ← e2, ← sub_mul] at h
    have := nonneg_of_mul_nonneg_left h hV
    linarith
  · rw [abs_le]
    constructor
    · have h := hI.nonneg (fun p => var p + |var p|) fun p _ => by have := neg_abs_le (var p); linarith
      rw [hI.add, ← e2, ← e3, ← add_mul] at h
      have := nonneg_of_mul_nonneg_left h hV
      linarith
    · have h := hI.nonneg (fun p => |var p| - var p) fun p _ => by have := le_abs_self (var p); linarith
      rw [sub, ← e2, ← e3, ← sub_mul] at h
      have := nonneg_of_mul_nonneg_left h hV
      linarith
  · have h := hI.nonneg (fun p => (|var p| - o.meanAbs) ^ 2) fun p _ => sq_nonneg _
    have e : (fun p => (|var p| - o.meanAbs) ^ 2) =
        fun p => (var p ^ 2 - (2 * o.meanAbs) * |var p|) + o.meanAbs ^ 2 := by
      funext p
      rw [← sq_abs (var p)]
      ring
    rw [e, hI.add (fun p => var p ^ 2 - (2 * o.meanAbs) * |var p|) (fun _ => o.meanAbs ^ 2),
      sub (fun p => var p ^ 2) (fun p => (2 * o.meanAbs) * |var p|), hI.smul, const, ← e3, ← e4] at h
    have h' : 0 ≤ (o.rms ^ 2 - o.meanAbs ^ 2) * I (fun _ => 1) := by
      calc (0 : ℝ) ≤ _ := h
        _ = _ := by ring
    have := nonneg_of_mul_nonneg_left h' hV
    exact le_trans (le_abs_self _) (abs_le_of_sq_le_sq (by linarith) e5)

/-- C162: if the volume comes out as zero, the numbers are the integrals themselves. -/
theorem C162_zero_volume (n : Nat) (I : (Nat → ℝ) → ℝ) (hV : I (fun _ => 1) = 0) (var : Nat → ℝ) :
    (output0dBoxvar n I var).volInt = I var ∧ (output0dBoxvar n I var).mean = I var ∧
    (output0dBoxvar n I var).meanAbs = I (fun p => |var p|) ∧
    (output0dBoxvar n I var).rms = Real.sqrt (I fun p => var p ^ 2) := by
  simp [output0dBoxvar, hV, pow_two]

theorem l2NormBox_eq (n : Nat) (u : Nat → ℝ) : l2NormBox n u = Real.sqrt ((∑ p ∈ Finset.range n, u p ^ 2) / n) := by
  have key := upLoop_inv (lo := 0) (hi := n) (Nat.zero_le _)
    (body := fun i (s : ℝ × Nat) => (s.1 + u i * u i, s.2 + 1)) (s := (0, 0))
    (fun k s => s = (∑ p ∈ Finset.range k, u p ^ 2, k)) (by simp)
    (by
      rintro k s - hk rfl
      rw [Finset.sum_range_succ, pow_two (u k)])
  unfold l2NormBox
  rw [key]

/-- C162: with the sums instead of integrals the numbers are not what their names say.  The mean and the mean of the
absolute value are both the root of the mean square, and what is called the root of the mean square is the fourth root
of the mean fourth power. -/
theorem C162_sums (n : Nat) (hn : 0 < n) (var : Nat → ℝ) :
    (output0dSums n var).mean = Real.sqrt ((∑ p ∈ Finset.range n, var p ^ 2) / n) ∧
    (output0dSums n var).meanAbs = Real.sqrt ((∑ p ∈ Finset.range n, var p ^ 2) / n) ∧
    (output0dSums n var).rms ^ 4 = (∑ p ∈ Finset.range n, var p ^ 4) / n := by
  have hn' : (0 : ℝ) < n := by exact_mod_cast hn
  have h1 : l2NormBox n (fun _ => 1) = 1 := by
    rw [l2NormBox_eq]
    simp [hn'.ne']
  have h4 : 0 ≤ (∑ p ∈ Finset.range n, var p ^ 4) / n :=
    div_nonneg (Finset.sum_nonneg fun p _ => by positivity) hn'.le
  unfold output0dSums output0dBoxvar
  simp only [h1, mul_one, one_ne_zero, if_false, div_one]
  refine ⟨l2NormBox_eq n var, ?_, ?_⟩
  · rw [l2NormBox_eq]; simp only [sq_abs]
  · rw [l2NormBox_eq]
    have e : ∀ p, (var p * var p) ^ 2 = var p ^ 4 := fun p => by ring
    simp only [e]
    have : ∀ x : ℝ, 0 ≤ x → Real.sqrt (Real.sqrt x) ^ 4 = x := by
      intro x hx
      have : Real.sqrt (Real.sqrt x) ^ 4 = ((Real.sqrt (Real.sqrt x)) ^ 2) ^ 2 := by ring
      rw [this, Real.sq_sqrt (Real.sqrt_nonneg _), Real.sq_sqrt hx]
    exact this _ h4

/-- C162: so the mean that is written may be larger than the maximum: for the constant -1 it is 1. -/
theorem C162_counterexample : (output0dSums 3 fun _ => -1).mean = 1 ∧ (output0dSums 3 fun _ => -1).max = -1 := by
  constructor
  · rw [(C162_sums 3 (by norm_num) _).1]
    norm_num
  · obtain ⟨p, _, h⟩ := (out0d_extrema 3 (by norm_num) (fun _ => (-1 : ℝ)) (l2NormBox 3)).2.1
    exact h.symm

end Sgrid
