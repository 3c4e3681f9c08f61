import Mathlib.LinearAlgebra.Matrix.NonsingularInverse
import Mathlib.Analysis.SpecialFunctions.Trigonometric.Basic
import Verif.Props.Matrices
import Verif.Props.Cheb
import Verif.Props.Fourier
import Verif.Model.FiniteDiff

/-!
The routines of the bases are linear, and for a pair of linear routines one inverse relation implies
the other one.
-/

namespace Sgrid
open Finset Real

section
variable {K : Type} [Field K]

/-- If evaluating after analysing is the identity on `n` points, then so is analysing after
evaluating. -/
theorem roundtrip_swap {f g : LineFun K} {n : Nat} (hf : Spec.LineLinear f n)
    (hg : Spec.LineLinear g n)
    (h : ∀ u w w' j, j < n → g w (f w' u (n - 1)) (n - 1) j = u j) (c w w' : Nat → K) (j : Nat)
    (hj : j < n) : f w (g w' c (n - 1)) (n - 1) j = c j := by
  obtain ⟨A, hA⟩ := (lineLinear_iff f n).1 hf
  obtain ⟨B, hB⟩ := (lineLinear_iff g n).1 hg
  let MA : Matrix (Fin n) (Fin n) K := fun i j => A i j
  let MB : Matrix (Fin n) (Fin n) K := fun i j => B i j
  have hBA : MB * MA = 1 := by
    ext i j
    rw [Matrix.mul_apply]
    have := h (unitVec K j) (fun _ => 0) (fun _ => 0) i i.2
    rw [hB _ _ _ i.2] at this
    have e : ∀ k ∈ range n, B i k * f (fun _ => 0) (unitVec K j) (n - 1) k = B i k * A k j := by
      intro k hk
      rw [hA _ _ _ (mem_range.1 hk), sum_unitVec (A k) n j j.2]
    rw [sum_congr rfl e] at this
    rw [← Fin.sum_univ_eq_sum_range (fun k => B i k * A k j) n] at this
    rw [Matrix.one_apply]
    refine this.trans ?_
    unfold unitVec
    by_cases hij : i = j
    · subst hij; simp
    · rw [aset_ne _ _ (fun h => hij (Fin.ext h)), if_neg hij]
  have hAB : MA * MB = 1 := mul_eq_one_comm.1 hBA
  have hent : ∀ i k : Fin n, ∑ l ∈ range n, A i l * B l k = if i = k then 1 else 0 := by
    intro i k
    have := congrFun (congrFun hAB i) k
    rw [Matrix.mul_apply, Matrix.one_apply] at this
    rw [← this, ← Fin.sum_univ_eq_sum_range (fun l => A i l * B l k) n]
  rw [hA _ _ _ hj]
  have e : ∀ l ∈ range n, A j l * g w' c (n - 1) l = ∑ k ∈ range n, A j l * B l k * c k := by
    intro l hl
    rw [hB _ _ _ (mem_range.1 hl), mul_sum]
    exact sum_congr rfl fun k _ => by ring
  rw [sum_congr rfl e, sum_comm]
  have e2 : ∀ k ∈ range n, ∑ l ∈ range n, A j l * B l k * c k = if j = k then c k else 0 := by
    intro k hk
    rw [← sum_mul, hent ⟨j, hj⟩ ⟨k, mem_range.1 hk⟩]
    simp only [Fin.mk.injEq]
    split <;> simp
  rw [sum_congr rfl e2, sum_ite_eq, if_pos (mem_range.2 hj)]

/-- Composition of linear routines. -/
theorem LineLinear.comp {f g : LineFun K} {n : Nat} (hf : Spec.LineLinear f n)
    (hg : Spec.LineLinear g n) (w : Nat → K) :
    Spec.LineLinear (fun out u m => g out (f w u m) m) n := by
  refine ⟨?_, ?_, ?_⟩
  · intro out out' u v h i hi
    exact hg.loc _ _ _ _ (fun j hj => hf.loc _ _ _ _ h j hj) i hi
  · intro out u v i hi
    rw [← hg.add _ _ _ i hi]
    exact hg.loc _ _ _ _ (fun j hj => hf.add _ _ _ j hj) i hi
  · intro out s u i hi
    rw [← hg.smul _ _ _ i hi]
    exact hg.loc _ _ _ _ (fun j hj => hf.smul _ _ _ j hj) i hi

/-! ## Finite differences -/

omit [Field K] in
theorem fd2Coeffs_eq (c u : Nat → K) (n j : Nat) : fd2Coeffs c u n j = if j ≤ n then u j else c j := by
  unfold fd2Coeffs; rw [upLoop_fill]; exact if_congr (by omega) rfl rfl

omit [Field K] in
theorem fd2Eval_eq (c u : Nat → K) (n j : Nat) : fd2Eval c u n j = if j ≤ n then c j else u j := by
  unfold fd2Eval; rw [upLoop_fill]; exact if_congr (by omega) rfl rfl

theorem fd2Coeffs_linear (n : Nat) : Spec.LineLinear (K := K) fd2Coeffs n := by
  refine ⟨?_, ?_, ?_⟩
  · intro out out' u v h i hi
    rw [fd2Coeffs_eq, fd2Coeffs_eq, if_pos (by omega), if_pos (by omega), h i hi]
  · intro out u v i hi
    rw [fd2Coeffs_eq, fd2Coeffs_eq, fd2Coeffs_eq, if_pos (by omega), if_pos (by omega),
      if_pos (by omega)]
  · intro out s u i hi
    rw [fd2Coeffs_eq, fd2Coeffs_eq, if_pos (by omega), if_pos (by omega)]

theorem fd2Eval_linear (n : Nat) : Spec.LineLinear (K := K) (fun out c m => fd2Eval c out m) n := by
  refine ⟨?_, ?_, ?_⟩
  · intro out out' u v h i hi
    rw [fd2Eval_eq, fd2Eval_eq, if_pos (by omega), if_pos (by omega), h i hi]
  · intro out u v i hi
    rw [fd2Eval_eq, fd2Eval_eq, fd2Eval_eq, if_pos (by omega), if_pos (by omega),
      if_pos (by omega)]
  · intro out s u i hi
    rw [fd2Eval_eq, fd2Eval_eq, if_pos (by omega), if_pos (by omega)]

/-! ## Chebyshev derivatives -/

/-- `cheb_deriv` in closed form: coefficient `j` is twice the sum of `k c_k` over the `k > j` of the
other parity. -/
theorem chebDeriv_eq (a b : K) (c cder : Nat → K) (n j : Nat) :
    chebDeriv a b c cder n j = if j ≤ n then
      (∑ k ∈ Ico (j + 1) (n + 1), if (k - j) % 2 = 1 then 2 * (k : K) * c k else 0) * (2 / (a - b))
      else cder j := by
  obtain ⟨D, h0, hD, hr⟩ := deriv_rec a b c cder n
  rw [hr]
  split
  · congr 1
    have key : ∀ m j, n + 1 - j ≤ m →
        D j = ∑ k ∈ Ico (j + 1) (n + 1), if (k - j) % 2 = 1 then 2 * (k : K) * c k else 0 := by
      intro m
      induction m with
      | zero =>
        intro j hj
        rw [h0 j (by omega), Ico_eq_empty (by omega), sum_empty]
      | succ m ih =>
        intro j hj
        by_cases hjn : n ≤ j
        · rw [h0 j hjn, Ico_eq_empty (by omega), sum_empty]
        · have hd := hD j (by omega)
          have : D j = D (j + 2) + 2 * ((j + 1 : Nat) : K) * c (j + 1) := by
            rw [hd]; push_cast; rfl
          rw [this, ih (j + 2) (by omega), sum_eq_sum_Ico_succ_bot (by omega : j + 1 < n + 1)]
          rw [if_pos (by omega)]
          rw [add_comm]
          congr 1
          by_cases hj2 : j + 1 = n
          · rw [Ico_eq_empty (by omega), Ico_eq_empty (by omega)]; rfl
          · rw [sum_eq_sum_Ico_succ_bot (by omega : j + 1 + 1 < n + 1), if_neg (by omega), zero_add]
            refine sum_congr rfl fun k hk => ?_
            have := mem_Ico.1 hk
            exact if_congr (by omega) rfl rfl
    exact key _ j le_rfl
  · rfl

theorem chebDeriv_linear (a b : K) (n : Nat) :
    Spec.LineLinear (fun out c m => chebDeriv a b c out m) n := by
  refine ⟨?_, ?_, ?_⟩
  · intro out out' u v h i hi
    rw [chebDeriv_eq, chebDeriv_eq, if_pos (by omega), if_pos (by omega)]
    congr 1
    refine sum_congr rfl fun k hk => ?_
    have := mem_Ico.1 hk
    rw [h k (by omega)]
  · intro out u v i hi
    rw [chebDeriv_eq, chebDeriv_eq, chebDeriv_eq, if_pos (by omega), if_pos (by omega),
      if_pos (by omega), ← add_mul, ← sum_add_distrib]
    congr 1
    refine sum_congr rfl fun k _ => ?_
    split <;> ring
  · intro out s u i hi
    rw [chebDeriv_eq, chebDeriv_eq, if_pos (by omega), if_pos (by omega), ← mul_assoc, mul_sum]
    congr 1
    refine sum_congr rfl fun k _ => ?_
    split <;> ring

/-- A filter that sets entries to zero. -/
theorem zeroTail_eq (c : Nat → K) (k n j : Nat) :
    upLoop k (n + 1) (fun j c => aset c j 0) c j = if k ≤ j ∧ j ≤ n then 0 else c j := by
  rw [upLoop_fill (fun _ => (0 : K))]
  exact if_congr (by omega) rfl rfl

end

/-! ## Transforms -/

theorem fromExtrema_linear (n : Nat) : Spec.LineLinear chebFromExtrema n := by
  refine ⟨?_, ?_, ?_⟩
  · intro out out' u v h i hi
    have hin : ¬ n - 1 < i := by omega
    rw [fromExtrema_eq, fromExtrema_eq, if_neg hin, if_neg hin, h 0 (by omega),
      h (n - 1) (by omega)]
    have e : ∑ k ∈ Ico 1 (n - 1), cos (i * (π / (n - 1 : Nat)) * k) * u k =
        ∑ k ∈ Ico 1 (n - 1), cos (i * (π / (n - 1 : Nat)) * k) * v k :=
      sum_congr rfl fun k hk => by rw [h k (by have := mem_Ico.1 hk; omega)]
    rw [e]
  · intro out u v i hi
    have hin : ¬ n - 1 < i := by omega
    rw [fromExtrema_eq, fromExtrema_eq, fromExtrema_eq, if_neg hin, if_neg hin,
      if_neg hin]
    simp only [mul_add, sum_add_distrib]
    ring
  · intro out s u i hi
    have hin : ¬ n - 1 < i := by omega
    rw [fromExtrema_eq, fromExtrema_eq, if_neg hin, if_neg hin]
    have e : ∑ k ∈ Ico 1 (n - 1), cos (i * (π / (n - 1 : Nat)) * k) * (s * u k) =
        s * ∑ k ∈ Ico 1 (n - 1), cos (i * (π / (n - 1 : Nat)) * k) * u k := by
      rw [mul_sum]; exact sum_congr rfl fun k _ => by ring
    rw [e]; ring

theorem onExtrema_linear (n : Nat) :
    Spec.LineLinear (fun out c m => chebOnExtrema c out m) n := by
  refine ⟨?_, ?_, ?_⟩
  · intro out out' u v h i hi
    rw [onExtrema_eq, onExtrema_eq, if_neg (by omega), if_neg (by omega), h 0 (by omega)]
    congr 1
    exact sum_congr rfl fun k hk => by rw [h k (by have := mem_Ico.1 hk; omega)]
  · intro out u v i hi
    rw [onExtrema_eq, onExtrema_eq, onExtrema_eq, if_neg (by omega), if_neg (by omega),
      if_neg (by omega)]
    simp only [add_mul, mul_add, sum_add_distrib]
    ring
  · intro out s u i hi
    rw [onExtrema_eq, onExtrema_eq, if_neg (by omega), if_neg (by omega)]
    rw [mul_add, mul_sum]
    congr 1
    · ring
    · exact sum_congr rfl fun k _ => by ring

theorem fromZeros_linear (n : Nat) : Spec.LineLinear chebFromZeros n := by
  refine ⟨?_, ?_, ?_⟩
  · intro out out' u v h i hi
    rw [fromZeros_eq, fromZeros_eq, if_neg (by omega), if_neg (by omega)]
    congr 1
    exact sum_congr rfl fun k hk => by rw [h k (by have := mem_range.1 hk; omega)]
  · intro out u v i hi
    rw [fromZeros_eq, fromZeros_eq, fromZeros_eq, if_neg (by omega), if_neg (by omega),
      if_neg (by omega), ← mul_add, ← sum_add_distrib]
    congr 1
    exact sum_congr rfl fun k _ => by ring
  · intro out s u i hi
    rw [fromZeros_eq, fromZeros_eq, if_neg (by omega), if_neg (by omega), mul_left_comm]
    congr 1
    rw [mul_sum]
    exact sum_congr rfl fun k _ => by ring

theorem onZeros_linear (n : Nat) :
    Spec.LineLinear (fun out c m => chebOnZeros c out m) n := by
  refine ⟨?_, ?_, ?_⟩
  · intro out out' u v h i hi
    rw [onZeros_eq, onZeros_eq, if_neg (by omega), if_neg (by omega), h 0 (by omega)]
    congr 1
    exact sum_congr rfl fun k hk => by rw [h k (by have := mem_Ico.1 hk; omega)]
  · intro out u v i hi
    rw [onZeros_eq, onZeros_eq, onZeros_eq, if_neg (by omega), if_neg (by omega),
      if_neg (by omega)]
    simp only [add_mul, mul_add, sum_add_distrib]
    ring
  · intro out s u i hi
    rw [onZeros_eq, onZeros_eq, if_neg (by omega), if_neg (by omega)]
    rw [mul_add, mul_sum]
    congr 1
    · ring
    · exact sum_congr rfl fun k _ => by ring

theorem fourCoeffs_linear (n : Nat) : Spec.LineLinear fourCoeffs n := by
  refine ⟨?_, ?_, ?_⟩
  · intro out out' u v h i hi
    have hin : ¬ n - 1 < i := by omega
    rw [fourCoeffs_eq, fourCoeffs_eq, if_neg hin, if_neg hin]
    have hr : ∀ k ∈ range (n - 1 + 1), u k = v k := fun k hk =>
      h k (by have := mem_range.1 hk; omega)
    split
    · exact sum_congr rfl hr
    · split <;> exact sum_congr rfl fun k hk => by rw [hr k hk]
  · intro out u v i hi
    have hin : ¬ n - 1 < i := by omega
    rw [fourCoeffs_eq, fourCoeffs_eq, fourCoeffs_eq, if_neg hin, if_neg hin,
      if_neg hin]
    split
    · rw [sum_add_distrib]
    · split <;> (rw [← sum_add_distrib]; exact sum_congr rfl fun k _ => by ring)
  · intro out s u i hi
    have hin : ¬ n - 1 < i := by omega
    rw [fourCoeffs_eq, fourCoeffs_eq, if_neg hin, if_neg hin]
    split
    · rw [mul_sum]
    · split <;> (rw [mul_sum]; exact sum_congr rfl fun k _ => by ring)

theorem fourEval_linear (n : Nat) : Spec.LineLinear (fun out c m => fourEval c out m) n := by
  have hs := fun (c : Nat → ℝ) (u : Nat → ℝ) (i : Nat) (hi : i < n) =>
    C33_eval 0 1 (by norm_num) c u (n - 1) i (by omega)
  refine ⟨?_, ?_, ?_⟩
  · intro out out' u v h i hi
    rw [hs _ _ i hi, hs _ _ i hi]
    exact fourSeries_congr _ _ _ _ _ (by omega) _ fun k hk => h k (by omega)
  · intro out u v i hi
    rw [hs _ _ i hi, hs _ _ i hi, hs _ _ i hi]
    have := fourSeries_lin 0 1 1 u v (n - 1 + 1) (0 + i * (1 - 0) / (n - 1 + 1 : Nat))
    simpa only [mul_one, one_mul] using this
  · intro out s u i hi
    rw [hs _ _ i hi, hs _ _ i hi]
    have := fourSeries_lin 0 1 s u (fun _ => 0) (n - 1 + 1) (0 + i * (1 - 0) / (n - 1 + 1 : Nat))
    have hz : Spec.fourSeries 0 1 (fun _ => 0) (n - 1 + 1) (0 + i * (1 - 0) / (n - 1 + 1 : Nat)) =
        0 := by
      unfold Spec.fourSeries; simp
    rw [hz, add_zero] at this
    rw [← this]
    congr 1
    funext k; ring

theorem fourDeriv_linear (a b : ℝ) (n : Nat) :
    Spec.LineLinear (fun out c m => fourDeriv a b c out m) n := by
  -- every index is the constant, the last cosine, a cosine or a sine
  have hcase : ∀ i, i < n → i = 0 ∨ (n % 2 = 0 ∧ i = n - 1) ∨
      (∃ k, 1 ≤ k ∧ 2 * k ≤ n - 1 ∧ i = 2 * k - 1) ∨ ∃ k, 1 ≤ k ∧ 2 * k ≤ n - 1 ∧ i = 2 * k := by
    intro i hi
    by_cases h0 : i = 0
    · exact .inl h0
    · by_cases h1 : n % 2 = 0 ∧ i = n - 1
      · exact .inr (.inl h1)
      · by_cases h2 : i % 2 = 1
        · exact .inr (.inr (.inl ⟨(i + 1) / 2, by omega, by omega, by omega⟩))
        · exact .inr (.inr (.inr ⟨i / 2, by omega, by omega, by omega⟩))
  refine ⟨?_, ?_, ?_⟩
  · intro out out' u v h i hi
    obtain ⟨p0, pk, pn, -⟩ := fourDeriv_eq a b u out (n - 1)
    obtain ⟨q0, qk, qn, -⟩ := fourDeriv_eq a b v out' (n - 1)
    rcases hcase i hi with rfl | ⟨hn, rfl⟩ | ⟨k, h1, h2, rfl⟩ | ⟨k, h1, h2, rfl⟩
    · rw [p0, q0]
    · rw [pn (by omega), qn (by omega)]
    · rw [(pk k h1 h2).1, (qk k h1 h2).1, h _ (by omega)]
    · rw [(pk k h1 h2).2, (qk k h1 h2).2, h _ (by omega)]
  · intro out u v i hi
    obtain ⟨p0, pk, pn, -⟩ := fourDeriv_eq a b u out (n - 1)
    obtain ⟨q0, qk, qn, -⟩ := fourDeriv_eq a b v out (n - 1)
    obtain ⟨r0, rk, rn, -⟩ := fourDeriv_eq a b (fun j => u j + v j) out (n - 1)
    rcases hcase i hi with rfl | ⟨hn, rfl⟩ | ⟨k, h1, h2, rfl⟩ | ⟨k, h1, h2, rfl⟩
    · rw [p0, q0, r0, add_zero]
    · rw [pn (by omega), qn (by omega), rn (by omega), add_zero]
    · rw [(pk k h1 h2).1, (qk k h1 h2).1, (rk k h1 h2).1]; ring
    · rw [(pk k h1 h2).2, (qk k h1 h2).2, (rk k h1 h2).2]; ring
  · intro out s u i hi
    obtain ⟨p0, pk, pn, -⟩ := fourDeriv_eq a b u out (n - 1)
    obtain ⟨r0, rk, rn, -⟩ := fourDeriv_eq a b (fun j => s * u j) out (n - 1)
    rcases hcase i hi with rfl | ⟨hn, rfl⟩ | ⟨k, h1, h2, rfl⟩ | ⟨k, h1, h2, rfl⟩
    · rw [p0, r0, mul_zero]
    · rw [pn (by omega), rn (by omega), mul_zero]
    · rw [(pk k h1 h2).1, (rk k h1 h2).1]; ring
    · rw [(pk k h1 h2).2, (rk k h1 h2).2]; ring

/-! ## Analysing after evaluating -/

/-- Chebyshev extrema: coefficients, values and coefficients again. -/
theorem C31_extrema_coeffs (n : Nat) (hn : 2 ≤ n) (c w w' : Nat → ℝ) (j : Nat) (hj : j < n) :
    chebFromExtrema w (chebOnExtrema c w' (n - 1)) (n - 1) j = c j :=
  roundtrip_swap (fromExtrema_linear n) (onExtrema_linear n)
    (fun u w w' j hj => C31_extrema (n - 1) (by omega) u w' w j (by omega)) c w w' j hj

/-- Chebyshev zeros. -/
theorem C32_zeros_coeffs (n : Nat) (c w w' : Nat → ℝ) (j : Nat) (hj : j < n) :
    chebFromZeros w (chebOnZeros c w' (n - 1)) (n - 1) j = c j :=
  roundtrip_swap (fromZeros_linear n) (onZeros_linear n)
    (fun u w w' j hj => C32_zeros (n - 1) u w' w j (by omega)) c w w' j hj

/-- Fourier. -/
theorem C33_coeffs (n : Nat) (c w w' : Nat → ℝ) (j : Nat) (hj : j < n) :
    fourCoeffs w (fourEval c w' (n - 1)) (n - 1) j = c j :=
  roundtrip_swap (fourCoeffs_linear n) (fourEval_linear n)
    (fun u w w' j hj => C33_inverse u w' w (n - 1) j (by omega)) c w w' j hj

end Sgrid
