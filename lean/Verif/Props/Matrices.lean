import Mathlib.Tactic.Ring
import Mathlib.Algebra.BigOperators.Ring.Finset
import Mathlib.Algebra.Field.Rat
import Verif.Model.Matrices
import Verif.Spec.Linear

/-!
# C70: matrices read off from line routines
-/

namespace Sgrid
open Finset
variable {K : Type} [Field K]

theorem upLoop_range_sum {M : Type} [AddCommMonoid M] (f : Nat → M) (n : Nat) :
    upLoop 0 n (fun j s => s + f j) 0 = ∑ j ∈ range n, f j := by
  rw [upLoop_sum, zero_add, Finset.range_eq_Ico]

/-- `matrix_times_vector` computes the product and writes nothing else. -/
theorem matTimesVec_eq (M u w : Nat → K) (n i : Nat) :
    matTimesVec M u w n i = if i < n then ∑ j ∈ range n, M (n * i + j) * u j else w i := by
  unfold matTimesVec
  simp only [upLoop_range_sum]
  rw [upLoop_fill]
  exact if_congr (by omega) rfl rfl

theorem vecTimesMat_eq (u M w : Nat → K) (n j : Nat) :
    vecTimesMat u M w n j = if j < n then ∑ i ∈ range n, u i * M (n * i + j) else w j := by
  unfold vecTimesMat
  simp only [upLoop_range_sum]
  rw [upLoop_fill]
  exact if_congr (by omega) rfl rfl

theorem scalarProd_eq (v w : Nat → K) (n : Nat) : scalarProd v w n = ∑ i ∈ range n, v i * w i := by
  unfold scalarProd; rw [upLoop_range_sum]

/-- Position of an entry determines row and column. -/
theorem pos_inj {n i i' j j' : Nat} (hj : j < n) (hj' : j' < n) (h : n * i + j = n * i' + j') :
    i = i' ∧ j = j' := by
  have hn : 0 < n := by omega
  have h1 : (n * i + j) / n = i := by rw [Nat.mul_add_div hn, Nat.div_eq_of_lt hj, Nat.add_zero]
  have h2 : (n * i' + j') / n = i' := by rw [Nat.mul_add_div hn, Nat.div_eq_of_lt hj', Nat.add_zero]
  have : i = i' := by rw [← h1, h, h2]
  subst this
  omega

theorem pos_lt {n i j : Nat} (hi : i < n) (hj : j < n) : n * i + j < n * n := by
  calc n * i + j < n * i + n := by omega
    _ = n * (i + 1) := by ring
    _ ≤ n * n := Nat.mul_le_mul_left n hi

/-- C70: `matrix_times_matrix` computes the product. -/
theorem C70_matTimesMat (M D w : Nat → K) (n i k : Nat) (hi : i < n) (hk : k < n) :
    matTimesMat M D w n (n * i + k) = ∑ j ∈ range n, M (n * i + j) * D (n * j + k) := by
  unfold matTimesMat
  simp only [upLoop_range_sum]
  have hrow : ∀ (r : Nat) (a : Nat → K) (i k : Nat), k < n →
      upLoop 0 n (fun k MD => aset MD (n * r + k) (∑ j ∈ range n, M (n * r + j) * D (n * j + k))) a
        (n * i + k) =
      if i = r then ∑ j ∈ range n, M (n * r + j) * D (n * j + k) else a (n * i + k) := by
    intro r a i k hk
    have := upLoop_inv (Nat.zero_le n)
      (body := fun k MD => aset MD (n * r + k) (∑ j ∈ range n, M (n * r + j) * D (n * j + k)))
      (s := a) (fun m t => ∀ i k, k < n → t (n * i + k) =
        if i = r ∧ k < m then ∑ j ∈ range n, M (n * r + j) * D (n * j + k) else a (n * i + k))
      (by intro i k _; rw [if_neg (by omega)])
      (by
        intro m t _ hm ht i k hk
        by_cases h : n * i + k = n * r + m
        · obtain ⟨rfl, rfl⟩ := pos_inj hk hm h
          rw [aset_self, if_pos ⟨rfl, by omega⟩]
        · rw [aset_ne _ _ h, ht i k hk]
          have : ¬(i = r ∧ k = m) := fun ⟨h1, h2⟩ => h (by rw [h1, h2])
          exact if_congr (by omega) rfl rfl)
    rw [this i k hk]
    exact if_congr ⟨fun h => h.1, fun h => ⟨h, hk⟩⟩ rfl rfl
  have := upLoop_inv (Nat.zero_le n)
    (body := fun i MD => upLoop 0 n (fun k MD => aset MD (n * i + k)
      (∑ j ∈ range n, M (n * i + j) * D (n * j + k))) MD)
    (s := w) (fun m t => ∀ i k, i < m → k < n →
      t (n * i + k) = ∑ j ∈ range n, M (n * i + j) * D (n * j + k))
    (by intro i k h; omega)
    (by
      intro m t _ _ ht i k him hk
      rw [hrow m t i k hk]
      split
      · subst i; rfl
      · exact ht i k (by omega) hk)
  exact this i k hi hk

omit [Field K] in
theorem setColumn_at (M c : Nat → K) (n j i j' : Nat) (hj : j < n) (hi : i < n) (hj' : j' < n) :
    setColumn M c n j (n * i + j') = if j' = j then c i else M (n * i + j') := by
  unfold setColumn
  have := upLoop_inv (Nat.zero_le n) (body := fun i M => aset M (n * i + j) (c i)) (s := M)
    (fun m t => ∀ i, t (n * i + j') = if j' = j ∧ i < m then c i else M (n * i + j'))
    (by intro i; rw [if_neg (by omega)])
    (by
      intro m t _ _ ht i
      by_cases h : n * i + j' = n * m + j
      · obtain ⟨rfl, rfl⟩ := pos_inj hj' hj h
        rw [aset_self, if_pos ⟨rfl, by omega⟩]
      · rw [aset_ne _ _ h, ht i]
        have : ¬(i = m ∧ j' = j) := fun ⟨h1, h2⟩ => h (by rw [h1, h2])
        exact if_congr (by omega) rfl rfl)
  rw [this i]
  exact if_congr ⟨fun h => h.1, fun h => ⟨h, hi⟩⟩ rfl rfl

omit [Field K] in
theorem setColumn_out (M c : Nat → K) (n j p : Nat) (hj : j < n) (hp : n * n ≤ p) :
    setColumn M c n j p = M p := by
  unfold setColumn
  have := upLoop_inv (Nat.zero_le n) (body := fun i M => aset M (n * i + j) (c i)) (s := M)
    (fun _ t => t p = M p) rfl
    (by
      intro m t _ hm ht
      rw [aset_ne _ _ (by have := pos_lt hm hj; omega), ht])
  exact this

/-- Unit vector number `j`. -/
def unitVec (K : Type) [Field K] (j : Nat) : Nat → K := aset (fun _ => 0) j 1

theorem unitVec_reset (j : Nat) : aset (unitVec K j) j 0 = fun _ => 0 := by
  funext k
  unfold unitVec
  by_cases h : k = j
  · subst h; simp
  · rw [aset_ne _ _ h, aset_ne _ _ h]

theorem sum_unitVec (f : Nat → K) (n j : Nat) (hj : j < n) :
    ∑ k ∈ range n, f k * unitVec K j k = f j := by
  rw [sum_eq_single_of_mem j (mem_range.2 hj)]
  · unfold unitVec; rw [aset_self, mul_one]
  · intro k _ hk
    unfold unitVec; rw [aset_ne _ _ hk, mul_zero]

/-- Loops that put column after column into a matrix, each one computed from a unit vector. -/
theorem probe {σ : Type} (n : Nat) (M u : σ → Nat → K) (body : Nat → σ → σ) (s0 : σ)
    (col : Nat → Nat → K) (hu0 : u s0 = fun _ => 0)
    (hstep : ∀ j s, j < n → u s = (fun _ => 0) → u (body j s) = (fun _ => 0) ∧
      ∃ c, M (body j s) = setColumn (M s) c n j ∧ ∀ i, i < n → c i = col i j) :
    (∀ i j, i < n → j < n → M (upLoop 0 n body s0) (n * i + j) = col i j) ∧
    ∀ p, n * n ≤ p → M (upLoop 0 n body s0) p = M s0 p := by
  have := upLoop_inv (Nat.zero_le n) (body := body) (s := s0)
    (fun m s => u s = (fun _ => 0) ∧
      (∀ i j, i < n → j < m → j < n → M s (n * i + j) = col i j) ∧
      ∀ p, n * n ≤ p → M s p = M s0 p)
    ⟨hu0, by intro i j _ h; omega, fun _ _ => rfl⟩
    (by
      intro m s _ hm ⟨h1, h2, h3⟩
      obtain ⟨g1, c, g2, g3⟩ := hstep m s hm h1
      refine ⟨g1, ?_, ?_⟩
      · intro i j hi hjm hj
        rw [g2, setColumn_at _ _ _ _ _ _ hm hi hj]
        split
        · subst j; exact g3 i hi
        · exact h2 i j hi (by omega) hj
      · intro p hp
        rw [g2, setColumn_out _ _ _ _ _ hm hp, h3 p hp])
  exact ⟨fun i j hi hj => this.2.1 i j hi hj hj, this.2.2⟩

/-- The linear routines are the ones that multiply by a matrix. -/
theorem lineLinear_iff (f : LineFun K) (n : Nat) :
    Spec.LineLinear f n ↔ ∃ A, Spec.IsMatrix A f n := by
  constructor
  · intro h
    refine ⟨fun i j => f (fun _ => 0) (unitVec K j) (n - 1) i, ?_⟩
    intro out u i hi
    have hz : ∀ s : Finset Nat, f (fun _ => 0) (fun k => ∑ j ∈ s, u j * unitVec K j k) (n - 1) i =
        ∑ j ∈ s, f (fun _ => 0) (unitVec K j) (n - 1) i * u j := by
      intro s
      induction s using Finset.induction_on with
      | empty =>
        simp only [sum_empty]
        have := h.smul (fun _ => 0) 0 (fun _ => 0) i hi
        simpa using this
      | insert j s hj ih =>
        have e : (fun k => ∑ j ∈ insert j s, u j * unitVec K j k) =
            fun k => u j * unitVec K j k + ∑ j ∈ s, u j * unitVec K j k := by
          funext k; rw [sum_insert hj]
        rw [e, h.add _ _ _ i hi, h.smul _ _ _ i hi, sum_insert hj, ih, mul_comm (u j)]
    rw [← hz (range n)]
    apply h.loc _ _ _ _ _ i hi
    intro k hk
    rw [sum_eq_single_of_mem k (mem_range.2 hk)]
    · unfold unitVec; rw [aset_self, mul_one]
    · intro j _ hjk
      unfold unitVec; rw [aset_ne _ _ (Ne.symm hjk), mul_zero]
  · rintro ⟨A, hA⟩
    refine ⟨?_, ?_, ?_⟩
    · intro out out' u v huv i hi
      rw [hA _ _ _ hi, hA _ _ _ hi]
      exact sum_congr rfl fun j hj => by rw [huv j (mem_range.1 hj)]
    · intro out u v i hi
      rw [hA _ _ _ hi, hA _ _ _ hi, hA _ _ _ hi, ← sum_add_distrib]
      exact sum_congr rfl fun j _ => by ring
    · intro out s u i hi
      rw [hA _ _ _ hi, hA _ _ _ hi, mul_sum]
      exact sum_congr rfl fun j _ => by ring

/-- **C70.** Multiplying by the matrix that `initMatrix_ForCoeffs` or `initMatrix_ToEvaluate` reads off
from a linear routine is the same as calling the routine, for every line. -/
theorem C70_matrix (f : LineFun K) (n : Nat) (hf : Spec.LineLinear f n) (M0 u w w' : Nat → K)
    (i : Nat) (hi : i < n) :
    matTimesVec (initMatrix M0 n f) u w n i = f w' u (n - 1) i := by
  obtain ⟨A, hA⟩ := (lineLinear_iff f n).1 hf
  rw [matTimesVec_eq, if_pos hi, hA _ _ _ hi]
  refine sum_congr rfl fun j hj => ?_
  congr 1
  refine (probe n (fun s : (Nat → K) × (Nat → K) × (Nat → K) => s.1) (fun s => s.2.1) _ _ A rfl ?_).1
    i j hi (mem_range.1 hj)
  intro j s hj hu
  simp only at hu ⊢
  rw [hu]
  refine ⟨unitVec_reset j, _, rfl, ?_⟩
  intro i hi
  rw [hA _ _ _ hi]
  exact sum_unitVec (A i) n j hj

/-- **C70.** The matrices that `initdiffmatrix` sets up act like the three routines: `D` takes values to
coefficients, differentiates once and goes back to values, `DD` differentiates twice. -/
theorem C70_diffmatrix (coeffs deriv eval : LineFun K) (n : Nat) (hc : Spec.LineLinear coeffs n)
    (hd : Spec.LineLinear deriv n) (he : Spec.LineLinear eval n)
    (D0 DD0 u w w1 w2 w3 w4 : Nat → K) (i : Nat) (hi : i < n) :
    matTimesVec (initDiff D0 DD0 n coeffs deriv eval).1 u w n i =
      eval w1 (deriv w2 (coeffs w3 u (n - 1)) (n - 1)) (n - 1) i ∧
    matTimesVec (initDiff D0 DD0 n coeffs deriv eval).2 u w n i =
      eval w1 (deriv w2 (deriv w4 (coeffs w3 u (n - 1)) (n - 1)) (n - 1)) (n - 1) i := by
  obtain ⟨C, hC⟩ := (lineLinear_iff coeffs n).1 hc
  obtain ⟨G, hG⟩ := (lineLinear_iff deriv n).1 hd
  obtain ⟨E, hE⟩ := (lineLinear_iff eval n).1 he
  have hbody : ∀ j (s : DiffState K), j < n → s.u = (fun _ => 0) →
      (initDiffBody n coeffs deriv eval j s).u = (fun _ => 0) ∧
      (∃ c, (initDiffBody n coeffs deriv eval j s).D = setColumn s.D c n j ∧
        ∀ i, i < n → c i = ∑ k ∈ range n, E i k * ∑ l ∈ range n, G k l * C l j) ∧
      ∃ c, (initDiffBody n coeffs deriv eval j s).DD = setColumn s.DD c n j ∧
        ∀ i, i < n → c i = ∑ k ∈ range n, E i k * ∑ l ∈ range n, G k l * ∑ m ∈ range n, G l m * C m j := by
    intro j s hj hu
    unfold initDiffBody
    simp only [hu]
    have hcc : ∀ out l, l < n → coeffs out (aset (fun _ => 0) j 1) (n - 1) l = C l j := by
      intro out l hl
      rw [hC _ _ _ hl]; exact sum_unitVec (C l) n j hj
    have hdd : ∀ out out' k, k < n → deriv out (coeffs out' (aset (fun _ => 0) j 1) (n - 1)) (n - 1) k =
        ∑ l ∈ range n, G k l * C l j := by
      intro out out' k hk
      rw [hG _ _ _ hk]
      exact sum_congr rfl fun l hl => by rw [hcc _ l (mem_range.1 hl)]
    refine ⟨unitVec_reset j, ⟨_, rfl, ?_⟩, ⟨_, rfl, ?_⟩⟩
    · intro i hi
      rw [hE _ _ _ hi]
      exact sum_congr rfl fun k hk => by rw [hdd _ _ k (mem_range.1 hk)]
    · intro i hi
      rw [hE _ _ _ hi]
      refine sum_congr rfl fun k hk => ?_
      rw [hG _ _ _ (mem_range.1 hk)]
      congr 1
      exact sum_congr rfl fun l hl => by rw [hdd _ _ l (mem_range.1 hl)]
  have hswap : ∀ (A : Nat → Nat → K) (B : Nat → Nat → K) k,
      ∑ j ∈ range n, (∑ l ∈ range n, A k l * B l j) * u j =
      ∑ l ∈ range n, A k l * ∑ j ∈ range n, B l j * u j := by
    intro A B k
    simp only [sum_mul, mul_sum]
    rw [sum_comm]
    exact sum_congr rfl fun l _ => sum_congr rfl fun j _ => by ring
  have hcu : ∀ l, l < n → coeffs w3 u (n - 1) l = ∑ j ∈ range n, C l j * u j := fun l hl => hC _ _ _ hl
  have hdu : ∀ out k, k < n → deriv out (coeffs w3 u (n - 1)) (n - 1) k =
      ∑ j ∈ range n, (∑ l ∈ range n, G k l * C l j) * u j := by
    intro out k hk
    rw [hG _ _ _ hk, hswap G C k]
    exact sum_congr rfl fun l hl => by rw [hcu l (mem_range.1 hl)]
  constructor
  · rw [matTimesVec_eq, if_pos hi, hE _ _ _ hi]
    have e : ∀ j ∈ range n, (initDiff D0 DD0 n coeffs deriv eval).1 (n * i + j) * u j =
        (∑ k ∈ range n, E i k * ∑ l ∈ range n, G k l * C l j) * u j := by
      intro j hj
      congr 1
      exact (probe n DiffState.D DiffState.u (initDiffBody n coeffs deriv eval)
        ⟨D0, DD0, fun _ => 0, fun _ => 0, fun _ => 0⟩ _ rfl
        fun j s hj hu => ⟨(hbody j s hj hu).1, (hbody j s hj hu).2.1⟩).1 i j hi (mem_range.1 hj)
    rw [sum_congr rfl e, hswap E (fun k j => ∑ l ∈ range n, G k l * C l j) i]
    exact sum_congr rfl fun k hk => by rw [hdu _ k (mem_range.1 hk)]
  · rw [matTimesVec_eq, if_pos hi, hE _ _ _ hi]
    have e : ∀ j ∈ range n, (initDiff D0 DD0 n coeffs deriv eval).2 (n * i + j) * u j =
        (∑ k ∈ range n, E i k * ∑ l ∈ range n, G k l * ∑ m ∈ range n, G l m * C m j) * u j := by
      intro j hj
      congr 1
      exact (probe n DiffState.DD DiffState.u (initDiffBody n coeffs deriv eval)
        ⟨D0, DD0, fun _ => 0, fun _ => 0, fun _ => 0⟩ _ rfl
        fun j s hj hu => ⟨(hbody j s hj hu).1, (hbody j s hj hu).2.2⟩).1 i j hi (mem_range.1 hj)
    rw [sum_congr rfl e, hswap E (fun k j => ∑ l ∈ range n, G k l * ∑ m ∈ range n, G l m * C m j) i]
    refine sum_congr rfl fun k hk => ?_
    rw [hG _ _ _ (mem_range.1 hk), hswap G (fun l j => ∑ m ∈ range n, G l m * C m j) k]
    congr 1
    exact sum_congr rfl fun l hl => by rw [hdu _ l (mem_range.1 hl)]

/-- **C70.** The matrices of `initdiffmatrix2`, `initIntegrationMatrix` and
`init_fdcentered_diffmatrix`. -/
theorem C70_opmatrix (coeffs op eval : LineFun K) (n : Nat) (hc : Spec.LineLinear coeffs n)
    (hd : Spec.LineLinear op n) (he : Spec.LineLinear eval n)
    (D0 u w w1 w2 w3 : Nat → K) (i : Nat) (hi : i < n) :
    matTimesVec (initOp D0 n coeffs op eval) u w n i =
      eval w1 (op w2 (coeffs w3 u (n - 1)) (n - 1)) (n - 1) i := by
  obtain ⟨C, hC⟩ := (lineLinear_iff coeffs n).1 hc
  obtain ⟨G, hG⟩ := (lineLinear_iff op n).1 hd
  obtain ⟨E, hE⟩ := (lineLinear_iff eval n).1 he
  have hswap : ∀ (A : Nat → Nat → K) (B : Nat → Nat → K) k,
      ∑ j ∈ range n, (∑ l ∈ range n, A k l * B l j) * u j =
      ∑ l ∈ range n, A k l * ∑ j ∈ range n, B l j * u j := by
    intro A B k
    simp only [sum_mul, mul_sum]
    rw [sum_comm]
    exact sum_congr rfl fun l _ => sum_congr rfl fun j _ => by ring
  rw [matTimesVec_eq, if_pos hi, hE _ _ _ hi]
  have e : ∀ j ∈ range n, initOp D0 n coeffs op eval (n * i + j) * u j =
      (∑ k ∈ range n, E i k * ∑ l ∈ range n, G k l * C l j) * u j := by
    intro j hj
    congr 1
    unfold initOp
    refine (probe n (fun s : (Nat → K) × (Nat → K) × (Nat → K) × (Nat → K) => s.1) (fun s => s.2.1)
      _ (D0, fun _ => 0, fun _ => 0, fun _ => 0) (fun i j => ∑ k ∈ range n, E i k *
        ∑ l ∈ range n, G k l * C l j) rfl ?_).1 i j hi (mem_range.1 hj)
    intro j s hj hu
    simp only at hu ⊢
    rw [hu]
    refine ⟨unitVec_reset j, _, rfl, ?_⟩
    intro i hi
    rw [hE _ _ _ hi]
    refine sum_congr rfl fun k hk => ?_
    rw [hG _ _ _ (mem_range.1 hk)]
    congr 1
    refine sum_congr rfl fun l hl => ?_
    rw [hC _ _ _ (mem_range.1 hl)]
    congr 1
    exact sum_unitVec (C l) n j hj
  rw [sum_congr rfl e, hswap E (fun k j => ∑ l ∈ range n, G k l * C l j) i]
  refine sum_congr rfl fun k hk => ?_
  rw [hG _ _ _ (mem_range.1 hk), hswap G C k]
  congr 1
  exact sum_congr rfl fun l hl => by rw [hC _ _ _ (mem_range.1 hl)]

/-- The matrix that reverses two numbers and doubles one of them. -/
example : (List.range 4).map (initMatrix (K := ℚ) (fun _ => 7) 2
    fun out inp _ => aset (aset out 0 (inp 1)) 1 (2 * inp 0)) = [0, 1, 2, 0] := by decide +kernel

/-- A product of two matrices. -/
example : (List.range 4).map (matTimesMat (K := ℚ) (fun p => [1, 2, 3, 4].getD p 0)
    (fun p => [0, 1, 1, 1].getD p 0) (fun _ => 0) 2) = [2, 3, 4, 7] := by decide +kernel

end Sgrid
