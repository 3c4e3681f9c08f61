import Mathlib.LinearAlgebra.Matrix.Determinant.Basic
import Mathlib.LinearAlgebra.Matrix.Block
import Mathlib.LinearAlgebra.Matrix.ToLinearEquiv
import Mathlib.Algebra.BigOperators.Fin
import Mathlib.Algebra.BigOperators.Ring.Finset
import Mathlib.Algebra.Order.Field.Basic
import Mathlib.Tactic.FieldSimp
import Mathlib.Tactic.Linarith
import Mathlib.Tactic.LinearCombination
import Mathlib.Tactic.Ring
import Verif.Model.LU

/-!
# C46: LU decomposition, solution and determinant
-/

namespace Sgrid

open Finset

namespace Spec

/-- The matrix with the entries `A[i][j]`, `0 ≤ i,j < n`. -/
def matrix {K : Type} (n : Nat) (A : Nat → Nat → K) : Matrix (Fin n) (Fin n) K :=
  Matrix.of fun i j => A i j

end Spec

section
set_option linter.unusedSectionVars false
variable {K : Type} [Field K] [LinearOrder K] [IsStrictOrderedRing K]

theorem mset_self (A : Mat K) (i j : Nat) (x : K) : mset A i j x i j = x := by
  simp [mset]

theorem mset_ne (A : Mat K) {i j i' j' : Nat} (x : K) (h : ¬(i' = i ∧ j' = j)) :
    mset A i j x i' j' = A i' j' := by
  simp [mset, h]

theorem luBig_spec (n : Nat) (f : Nat → K) :
    0 ≤ luBig n f ∧ (luBig n f = 0 ↔ ∀ i, i < n → f i = 0) := by
  have := upLoop_inv (Nat.zero_le n) (body := fun i big => if big < |f i| then |f i| else big)
    (s := (0 : K)) (fun m t => 0 ≤ t ∧ (t = 0 ↔ ∀ i, i < m → f i = 0)) (by simp) (by
      intro j t _ _ ⟨h1, h2⟩
      split
      · rename_i h
        refine ⟨abs_nonneg _, ⟨fun h0 => absurd h (by rw [h0]; exact not_lt.mpr h1), fun h0 => ?_⟩⟩
        rw [h0 j (by omega), abs_zero]
      · rename_i h
        refine ⟨h1, ⟨fun h0 i hi => ?_, fun h0 => h2.mpr fun i hi => h0 i (by omega)⟩⟩
        rcases Nat.lt_succ_iff_lt_or_eq.mp hi with h3 | rfl
        · exact h2.mp h0 i h3
        · rw [h0] at h
          exact abs_nonpos_iff.mp (not_lt.mp h))
  exact this

theorem luColCheck_spec (n : Nat) (A : Mat K) :
    (luColCheck n A = none ∧ ∀ j, j < n → ∃ i, i < n ∧ A i j ≠ 0) ∨
    ∃ j, j < n ∧ luColCheck n A = some ((j : Int) + 1) ∧ (∀ i, i < n → A i j = 0) ∧
      ∀ j', j' < j → ∃ i, i < n ∧ A i j' ≠ 0 := by
  refine upLoop_inv (Nat.zero_le n) (s := none) (fun m (t : Option Int) =>
    (t = none ∧ ∀ j, j < m → ∃ i, i < n ∧ A i j ≠ 0) ∨
    ∃ j, j < m ∧ t = some ((j : Int) + 1) ∧ (∀ i, i < n → A i j = 0) ∧
      ∀ j', j' < j → ∃ i, i < n ∧ A i j' ≠ 0) (Or.inl ⟨rfl, by simp⟩) ?_
  rintro m t _ hm (⟨rfl, h⟩ | ⟨j, h1, rfl, h2, h3⟩)
  · dsimp only
    by_cases h0 : luBig n (fun i => A i m) = 0
    · rw [if_pos h0]
      exact Or.inr ⟨m, by omega, rfl, (luBig_spec n _).2.mp h0, h⟩
    · rw [if_neg h0]
      refine Or.inl ⟨rfl, fun j hj => ?_⟩
      rcases Nat.lt_succ_iff_lt_or_eq.mp hj with h3 | rfl
      · exact h j h3
      · by_contra hn
        push Not at hn
        exact h0 ((luBig_spec n _).2.mpr hn)
  · exact Or.inr ⟨j, by omega, rfl, h2, h3⟩

theorem luRowCheck_spec (n : Nat) (A : Mat K) (v : Nat → K) :
    ((luRowCheck n A v).1 = none ∧ (∀ i, i < n → ∃ j, j < n ∧ A i j ≠ 0) ∧
      ∀ i, i < n → 0 < (luRowCheck n A v).2 i) ∨
    ∃ i, i < n ∧ (luRowCheck n A v).1 = some (-((i : Int) + 1)) ∧ (∀ j, j < n → A i j = 0) ∧
      ∀ i', i' < i → ∃ j, j < n ∧ A i' j ≠ 0 := by
  refine upLoop_inv (Nat.zero_le n) (s := (none, v)) (fun m (t : Option Int × (Nat → K)) =>
    (t.1 = none ∧ (∀ i, i < m → ∃ j, j < n ∧ A i j ≠ 0) ∧ ∀ i, i < m → 0 < t.2 i) ∨
    ∃ i, i < m ∧ t.1 = some (-((i : Int) + 1)) ∧ (∀ j, j < n → A i j = 0) ∧
      ∀ i', i' < i → ∃ j, j < n ∧ A i' j ≠ 0) (Or.inl ⟨rfl, by simp, by simp⟩) ?_
  rintro m ⟨t1, t2⟩ _ hm (⟨h1, h, hv⟩ | ⟨j, h1, ht, h2, h3⟩)
  · dsimp only at h1
    subst h1
    dsimp only
    have hb := luBig_spec n (fun j => A m j)
    by_cases h0 : luBig n (fun j => A m j) = 0
    · rw [if_pos h0]
      exact Or.inr ⟨m, by omega, rfl, hb.2.mp h0, h⟩
    · rw [if_neg h0]
      refine Or.inl ⟨rfl, fun j hj => ?_, fun j hj => ?_⟩
      · rcases Nat.lt_succ_iff_lt_or_eq.mp hj with h3 | rfl
        · exact h j h3
        · by_contra hn
          push Not at hn
          exact h0 (hb.2.mpr hn)
      · dsimp only
        by_cases hj' : j = m
        · subst hj'
          rw [aset_self]
          exact one_div_pos.mpr (lt_of_le_of_ne hb.1 (Ne.symm h0))
        · rw [aset_ne _ _ hj']
          exact hv j (by omega)
  · dsimp only at ht
    subst ht
    exact Or.inr ⟨j, by omega, rfl, h2, h3⟩

theorem luSum_eq (A : Mat K) (i j m : Nat) :
    luSum A i j m = A i j - ∑ k ∈ range m, A i k * A k j := by
  have := upLoop_inv (Nat.zero_le m) (body := fun k sum => sum - A i k * A k j) (s := A i j)
    (fun m t => t = A i j - ∑ k ∈ range m, A i k * A k j) (by simp) (by
      intro k t _ _ ht
      rw [ht, sum_range_succ]; ring)
  exact this

theorem luUpper_spec (A : Mat K) (j : Nat) :
    (∀ i c, (c ≠ j ∨ j ≤ i) → luUpper A j i c = A i c) ∧
    ∀ i, i < j → luUpper A j i j = A i j - ∑ k ∈ range i, A i k * luUpper A j k j := by
  have := upLoop_inv (Nat.zero_le j) (body := fun i A => mset A i j (luSum A i j i)) (s := A)
    (fun m t => (∀ i c, (c ≠ j ∨ m ≤ i) → t i c = A i c) ∧
      ∀ i, i < m → t i j = A i j - ∑ k ∈ range i, A i k * t k j) (by simp) (by
      intro m t _ hm ⟨h1, h2⟩
      refine ⟨fun i c h => ?_, fun i hi => ?_⟩
      · rw [mset_ne _ _ (by omega), h1 i c (by omega)]
      · have e : ∀ k, k < i → mset t m j (luSum t m j m) k j = t k j :=
          fun k hk => mset_ne _ _ (by omega)
        rw [sum_congr rfl fun k hk => by rw [e k (mem_range.mp hk)]]
        rcases Nat.lt_succ_iff_lt_or_eq.mp hi with h3 | rfl
        · rw [mset_ne _ _ (by omega), h2 i h3]
        · rw [mset_self, luSum_eq, h1 i j (by omega)]
          congr 1
          refine sum_congr rfl fun k hk => ?_
          rw [h1 i k (by have := mem_range.mp hk; omega)])
  exact this

theorem luLower_spec {n : Nat} (A : Mat K) {v : Nat → K} (hv : ∀ i, i < n → 0 < v i) {j : Nat}
    (hj : j < n) :
    (∀ i c, (c ≠ j ∨ i < j ∨ n ≤ i) → (luLower n A v j).1 i c = A i c) ∧
    (∀ i, j ≤ i → i < n →
      (luLower n A v j).1 i j = A i j - ∑ k ∈ range j, A i k * A k j) ∧
    ∃ m, (luLower n A v j).2.2 = some m ∧ j ≤ m ∧ m < n ∧
      ((luLower n A v j).1 m j = 0 →
        ∀ i, j ≤ i → i < n → (luLower n A v j).1 i j = 0) := by
  have := upLoop_inv hj.le (body := fun i (s : Mat K × K × Option Nat) =>
    let sum := luSum s.1 i j j;
    let A := mset s.1 i j sum;
    let tmp2 := v i * |sum|;
    if s.2.1 ≤ tmp2 then (A, tmp2, some i) else (A, s.2)) (s := (A, 0, none))
    (fun r t => (∀ i c, (c ≠ j ∨ i < j ∨ r ≤ i) → t.1 i c = A i c) ∧
      (∀ i, j ≤ i → i < r → t.1 i j = A i j - ∑ k ∈ range j, A i k * A k j) ∧
      (r = j ∧ t.2.1 = 0 ∨ ∃ m, t.2.2 = some m ∧ j ≤ m ∧ m < r ∧
        t.2.1 = v m * |t.1 m j| ∧ ∀ i, j ≤ i → i < r → v i * |t.1 i j| ≤ t.2.1)) (by
      exact ⟨fun _ _ _ => rfl, by intros; omega, Or.inl ⟨rfl, rfl⟩⟩) (by
      rintro r ⟨B, big, im⟩ hr hrn ⟨h1, h2, h3⟩
      dsimp only at h1 h2 h3
      have hs : luSum B r j j = A r j - ∑ k ∈ range j, A r k * A k j := by
        rw [luSum_eq, h1 r j (by omega)]
        congr 1
        refine sum_congr rfl fun k hk => ?_
        have hk' := mem_range.mp hk
        rw [h1 r k (by omega), h1 k j (by omega)]
      have e1 : ∀ i c, (c ≠ j ∨ i < j ∨ r + 1 ≤ i) → mset B r j (luSum B r j j) i c = A i c := by
        intro i c h
        rw [mset_ne _ _ (by omega), h1 i c (by omega)]
      have e2 : ∀ i, j ≤ i → i < r + 1 → mset B r j (luSum B r j j) i j =
          A i j - ∑ k ∈ range j, A i k * A k j := by
        intro i hi hi'
        rcases Nat.lt_succ_iff_lt_or_eq.mp hi' with h3 | rfl
        · rw [mset_ne _ _ (by omega), h2 i hi h3]
        · rw [mset_self, hs]
      have e3 : ∀ i, i < r → mset B r j (luSum B r j j) i j = B i j :=
        fun i hi => mset_ne _ _ (by omega)
      dsimp only
      split
      · rename_i hle
        refine ⟨e1, e2, Or.inr ⟨r, rfl, hr, by omega, by dsimp only; rw [mset_self], ?_⟩⟩
        intro i hi hi'
        dsimp only
        rcases Nat.lt_succ_iff_lt_or_eq.mp hi' with h4 | rfl
        · rw [e3 i h4]
          rcases h3 with ⟨rfl, _⟩ | ⟨m, _, _, _, _, h5⟩
          · omega
          · exact (h5 i hi h4).trans hle
        · rw [mset_self]
      · rename_i hle
        refine ⟨e1, e2, Or.inr ?_⟩
        rcases h3 with ⟨rfl, h0⟩ | ⟨m, hm, hm1, hm2, hm3, h5⟩
        · refine absurd ?_ hle
          rw [h0]
          exact mul_nonneg (hv _ hj).le (abs_nonneg _)
        · refine ⟨m, hm, hm1, by omega, by dsimp only; rw [e3 m hm2, hm3], fun i hi hi' => ?_⟩
          dsimp only
          rcases Nat.lt_succ_iff_lt_or_eq.mp hi' with h4 | rfl
          · rw [e3 i h4]; exact h5 i hi h4
          · rw [mset_self]; exact (not_le.mp hle).le)
  obtain ⟨h1, h2, h3⟩ := this
  refine ⟨h1, h2, ?_⟩
  rcases h3 with ⟨h, _⟩ | ⟨m, hm, hm1, hm2, hm3, h5⟩
  · omega
  · refine ⟨m, hm, hm1, hm2, fun h0 i hi hi' => ?_⟩
    have h6 := h5 i hi hi'
    rw [hm3] at h6
    unfold luLower at h0 ⊢
    rw [h0, abs_zero, mul_zero] at h6
    have h7 := hv i hi'
    by_contra hne
    exact absurd h6 (not_le.mpr (mul_pos h7 (abs_pos.mpr hne)))

theorem luSwap_spec {n : Nat} (A : Mat K) (m j : Nat) (i c : Nat) (hc : c < n) :
    luSwap n A m j i c = A (Equiv.swap j m i) c := by
  have := upLoop_inv (Nat.zero_le n) (body := fun k (A : Mat K) =>
    let tmp2 := A m k;
    let A := mset A m k (A j k);
    mset A j k tmp2) (s := A)
    (fun r t => ∀ i c, t i c = if c < r then A (Equiv.swap j m i) c else A i c) (by simp) (by
      intro r t _ _ h i c
      dsimp only
      by_cases hcr : c = r
      · subst hcr
        rw [if_pos (by omega)]
        have h' : ∀ i, t i c = A i c := fun i => by rw [h, if_neg (by omega)]
        by_cases h1 : i = j
        · subst h1
          rw [mset_self, h', Equiv.swap_apply_left]
        · rw [mset_ne _ _ (by omega)]
          by_cases h2 : i = m
          · subst h2
            rw [mset_self, h', Equiv.swap_apply_right]
          · rw [mset_ne _ _ (by omega), h', Equiv.swap_apply_of_ne_of_ne h1 h2]
      · rw [mset_ne _ _ (by omega), mset_ne _ _ (by omega), h]
        exact if_congr (by omega) rfl rfl)
  have h := this i c
  rw [if_pos hc] at h
  exact h

theorem luScale_spec {n : Nat} (A : Mat K) {j : Nat} (hj : j < n) (i c : Nat) :
    luScale n A j i c = if j < i ∧ i < n ∧ c = j then A i j / A j j else A i c := by
  have := upLoop_inv (show j + 1 ≤ n by omega) (body := fun i (B : Mat K) =>
    mset B i j (B i j * (1 / A j j))) (s := A)
    (fun r t => ∀ i c, t i c = if j < i ∧ i < r ∧ c = j then A i j / A j j else A i c) (by
      intro i c; rw [if_neg (by omega)]) (by
      intro r t hr _ h i c
      by_cases h1 : i = r ∧ c = j
      · obtain ⟨rfl, rfl⟩ := h1
        rw [mset_self, if_pos (by omega), h, if_neg (by omega), mul_one_div]
      · rw [mset_ne _ _ h1, h]
        exact if_congr (by omega) rfl rfl)
  exact this i c

theorem sum_cut (f : Nat → K) {r j : Nat} (h : r ≤ j) (h0 : ∀ k, r ≤ k → k < j → f k = 0) :
    ∑ k ∈ range j, f k = ∑ k ∈ range r, f k := by
  symm
  refine sum_subset (fun k hk => mem_range.mpr (lt_of_lt_of_le (mem_range.mp hk) h)) fun k hk hk' => ?_
  exact h0 k (not_lt.mp fun h => hk' (mem_range.mpr h)) (mem_range.mp hk)

/-- A matrix whose first `j+1` columns are combinations of `j` vectors is singular. -/
theorem det_zero_of_factor {n j : Nat} (hj : j < n) (B L N : Nat → Nat → K)
    (h : ∀ i c, i < n → c ≤ j → B i c = ∑ k ∈ range j, L i k * N k c) :
    (Spec.matrix n B).det = 0 := by
  have hN : (Matrix.of fun (k c : Fin (j + 1)) => if (k : Nat) < j then N k c else 0).det = 0 :=
    Matrix.det_eq_zero_of_row_eq_zero (Fin.last j) (by intro c; simp)
  obtain ⟨v, hv, hv0⟩ := Matrix.exists_mulVec_eq_zero_iff.mpr hN
  set v' : Nat → K := fun c => if h : c < j + 1 then v ⟨c, h⟩ else 0 with hv'
  have hsum : ∀ k, k < j → ∑ c ∈ range (j + 1), N k c * v' c = 0 := by
    intro k hk
    have h1 := congrFun hv0 ⟨k, by omega⟩
    simp only [Matrix.mulVec, dotProduct, Matrix.of_apply, hk, if_true, Pi.zero_apply] at h1
    rw [← h1, ← Fin.sum_univ_eq_sum_range (fun c => N k c * v' c)]
    refine sum_congr rfl fun c _ => ?_
    simp only [hv', c.2, dif_pos]
  refine Matrix.exists_mulVec_eq_zero_iff.mp ⟨fun c => v' c, fun h0 => hv (funext fun c => ?_), ?_⟩
  · have h1 := congrFun h0 ⟨c, by omega⟩
    simp only [hv', c.2, dif_pos] at h1
    exact h1
  · funext i
    simp only [Matrix.mulVec, dotProduct, Spec.matrix, Matrix.of_apply, Pi.zero_apply]
    rw [Fin.sum_univ_eq_sum_range (fun c => B i c * v' c), sum_cut _ (r := j + 1) (by omega) (by
      intro k hk _
      simp only [hv', dif_neg (show ¬ k < j + 1 by omega), mul_zero])]
    calc ∑ c ∈ range (j + 1), B i c * v' c
        = ∑ c ∈ range (j + 1), ∑ k ∈ range j, L i k * (N k c * v' c) := by
          refine sum_congr rfl fun c hc => ?_
          rw [h i c i.2 (by have := mem_range.mp hc; omega), sum_mul]
          exact sum_congr rfl fun k _ => by ring
      _ = ∑ k ∈ range j, L i k * ∑ c ∈ range (j + 1), N k c * v' c := by
          rw [sum_comm]
          exact sum_congr rfl fun k _ => by rw [mul_sum]
      _ = 0 := by
          refine sum_eq_zero fun k hk => ?_
          rw [hsum k (mem_range.mp hk), mul_zero]

theorem luTiny_ne : (luTiny : K) ≠ 0 := by
  unfold luTiny
  positivity

/-- The exchanges of rows that `p_idx` records. -/
def Spec.rows (p : Nat → Nat) : Nat → Equiv.Perm Nat
  | 0 => 1
  | j + 1 => Spec.rows p j * Equiv.swap j (p j)

structure LUInv (n : Nat) (A0 : Mat K) (j : Nat) (s : LUState K) (Z : Nat → Prop) : Prop where
  pr : ∀ c, c < j → c ≤ s.p c ∧ s.p c < n
  later : ∀ i c, i < n → j ≤ c → c < n → s.A i c = A0 (Spec.rows s.p j i) c
  low : ∀ i c, i < n → c < j → c < i →
    ∑ k ∈ range (c + 1), s.A i k * s.A k c = A0 (Spec.rows s.p j i) c
  up : ∀ i c, c < j → i < c →
    s.A i c + ∑ k ∈ range i, s.A i k * s.A k c = A0 (Spec.rows s.p j i) c
  diag : ∀ c, c < j → (¬ Z c ∧
    s.A c c + ∑ k ∈ range c, s.A c k * s.A k c = A0 (Spec.rows s.p j c) c) ∨ (Z c ∧
    s.A c c + ∑ k ∈ range c, s.A c k * s.A k c = A0 (Spec.rows s.p j c) c + luTiny)
  det : ∀ B : Mat K, (Spec.matrix n B).det =
    (s.parity : K) * (Spec.matrix n fun i => B (Spec.rows s.p j i)).det
  vpos : ∀ i, i < n → 0 < s.vscal i
  piv : ∀ c, c < j → s.A c c ≠ 0
  zdet : (∃ c, c < j ∧ Z c) → (Spec.matrix n A0).det = 0

theorem rows_congr {p q : Nat → Nat} {j : Nat} (h : ∀ c, c < j → p c = q c) :
    Spec.rows p j = Spec.rows q j := by
  induction j with
  | zero => rfl
  | succ j ih => rw [Spec.rows, Spec.rows, ih fun c hc => h c (by omega), h j (by omega)]

theorem det_swap {n : Nat} (B : Mat K) {j m : Nat} (hj : j < n) (hm : m < n) (h : j ≠ m) :
    (Spec.matrix n fun i => B (Equiv.swap j m i)).det = -(Spec.matrix n B).det := by
  have e : (Spec.matrix n fun i => B (Equiv.swap j m i)) =
      (Spec.matrix n B).submatrix (Equiv.swap ⟨j, hj⟩ ⟨m, hm⟩) id := by
    ext i c
    simp only [Spec.matrix, Matrix.of_apply, Matrix.submatrix_apply, id]
    congr 1
    by_cases h1 : i = ⟨j, hj⟩
    · subst h1; simp
    · by_cases h2 : i = ⟨m, hm⟩
      · subst h2; simp
      · rw [Equiv.swap_apply_of_ne_of_ne h1 h2, Equiv.swap_apply_of_ne_of_ne]
        · exact fun h => h1 (Fin.ext h)
        · exact fun h => h2 (Fin.ext h)
  rw [e, Matrix.det_permute, Equiv.Perm.sign_swap (fun h' => h (Fin.mk.inj_iff.mp h'))]
  simp

theorem luStep_inv {n : Nat} {A0 : Mat K} {j : Nat} (hj : j < n) {s : LUState K} {Z : Nat → Prop}
    (h : LUInv n A0 j s Z) : ∃ s' Z', luStep n j s = .ok s' ∧ LUInv n A0 (j + 1) s' Z' ∧
      ∀ c, c < j → (Z' c ↔ Z c) := by
  obtain ⟨hu1, hu2⟩ := luUpper_spec s.A j
  obtain ⟨hl1, hl2, m, hm, hjm, hmn, hzero⟩ := luLower_spec (luUpper s.A j) h.vpos hj
  generalize hA2 : luLower n (luUpper s.A j) s.vscal j = R at *
  obtain ⟨A2, big, im⟩ := R
  dsimp only at hl1 hl2 hm hzero
  subst hm
  -- the row exchange
  set w := Equiv.swap j m with hw
  have w1 : ∀ i, i < j → w i = i := fun i hi => Equiv.swap_apply_of_ne_of_ne (by omega) (by omega)
  have w2 : w j = m := Equiv.swap_apply_left _ _
  have w3 : ∀ i, i < n → w i < n := by
    intro i hi
    by_cases h1 : i = j
    · rw [h1, w2]; exact hmn
    · by_cases h2 : i = m
      · rw [h2, hw, Equiv.swap_apply_right]; exact hj
      · rw [hw, Equiv.swap_apply_of_ne_of_ne h1 h2]; exact hi
  have w4 : ∀ i, j ≤ i → j ≤ w i := by
    intro i hi
    by_contra hlt
    have h1 := w1 (w i) (by omega)
    have h2 : w (w i) = i := Equiv.swap_apply_self _ _ _
    omega
  -- the columns of A2
  have a1 : ∀ i c, c ≠ j → A2 i c = s.A i c := fun i c hc => by
    rw [hl1 i c (Or.inl hc), hu1 i c (Or.inl hc)]
  have a2 : ∀ i, i < j → A2 i j + ∑ k ∈ range i, s.A i k * A2 k j = s.A i j := by
    intro i hi
    have e : ∀ k, k < j → A2 k j = luUpper s.A j k j := fun k hk => hl1 k j (by omega)
    have e' : ∑ k ∈ range i, s.A i k * A2 k j = ∑ k ∈ range i, s.A i k * luUpper s.A j k j :=
      sum_congr rfl fun k hk => by rw [e k (by have := mem_range.mp hk; omega)]
    rw [e', e i hi, hu2 i hi]
    ring
  have a3 : ∀ i, j ≤ i → i < n → A2 i j + ∑ k ∈ range j, s.A i k * A2 k j = s.A i j := by
    intro i hi hi'
    rw [hl2 i hi hi', hu1 i j (by omega)]
    have : ∑ k ∈ range j, s.A i k * A2 k j =
        ∑ k ∈ range j, luUpper s.A j i k * luUpper s.A j k j :=
      sum_congr rfl fun k hk => by
        have := mem_range.mp hk
        rw [hl1 k j (by omega), hu1 i k (by omega)]
    rw [this]; ring
  -- the state after the exchange
  set s1 : LUState K := if j ≠ m then
      ⟨luSwap n A2 m j, aset s.vscal m (s.vscal j), s.p, -s.parity⟩
    else ⟨A2, s.vscal, s.p, s.parity⟩ with hs1
  have b1 : ∀ i c, c < n → s1.A i c = A2 (w i) c := by
    intro i c hc
    rw [hs1]
    split
    · exact luSwap_spec A2 m j i c hc
    · rename_i h0
      have h0' : j = m := not_not.mp h0
      rw [hw, ← h0', Equiv.swap_self]; rfl
  have b2 : s1.p = s.p := by rw [hs1]; split <;> rfl
  have b3 : ∀ i, i < n → 0 < s1.vscal i := by
    intro i hi
    rw [hs1]
    split
    · dsimp only
      by_cases h0 : i = m
      · rw [h0, aset_self]; exact h.vpos j hj
      · rw [aset_ne _ _ h0]; exact h.vpos i hi
    · exact h.vpos i hi
  set A4 : Mat K := if s1.A j j = 0 then mset s1.A j j luTiny else s1.A with hA4
  set piv : K := if A2 m j = 0 then luTiny else A2 m j with hpiv
  have hp0 : piv ≠ 0 := by
    rw [hpiv]; split
    · exact luTiny_ne
    · assumption
  have c1 : A4 j j = piv := by
    rw [hA4, hpiv, b1 j j hj, w2]
    split
    · rw [mset_self]
    · rw [b1 j j hj, w2]
  have c2 : ∀ i c, c < n → ¬(i = j ∧ c = j) → A4 i c = A2 (w i) c := by
    intro i c hc hne
    rw [hA4]
    split
    · rw [mset_ne _ _ hne, b1 i c hc]
    · rw [b1 i c hc]
  have hstep : luStep n j s = .ok ⟨luScale n A4 j, s1.vscal, aset s1.p j m, s1.parity⟩ := by
    unfold luStep
    rw [hA2]
  set A5 := luScale n A4 j with hA5
  have d1 : ∀ i c, c < n → c ≠ j → A5 i c = s.A (w i) c := by
    intro i c hc hcj
    rw [hA5, luScale_spec _ hj, if_neg (by omega), c2 i c hc (by omega), a1 _ _ hcj]
  have d2 : ∀ i, i < j → A5 i j = A2 i j := by
    intro i hi
    rw [hA5, luScale_spec _ hj, if_neg (by omega), c2 i j hj (by omega), w1 i hi]
  have d3 : A5 j j = piv := by
    rw [hA5, luScale_spec _ hj, if_neg (by omega), c1]
  have d4 : ∀ i, j < i → i < n → A5 i j * piv = A2 (w i) j := by
    intro i hi hi'
    rw [hA5, luScale_spec _ hj, if_pos ⟨hi, hi', rfl⟩, c1, c2 i j hj (by omega),
      div_mul_cancel₀ _ hp0]
  have hrow : ∀ i, Spec.rows (aset s1.p j m) (j + 1) i = Spec.rows s.p j (w i) := by
    intro i
    rw [Spec.rows, aset_self, rows_congr (q := s.p) fun c hc => by
      rw [b2, aset_ne _ _ (by omega)]]
    rfl
  refine ⟨_, fun c => if c = j then A2 m j = 0 else Z c, hstep, ⟨?_, ?_, ?_, ?_, ?_, ?_, b3, ?_, ?_⟩,
    fun c hc => by beta_reduce; rw [if_neg (by omega)]⟩
  · intro c hc
    dsimp only
    by_cases hcj : c = j
    · rw [hcj, aset_self]; exact ⟨hjm, hmn⟩
    · rw [aset_ne _ _ hcj, b2]; exact h.pr c (by omega)
  · intro i c hi hc hcn
    rw [hrow]
    exact (d1 i c hcn (by omega)).trans (h.later (w i) c (w3 i hi) (by omega) hcn)
  · intro i c hi hc hci
    rw [hrow]
    dsimp only
    by_cases hcj : c = j
    · subst hcj
      rw [sum_range_succ, d3, d4 i hci hi, ← h.later (w i) c (w3 i hi) le_rfl hj,
        ← a3 (w i) (w4 i hci.le) (w3 i hi), add_comm]
      congr 1
      refine sum_congr rfl fun k hk => ?_
      have hk' := mem_range.mp hk
      rw [d1 i k (by omega) (by omega), d2 k hk']
    · have hcw : c < w i := by
        rcases Nat.lt_or_ge i j with h1 | h1
        · rw [w1 i h1]; exact hci
        · have := w4 i h1; omega
      rw [← h.low (w i) c (w3 i hi) (by omega) hcw]
      refine sum_congr rfl fun k hk => ?_
      have hk' := mem_range.mp hk
      rw [d1 i k (by omega) (by omega), d1 k c (by omega) hcj, w1 k (by omega)]
  · intro i c hc hic
    rw [hrow, w1 i (by omega)]
    dsimp only
    by_cases hcj : c = j
    · subst hcj
      rw [d2 i hic, ← h.later i c (by omega) le_rfl hj, ← a2 i hic]
      congr 1
      refine sum_congr rfl fun k hk => ?_
      have hk' := mem_range.mp hk
      rw [d1 i k (by omega) (by omega), d2 k (by omega), w1 i hic]
    · rw [← h.up i c (by omega) hic, d1 i c (by omega) hcj, w1 i (by omega)]
      congr 1
      refine sum_congr rfl fun k hk => ?_
      have hk' := mem_range.mp hk
      rw [d1 i k (by omega) (by omega), d1 k c (by omega) hcj, w1 k (by omega), w1 i (by omega)]
  · intro c hc
    rw [hrow]
    dsimp only
    by_cases hcj : c = j
    · subst hcj
      rw [if_pos rfl, w2, d3]
      have e : ∑ k ∈ range c, A5 c k * A5 k c = ∑ k ∈ range c, s.A m k * A2 k c :=
        sum_congr rfl fun k hk => by
          have hk' := mem_range.mp hk
          rw [d1 c k (by omega) (by omega), d2 k hk', w2]
      rw [e, ← h.later m c hmn le_rfl hj, ← a3 m hjm hmn]
      by_cases h0 : A2 m c = 0
      · refine Or.inr ⟨h0, ?_⟩
        rw [hpiv, if_pos h0, h0]; ring
      · refine Or.inl ⟨h0, ?_⟩
        rw [hpiv, if_neg h0]
    · rw [if_neg hcj, w1 c (by omega)]
      have e : A5 c c + ∑ k ∈ range c, A5 c k * A5 k c =
          s.A c c + ∑ k ∈ range c, s.A c k * s.A k c := by
        rw [d1 c c (by omega) hcj, w1 c (by omega)]
        congr 1
        refine sum_congr rfl fun k hk => ?_
        have hk' := mem_range.mp hk
        rw [d1 c k (by omega) (by omega), d1 k c (by omega) hcj, w1 k (by omega), w1 c (by omega)]
      rw [e]
      exact h.diag c (by omega)
  · intro B
    simp only [hrow]
    rw [h.det, hs1]
    by_cases hjm' : j = m
    · rw [if_neg (not_not.mpr hjm')]
      dsimp only
      rw [hw, ← hjm', Equiv.swap_self]; rfl
    · rw [if_pos hjm', hw, det_swap (fun i => B (Spec.rows s.p j i)) hj hmn hjm']
      push_cast
      ring
  · intro c hc
    dsimp only
    by_cases hcj : c = j
    · rw [hcj, d3]; exact hp0
    · rw [d1 c c (by omega) hcj, w1 c (by omega)]
      exact h.piv c (by omega)
  · rintro ⟨c, hc, hZ⟩
    by_cases hZ' : ∃ c, c < j ∧ Z c
    · exact h.zdet hZ'
    have hcj : c = j := by
      by_contra hne
      rw [if_neg hne] at hZ
      exact hZ' ⟨c, by omega, hZ⟩
    subst hcj
    rw [if_pos rfl] at hZ
    have hz := hzero hZ
    rw [h.det, det_zero_of_factor hj _ (fun i k => if k < i then s.A i k else if k = i then 1 else 0)
      (fun k d => if k ≤ d then A2 k d else 0), mul_zero]
    intro i d hi hd
    have key : ∀ r, r ≤ c → r ≤ d + 1 → r ≤ i →
        ∑ k ∈ range r, (if k < i then s.A i k else if k = i then 1 else 0) *
          (if k ≤ d then A2 k d else 0) = ∑ k ∈ range r, s.A i k * A2 k d := by
      intro r _ h2 h3
      refine sum_congr rfl fun k hk => ?_
      have hk' := mem_range.mp hk
      rw [if_pos (by omega), if_pos (by omega)]
    by_cases hid : i ≤ d ∧ i < c
    · rw [sum_cut _ (r := i + 1) (by omega) (by
        intro k h1 h2
        rw [if_neg (by omega), if_neg (by omega), zero_mul]), sum_range_succ, key i (by omega) (by omega)
        le_rfl, if_neg (by omega), if_pos rfl, if_pos hid.1, one_mul, add_comm]
      by_cases hdc : d = c
      · subst hdc
        rw [a2 i hid.2, h.later i d hi le_rfl hj]
      · rw [a1 i d hdc, sum_congr rfl fun k _ => by rw [a1 k d hdc]]
        by_cases hid' : i = d
        · subst hid'
          rcases h.diag i (by omega) with ⟨_, h1⟩ | ⟨h1, _⟩
          · exact h1.symm
          · exact absurd ⟨i, by omega, h1⟩ hZ'
        · exact (h.up i d (by omega) (by omega)).symm
    · by_cases hdc : d = c
      · subst hdc
        rw [key d le_rfl (by omega) (by omega), ← h.later i d hi le_rfl hj,
          ← a3 i (by omega) hi, hz i (by omega) hi, zero_add]
      · rw [sum_cut _ (r := d + 1) (by omega) (by
          intro k h1 h2
          rw [if_neg (show ¬ k ≤ d by omega), mul_zero]), key (d + 1) (by omega) le_rfl (by omega),
          ← h.low i d hi (by omega) (by omega)]
        exact sum_congr rfl fun k _ => by rw [a1 k d hdc]

theorem luCrout {n : Nat} (A0 : Mat K) {v : Nat → K} (hv : ∀ i, i < n → 0 < v i) (p0 : Nat → Nat) :
    ∃ s, forN n (luStep n) ⟨A0, v, p0, 1⟩ = .ok s ∧ ∃ Z, LUInv n A0 n s Z := by
  refine forN_inv (fun j s => ∃ Z, LUInv n A0 j s Z) ⟨fun _ => False, ?_⟩ ?_
  · refine ⟨by intros; omega, fun i c _ _ _ => rfl, by intros; omega, by intros; omega,
      by intros; omega, fun B => by simp [Spec.rows], hv, by intros; omega, ?_⟩
    rintro ⟨c, hc, _⟩; omega
  · rintro j hj s ⟨Z, h⟩
    obtain ⟨s', Z', h1, h2, _⟩ := luStep_inv hj h
    exact ⟨s', h1, Z', h2⟩

/-! ### Triangular factors -/

/-- The unit lower triangular matrix stored below the diagonal. -/
def luL (A : Mat K) : Mat K := fun i k => if k < i then A i k else if k = i then 1 else 0

/-- The upper triangular matrix stored on and above the diagonal. -/
def luU (A : Mat K) : Mat K := fun k c => if k ≤ c then A k c else 0

theorem luL_sum (A : Mat K) (f : Nat → K) {n i : Nat} (hi : i < n) :
    ∑ k ∈ range n, luL A i k * f k = f i + ∑ k ∈ range i, A i k * f k := by
  rw [sum_cut _ (r := i + 1) (by omega) (by
    intro k h1 _
    rw [luL, if_neg (by omega), if_neg (by omega), zero_mul]), sum_range_succ, luL,
    if_neg (by omega), if_pos rfl, one_mul, add_comm]
  congr 1
  refine sum_congr rfl fun k hk => ?_
  rw [luL, if_pos (mem_range.mp hk)]

theorem luU_sum (A : Mat K) (f : Nat → K) {n k : Nat} (hk : k < n) :
    ∑ c ∈ range n, luU A k c * f c = A k k * f k + ∑ c ∈ Ico (k + 1) n, A k c * f c := by
  rw [range_eq_Ico, ← sum_Ico_consecutive _ (Nat.zero_le k) hk.le, sum_eq_sum_Ico_succ_bot hk,
    sum_eq_zero (s := Ico 0 k) (fun c hc => by
      rw [luU, if_neg (by have := (mem_Ico.mp hc).2; omega), zero_mul]), zero_add, luU,
    if_pos le_rfl]
  congr 1
  refine sum_congr rfl fun c hc => ?_
  rw [luU, if_pos (by have := (mem_Ico.mp hc).1; omega)]

open Classical in
theorem lu_product {n : Nat} {A0 : Mat K} {s : LUState K} {Z : Nat → Prop} (h : LUInv n A0 n s Z)
    {i c : Nat} (hi : i < n) (hc : c < n) :
    ∑ k ∈ range n, luL s.A i k * luU s.A k c =
      A0 (Spec.rows s.p n i) c + if i = c ∧ Z c then luTiny else 0 := by
  rw [luL_sum s.A (fun k => luU s.A k c) hi]
  rcases Nat.lt_trichotomy i c with h1 | h1 | h1
  · rw [if_neg (by omega), add_zero, ← h.up i c hc h1, luU, if_pos h1.le]
    congr 1
    refine sum_congr rfl fun k hk => ?_
    rw [luU, if_pos (by have := mem_range.mp hk; omega)]
  · subst h1
    have e : luU s.A i i + ∑ k ∈ range i, s.A i k * luU s.A k i =
        s.A i i + ∑ k ∈ range i, s.A i k * s.A k i := by
      rw [luU, if_pos le_rfl]
      congr 1
      refine sum_congr rfl fun k hk => ?_
      rw [luU, if_pos (by have := mem_range.mp hk; omega)]
    rw [e]
    rcases h.diag i hi with ⟨h2, h3⟩ | ⟨h2, h3⟩
    · rw [h3, if_neg (fun h => h2 h.2), add_zero]
    · rw [h3, if_pos ⟨rfl, h2⟩]
  · rw [if_neg (by omega), add_zero, ← h.low i c hi hc h1, luU, if_neg (by omega), zero_add,
      sum_cut _ (r := c + 1) (by omega) (by
        intro k h2 _
        rw [luU, if_neg (by omega), mul_zero])]
    refine sum_congr rfl fun k hk => ?_
    rw [luU, if_pos (by have := mem_range.mp hk; omega)]

theorem rows_stable {p : Nat → Nat} {n : Nat} (hp : ∀ c, c < n → c ≤ p c) {r j : Nat} (hr : r < j)
    (hj : j ≤ n) : Spec.rows p j r = Spec.rows p (r + 1) r := by
  induction j with
  | zero => omega
  | succ j ih =>
    rcases Nat.lt_succ_iff_lt_or_eq.mp hr with h1 | rfl
    · rw [← ih h1 (by omega), Spec.rows]
      change Spec.rows p j (Equiv.swap j (p j) r) = _
      rw [Equiv.swap_apply_of_ne_of_ne (by omega) (by have := hp j (by omega); omega)]
    · rfl

theorem rows_lt {p : Nat → Nat} {n : Nat} (hp : ∀ c, c < n → p c < n) {j : Nat} (hj : j ≤ n)
    {i : Nat} (hi : i < n) : Spec.rows p j i < n ∧ (Spec.rows p j).symm i < n := by
  induction j generalizing i with
  | zero => exact ⟨hi, hi⟩
  | succ j ih =>
    have hs : ∀ i, i < n → Equiv.swap j (p j) i < n := by
      intro i hi
      have h0 := hp j (by omega)
      by_cases h1 : i = j
      · rw [h1, Equiv.swap_apply_left]; exact h0
      · by_cases h2 : i = p j
        · rw [h2, Equiv.swap_apply_right]; omega
        · rw [Equiv.swap_apply_of_ne_of_ne h1 h2]; exact hi
    constructor
    · exact (ih (by omega) (hs i hi)).1
    · change (Equiv.swap j (p j)).symm ((Spec.rows p j).symm i) < n
      rw [Equiv.symm_swap]
      exact hs _ (ih (by omega) hi).2

theorem sub_sum_loop (lo hi : Nat) (h : lo ≤ hi) (f : Nat → K) (t : K) :
    upLoop lo hi (fun j sum => sum - f j) t = t - ∑ j ∈ Ico lo hi, f j := by
  refine upLoop_inv h (fun m u => u = t - ∑ j ∈ Ico lo m, f j) (by simp) ?_
  intro k u h1 _ hu
  rw [hu, sum_Ico_succ_top h1]; ring

theorem luForward_spec {n : Nat} (A : Mat K) {p : Nat → Nat} (hp : ∀ c, c < n → c ≤ p c)
    (b0 : Nat → K) (i : Nat) (hi : i < n) :
    (luForward n A p b0).1 i + ∑ k ∈ range i, A i k * (luForward n A p b0).1 k =
      b0 (Spec.rows p n i) := by
  have := upLoop_inv (Nat.zero_le n) (body := fun i (s : (Nat → K) × Option Nat) =>
    let p_i := p i;
    let sum := s.1 p_i;
    let b := aset s.1 p_i (s.1 i);
    match s.2 with
    | some i_nz => (aset b i (upLoop i_nz i (fun j sum => sum - A i j * b j) sum), some i_nz)
    | none => (aset b i sum, if sum ≠ 0 then some i else none)) (s := (b0, none))
    (fun m t => (∀ r, m ≤ r → t.1 r = b0 (Spec.rows p m r)) ∧
      (∀ r, r < m → t.1 r + ∑ k ∈ range r, A r k * t.1 k = b0 (Spec.rows p n r)) ∧
      match t.2 with
      | none => ∀ r, r < m → t.1 r = 0
      | some z => z ≤ m ∧ ∀ r, r < z → t.1 r = 0) (by
      exact ⟨fun _ _ => rfl, by intros; omega, by dsimp only; intros; omega⟩) (by
      rintro m ⟨b, nz⟩ _ hm ⟨h1, h2, h3⟩
      dsimp only at h1 h2 h3
      have hpm := hp m hm
      -- whatever is stored at `m`, the later and earlier entries are right
      have later : ∀ x, ∀ r, m + 1 ≤ r → aset (aset b (p m) (b m)) m x r =
          b0 (Spec.rows p (m + 1) r) := by
        intro x r hr
        rw [aset_ne _ _ (by omega), Spec.rows]
        change _ = b0 (Spec.rows p m (Equiv.swap m (p m) r))
        by_cases h0 : r = p m
        · rw [h0, aset_self, Equiv.swap_apply_right, h1 m le_rfl]
        · rw [aset_ne _ _ h0, Equiv.swap_apply_of_ne_of_ne (by omega) h0, h1 r (by omega)]
      have early : ∀ x, ∀ r, r < m → aset (aset b (p m) (b m)) m x r = b r := by
        intro x r hr
        rw [aset_ne _ _ (by omega), aset_ne _ _ (by omega)]
      have hsum : b (p m) = b0 (Spec.rows p n m) := by
        rw [h1 _ hpm, rows_stable hp hm le_rfl, Spec.rows]
        change _ = b0 (Spec.rows p m (Equiv.swap m (p m) m))
        rw [Equiv.swap_apply_left]
      have mid : ∀ x, x + ∑ k ∈ range m, A m k * b k = b (p m) → ∀ r, r < m + 1 →
          aset (aset b (p m) (b m)) m x r +
            ∑ k ∈ range r, A r k * aset (aset b (p m) (b m)) m x k = b0 (Spec.rows p n r) := by
        intro x hx r hr
        rw [sum_congr rfl fun k hk => by
          rw [early x k (by have := mem_range.mp hk; omega)]]
        rcases Nat.lt_succ_iff_lt_or_eq.mp hr with h4 | rfl
        · rw [early x r h4, h2 r h4]
        · rw [aset_self, hx, hsum]
      cases nz with
      | none =>
        dsimp only at h3 ⊢
        refine ⟨later _, mid _ ?_, ?_⟩
        · rw [sum_eq_zero fun k hk => by rw [h3 k (mem_range.mp hk), mul_zero], add_zero]
        · by_cases h0 : b (p m) = 0
          · rw [if_neg (not_not.mpr h0)]
            dsimp only
            intro r hr
            rcases Nat.lt_succ_iff_lt_or_eq.mp hr with h4 | rfl
            · rw [early _ r h4, h3 r h4]
            · rw [aset_self, h0]
          · rw [if_pos h0]
            dsimp only
            exact ⟨by omega, fun r hr => by rw [early _ r hr, h3 r hr]⟩
      | some z =>
        dsimp only at h3 ⊢
        refine ⟨later _, mid _ ?_, by omega, fun r hr => by
          rw [early _ r (by omega), h3.2 r hr]⟩
        rw [sub_sum_loop z m h3.1, range_eq_Ico, ← sum_Ico_consecutive _ (Nat.zero_le z) h3.1,
          sum_eq_zero (s := Ico 0 z) (fun k hk => by rw [h3.2 k (mem_Ico.mp hk).2, mul_zero])]
        have : ∑ k ∈ Ico z m, A m k * aset b (p m) (b m) k = ∑ k ∈ Ico z m, A m k * b k :=
          sum_congr rfl fun k hk => by
            rw [aset_ne _ _ (by have := (mem_Ico.mp hk).2; omega)]
        rw [this]; ring)
  exact this.2.1 i hi

theorem luBackward_spec {n : Nat} (A : Mat K) (hA : ∀ c, c < n → A c c ≠ 0) (y : Nat → K) (r : Nat)
    (hr : r < n) :
    A r r * luBackward n A y r + ∑ c ∈ Ico (r + 1) n, A r c * luBackward n A y c = y r := by
  have := downLoop_inv (Nat.zero_le n) (body := fun i (b : Nat → K) =>
    let sum := upLoop (i + 1) n (fun j sum => sum - A i j * b j) (b i);
    aset b i (sum / A i i)) (s := y)
    (fun m t => (∀ r, r < m → t r = y r) ∧ ∀ r, m ≤ r → r < n →
      A r r * t r + ∑ c ∈ Ico (r + 1) n, A r c * t c = y r) (by
      exact ⟨fun _ _ => rfl, by intros; omega⟩) (by
      rintro m t _ hm ⟨h1, h2⟩
      dsimp only
      refine ⟨fun r hr => by rw [aset_ne _ _ (by omega), h1 r (by omega)], fun r hr hr' => ?_⟩
      have e : ∀ x, ∑ c ∈ Ico (r + 1) n, A r c * aset t m x c = ∑ c ∈ Ico (r + 1) n, A r c * t c :=
        fun x => sum_congr rfl fun c hc => by
          rw [aset_ne _ _ (by have := (mem_Ico.mp hc).1; omega)]
      rw [e]
      by_cases h0 : r = m
      · subst h0
        rw [aset_self, sub_sum_loop _ _ (by omega), mul_div_cancel₀ _ (hA r hr'), h1 r (by omega)]
        ring
      · rw [aset_ne _ _ h0, h2 r (by omega) hr'])
  exact this.2 r (Nat.zero_le r) hr

theorem luDet_eq (n : Nat) (A : Mat K) (parity : Int) :
    luDet n A parity = (parity : K) * ∏ i ∈ range n, A i i := by
  refine upLoop_inv (Nat.zero_le n) (fun m t => t = (parity : K) * ∏ i ∈ range m, A i i) (by simp) ?_
  intro k t _ _ ht
  rw [ht, prod_range_succ]; ring

theorem lu_solves {n : Nat} {A0 : Mat K} {s : LUState K} {Z : Nat → Prop} (h : LUInv n A0 n s Z)
    (b : Nat → K) {i : Nat} (hi : i < n) :
    ∑ c ∈ range n, (∑ k ∈ range n, luL s.A i k * luU s.A k c) * luSolve n s.A s.p b c =
      b (Spec.rows s.p n i) := by
  have hp : ∀ c, c < n → c ≤ s.p c := fun c hc => (h.pr c hc).1
  rw [← luForward_spec s.A hp b i hi, ← luL_sum s.A (fun k => (luForward n s.A s.p b).1 k) hi]
  calc ∑ c ∈ range n, (∑ k ∈ range n, luL s.A i k * luU s.A k c) * luSolve n s.A s.p b c
      = ∑ k ∈ range n, luL s.A i k * ∑ c ∈ range n, luU s.A k c * luSolve n s.A s.p b c := by
        simp only [sum_mul, mul_sum]
        rw [sum_comm]
        exact sum_congr rfl fun k _ => sum_congr rfl fun c _ => by ring
    _ = _ := by
        refine sum_congr rfl fun k hk => ?_
        rw [luU_sum _ _ (mem_range.mp hk), luSolve, luBackward_spec s.A h.piv _ k (mem_range.mp hk)]

theorem lu_det_factors (n : Nat) (A : Mat K) :
    (Spec.matrix n (fun i c => ∑ k ∈ range n, luL A i k * luU A k c)).det = ∏ i ∈ range n, A i i := by
  have e : Spec.matrix n (fun i c => ∑ k ∈ range n, luL A i k * luU A k c) =
      Spec.matrix n (luL A) * Spec.matrix n (luU A) := by
    ext i c
    simp only [Spec.matrix, Matrix.mul_apply, Matrix.of_apply]
    exact (Fin.sum_univ_eq_sum_range (fun k => luL A i k * luU A k c) n).symm
  rw [e, Matrix.det_mul, Matrix.det_of_isLowerTriangular, Matrix.det_of_isUpperTriangular]
  · simp only [Spec.matrix, Matrix.of_apply]
    rw [prod_eq_one (fun i _ => by rw [luL, if_neg (by omega), if_pos rfl]), one_mul,
      ← Fin.prod_univ_eq_prod_range]
    exact prod_congr rfl fun i _ => by rw [luU, if_pos le_rfl]
  · intro i c hic
    have : (c : Nat) < i := hic
    simp only [Spec.matrix, Matrix.of_apply]
    rw [luU, if_neg (by omega)]
  · intro i c hic
    have : (i : Nat) < c := hic
    simp only [Spec.matrix, Matrix.of_apply]
    rw [luL, if_neg (by omega), if_neg (by omega)]

theorem luDecomp_zero {n : Nat} {A : Mat K} {v0 : Nat → K} {p0 : Nat → Nat} {q0 : Int}
    {s : LUState K} (h : luDecomp n A v0 p0 q0 = .ok (0, s)) : ∃ Z, LUInv n A n s Z := by
  unfold luDecomp at h
  rcases luColCheck_spec n A with ⟨h1, _⟩ | ⟨j, _, h1, _⟩
  · rw [h1] at h
    dsimp only at h
    rcases luRowCheck_spec n A v0 with ⟨h2, _, hv⟩ | ⟨i, _, h2, _⟩
    · generalize luRowCheck n A v0 = R at *
      obtain ⟨R1, R2⟩ := R
      dsimp only at h2 hv
      subst h2
      dsimp only at h
      obtain ⟨s', hs', hZ⟩ := luCrout A hv p0
      rw [hs'] at h
      dsimp only at h
      cases h
      exact hZ
    · generalize luRowCheck n A v0 = R at *
      obtain ⟨R1, R2⟩ := R
      dsimp only at h2
      subst h2
      dsimp only at h
      injection h with h
      have := (Prod.mk.inj h).1
      omega
  · rw [h1] at h
    dsimp only at h
    injection h with h
    have := (Prod.mk.inj h).1
    omega

/-- **C46** (return values). `lu_decomp` always returns. It returns `j+1` exactly if column `j` is the
first column of zeros, else `-(i+1)` exactly if row `i` is the first row of zeros, and then `A` is as
before; otherwise it returns 0. -/
theorem C46_returns (n : Nat) (A : Mat K) (v0 : Nat → K) (p0 : Nat → Nat) (q0 : Int) :
    ∃ r s, luDecomp n A v0 p0 q0 = .ok (r, s) ∧
      ((r = 0 ∧ (∀ j, j < n → ∃ i, i < n ∧ A i j ≠ 0) ∧ (∀ i, i < n → ∃ j, j < n ∧ A i j ≠ 0)) ∨
       (∃ j, j < n ∧ r = j + 1 ∧ s.A = A ∧ (∀ i, i < n → A i j = 0) ∧
          ∀ j', j' < j → ∃ i, i < n ∧ A i j' ≠ 0) ∨
       (∃ i, i < n ∧ r = -(i + 1) ∧ s.A = A ∧ (∀ j, j < n → A i j = 0) ∧
          (∀ i', i' < i → ∃ j, j < n ∧ A i' j ≠ 0) ∧ ∀ j, j < n → ∃ i, i < n ∧ A i j ≠ 0)) := by
  unfold luDecomp
  rcases luColCheck_spec n A with ⟨h1, hc⟩ | ⟨j, hj, h1, h2, h3⟩
  · rw [h1]
    dsimp only
    rcases luRowCheck_spec n A v0 with ⟨h2, hr, hv⟩ | ⟨i, hi, h2, h3, h4⟩
    · generalize luRowCheck n A v0 = R at *
      obtain ⟨R1, R2⟩ := R
      dsimp only at h2 hv
      subst h2
      dsimp only
      obtain ⟨s', hs', _⟩ := luCrout A hv p0
      rw [hs']
      exact ⟨0, s', rfl, Or.inl ⟨rfl, hc, hr⟩⟩
    · generalize luRowCheck n A v0 = R at *
      obtain ⟨R1, R2⟩ := R
      dsimp only at h2
      subst h2
      exact ⟨_, _, rfl, Or.inr (Or.inr ⟨i, hi, rfl, rfl, h3, h4, hc⟩)⟩
  · rw [h1]
    exact ⟨_, _, rfl, Or.inr (Or.inl ⟨j, hj, rfl, rfl, h2, h3⟩)⟩

/-- The statement of C46_perturbed for what Crout's method leaves behind. -/
theorem lu_perturbed {n : Nat} {A : Mat K} {s : LUState K} {Z : Nat → Prop} (hZ : LUInv n A n s Z) :
    ∃ A' : Mat K, (Spec.matrix n A').det ≠ 0 ∧
      (∀ b i, i < n → ∑ c ∈ range n, A' i c * luSolve n s.A s.p b c = b i) ∧
      luDet n s.A s.parity = (Spec.matrix n A').det ∧
      (∀ i c, A' i c = A i c ∨ A' i c = A i c + 1 / 10 ^ 300) ∧
      (∀ i c c', A' i c ≠ A i c → A' i c' ≠ A i c' → c = c') ∧
      (∀ i i' c, A' i c ≠ A i c → A' i' c ≠ A i' c → i = i') ∧
      ((∃ i c, i < n ∧ c < n ∧ A' i c ≠ A i c) → (Spec.matrix n A).det = 0) := by
  classical
  have hlt := fun i (hi : i < n) => rows_lt (fun c hc => (hZ.pr c hc).2) (le_refl n) hi
  set σ := Spec.rows s.p n with hσ
  set A' : Mat K := fun i c => A i c + if σ.symm i = c ∧ Z c then luTiny else 0 with hA'
  have hprod : ∀ i c, i < n → c < n →
      ∑ k ∈ range n, luL s.A i k * luU s.A k c = A' (σ i) c := by
    intro i c hi hc
    rw [lu_product hZ hi hc, hA']
    beta_reduce
    rw [Equiv.symm_apply_apply]
  have hdet : luDet n s.A s.parity = (Spec.matrix n A').det := by
    rw [luDet_eq, ← lu_det_factors, hZ.det A']
    congr 2
    ext i c
    simp only [Spec.matrix, Matrix.of_apply]
    exact hprod i c i.2 c.2
  have hne : ∀ i c, A' i c ≠ A i c → σ.symm i = c ∧ Z c := by
    intro i c hic
    by_contra h0
    exact hic (by rw [hA']; beta_reduce; rw [if_neg h0, add_zero])
  refine ⟨A', ?_, ?_, hdet, ?_, ?_, ?_, ?_⟩
  · rw [← hdet, luDet_eq]
    refine mul_ne_zero ?_ (prod_ne_zero_iff.mpr fun i hi => hZ.piv i (mem_range.mp hi))
    intro h0
    have h1 := hZ.det (fun i c => if i = c then 1 else 0)
    rw [h0, zero_mul] at h1
    have h2 : Spec.matrix n (fun i c => if i = c then (1 : K) else 0) = 1 := by
      ext i c
      simp [Spec.matrix, Matrix.one_apply, Fin.ext_iff]
    rw [h2, Matrix.det_one] at h1
    exact one_ne_zero h1
  · intro b i hi
    have h1 := lu_solves hZ b (hlt i hi).2
    rw [← hσ, Equiv.apply_symm_apply] at h1
    rw [← h1]
    refine sum_congr rfl fun c hc => ?_
    rw [hprod _ c (hlt i hi).2 (mem_range.mp hc), Equiv.apply_symm_apply]
  · intro i c
    rw [hA']
    beta_reduce
    split
    · exact Or.inr rfl
    · exact Or.inl (add_zero _)
  · intro i c c' h1 h2
    exact (hne i c h1).1.symm.trans (hne i c' h2).1
  · intro i i' c h1 h2
    exact σ.symm.injective ((hne i c h1).1.trans (hne i' c h2).1.symm)
  · rintro ⟨i, c, _, hc, h1⟩
    exact hZ.zdet ⟨c, hc, (hne i c h1).2⟩

/-- **C46** (every matrix for which `lu_decomp` returns 0). There is an invertible matrix `A'` for which
`lu_solve` gives the exact solution for every right hand side and `lu_det` the determinant. `A'` differs
from `A` only in that `TINY` is added to some entries, at most one in each row and column, and if there is
such an entry, then `A` is singular. -/
theorem C46_perturbed {n : Nat} {A : Mat K} {v0 : Nat → K} {p0 : Nat → Nat} {q0 : Int}
    {s : LUState K} (h : luDecomp n A v0 p0 q0 = .ok (0, s)) :
    ∃ A' : Mat K, (Spec.matrix n A').det ≠ 0 ∧
      (∀ b i, i < n → ∑ c ∈ range n, A' i c * luSolve n s.A s.p b c = b i) ∧
      luDet n s.A s.parity = (Spec.matrix n A').det ∧
      (∀ i c, A' i c = A i c ∨ A' i c = A i c + 1 / 10 ^ 300) ∧
      (∀ i c c', A' i c ≠ A i c → A' i c' ≠ A i c' → c = c') ∧
      (∀ i i' c, A' i c ≠ A i c → A' i' c ≠ A i' c → i = i') ∧
      ((∃ i c, i < n ∧ c < n ∧ A' i c ≠ A i c) → (Spec.matrix n A).det = 0) := by
  obtain ⟨Z, hZ⟩ := luDecomp_zero h
  exact lu_perturbed hZ

/-- **C46** (invertible matrices). For every invertible matrix `lu_decomp` returns 0, `lu_solve` then
overwrites every `b` with the solution of `A x = b`, and `lu_det` is the determinant. -/
theorem C46_invertible {n : Nat} {A : Mat K} (hA : (Spec.matrix n A).det ≠ 0) (v0 : Nat → K)
    (p0 : Nat → Nat) (q0 : Int) :
    ∃ s, luDecomp n A v0 p0 q0 = .ok (0, s) ∧
      (∀ b i, i < n → ∑ c ∈ range n, A i c * luSolve n s.A s.p b c = b i) ∧
      luDet n s.A s.parity = (Spec.matrix n A).det := by
  obtain ⟨r, s, h1, h2⟩ := C46_returns n A v0 p0 q0
  rcases h2 with ⟨rfl, _⟩ | ⟨j, hj, _, _, h3, _⟩ | ⟨i, hi, _, _, h3, _⟩
  · obtain ⟨A', _, hsol, hdet, _, _, _, hsing⟩ := C46_perturbed h1
    have heq : ∀ i c, i < n → c < n → A' i c = A i c := by
      intro i c hi hc
      by_contra h0
      exact hA (hsing ⟨i, c, hi, hc, h0⟩)
    refine ⟨s, h1, fun b i hi => ?_, ?_⟩
    · rw [← hsol b i hi]
      exact sum_congr rfl fun c hc => by rw [heq i c hi (mem_range.mp hc)]
    · rw [hdet]
      congr 1
      ext i c
      exact heq i c i.2 c.2
  · exact absurd (Matrix.det_eq_zero_of_column_eq_zero (A := Spec.matrix n A) ⟨j, hj⟩ fun i => h3 i i.2) hA
  · exact absurd (Matrix.det_eq_zero_of_row_eq_zero (A := Spec.matrix n A) ⟨i, hi⟩ fun c => h3 c c.2) hA

/-- **C46** (singular matrices). If `lu_decomp` returns 0, then `lu_det` is never zero: for a singular
matrix without a row or column of zeros it is not the determinant. -/
theorem C46_singular {n : Nat} {A : Mat K} {v0 : Nat → K} {p0 : Nat → Nat} {q0 : Int}
    {s : LUState K} (h : luDecomp n A v0 p0 q0 = .ok (0, s)) : luDet n s.A s.parity ≠ 0 := by
  obtain ⟨A', h1, _, h2, _⟩ := C46_perturbed h
  rw [h2]; exact h1

end

/-- A matrix that needs an exchange of rows. -/
def luExample : Mat ℚ := fun i j =>
  match i, j with
  | 0, 0 => 0 | 0, 1 => 2 | 0, 2 => 1
  | 1, 0 => 1 | 1, 1 => 1 | 1, 2 => 3
  | 2, 0 => 4 | 2, 1 => 0 | 2, 2 => 1
  | _, _ => 0

example : (match luDecomp 3 luExample (fun _ => 0) (fun _ => 0) 7 with
    | .ok (r, s) => (r, s.parity, (List.range 3).map s.p, luDet 3 s.A s.parity,
        (List.range 3).map (luSolve 3 s.A s.p fun i => i + 1))
    | _ => (7, 7, [], 7, [])) = (0, 1, [2, 2, 2], 18, [2 / 3, 1 / 3, 1 / 3]) := by decide +kernel

example : (match luDecomp 2 (fun _ j => if j = 1 then (0 : ℚ) else 1) (fun _ => 0) (fun _ => 0) 7 with
    | .ok (r, _) => r
    | _ => 7) = 2 := by decide +kernel

/-- The determinant of a singular matrix is `TINY`. -/
example : (match luDecomp 2 (fun _ _ => (1 : ℚ)) (fun _ => 0) (fun _ => 0) 7 with
    | .ok (r, s) => (r, luDet 2 s.A s.parity)
    | _ => (7, 7)) = (0, -1 / 10 ^ 300) := by decide +kernel

end Sgrid
