import Mathlib.Algebra.BigOperators.Intervals

/-!
C loops whose bodies cannot fail, and arrays of numbers. An array is a function of the index; the
entries that the C program does not own are there but theorems say that they are not touched.
-/

namespace Sgrid

/-- `for(j=lo; j<hi; j++) s = body(j,s)`. -/
def upLoop {σ : Type u} (lo hi : Nat) (body : Nat → σ → σ) (s : σ) : σ :=
  (List.range' lo (hi - lo)).foldl (fun s j => body j s) s

/-- `for(j=hi-1; j>=lo; j--) s = body(j,s)`. -/
def downLoop {σ : Type u} (lo hi : Nat) (body : Nat → σ → σ) (s : σ) : σ :=
  (List.range' lo (hi - lo)).reverse.foldl (fun s j => body j s) s

/-- `a[j] = x`. -/
def aset {α : Type u} (a : Nat → α) (j : Nat) (x : α) : Nat → α := Function.update a j x

@[simp] theorem aset_self {α : Type u} (a : Nat → α) (j : Nat) (x : α) : aset a j x j = x := by
  simp [aset]

theorem aset_ne {α : Type u} (a : Nat → α) {j k : Nat} (x : α) (h : k ≠ j) :
    aset a j x k = a k := by
  simp [aset, h]

theorem upLoop_nil {σ : Type u} {lo hi : Nat} (h : hi ≤ lo) (body : Nat → σ → σ) (s : σ) :
    upLoop lo hi body s = s := by
  simp [upLoop, Nat.sub_eq_zero_of_le h]

theorem upLoop_succ {σ : Type u} {lo hi : Nat} (h : lo ≤ hi) (body : Nat → σ → σ) (s : σ) :
    upLoop lo (hi + 1) body s = body hi (upLoop lo hi body s) := by
  obtain ⟨d, rfl⟩ := Nat.exists_eq_add_of_le h
  have e1 : lo + d + 1 - lo = d + 1 := by omega
  have e2 : lo + d - lo = d := by omega
  simp only [upLoop, e1, e2, List.range'_concat, List.foldl_append, List.foldl_cons, List.foldl_nil,
    Nat.one_mul]

theorem downLoop_nil {σ : Type u} {lo hi : Nat} (h : hi ≤ lo) (body : Nat → σ → σ) (s : σ) :
    downLoop lo hi body s = s := by
  simp [downLoop, Nat.sub_eq_zero_of_le h]

theorem downLoop_step {σ : Type u} {lo hi : Nat} (h : lo < hi) (body : Nat → σ → σ) (s : σ) :
    downLoop lo hi body s = body lo (downLoop (lo + 1) hi body s) := by
  obtain ⟨d, rfl⟩ := Nat.exists_eq_add_of_lt h
  have e1 : lo + d + 1 - lo = d + 1 := by omega
  have e2 : lo + d + 1 - (lo + 1) = d := by omega
  simp only [downLoop, e1, e2, List.range'_succ, List.reverse_cons, List.foldl_append,
    List.foldl_cons, List.foldl_nil]

/-- Invariant of an upward loop. -/
theorem upLoop_inv {σ : Type u} {lo hi : Nat} (h : lo ≤ hi) {body : Nat → σ → σ} {s : σ}
    (P : Nat → σ → Prop) (h0 : P lo s)
    (hs : ∀ j t, lo ≤ j → j < hi → P j t → P (j + 1) (body j t)) : P hi (upLoop lo hi body s) := by
  obtain ⟨d, rfl⟩ := Nat.exists_eq_add_of_le h
  clear h
  induction d with
  | zero => rw [upLoop_nil (by omega)]; exact h0
  | succ d ih =>
    rw [← Nat.add_assoc, upLoop_succ (by omega)]
    exact hs _ _ (by omega) (by omega) (ih fun j t h1 h2 => hs j t h1 (by omega))

/-- Invariant of a downward loop. -/
theorem downLoop_inv {σ : Type u} {lo hi : Nat} (h : lo ≤ hi) {body : Nat → σ → σ} {s : σ}
    (P : Nat → σ → Prop) (h0 : P hi s)
    (hs : ∀ j t, lo ≤ j → j < hi → P (j + 1) t → P j (body j t)) :
    P lo (downLoop lo hi body s) := by
  obtain ⟨d, rfl⟩ := Nat.exists_eq_add_of_le h
  clear h
  induction d generalizing lo with
  | zero => rw [downLoop_nil (by omega)]; exact h0
  | succ d ih =>
    rw [downLoop_step (by omega)]
    refine hs _ _ (by omega) (by omega) ?_
    have e : lo + (d + 1) = lo + 1 + d := by omega
    rw [e] at h0 hs ⊢
    exact ih h0 fun j t h1 h2 => hs j t (by omega) h2

theorem upLoop_congr {σ : Type u} {lo hi : Nat} {body body' : Nat → σ → σ} (s : σ)
    (h : ∀ j t, lo ≤ j → j < hi → body j t = body' j t) :
    upLoop lo hi body s = upLoop lo hi body' s := by
  rcases Nat.le_total lo hi with hl | hl
  · obtain ⟨d, rfl⟩ := Nat.exists_eq_add_of_le hl
    clear hl
    induction d with
    | zero => rw [upLoop_nil (by omega), upLoop_nil (by omega)]
    | succ d ih =>
      rw [← Nat.add_assoc, upLoop_succ (by omega), upLoop_succ (by omega),
        ih fun j t h1 h2 => h j t h1 (by omega), h _ _ (by omega) (by omega)]
  · rw [upLoop_nil hl, upLoop_nil hl]

/-- Summation loops. -/
theorem upLoop_sum {K : Type u} [AddCommMonoid K] {lo hi : Nat} (f : Nat → K) (s : K) :
    upLoop lo hi (fun j s => s + f j) s = s + ∑ j ∈ Finset.Ico lo hi, f j := by
  rcases Nat.le_total lo hi with h | h
  · apply upLoop_inv h (fun j t => t = s + ∑ i ∈ Finset.Ico lo j, f i)
    · simp
    · intro j t h1 h2 ht
      rw [ht, Finset.sum_Ico_succ_top h1, add_assoc]
  · rw [upLoop_nil h, Finset.Ico_eq_empty (by omega)]; simp

/-- Loops that fill an array. -/
theorem upLoop_fill {α : Type u} {lo hi : Nat} (f : Nat → α) (a : Nat → α) (j : Nat) :
    upLoop lo hi (fun j a => aset a j (f j)) a j = if lo ≤ j ∧ j < hi then f j else a j := by
  rcases Nat.le_total lo hi with h | h
  · have := upLoop_inv h (body := fun j a => aset a j (f j)) (s := a)
      (fun m t => ∀ j, t j = if lo ≤ j ∧ j < m then f j else a j) (by
        intro j; rw [if_neg (by omega)]) (by
        intro m t h1 h2 ht j
        by_cases hj : j = m
        · subst hj; rw [aset_self, if_pos ⟨h1, by omega⟩]
        · rw [aset_ne _ _ hj, ht j]
          exact if_congr (by omega) rfl rfl)
    exact this j
  · rw [upLoop_nil h, if_neg (by omega)]

/-- Loops that change each entry of an array by itself. -/
theorem upLoop_mapi {α : Type u} {lo hi : Nat} (f : Nat → α → α) (a : Nat → α) (j : Nat) :
    upLoop lo hi (fun j a => aset a j (f j (a j))) a j =
      if lo ≤ j ∧ j < hi then f j (a j) else a j := by
  rcases Nat.le_total lo hi with h | h
  · have := upLoop_inv h (body := fun j a => aset a j (f j (a j))) (s := a)
      (fun m t => ∀ j, t j = if lo ≤ j ∧ j < m then f j (a j) else a j) (by
        intro j; rw [if_neg (by omega)]) (by
        intro m t h1 h2 ht j
        by_cases hj : j = m
        · subst hj; rw [aset_self, if_pos ⟨h1, by omega⟩, ht, if_neg (by omega)]
        · rw [aset_ne _ _ hj, ht j]
          exact if_congr (by omega) rfl rfl)
    exact this j
  · rw [upLoop_nil h, if_neg (by omega)]

end Sgrid
