import Mathlib.Algebra.BigOperators.Ring.Finset
import Mathlib.Tactic.Ring
import Verif.Model.Sparse
import Verif.Lemmas.Parallel

/-!
# C42, C43: sparse matrices
-/

namespace Sgrid
open Finset
variable {K : Type} [Field K]

/-- Entry `j` of the line of a matrix: repeated positions are added. -/
def Spec.entry (v : SVec K) (j : Int) : K := (v.map fun e => if e.1 = j then e.2 else 0).sum

/-- All positions are column numbers below `n`. -/
def Spec.Fits (v : SVec K) (n : Nat) : Prop := ∀ e ∈ v, 0 ≤ e.1 ∧ e.1 < n

/-- **C42.** `AddToSparseVector` adds the value to the entry. -/
theorem C42_add (v : SVec K) (p : Int) (a : K) (j : Int) :
    Spec.entry (v.add p a) j = Spec.entry v j + if p = j then a else 0 := by
  simp [Spec.entry, SVec.add]

/-- The sum over entries as a sum over columns. -/
theorem sum_entries (v : SVec K) (n : Nat) (h : Spec.Fits v n) (x : DArr K) :
    (v.map fun e => e.2 * x e.1).sum = ∑ j ∈ range n, Spec.entry v j * x j := by
  induction v with
  | nil => simp [Spec.entry]
  | cons e v ih =>
    have hv : Spec.Fits v n := fun e he => h e (List.mem_cons_of_mem _ he)
    obtain ⟨h0, h1⟩ := h e List.mem_cons_self
    obtain ⟨p, hp⟩ : ∃ p : Nat, e.1 = p := ⟨e.1.toNat, by omega⟩
    rw [List.map_cons, List.sum_cons, ih hv]
    have e1 : ∀ j ∈ range n, Spec.entry (e :: v) j * x j =
        (if e.1 = (j : Int) then e.2 else 0) * x j + Spec.entry v j * x j := by
      intro j _
      simp only [Spec.entry, List.map_cons, List.sum_cons]
      ring
    rw [sum_congr rfl e1, sum_add_distrib]
    congr 1
    rw [sum_eq_single p]
    · rw [hp, if_pos rfl]
    · intro b _ hb
      rw [if_neg (by rw [hp]; exact_mod_cast Ne.symm hb), zero_mul]
    · intro hn
      exact absurd (mem_range.2 (by omega)) hn

theorem spLine_eq (v : SVec K) (x : DArr K) (i : Int) (f : DArr K) :
    spLine v x i f = Function.update f i (f i + (v.map fun e => e.2 * x e.1).sum) := by
  unfold spLine
  induction v generalizing f with
  | nil => simp
  | cons e v ih =>
    rw [List.foldl_cons, ih, List.map_cons, List.sum_cons, Function.update_self, add_assoc]
    funext k
    by_cases hk : k = i
    · subst hk; simp
    · simp [hk]

/-- **C42.** `SparseMatrixLines_times_vector` computes `f_i = Σ_j A_ij x_j` for all lines, whatever `f`
held before, and writes nothing else. -/
theorem C42_times_vector (A : Nat → SVec K) (nlines ncols : Nat) (x f : DArr K)
    (h : ∀ i, i < nlines → Spec.Fits (A i) ncols) :
    (∀ i : Nat, i < nlines → spTimesVec A nlines x f i = ∑ j ∈ range ncols, Spec.entry (A i) j * x j) ∧
      ∀ i : Int, i < 0 ∨ nlines ≤ i → spTimesVec A nlines x f i = f i := by
  have key := upLoop_inv (Nat.zero_le nlines)
    (body := fun i f => spLine (A i) x i (Function.update f (i : Int) 0)) (s := f)
    (fun m f' => (∀ i : Nat, i < m → f' i = ∑ j ∈ range ncols, Spec.entry (A i) j * x j) ∧
      ∀ i : Int, i < 0 ∨ m ≤ i → f' i = f i)
    ⟨fun i hi => absurd hi (Nat.not_lt_zero i), fun _ _ => rfl⟩ ?_
  · exact key
  · rintro m f' - hm ⟨h1, h2⟩
    rw [spLine_eq, sum_entries (A m) ncols (h m hm)]
    refine ⟨fun i hi => ?_, fun i hi => ?_⟩
    · by_cases him : i = m
      · subst him; simp
      · have : (i : Int) ≠ m := by exact_mod_cast him
        rw [Function.update_of_ne this, Function.update_of_ne this]
        exact h1 i (by omega)
    · have : i ≠ (m : Int) := by omega
      rw [Function.update_of_ne this, Function.update_of_ne this]
      exact h2 i (by omega)

theorem spLineT_eq (v : SVec K) (xk : K) (f : DArr K) (j : Int) :
    spLineT v xk f j = f j + xk * Spec.entry v j := by
  unfold spLineT
  induction v generalizing f with
  | nil => simp [Spec.entry]
  | cons e v ih =>
    rw [List.foldl_cons, ih]
    simp only [Spec.entry, List.map_cons, List.sum_cons]
    by_cases hj : e.1 = j
    · subst hj; simp; ring
    · rw [Function.update_of_ne (Ne.symm hj), if_neg hj]
      ring

theorem spZero_eq (n : Nat) (f : DArr K) (j : Int) :
    upLoop 0 n (fun k f => Function.update f (k : Int) 0) f j = if 0 ≤ j ∧ j < n then 0 else f j := by
  have key := upLoop_inv (Nat.zero_le n) (body := fun k f => Function.update f (k : Int) (0 : K)) (s := f)
    (fun m f' => ∀ j : Int, f' j = if 0 ≤ j ∧ j < m then 0 else f j) (fun j => by
      rw [if_neg (by omega)]) ?_
  · exact key j
  · intro m f' _ _ ih j
    by_cases hj : j = m
    · subst hj
      rw [Function.update_self, if_pos (by omega)]
    · rw [Function.update_of_ne hj, ih]
      exact if_congr (by omega) rfl rfl

theorem spSum_eq (A : Nat → SVec K) (n : Nat) (x f : DArr K) (j : Int) :
    upLoop 0 n (fun k f => spLineT (A k) (x k) f) f j = f j + ∑ k ∈ range n, x k * Spec.entry (A k) j := by
  have key := upLoop_inv (Nat.zero_le n) (body := fun k f => spLineT (A k) (x k) f) (s := f)
    (fun m f' => ∀ j : Int, f' j = f j + ∑ k ∈ range m, x k * Spec.entry (A k) j) (fun j => by simp) ?_
  · exact key j
  · intro m f' _ _ ih j
    rw [spLineT_eq, ih, sum_range_succ, add_assoc]

/-- **C42**, partial: with one thread `vector_times_SparseMatrixLines` computes `f_j = Σ_k x_k A_kj` for
all columns `j` below the number of lines. Columns beyond the number of lines are added to what `f` held
before. Missing: those columns, which are not set to zero (see the counterexample). -/
theorem C42_vector_times_partial (A : Nat → SVec K) (nlines : Nat) (x f : DArr K) (j : Int) :
    vecTimesSp x A nlines f j = (if 0 ≤ j ∧ j < nlines then 0 else f j) +
      ∑ k ∈ range nlines, x k * Spec.entry (A k) j := by
  unfold vecTimesSp
  rw [spSum_eq, spZero_eq]

/-- Both functions for the transposed matrix compute the same. -/
theorem C42_transpose (A : Nat → SVec K) (nlines : Nat) (x f : DArr K) :
    spTTimesVec A nlines x f = vecTimesSp x A nlines f := by
  unfold spTTimesVec vecTimesSp spLineT
  simp only [mul_comm]

/-- **C42** for square matrices: the product with the transposed matrix, for all contents of `f`. -/
theorem C42_square (A : Nat → SVec K) (n : Nat) (x f : DArr K) (j : Nat) (hj : j < n) :
    vecTimesSp x A n f j = ∑ k ∈ range n, x k * Spec.entry (A k) j ∧
      spTTimesVec A n x f j = ∑ k ∈ range n, Spec.entry (A k) j * x k := by
  rw [C42_transpose, C42_vector_times_partial, if_pos (by omega), zero_add]
  exact ⟨rfl, sum_congr rfl fun _ _ => mul_comm _ _⟩

/-- **C42** fails for a matrix with more columns than lines: the product with `x = (1)` of the 1×2 matrix
`(0 1)` depends on what `f` held before. -/
theorem C42_columns_counterexample :
    vecTimesSp (fun _ => (1 : ℚ)) (fun _ => [(1, 1)]) 1 (fun _ => 5) 1 ≠
      ∑ _ ∈ range 1, (1 : ℚ) * Spec.entry [(1, 1)] 1 := by
  decide +kernel

/-- **C42**, partial: `GetSparseVectorComponent` returns the entry if no position is repeated. Missing:
repeated positions, where it returns the first value instead of the sum. -/
theorem C42_component_partial (v : SVec K) (h : (v.map Prod.fst).Nodup) (j : Int) :
    v.comp j = Spec.entry v j := by
  induction v with
  | nil => rfl
  | cons e v ih =>
    simp only [List.map_cons, List.nodup_cons] at h
    simp only [SVec.comp, Spec.entry, List.map_cons, List.sum_cons]
    by_cases hj : e.1 = j
    · rw [if_pos hj, if_pos hj]
      have : (v.map fun e => if e.1 = j then e.2 else 0).sum = 0 := by
        rw [List.sum_eq_zero]
        intro a ha
        obtain ⟨e', he', rfl⟩ := List.mem_map.1 ha
        rw [if_neg]
        rintro h'
        exact h.1 (List.mem_map.2 ⟨e', he', by rw [h', hj]⟩)
      rw [this, add_zero]
    · rw [if_neg hj, if_neg hj, zero_add]
      exact ih h.2

/-- After adding 1 and 2 at position 0 the product uses 3, the component is 1. -/
theorem C42_component_counterexample :
    SVec.comp ((SVec.add [] 0 1).add 0 2 : SVec ℚ) 0 = 1 ∧
      Spec.entry ((SVec.add [] 0 1).add 0 2 : SVec ℚ) 0 = 3 := by
  decide +kernel

/-- The 2×2 matrix with lines `(1 2)` and `(0 3)`, entered in some order. -/
example : (spTimesVec (fun i => if i = 0 then [(1, 2), (0, 1)] else [(1, 1), (1, 2)]) 2
      (fun j => if j = 0 then 5 else 7) (fun _ => 9) : DArr ℚ) 0 = 19 ∧
    (spTimesVec (fun i => if i = 0 then [(1, 2), (0, 1)] else [(1, 1), (1, 2)]) 2
      (fun j => if j = 0 then 5 else 7) (fun _ => 9) : DArr ℚ) 1 = 21 := by
  decide +kernel

/-! ## C43 -/

theorem writes_spTimesVec (A : Nat → SVec K) (i : Nat) (y : SLoc) :
    Spec.Writes (spTimesVecProg A i) y → y = .f i := by
  rintro ⟨e, he⟩
  simp only [spTimesVecProg, List.mem_cons, List.mem_flatMap, Act.store.injEq, reduceCtorEq,
    List.not_mem_nil, or_false, false_or] at he
  rcases he with ⟨h, _⟩ | ⟨_, _, h, _⟩ <;> exact h

theorem reads_spTimesVec (A : Nat → SVec K) (i : Nat) (y : SLoc) :
    Spec.Reads (spTimesVecProg A i) y → y = .f i ∨ ∃ j, y = .x j := by
  rintro ⟨r, hr⟩
  simp only [spTimesVecProg, List.mem_cons, List.mem_flatMap, Act.load.injEq, reduceCtorEq,
    List.not_mem_nil, or_false, false_or] at hr
  rcases hr with ⟨e, _, ⟨_, h⟩ | ⟨_, h⟩⟩
  · exact .inr ⟨_, h⟩
  · exact .inl h

theorem norace_spTimesVec (A : Nat → SVec K) (n : Nat) : Spec.NoRace n (spTimesVecProg A) := by
  intro i j _ _ hij y hw
  have := writes_spTimesVec A i y hw
  subst this
  refine ⟨fun h => ?_, fun h => ?_⟩
  · have := writes_spTimesVec A j _ h
    simp only [SLoc.f.injEq] at this
    omega
  · rcases reads_spTimesVec A j _ h with h | ⟨_, h⟩
    · simp only [SLoc.f.injEq] at h
      omega
    · cases h

omit [Field K] in
theorem SLoc.update_f (x f : DArr K) (i : Int) (a : K) :
    Function.update (SLoc.mem x f) (.f i) a = SLoc.mem x (Function.update f i a) := by
  funext y
  cases y with
  | x j => simp [SLoc.mem]
  | f j =>
    by_cases h : j = i
    · subst h; simp [SLoc.mem]
    · simp [SLoc.mem, h]

theorem runPass_line (v : SVec K) (i : Int) (x f : DArr K) (ρ : Nat → K) :
    (runPass (v.flatMap fun e =>
      [.load 0 (.x e.1), .load 1 (.f i), .store (.f i) fun r => r 1 + e.2 * r 0])
      (SLoc.mem x f, ρ)).1 = SLoc.mem x (spLine v x i f) := by
  induction v generalizing f ρ with
  | nil => rfl
  | cons e v ih =>
    rw [List.flatMap_cons, runPass_append]
    simp only [runPass, List.foldl_cons, List.foldl_nil, Act.run, SLoc.update_f]
    simp only [Function.update_self, Function.update_of_ne (show (0 : Nat) ≠ 1 by decide)]
    exact ih (Function.update f i (f i + e.2 * x e.1)) _

theorem seq_spTimesVec (A : Nat → SVec K) (n : Nat) (x f : DArr K) (ρ : Nat → Nat → K) :
    seqLoop n (spTimesVecProg A) ρ (SLoc.mem x f) = SLoc.mem x (spTimesVec A n x f) := by
  unfold seqLoop spTimesVec
  have key := upLoop_inv (Nat.zero_le n)
    (body := fun i m => (runPass (spTimesVecProg A i) (m, ρ i)).1) (s := SLoc.mem x f)
    (fun k m => m = SLoc.mem x (upLoop 0 k (fun i f => spLine (A i) x i (Function.update f (i : Int) 0)) f))
    (by rw [upLoop_nil (le_refl 0)]) ?_
  · exact key
  · intro k m _ _ ih
    rw [ih, upLoop_succ (Nat.zero_le k)]
    unfold spTimesVecProg
    change (runPass _ (Act.run (_, _) (.store (SLoc.f k) fun _ => 0))).1 = _
    simp only [Act.run, SLoc.update_f]
    rw [runPass_line]

/-- **C43.** `SparseMatrixLines_times_vector` gives the result of the sequential loop for every schedule
of the threads. -/
theorem C43_times_vector (A : Nat → SVec K) (nlines : Nat) (x f : DArr K) (ρ : Nat → Nat → K)
    (sched : List Nat) (hs : Spec.Complete nlines (spTimesVecProg A) sched) :
    parLoop (spTimesVecProg A) ρ (SLoc.mem x f) sched = SLoc.mem x (spTimesVec A nlines x f) := by
  rw [parLoop_eq_seq nlines _ _ _ (norace_spTimesVec A nlines) sched hs, seq_spTimesVec]

theorem writes_vecTimesSp (A : Nat → SVec K) (k : Nat) (y : SLoc) :
    Spec.Writes (vecTimesSpProg A k) y → ∃ e ∈ A k, y = .f e.1 := by
  rintro ⟨e, he⟩
  simp only [vecTimesSpProg, List.mem_flatMap, List.mem_cons, Act.store.injEq, reduceCtorEq,
    List.not_mem_nil, or_false, false_or] at he
  obtain ⟨e', h1, h2, _⟩ := he
  exact ⟨e', h1, h2⟩

theorem reads_vecTimesSp (A : Nat → SVec K) (k : Nat) (y : SLoc) :
    Spec.Reads (vecTimesSpProg A k) y → y = .x k ∨ ∃ e ∈ A k, y = .f e.1 := by
  rintro ⟨r, hr⟩
  simp only [vecTimesSpProg, List.mem_flatMap, List.mem_cons, Act.load.injEq, reduceCtorEq,
    List.not_mem_nil, or_false] at hr
  obtain ⟨e, h1, ⟨_, h⟩ | ⟨_, h⟩⟩ := hr
  · exact .inl h
  · exact .inr ⟨e, h1, h⟩

theorem runPass_lineT (v : SVec K) (k : Int) (x f : DArr K) (ρ : Nat → K) :
    (runPass (v.flatMap fun e =>
      [.load 0 (.x k), .load 1 (.f e.1), .store (.f e.1) fun r => r 1 + r 0 * e.2])
      (SLoc.mem x f, ρ)).1 = SLoc.mem x (spLineT v (x k) f) := by
  induction v generalizing f ρ with
  | nil => rfl
  | cons e v ih =>
    rw [List.flatMap_cons, runPass_append]
    simp only [runPass, List.foldl_cons, List.foldl_nil, Act.run, SLoc.update_f]
    simp only [Function.update_self, Function.update_of_ne (show (0 : Nat) ≠ 1 by decide)]
    exact ih (Function.update f e.1 (f e.1 + x k * e.2)) _

/-- **C43**, partial: the products with the transposed matrix give the result of the sequential loop for
every schedule if no column has entries in two lines. Missing: all other matrices, where two threads can
update the same `f[j]` at the same time (see the counterexample). -/
theorem C43_vector_times_partial (A : Nat → SVec K) (nlines : Nat) (x f : DArr K) (ρ : Nat → Nat → K)
    (hA : ∀ i j, i < nlines → j < nlines → i ≠ j → ∀ e ∈ A i, ∀ e' ∈ A j, e.1 ≠ e'.1)
    (sched : List Nat) (hs : Spec.Complete nlines (vecTimesSpProg A) sched) :
    parLoop (vecTimesSpProg A) ρ
      (SLoc.mem x (upLoop 0 nlines (fun k f => Function.update f (k : Int) 0) f)) sched =
      SLoc.mem x (vecTimesSp x A nlines f) := by
  have hr : Spec.NoRace nlines (vecTimesSpProg A) := by
    intro i j hi hj hij y hw
    obtain ⟨e, he, rfl⟩ := writes_vecTimesSp A i y hw
    refine ⟨fun h => ?_, fun h => ?_⟩
    · obtain ⟨e', he', h⟩ := writes_vecTimesSp A j _ h
      exact hA i j hi hj hij e he e' he' (SLoc.f.inj h)
    · rcases reads_vecTimesSp A j _ h with h | ⟨e', he', h⟩
      · cases h
      · exact hA i j hi hj hij e he e' he' (SLoc.f.inj h)
  rw [parLoop_eq_seq nlines _ _ _ hr sched hs]
  unfold seqLoop vecTimesSp
  simp only
  generalize upLoop 0 nlines (fun k f => Function.update f (k : Int) 0) f = f0
  have key := upLoop_inv (Nat.zero_le nlines)
    (body := fun i m => (runPass (vecTimesSpProg A i) (m, ρ i)).1) (s := SLoc.mem x f0)
    (fun k m => m = SLoc.mem x (upLoop 0 k (fun k f => spLineT (A k) (x k) f) f0))
    (by rw [upLoop_nil (le_refl 0)]) ?_
  · exact key
  · intro k m _ _ ih
    rw [ih, upLoop_succ (Nat.zero_le k)]
    exact runPass_lineT (A k) k x _ (ρ k)

/-- Two lines with an entry 1 in column 0 and `x = (1,1)`: the result is 2 with one thread, 1 if both
threads read `f[0]` before one of them writes. -/
theorem C43_race_counterexample :
    let A : Nat → SVec ℚ := fun _ => [(0, 1)]
    let sched := [0, 0, 1, 1, 0, 1]
    (∀ i, i < 2 → sched.count i = (vecTimesSpProg A i).length) ∧
      parLoop (vecTimesSpProg A) (fun _ _ => 0) (SLoc.mem (fun _ => 1) fun _ => 0) sched (.f 0) = 1 ∧
      parLoop (spTTimesVecProg A) (fun _ _ => 0) (SLoc.mem (fun _ => 1) fun _ => 0) sched (.f 0) = 1 ∧
      vecTimesSp (fun _ => 1) A 2 (fun _ => 0) 0 = 2 := by
  decide +kernel

end Sgrid
