import Mathlib.Algebra.BigOperators.Ring.Finset
import Mathlib.Algebra.Order.BigOperators.Group.Finset
import Mathlib.Algebra.Order.Field.Rat
import Mathlib.Algebra.Order.Archimedean.Basic
import Mathlib.Analysis.SpecificLimits.Basic
import Mathlib.Analysis.Real.Sqrt
import Mathlib.Tactic.FieldSimp
import Mathlib.Tactic.Linarith
import Mathlib.Tactic.Positivity
import Mathlib.Tactic.Ring
import Verif.Model.Sor
import Verif.Props.RootFind
import Verif.Props.Sparse

/-!
# C92: successive overrelaxation
-/

namespace Sgrid

open Finset

namespace Spec

variable {K : Type} [Field K]

/-- The lines of a square matrix: column numbers are smaller than `n`, none appears twice. -/
def Square (A : Nat → SVec K) (n : Nat) : Prop :=
  ∀ i, i < n → Fits (A i) n ∧ ((A i).map Prod.fst).Nodup

/-- Successive overrelaxation in components: `x'` from `x`, using the new values for smaller indices. -/
def Relaxed (a : Nat → Nat → K) (b : Nat → K) (omega : K) (n : Nat) (x x' : Nat → K) : Prop :=
  ∀ i, i < n → x' i = (1 - omega) * x i +
    omega / a i i * (b i - ∑ j ∈ range i, a i j * x' j - ∑ j ∈ Ico (i + 1) n, a i j * x j)

/-- `a x = b`. -/
def Solves (a : Nat → Nat → K) (b : Nat → K) (n : Nat) (x : Nat → K) : Prop :=
  ∀ i, i < n → ∑ j ∈ range n, a i j * x j = b i

/-- The energy: half of `x a x` minus `b x`. -/
def energy (a : Nat → Nat → K) (b : Nat → K) (n : Nat) (x : Nat → K) : K :=
  (∑ i ∈ range n, ∑ j ∈ range n, a i j * x i * x j) / 2 - ∑ i ∈ range n, b i * x i

end Spec

section step

variable {K : Type} [Field K]

theorem entry_of_not_mem {v : SVec K} {i : Int} (h : i ∉ v.map Prod.fst) : Spec.entry v i = 0 := by
  induction v with
  | nil => rfl
  | cons e v ih =>
    simp only [List.map_cons, List.mem_cons, not_or] at h
    simp only [Spec.entry, List.map_cons, List.sum_cons, if_neg (Ne.symm h.1), zero_add]
    exact ih h.2

/-- The loop over the entries of a line. -/
theorem sorLine_fold (v : SVec K) (x : DArr K) (i : Int) (hv : (v.map Prod.fst).Nodup) (s : K × K) :
    v.foldl (fun s e => if e.1 ≠ i then (s.1 + e.2 * x e.1, s.2) else (s.1, e.2)) s =
      (s.1 + (v.map fun e => e.2 * (Function.update x i 0) e.1).sum,
        if i ∈ v.map Prod.fst then Spec.entry v i else s.2) := by
  induction v generalizing s with
  | nil => simp
  | cons e v ih =>
    simp only [List.map_cons, List.nodup_cons] at hv
    rw [List.foldl_cons, ih hv.2]
    by_cases he : e.1 = i
    · have hm : i ∉ v.map Prod.fst := by rw [← he]; exact hv.1
      have h0 := entry_of_not_mem hm
      rw [if_neg (by simpa using he), if_neg hm]
      simp only [List.map_cons, List.sum_cons, he, Function.update_self, mul_zero, zero_add,
        List.mem_cons, true_or, if_true]
      congr 1
      simp only [Spec.entry, List.map_cons, List.sum_cons, he, if_true] at h0 ⊢
      rw [h0, add_zero]
    · rw [if_pos he]
      simp only [List.map_cons, List.sum_cons, Function.update_of_ne he, List.mem_cons, Ne.symm he,
        false_or]
      congr 1
      · ring
      · simp only [Spec.entry, List.map_cons, List.sum_cons, if_neg he, zero_add]

theorem sorLine_eq {v : SVec K} {n : Nat} (hf : Spec.Fits v n) (hv : (v.map Prod.fst).Nodup) (x : DArr K)
    {i : Nat} (hi : i < n) :
    sorLine v x i = (∑ j ∈ range i, Spec.entry v j * x j + ∑ j ∈ Ico (i + 1) n, Spec.entry v j * x j,
      Spec.entry v i) := by
  unfold sorLine
  rw [sorLine_fold v x i hv, sum_entries v n hf]
  congr 1
  · rw [zero_add, ← sum_range_add_sum_Ico _ hi.le, sum_eq_sum_Ico_succ_bot hi]
    simp only [Function.update_self, mul_zero, zero_add]
    congr 1
    · refine sum_congr rfl fun j hj => ?_
      rw [mem_range] at hj
      rw [Function.update_of_ne (by omega)]
    · refine sum_congr rfl fun j hj => ?_
      rw [mem_Ico] at hj
      rw [Function.update_of_ne (by omega)]
  · split
    · rfl
    · rename_i h
      rw [entry_of_not_mem h]

variable [LinearOrder K]

/-- **C92** (`SOR_step`): the result is the overrelaxed vector, and nothing else is changed. -/
theorem C92_step (A : Nat → SVec K) (n : Nat) (hA : Spec.Square A n) (x b : DArr K) (omega : K)
    (hd : ∀ i : Nat, i < n → Spec.entry (A i) i ≠ 0) :
    ∃ x' : DArr K, sorStep A n x b omega = .ok x' ∧
      Spec.Relaxed (fun i j => Spec.entry (A i) j) (fun i => b i) omega n (fun i => x i) (fun i => x' i) ∧
      ∀ i : Int, i < 0 ∨ n ≤ i → x' i = x i := by
  unfold sorStep
  refine (forRet_inv (n := n) (s := x) (body := fun j x =>
    let i := j - 1
    let s := sorLine (A i) x i
    if s.2 = 0 then .inl () else
    .inr (Function.update x (i : Int) ((1 - omega) * x i + (omega / s.2) * (b i - s.1))))
    (fun j y => (∀ i : Int, i < 0 ∨ (j - 1 : Nat) ≤ i → y i = x i) ∧
      ∀ i : Nat, i < j - 1 → y i = (1 - omega) * x i + omega / Spec.entry (A i) i *
        (b i - ∑ k ∈ range i, Spec.entry (A i) k * y k - ∑ k ∈ Ico (i + 1) n, Spec.entry (A i) k * x k))
    (fun _ _ => False) ⟨fun _ _ => rfl, fun i h => absurd h (by omega)⟩ ?_ ?_).elim ?_ ?_
  · rintro j y u h1 h2 _ hr
    obtain ⟨hf, hn⟩ := hA (j - 1) (by omega)
    dsimp only at hr
    rw [sorLine_eq hf hn y (by omega), if_neg (hd (j - 1) (by omega))] at hr
    cases hr
  · rintro j y y' h1 h2 ⟨ha, hb⟩ hr
    obtain ⟨hf, hn⟩ := hA (j - 1) (by omega)
    dsimp only at hr
    rw [sorLine_eq hf hn y (by omega), if_neg (hd (j - 1) (by omega))] at hr
    obtain ⟨i, rfl⟩ : ∃ i, j = i + 1 := ⟨j - 1, by omega⟩
    simp only [Nat.add_sub_cancel] at *
    cases hr
    have hlow : ∀ (k m : Nat), k < m → m ≤ i → ∀ c : K,
        Function.update y (i : Int) c k = y k := fun k m h3 h4 c =>
      Function.update_of_ne (by omega) _ _
    refine ⟨fun k hk => ?_, fun k hk => ?_⟩
    · rw [Function.update_of_ne (by omega)]
      exact ha k (by omega)
    · rcases Nat.lt_or_ge k i with h3 | h3
      · rw [hlow k i h3 le_rfl, hb k h3]
        congr 3
        congr 1
        refine sum_congr rfl fun m hm => ?_
        rw [mem_range] at hm
        rw [hlow m k hm h3.le]
      · have : k = i := by omega
        subst this
        rw [Function.update_self, ha k (by omega)]
        congr 2
        rw [sub_sub]
        congr 2
        · refine sum_congr rfl fun m hm => ?_
          rw [mem_range] at hm
          rw [hlow m k hm le_rfl]
        · refine sum_congr rfl fun m hm => ?_
          rw [mem_Ico] at hm
          rw [ha m (by omega)]
  · rintro ⟨_, _, _, _, _, h⟩
    exact h.elim
  · rintro ⟨y, hy, ha, hb⟩
    rw [hy]
    refine ⟨y, rfl, fun i hi => hb i (by omega), fun i hi => ha i (by omega)⟩

/-- **C92** (`SOR_step`): a vanishing diagonal element stops the program. -/
theorem C92_abort (A : Nat → SVec K) (n : Nat) (hA : Spec.Square A n) (x b : DArr K) (omega : K)
    (hd : ∃ i : Nat, i < n ∧ Spec.entry (A i) i = 0) : sorStep A n x b omega = .abort := by
  obtain ⟨i, hi, h0⟩ := hd
  unfold sorStep
  refine (forRet_inv (n := n) (s := x) (body := fun j x =>
    let i := j - 1
    let s := sorLine (A i) x i
    if s.2 = 0 then .inl () else
    .inr (Function.update x (i : Int) ((1 - omega) * x i + (omega / s.2) * (b i - s.1))))
    (fun j _ => j ≤ i + 1) (fun _ _ => True) (by omega) (fun _ _ _ _ _ _ _ => trivial) ?_).elim ?_ ?_
  · rintro j y y' h1 h2 h3 hr
    dsimp only at hr
    by_cases hj : j = i + 1
    · subst hj
      obtain ⟨hf, hn⟩ := hA i hi
      rw [Nat.add_sub_cancel, sorLine_eq hf hn y hi, if_pos h0] at hr
      cases hr
    · omega
  · rintro ⟨u, j, _, _, hr, _⟩
    rw [hr]
  · rintro ⟨y, _, h⟩
    omega

end step

/-! ### What the step does -/

section theory

variable {K : Type} [Field K]

/-- The vector before component `k` is changed. -/
def halfway {K : Type} (x x' : Nat → K) (k : Nat) : Nat → K := fun j => if j < k then x' j else x j

theorem relaxed_residual {a : Nat → Nat → K} {b : Nat → K} {omega : K} {n : Nat} {x x' : Nat → K}
    (h : Spec.Relaxed a b omega n x x') {k : Nat} (hk : k < n) (hd : a k k ≠ 0) :
    x' k = x k - omega / a k k * (∑ j ∈ range n, a k j * halfway x x' k j - b k) := by
  rw [h k hk, ← sum_range_add_sum_Ico _ hk.le, sum_eq_sum_Ico_succ_bot hk]
  have e1 : ∑ j ∈ range k, a k j * halfway x x' k j = ∑ j ∈ range k, a k j * x' j := by
    refine sum_congr rfl fun j hj => ?_
    rw [mem_range] at hj
    simp [halfway, hj]
  have e2 : ∑ j ∈ Ico (k + 1) n, a k j * halfway x x' k j = ∑ j ∈ Ico (k + 1) n, a k j * x j := by
    refine sum_congr rfl fun j hj => ?_
    rw [mem_Ico] at hj
    simp [halfway, show ¬ j < k by omega]
  rw [e1, e2]
  simp only [halfway, lt_irrefl, if_false]
  field_simp
  ring

theorem halfway_zero {K : Type} (x x' : Nat → K) : halfway x x' 0 = x := by
  funext j; simp [halfway]

theorem halfway_succ (x x' : Nat → K) (k : Nat) :
    halfway x x' (k + 1) = fun j => halfway x x' k j + if j = k then x' k - x k else 0 := by
  funext j
  unfold halfway
  rcases lt_trichotomy j k with h | h | h
  · simp [h, show j < k + 1 by omega, h.ne]
  · subst h; simp
  · simp [show ¬ j < k + 1 by omega, show ¬ j < k by omega, h.ne']

variable [LinearOrder K] [IsStrictOrderedRing K]

/-- **C92** (fixed points): the step leaves a vector unchanged exactly if it solves the equations. -/
theorem C92_fixed (a : Nat → Nat → K) (b : Nat → K) (omega : K) (n : Nat) (x x' : Nat → K)
    (hd : ∀ i, i < n → a i i ≠ 0) (hw : omega ≠ 0) (h : Spec.Relaxed a b omega n x x') :
    (∀ i, i < n → x' i = x i) ↔ Spec.Solves a b n x := by
  constructor
  · intro he i hi
    have hr := relaxed_residual h hi (hd i hi)
    rw [he i hi] at hr
    have hh : halfway x x' i = x := by
      funext j
      unfold halfway
      split
      · exact he j (by omega)
      · rfl
    rw [hh] at hr
    have : omega / a i i * (∑ j ∈ range n, a i j * x j - b i) = 0 := by linear_combination hr
    rcases mul_eq_zero.mp this with h1 | h1
    · exact absurd h1 (div_ne_zero hw (hd i hi))
    · exact sub_eq_zero.mp h1
  · intro hs i
    induction i using Nat.strong_induction_on with
    | _ i ih =>
      intro hi
      have hh : halfway x x' i = x := by
        funext j
        unfold halfway
        split
        · exact ih j (by assumption) (by omega)
        · rfl
      rw [relaxed_residual h hi (hd i hi), hh, hs i hi]
      ring

/-- The energy after a change of one component. -/
theorem energy_change {a : Nat → Nat → K} {n : Nat} (hs : ∀ i j, i < n → j < n → a i j = a j i)
    (b y : Nat → K) {k : Nat} (hk : k < n) (d : K) :
    Spec.energy a b n (fun j => y j + if j = k then d else 0) =
      Spec.energy a b n y + d * (∑ j ∈ range n, a k j * y j - b k) + a k k * d ^ 2 / 2 := by
  have hk' : k ∈ range n := mem_range.mpr hk
  have e1 : ∑ i ∈ range n, ∑ j ∈ range n, a i j * (y i + if i = k then d else 0) *
      (y j + if j = k then d else 0) = (∑ i ∈ range n, ∑ j ∈ range n, a i j * y i * y j) +
      2 * d * (∑ j ∈ range n, a k j * y j) + a k k * d ^ 2 := by
    have h1 : ∀ i j, a i j * (y i + if i = k then d else 0) * (y j + if j = k then d else 0) =
        a i j * y i * y j + (if j = k then d * (a i k * y i) else 0) +
        (if i = k then d * (a k j * y j) else 0) + (if i = k then if j = k then a k k * d ^ 2 else 0 else 0) := by
      intro i j
      by_cases hi : i = k <;> by_cases hj : j = k <;> simp [hi, hj] <;> ring
    simp only [h1, sum_add_distrib]
    have h2 : ∑ i ∈ range n, ∑ j ∈ range n, (if j = k then d * (a i k * y i) else 0) =
        d * ∑ j ∈ range n, a k j * y j := by
      rw [mul_sum]
      refine sum_congr rfl fun i hi => ?_
      rw [sum_ite_eq' _ _ _, if_pos hk', hs i k (mem_range.mp hi) hk]
    have h3 : ∑ i ∈ range n, ∑ j ∈ range n, (if i = k then d * (a k j * y j) else 0) =
        d * ∑ j ∈ range n, a k j * y j := by
      rw [sum_comm, mul_sum]
      refine sum_congr rfl fun i hi => ?_
      rw [sum_ite_eq' _ _ _, if_pos hk']
    have h4 : ∑ i ∈ range n, ∑ j ∈ range n,
        (if i = k then if j = k then a k k * d ^ 2 else 0 else 0) = a k k * d ^ 2 := by
      rw [sum_comm]
      simp only [sum_ite_eq', if_pos hk']
    rw [h2, h3, h4]
    ring
  have e2 : ∑ i ∈ range n, b i * (y i + if i = k then d else 0) = (∑ i ∈ range n, b i * y i) + b k * d := by
    simp only [mul_add, sum_add_distrib, mul_ite, mul_zero, sum_ite_eq', if_pos hk']
  unfold Spec.energy
  rw [e1, e2]
  ring

/-- **C92** (energy): for a symmetric matrix with positive diagonal and `0 < omega < 2` a step lowers the
energy, unless the equations are solved. -/
theorem C92_energy (a : Nat → Nat → K) (b : Nat → K) (omega : K) (n : Nat) (x x' : Nat → K)
    (hs : ∀ i j, i < n → j < n → a i j = a j i) (hd : ∀ i, i < n → 0 < a i i) (h0 : 0 < omega)
    (h2 : omega < 2) (h : Spec.Relaxed a b omega n x x') :
    Spec.energy a b n x' ≤ Spec.energy a b n x ∧
    (Spec.energy a b n x' = Spec.energy a b n x ↔ Spec.Solves a b n x) := by
  have hd' : ∀ i, i < n → a i i ≠ 0 := fun i hi => (hd i hi).ne'
  have key : ∀ k, k ≤ n → Spec.energy a b n (halfway x x' k) = Spec.energy a b n x -
      ∑ i ∈ range k, omega * (2 - omega) / (2 * a i i) *
        (∑ j ∈ range n, a i j * halfway x x' i j - b i) ^ 2 := by
    intro k
    induction k with
    | zero => intro _; rw [halfway_zero]; simp
    | succ k ih =>
      intro hk
      rw [halfway_succ, energy_change hs b _ (by omega), ih (by omega), sum_range_succ,
        relaxed_residual h (by omega) (hd' k (by omega))]
      generalize ∑ j ∈ range n, a k j * halfway x x' k j - b k = r
      have := hd' k (by omega)
      field_simp
      ring
  have hterm : ∀ i ∈ range n, 0 ≤ omega * (2 - omega) / (2 * a i i) *
      (∑ j ∈ range n, a i j * halfway x x' i j - b i) ^ 2 := by
    intro i hi
    have h3 := hd i (mem_range.mp hi)
    have h4 : 0 < 2 - omega := by linarith
    positivity
  have hend : Spec.energy a b n (halfway x x' n) = Spec.energy a b n x' := by
    unfold Spec.energy
    congr 1
    · congr 1
      refine sum_congr rfl fun i hi => sum_congr rfl fun j hj => ?_
      simp [halfway, mem_range.mp hi, mem_range.mp hj]
    · refine sum_congr rfl fun i hi => ?_
      simp [halfway, mem_range.mp hi]
  have hk := key n le_rfl
  rw [hend] at hk
  refine ⟨by rw [hk]; linarith [sum_nonneg hterm], ?_⟩
  rw [hk, ← C92_fixed a b omega n x x' hd' h0.ne' h]
  constructor
  · intro he i hi
    have hz := (sum_eq_zero_iff_of_nonneg hterm).mp (by linarith) i (mem_range.mpr hi)
    have h3 := hd i hi
    have h4 : 0 < 2 - omega := by linarith
    rcases mul_eq_zero.mp hz with h5 | h5
    · exact absurd h5 (by positivity)
    · rw [relaxed_residual h hi (hd' i hi), pow_eq_zero_iff (by norm_num) |>.mp h5]
      ring
  · intro he
    rw [sum_eq_zero fun i hi => ?_, sub_zero]
    have hi' := mem_range.mp hi
    have hr := relaxed_residual h hi' (hd' i hi')
    rw [he i hi'] at hr
    have : omega / a i i * (∑ j ∈ range n, a i j * halfway x x' i j - b i) = 0 := by linear_combination hr
    rcases mul_eq_zero.mp this with h1 | h1
    · exact absurd h1 (div_ne_zero h0.ne' (hd' i hi'))
    · rw [h1]; ring

/-- **C92** (contraction): if the diagonal dominates and `0 ≤ omega ≤ 1` the largest error shrinks by the
factor `1 - omega + omega theta`. -/
theorem C92_contraction (a : Nat → Nat → K) (b : Nat → K) (omega theta M : K) (n : Nat) (x x' z : Nat → K)
    (hd : ∀ i, i < n → a i i ≠ 0)
    (hdom : ∀ i, i < n → ∑ j ∈ range i, |a i j| + ∑ j ∈ Ico (i + 1) n, |a i j| ≤ theta * |a i i|)
    (ht : theta ≤ 1) (h0 : 0 ≤ omega) (h1 : omega ≤ 1) (h : Spec.Relaxed a b omega n x x')
    (hz : Spec.Solves a b n z) (hM : ∀ i, i < n → |x i - z i| ≤ M) :
    ∀ i, i < n → |x' i - z i| ≤ (1 - omega + omega * theta) * M := by
  intro i
  induction i using Nat.strong_induction_on with
  | _ i ih =>
    intro hi
    have hM0 : 0 ≤ M := le_trans (abs_nonneg _) (hM i hi)
    have haii : 0 < |a i i| := abs_pos.mpr (hd i hi)
    have hnew : ∀ j, j < i → |x' j - z j| ≤ M := by
      intro j hj
      refine le_trans (ih j hj (by omega)) ?_
      have : (1 - omega + omega * theta) ≤ 1 := by nlinarith
      nlinarith
    have hzi := hz i hi
    rw [← sum_range_add_sum_Ico _ hi.le, sum_eq_sum_Ico_succ_bot hi] at hzi
    have e : x' i - z i = (1 - omega) * (x i - z i) - omega / a i i *
        (∑ j ∈ range i, a i j * (x' j - z j) + ∑ j ∈ Ico (i + 1) n, a i j * (x j - z j)) := by
      rw [h i hi, ← hzi]
      simp only [mul_sub, sum_sub_distrib]
      have := hd i hi
      field_simp
      ring
    have hsum : |∑ j ∈ range i, a i j * (x' j - z j) + ∑ j ∈ Ico (i + 1) n, a i j * (x j - z j)| ≤
        theta * |a i i| * M := by
      refine le_trans (abs_add_le _ _) (le_trans (add_le_add (abs_sum_le_sum_abs _ _)
        (abs_sum_le_sum_abs _ _)) ?_)
      refine le_trans ?_ (mul_le_mul_of_nonneg_right (hdom i hi) hM0)
      rw [add_mul, sum_mul, sum_mul]
      refine add_le_add (sum_le_sum fun j hj => ?_) (sum_le_sum fun j hj => ?_)
      · rw [abs_mul]
        exact mul_le_mul_of_nonneg_left (hnew j (mem_range.mp hj)) (abs_nonneg _)
      · rw [abs_mul]
        exact mul_le_mul_of_nonneg_left (hM j (mem_Ico.mp hj).2) (abs_nonneg _)
    rw [e]
    refine le_trans (abs_sub _ _) ?_
    rw [abs_mul, abs_mul, abs_div, abs_of_nonneg h0, abs_of_nonneg (by linarith : 0 ≤ 1 - omega)]
    have h3 : omega / |a i i| * |∑ j ∈ range i, a i j * (x' j - z j) +
        ∑ j ∈ Ico (i + 1) n, a i j * (x j - z j)| ≤ omega / |a i i| * (theta * |a i i| * M) :=
      mul_le_mul_of_nonneg_left hsum (by positivity)
    have h4 : omega / |a i i| * (theta * |a i i| * M) = omega * theta * M := by field_simp
    have h5 := mul_le_mul_of_nonneg_left (hM i hi) (by linarith : 0 ≤ 1 - omega)
    nlinarith

end theory

/-! ### The solver -/

namespace Spec

/-- The length of `a x - b`. -/
noncomputable def resNorm (a : Nat → Nat → ℝ) (b : Nat → ℝ) (n : Nat) (x : Nat → ℝ) : ℝ :=
  √(∑ i ∈ range n, (∑ j ∈ range n, a i j * x j - b i) ^ 2)

end Spec

theorem sorRes_eq (A : Nat → SVec ℝ) (n : Nat) (hA : Spec.Square A n) (x b f : DArr ℝ) :
    sorRes Real.sqrt A n x b f =
      Spec.resNorm (fun i j => Spec.entry (A i) j) (fun i => b i) n (fun i => x i) := by
  unfold sorRes scalarprod Spec.resNorm
  have hm := (C42_times_vector A n n x f fun i hi => (hA i hi).1).1
  dsimp only
  generalize spTimesVec A n x f = g at hm
  have hg : ∀ i : Nat, i < n → upLoop 0 n (fun i f => Function.update f (i : Int) (f i - b i)) g i =
      g i - b i := by
    have key := upLoop_inv (Nat.zero_le n) (body := fun (i : Nat) (f : DArr ℝ) =>
      Function.update f (i : Int) (f i - b i)) (s := g)
      (fun m f' => (∀ i : Nat, i < m → f' i = g i - b i) ∧ ∀ i : Nat, m ≤ i → f' i = g i)
      ⟨fun i h => absurd h (by omega), fun _ _ => rfl⟩ ?_
    · exact fun i hi => key.1 i hi
    · rintro m f' _ _ ⟨h1, h2⟩
      refine ⟨fun i hi => ?_, fun i hi => ?_⟩
      · rcases Nat.lt_or_ge i m with h3 | h3
        · rw [Function.update_of_ne (by omega)]
          exact h1 i h3
        · have : i = m := by omega
          subst this
          rw [Function.update_self, h2 i le_rfl]
      · rw [Function.update_of_ne (by omega)]
        exact h2 i (by omega)
  congr 1
  have : ∀ (u : DArr ℝ) (m : Nat), upLoop 0 m (fun i sum => sum + u i * u i) 0 =
      ∑ i ∈ range m, u i * u i := by
    intro u m
    induction m with
    | zero => rw [upLoop_nil le_rfl]; simp
    | succ m ih => rw [upLoop_succ (Nat.zero_le _), ih, sum_range_succ]
  rw [this]
  refine sum_congr rfl fun i hi => ?_
  rw [hg i (mem_range.mp hi), hm i (mem_range.mp hi)]
  ring

/-- One call of `SOR_step` that does not stop the program. -/
noncomputable def sorNext (A : Nat → SVec ℝ) (n : Nat) (b : DArr ℝ) (omega : ℝ) (x : DArr ℝ) : DArr ℝ :=
  match sorStep A n x b omega with
  | .ok x => x
  | _ => x

theorem sorNext_of_ok (A : Nat → SVec ℝ) (n : Nat) (b : DArr ℝ) (omega : ℝ) (x y : DArr ℝ)
    (h : sorStep A n x b omega = .ok y) : sorNext A n b omega x = y := by
  unfold sorNext
  rw [h]

/-- **C92** (`matrix_SOR`): the return value `it` is the number of steps after which the length of the
residual is at most `tol` for the first time, the vector and the number returned are the ones after this
step. If there is no such step up to `itmax` the return value is `itmax+1` and the vector and the number
belong to step `itmax`. -/
theorem C92_solver (A : Nat → SVec ℝ) (n : Nat) (hA : Spec.Square A n) (x b : DArr ℝ) (omega : ℝ)
    (hd : ∀ i : Nat, i < n → Spec.entry (A i) i ≠ 0) (itmax : Nat) (tol : ℝ) (res : Nat → ℝ)
    (hres : ∀ k, res k = Spec.resNorm (fun i j => Spec.entry (A i) j) (fun i => b i) n
      (fun i => (sorNext A n b omega)^[k] x i)) :
    (∃ it, it ≤ itmax ∧ res it ≤ tol ∧ (∀ k, k < it → tol < res k) ∧
      matrixSor Real.sqrt A n x b omega itmax tol = .ok (it, (sorNext A n b omega)^[it] x, res it)) ∨
    ((∀ k, k ≤ itmax → tol < res k) ∧
      matrixSor Real.sqrt A n x b omega itmax tol =
        .ok (itmax + 1, (sorNext A n b omega)^[itmax] x, res itmax)) := by
  have hrs : ∀ k, sorRes Real.sqrt A n ((sorNext A n b omega)^[k] x) b (fun _ => 0) = res k :=
    fun k => by rw [sorRes_eq A n hA, hres]
  have hstep : ∀ k, sorStep A n ((sorNext A n b omega)^[k] x) b omega =
      .ok ((sorNext A n b omega)^[k + 1] x) := by
    intro k
    obtain ⟨y, hy, _⟩ := C92_step A n hA ((sorNext A n b omega)^[k] x) b omega hd
    rw [Function.iterate_succ', Function.comp_apply, sorNext_of_ok A n b omega _ _ hy, hy]
  have hpass : ∀ k (t : ℝ), sorPass Real.sqrt A n b omega tol (k + 1) ((sorNext A n b omega)^[k] x, t) =
      if res (k + 1) ≤ tol then .inl (.ok (k + 1, (sorNext A n b omega)^[k + 1] x, res (k + 1)))
      else .inr ((sorNext A n b omega)^[k + 1] x, res (k + 1)) := by
    intro k t
    unfold sorPass
    dsimp only
    rw [hstep]
    dsimp only
    rw [hrs]
  have h0 := hrs 0
  rw [Function.iterate_zero, id_eq] at h0
  unfold matrixSor
  dsimp only
  rw [h0]
  by_cases hle : res 0 ≤ tol
  · rw [if_pos hle]
    exact Or.inl ⟨0, by omega, hle, fun k hk => absurd hk (by omega), rfl⟩
  rw [if_neg hle]
  refine (forRet_inv (n := itmax) (s := (x, res 0)) (body := sorPass Real.sqrt A n b omega tol)
    (fun j s => s = ((sorNext A n b omega)^[j - 1] x, res (j - 1)) ∧ ∀ k, k < j → tol < res k)
    (fun j r => res j ≤ tol ∧ (∀ k, k < j → tol < res k) ∧
      r = .ok (j, (sorNext A n b omega)^[j] x, res j))
    ⟨rfl, fun k hk => by rw [show k = 0 by omega]; exact not_le.mp hle⟩ ?_ ?_).elim ?_ ?_
  · rintro j s r h1 h2 ⟨rfl, hk⟩ hr
    have := hpass (j - 1) (res (j - 1))
    rw [show j - 1 + 1 = j by omega] at this
    rw [this] at hr
    split at hr
    · rename_i h3
      cases hr
      exact ⟨h3, hk, rfl⟩
    · cases hr
  · rintro j s s' h1 h2 ⟨rfl, hk⟩ hr
    have := hpass (j - 1) (res (j - 1))
    rw [show j - 1 + 1 = j by omega] at this
    rw [this] at hr
    split at hr
    · cases hr
    · rename_i h3
      cases hr
      refine ⟨by rw [Nat.add_sub_cancel], fun k hk' => ?_⟩
      rcases Nat.lt_or_ge k j with h4 | h4
      · exact hk k h4
      · rw [show k = j by omega]
        exact not_le.mp h3
  · rintro ⟨r, j, h1, h2, hr, h3, h4, rfl⟩
    rw [hr]
    exact Or.inl ⟨j, h2, h3, h4, rfl⟩
  · rintro ⟨s, hr, rfl, hk⟩
    rw [hr]
    exact Or.inr ⟨fun k h => hk k (by omega), rfl⟩

/-- **C92** (convergence): if the diagonal dominates strictly and `0 < omega ≤ 1` every positive tolerance is
reached for every sufficiently large number of iterations. -/
theorem C92_convergence (A : Nat → SVec ℝ) (n : Nat) (hA : Spec.Square A n) (x b : DArr ℝ)
    (omega theta tol : ℝ) (hd : ∀ i : Nat, i < n → Spec.entry (A i) i ≠ 0)
    (hdom : ∀ i : Nat, i < n → ∑ j ∈ range i, |Spec.entry (A i) j| + ∑ j ∈ Ico (i + 1) n,
      |Spec.entry (A i) j| ≤ theta * |Spec.entry (A i) i|)
    (ht0 : 0 ≤ theta) (ht : theta < 1) (h0 : 0 < omega) (h1 : omega ≤ 1) (htol : 0 < tol) (z : Nat → ℝ)
    (hz : Spec.Solves (fun i j => Spec.entry (A i) j) (fun i => b i) n z) :
    ∃ N : Nat, ∀ itmax, N ≤ itmax → ∃ (it : Nat) (x' : DArr ℝ) (r : ℝ),
      matrixSor Real.sqrt A n x b omega itmax tol = .ok (it, x', r) ∧ it ≤ N ∧ r ≤ tol := by
  set a : Nat → Nat → ℝ := fun i j => Spec.entry (A i) j with ha
  set q : ℝ := 1 - omega + omega * theta with hq
  have hq0 : 0 ≤ q := by have := mul_nonneg h0.le ht0; linarith
  have hq1 : q < 1 := by nlinarith
  -- a bound of the first error and of the matrix
  obtain ⟨M, hM⟩ : ∃ M : ℝ, ∀ i : Nat, i < n → |x i - z i| ≤ M :=
    ⟨∑ i ∈ range n, |x i - z i|, fun i hi =>
      single_le_sum (f := fun i : Nat => |x i - z i|) (fun _ _ => abs_nonneg _) (mem_range.mpr hi)⟩
  set C : ℝ := ∑ i ∈ range n, (∑ j ∈ range n, |a i j|) ^ 2 with hC
  have hres : ∀ (y : Nat → ℝ) (E : ℝ), (∀ i, i < n → |y i - z i| ≤ E) →
      Spec.resNorm a (fun i => b i) n y ≤ √(C * E ^ 2) := by
    intro y E hE
    unfold Spec.resNorm
    refine Real.sqrt_le_sqrt ?_
    rw [hC, sum_mul]
    refine sum_le_sum fun i hi => ?_
    have hi' := mem_range.mp hi
    have hE0 : 0 ≤ E := le_trans (abs_nonneg _) (hE i hi')
    have e : ∑ j ∈ range n, a i j * y j - b i = ∑ j ∈ range n, a i j * (y j - z j) := by
      have hzi : ∑ j ∈ range n, a i j * z j = b i := hz i hi'
      rw [← hzi]
      simp only [mul_sub, sum_sub_distrib]
    rw [e, ← mul_pow, ← sq_abs]
    refine pow_le_pow_left₀ (abs_nonneg _) ?_ 2
    refine le_trans (abs_sum_le_sum_abs _ _) ?_
    rw [sum_mul]
    refine sum_le_sum fun j hj => ?_
    rw [abs_mul]
    exact mul_le_mul_of_nonneg_left (hE j (mem_range.mp hj)) (abs_nonneg _)
  -- a power of q that is small enough
  have hlim : Filter.Tendsto (fun k : Nat => √(C * (q ^ k * M) ^ 2)) Filter.atTop (nhds 0) := by
    have h2 : Filter.Tendsto (fun k : Nat => C * (q ^ k * M) ^ 2) Filter.atTop (nhds (C * (0 * M) ^ 2)) :=
      (((tendsto_pow_atTop_nhds_zero_of_lt_one hq0 hq1).mul_const M).pow 2).const_mul C
    have h3 := h2.sqrt
    simpa using h3
  obtain ⟨N, hN⟩ := ((tendsto_order.1 hlim).2 tol htol).exists
  have herr : ∀ k, ∀ i : Nat, i < n → |(sorNext A n b omega)^[k] x i - z i| ≤ q ^ k * M := by
    intro k
    induction k with
    | zero => intro i hi; simpa using hM i hi
    | succ k ih =>
      intro i hi
      obtain ⟨y, hy, hrel, _⟩ := C92_step A n hA ((sorNext A n b omega)^[k] x) b omega hd
      have hc := C92_contraction a (fun i => b i) omega theta _ n _ _ z hd hdom ht.le h0.le h1 hrel hz ih i hi
      have hy' : (sorNext A n b omega)^[k + 1] x = y := by
        rw [Function.iterate_succ', Function.comp_apply, sorNext_of_ok A n b omega _ _ hy]
      rw [hy', pow_succ', mul_assoc]
      exact hc
  refine ⟨N, fun itmax hit => ?_⟩
  have hNN : Spec.resNorm a (fun i => b i) n (fun i => (sorNext A n b omega)^[N] x i) ≤ tol :=
    le_trans (hres _ _ (herr N)) hN.le
  rcases C92_solver A n hA x b omega hd itmax tol _ (fun k => rfl) with ⟨it, h2, h3, h4, h5⟩ | ⟨h2, _⟩
  · refine ⟨it, _, _, h5, ?_, h3⟩
    by_contra hlt
    exact absurd hNN (not_le.mpr (h4 N (by omega)))
  · exact absurd hNN (not_le.mpr (h2 N hit))

/-- One step for the matrix (4 1; 1 3) with the right hand side (1, 2), started from zero. -/
example : (match sorStep (fun i => if i = 0 then [(0, 4), (1, 1)] else [(1, 3), (0, 1)]) 2 (fun _ => 0)
    (fun i => if i = 0 then 1 else 2) (1 : ℚ) with
    | .ok x => some (x 0, x 1)
    | _ => none) = some (1 / 4, 7 / 12) := by decide +kernel

/-- With 3 steps (here with the square of the length) the tolerance is reached, with 1 step it is not. -/
example : (match matrixSor id (fun i => if i = 0 then [(0, 4), (1, 1)] else [(1, 3), (0, 1)]) 2 (fun _ => 0)
    (fun i => if i = 0 then 1 else 2) (1 : ℚ) 10 (1 / 100) with
    | .ok r => some r.1
    | _ => none) = some 2 ∧
    (match matrixSor id (fun i => if i = 0 then [(0, 4), (1, 1)] else [(1, 3), (0, 1)]) 2 (fun _ => 0)
    (fun i => if i = 0 then 1 else 2) (1 : ℚ) 1 (1 / 100) with
    | .ok r => some r.1
    | _ => none) = some 2 := by decide +kernel

end Sgrid
