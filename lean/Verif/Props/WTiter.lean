import Mathlib.Algebra.BigOperators.Field
import Mathlib.Algebra.BigOperators.Ring.Finset
import Mathlib.Algebra.Order.BigOperators.Group.Finset
import Mathlib.Algebra.Order.Archimedean.Basic
import Mathlib.Analysis.Real.Sqrt
import Mathlib.Tactic.FieldSimp
import Mathlib.Tactic.Linarith
import Mathlib.Tactic.NormNum
import Mathlib.Tactic.Positivity
import Mathlib.Tactic.Ring
import Verif.Model.WTiter
import Verif.Props.RootFind
import Verif.Props.Sparse

/-!
# C96: WTiterator
-/

namespace Sgrid

open Finset

namespace Spec

/-- The residual of a linear system. -/
def linRes (a : Nat → Nat → ℝ) (b : Nat → ℝ) (n : Nat) (x : Nat → ℝ) (i : Nat) : ℝ :=
  ∑ j ∈ range n, a i j * x j - b i

/-- The root mean square of the residual. -/
noncomputable def resRms (a : Nat → Nat → ℝ) (b : Nat → ℝ) (n : Nat) (x : Nat → ℝ) : ℝ :=
  Real.sqrt ((∑ i ∈ range n, linRes a b n x i ^ 2) / n)

/-- The gradient of half of the square of the residual. -/
def resGrad (a : Nat → Nat → ℝ) (b : Nat → ℝ) (n : Nat) (x : Nat → ℝ) (k : Nat) : ℝ :=
  ∑ i ∈ range n, a i k * linRes a b n x i

/-- The step of steepest descent as long as the root mean square of the residual. -/
noncomputable def wtStep (a : Nat → Nat → ℝ) (b : Nat → ℝ) (n : Nat) (x : Nat → ℝ) (k : Nat) : ℝ :=
  -(resRms a b n x / Real.sqrt (∑ i ∈ range n, resGrad a b n x i ^ 2)) * resGrad a b n x k

end Spec

/-- A loop that changes every entry. -/
theorem updLoop {α : Type} {n : Nat} (g : Nat → α → α) (f : Int → α) :
    (∀ k : Nat, k < n → upLoop 0 n (fun i f => Function.update f (i : Int) (g i (f i))) f k = g k (f k)) ∧
    ∀ j : Int, j < 0 ∨ n ≤ j → upLoop 0 n (fun i f => Function.update f (i : Int) (g i (f i))) f j = f j := by
  have h := upLoop_inv (Nat.zero_le n) (body := fun i f => Function.update f (i : Int) (g i (f i))) (s := f)
    (fun m t => (∀ k : Nat, k < m → t k = g k (f k)) ∧ ∀ j : Int, j < 0 ∨ m ≤ j → t j = f j)
    ⟨fun k hk => absurd hk (Nat.not_lt_zero k), fun _ _ => rfl⟩ (by
      rintro m t _ hm ⟨h1, h2⟩
      constructor
      · intro k hk
        rcases Nat.lt_succ_iff_lt_or_eq.mp hk with h | h
        · rw [Function.update_of_ne (by omega)]
          exact h1 k h
        · subst h
          rw [Function.update_self, h2 k (Or.inr (by omega))]
      · intro j hj
        rw [Function.update_of_ne (by omega)]
        exact h2 j (by omega))
  exact h

theorem scalarprod_eq (u v : DArr ℝ) (n : Nat) : scalarprod u v n = ∑ i ∈ range n, u i * v i := by
  unfold scalarprod
  rw [upLoop_sum, zero_add, Finset.range_eq_Ico]

section

variable {A : Nat → SVec ℝ} {n : Nat}

theorem wtRes_eq (hA : ∀ i, i < n → Spec.Fits (A i) n) (x b : DArr ℝ) :
    wtRes A n x b =
      Spec.resRms (fun i j => Spec.entry (A i) j) (fun i => b i) n (fun i => x i) := by
  unfold wtRes Spec.resRms
  dsimp only
  rw [scalarprod_eq]
  congr 2
  refine sum_congr rfl fun i hi => ?_
  rw [(updLoop (n := n) (fun i y => y - b i) _).1 i (mem_range.mp hi),
    (C42_times_vector A n n x _ hA).1 i (mem_range.mp hi)]
  unfold Spec.linRes
  ring

/-- **C96** (the direction). The direction is that of steepest descent, its length is the root mean square
of the residual; it is zero if the gradient is zero. -/
theorem C96_direction (hA : ∀ i, i < n → Spec.Fits (A i) n) (x b : DArr ℝ) :
    (∀ k : Nat, k < n → wtDir A n x b (wtRes A n x b) k =
      Spec.wtStep (fun i j => Spec.entry (A i) j) (fun i => b i) n (fun i => x i) k) ∧
    ∀ j : Int, j < 0 ∨ n ≤ j → wtDir A n x b (wtRes A n x b) j = 0 := by
  set a : Nat → Nat → ℝ := fun i j => Spec.entry (A i) j with ha
  have h0 : ∀ k : Nat, k < n → ∀ mm : DArr ℝ, upLoop 0 n (fun i dx => Function.update dx (i : Int) (dx i +
      spTTimesVec A n b mm i)) (dLoop n (fun i => -spTTimesVec A n (spTimesVec A n x fun _ => 0)
        (fun _ => 0) i) fun _ => 0) k = -Spec.resGrad a (fun i => b i) n (fun i => x i) k := by
    intro k hk mm
    rw [(updLoop (n := n) (fun i y => y + spTTimesVec A n b mm i) _).1 k hk]
    unfold dLoop
    rw [(updLoop (n := n) (fun i _ => -spTTimesVec A n (spTimesVec A n x fun _ => 0) (fun _ => 0) i) _).1
      k hk, (C42_square A n _ _ k hk).2, (C42_square A n _ _ k hk).2]
    unfold Spec.resGrad Spec.linRes
    have e : ∑ i ∈ range n, Spec.entry (A i) k * spTimesVec A n x (fun _ => 0) i =
        ∑ i ∈ range n, a i k * ∑ j ∈ range n, a i j * x j := by
      refine sum_congr rfl fun i hi => ?_
      rw [(C42_times_vector A n n x _ hA).1 i (mem_range.mp hi)]
    rw [e]
    simp only [mul_sub, sum_sub_distrib]
    ring
  have h1 : ∀ j : Int, j < 0 ∨ n ≤ j → ∀ mm : DArr ℝ, upLoop 0 n (fun i dx => Function.update dx (i : Int)
      (dx i + spTTimesVec A n b mm i)) (dLoop n (fun i => -spTTimesVec A n (spTimesVec A n x fun _ => 0)
        (fun _ => 0) i) fun _ => 0) j = 0 := by
    intro j hj mm
    rw [(updLoop (n := n) (fun i y => y + spTTimesVec A n b mm i) _).2 j hj]
    unfold dLoop
    rw [(updLoop (n := n) (fun i _ => -spTTimesVec A n (spTimesVec A n x fun _ => 0) (fun _ => 0) i) _).2
      j hj]
  rw [wtRes_eq hA]
  unfold wtDir
  have hs : scalarprod (upLoop 0 n (fun i dx => Function.update dx (i : Int) (dx i +
      spTTimesVec A n b (spTimesVec A n x fun _ => 0) i)) (dLoop n (fun i => -spTTimesVec A n (spTimesVec A n x fun _ => 0)
        (fun _ => 0) i) fun _ => 0)) (upLoop 0 n (fun i dx => Function.update dx (i : Int) (dx i +
      spTTimesVec A n b (spTimesVec A n x fun _ => 0) i)) (dLoop n (fun i => -spTTimesVec A n (spTimesVec A n x fun _ => 0)
        (fun _ => 0) i) fun _ => 0)) n = ∑ i ∈ range n, Spec.resGrad a (fun i => b i) n (fun i => x i) i ^ 2 := by
    rw [scalarprod_eq]
    refine sum_congr rfl fun i hi => ?_
    rw [h0 i (mem_range.mp hi)]
    ring
  rw [hs]
  unfold Spec.wtStep
  split_ifs with hm
  · constructor
    · intro k hk
      rw [(updLoop (n := n) (fun i y => Spec.resRms (fun i j => Spec.entry (A i) j) (fun i => b i) n
        (fun i => x i) * y / _) _).1 k hk, h0 k hk]
      ring
    · intro j hj
      rw [(updLoop (n := n) (fun i y => Spec.resRms (fun i j => Spec.entry (A i) j) (fun i => b i) n
        (fun i => x i) * y / _) _).2 j hj]
      exact h1 j hj _
  · push Not at hm
    refine ⟨fun k hk => ?_, fun j hj => h1 j hj _⟩
    rw [hm, h0 k hk, div_zero, neg_zero, zero_mul, neg_eq_zero]
    have hz : ∑ i ∈ range n, Spec.resGrad a (fun i => b i) n (fun i => x i) i ^ 2 = 0 := by
      apply le_antisymm _ (sum_nonneg fun i _ => sq_nonneg _)
      exact Real.sqrt_eq_zero'.mp hm
    rw [sum_eq_zero_iff_of_nonneg fun i _ => sq_nonneg _] at hz
    exact pow_eq_zero_iff (two_ne_zero) |>.mp (hz k (mem_range.mpr hk))

/-- The step of the inner loop, as long as `dx` vanishes outside. -/
theorem wtTry_eq (b dx : DArr ℝ) (hdx : ∀ j : Int, j < 0 ∨ n ≤ j → dx j = 0) (normres : ℝ) (x : DArr ℝ)
    (sfac : ℝ) :
    wtTry A n b dx normres (x, sfac) =
      if wtRes A n (fun j => x j + sfac * dx j) b ≤ normres then
        .inl (fun j => x j + sfac * dx j, wtRes A n (fun j => x j + sfac * dx j) b)
      else .inr (x, sfac * (1 / 10)) := by
  have e1 : upLoop 0 n (fun i x => Function.update x (i : Int) (x i + sfac * dx i)) x =
      fun j => x j + sfac * dx j := by
    funext j
    by_cases hj : j < 0 ∨ n ≤ j
    · rw [(updLoop (n := n) (fun i y => y + sfac * dx i) _).2 j hj, hdx j hj]
      ring
    · obtain ⟨k, rfl⟩ : ∃ k : Nat, j = k := ⟨j.toNat, by omega⟩
      rw [(updLoop (n := n) (fun i y => y + sfac * dx i) _).1 k (by omega)]
  have e2 : upLoop 0 n (fun i x => Function.update x (i : Int) (x i - sfac * dx i))
      (fun j => x j + sfac * dx j) = x := by
    funext j
    by_cases hj : j < 0 ∨ n ≤ j
    · rw [(updLoop (n := n) (fun i y => y - sfac * dx i) _).2 j hj, hdx j hj]
      ring
    · obtain ⟨k, rfl⟩ : ∃ k : Nat, j = k := ⟨j.toNat, by omega⟩
      rw [(updLoop (n := n) (fun i y => y - sfac * dx i) _).1 k (by omega)]
      ring
  unfold wtTry
  dsimp only
  rw [e1, e2]

/-- The square of the residual along a line. -/
theorem resRms_line (a : Nat → Nat → ℝ) (b x d : Nat → ℝ) (s : ℝ) :
    ∑ i ∈ range n, Spec.linRes a b n (fun j => x j + s * d j) i ^ 2 =
      ∑ i ∈ range n, Spec.linRes a b n x i ^ 2 + 2 * s * (∑ k ∈ range n, d k * Spec.resGrad a b n x k) +
        s ^ 2 * ∑ i ∈ range n, (∑ j ∈ range n, a i j * d j) ^ 2 := by
  have e1 : ∀ i, Spec.linRes a b n (fun j => x j + s * d j) i =
      Spec.linRes a b n x i + s * ∑ j ∈ range n, a i j * d j := by
    intro i
    unfold Spec.linRes
    have : ∀ j ∈ range n, a i j * (x j + s * d j) = a i j * x j + s * (a i j * d j) := fun j _ => by ring
    rw [sum_congr rfl this, sum_add_distrib, ← mul_sum]
    ring
  have e2 : ∑ k ∈ range n, d k * Spec.resGrad a b n x k =
      ∑ i ∈ range n, Spec.linRes a b n x i * ∑ j ∈ range n, a i j * d j := by
    unfold Spec.resGrad
    simp only [mul_sum]
    rw [sum_comm]
    exact sum_congr rfl fun i _ => sum_congr rfl fun j _ => by ring
  rw [e2, mul_sum, mul_sum, ← sum_add_distrib, ← sum_add_distrib]
  refine sum_congr rfl fun i _ => ?_
  rw [e1]
  ring

/-- Short steps do not increase the residual. -/
theorem wt_short (a : Nat → Nat → ℝ) (b x : Nat → ℝ) :
    ∃ m : Nat, Spec.resRms a b n (fun j => x j + (1 / 10) ^ m * Spec.wtStep a b n x j) ≤
      Spec.resRms a b n x := by
  set G := ∑ i ∈ range n, Spec.resGrad a b n x i ^ 2 with hG
  set c := Spec.resRms a b n x / Real.sqrt G with hc
  have hG0 : 0 ≤ G := sum_nonneg fun i _ => sq_nonneg _
  have hc0 : 0 ≤ c := div_nonneg (Real.sqrt_nonneg _) (Real.sqrt_nonneg _)
  have hd : ∑ k ∈ range n, Spec.wtStep a b n x k * Spec.resGrad a b n x k = -(c * G) := by
    rw [hG, mul_sum, ← sum_neg_distrib]
    refine sum_congr rfl fun k _ => ?_
    unfold Spec.wtStep
    rw [← hG, ← hc]
    ring
  set B := ∑ i ∈ range n, (∑ j ∈ range n, a i j * Spec.wtStep a b n x j) ^ 2 with hB
  have hB0 : 0 ≤ B := sum_nonneg fun i _ => sq_nonneg _
  suffices h : ∃ m : Nat, (1 / 10 : ℝ) ^ m * B ≤ 2 * (c * G) by
    obtain ⟨m, hm⟩ := h
    refine ⟨m, Real.sqrt_le_sqrt (div_le_div_of_nonneg_right ?_ (Nat.cast_nonneg n))⟩
    rw [resRms_line a b x (Spec.wtStep a b n x) ((1 / 10) ^ m), hd, ← hB]
    have := mul_le_mul_of_nonneg_left hm (by positivity : (0 : ℝ) ≤ (1 / 10) ^ m)
    nlinarith
  rcases (mul_nonneg hc0 hG0).eq_or_lt with h | h
  · refine ⟨0, ?_⟩
    have hz : ∀ k, k < n → Spec.wtStep a b n x k = 0 := by
      intro k hk
      unfold Spec.wtStep
      rw [← hG, ← hc]
      rcases mul_eq_zero.mp h.symm with h | h
      · rw [h, neg_zero, zero_mul]
      · rw [hG, sum_eq_zero_iff_of_nonneg fun i _ => sq_nonneg _] at h
        rw [pow_eq_zero_iff (two_ne_zero) |>.mp (h k (mem_range.mpr hk)), mul_zero]
    have : B = 0 := by
      rw [hB]
      refine sum_eq_zero fun i _ => ?_
      rw [sum_eq_zero fun j hj => by rw [hz j (mem_range.mp hj), mul_zero]]
      norm_num
    rw [this, ← h]
    norm_num
  · obtain ⟨m, hm⟩ := exists_pow_lt_of_lt_one (show 0 < 2 * (c * G) / (B + 1) by positivity)
      (show (1 / 10 : ℝ) < 1 by norm_num)
    refine ⟨m, ?_⟩
    rw [lt_div_iff₀ (by linarith)] at hm
    have : (0 : ℝ) < (1 / 10) ^ m := by positivity
    nlinarith

/-- What the inner loop finds. -/
theorem wtLine {fuel : Nat} (b dx : DArr ℝ) (hdx : ∀ j : Int, j < 0 ∨ n ≤ j → dx j = 0) (normres : ℝ)
    (x : DArr ℝ) :
    (∃ m, m < fuel ∧ forRet fuel (fun _ => wtTry A n b dx normres) (x, 1) =
        .inl (fun j => x j + (1 / 10) ^ m * dx j, wtRes A n (fun j => x j + (1 / 10) ^ m * dx j) b) ∧
      wtRes A n (fun j => x j + (1 / 10) ^ m * dx j) b ≤ normres ∧
      ∀ i, i < m → normres < wtRes A n (fun j => x j + (1 / 10) ^ i * dx j) b) ∨
    (∃ s, forRet fuel (fun _ => wtTry A n b dx normres) (x, 1) = .inr s) ∧
      ∀ i, i < fuel → normres < wtRes A n (fun j => x j + (1 / 10) ^ i * dx j) b := by
  refine (forRet_inv (n := fuel) (body := fun _ => wtTry A n b dx normres) (s := (x, (1 : ℝ)))
    (fun j s => s = (x, (1 / 10) ^ (j - 1)) ∧
      ∀ i, i < j - 1 → normres < wtRes A n (fun k => x k + (1 / 10) ^ i * dx k) b)
    (fun j r => r = (fun k => x k + (1 / 10) ^ (j - 1) * dx k,
        wtRes A n (fun k => x k + (1 / 10) ^ (j - 1) * dx k) b) ∧
      wtRes A n (fun k => x k + (1 / 10) ^ (j - 1) * dx k) b ≤ normres ∧
      ∀ i, i < j - 1 → normres < wtRes A n (fun k => x k + (1 / 10) ^ i * dx k) b)
    ⟨by simp, fun i hi => absurd hi (by omega)⟩ ?_ ?_).elim ?_ ?_
  · rintro j s r _ _ ⟨rfl, h⟩ hb
    rw [wtTry_eq b dx hdx] at hb
    split_ifs at hb with h1
    cases hb
    exact ⟨rfl, h1, h⟩
  · rintro j s s' hj _ ⟨rfl, h⟩ hb
    rw [wtTry_eq b dx hdx] at hb
    split_ifs at hb with h1
    cases hb
    push Not at h1
    have e : j + 1 - 1 = j - 1 + 1 := by omega
    refine ⟨by rw [e, pow_succ], fun i hi => ?_⟩
    rw [e] at hi
    rcases Nat.lt_succ_iff_lt_or_eq.mp hi with h2 | h2
    · exact h i h2
    · rw [h2]; exact h1
  · rintro ⟨r, j, h1, h2, h3, rfl, h5, h6⟩
    exact Or.inl ⟨j - 1, by omega, h3, h5, h6⟩
  · rintro ⟨s, h1, _, h2⟩
    exact Or.inr ⟨⟨s, h1⟩, by simpa using h2⟩

/-- **C96** (one step). The inner loop ends. `x` moves by the first of the steps 1, 0.1, 0.01, ... in the
direction of steepest descent that does not increase the residual. -/
theorem C96_line (hA : ∀ i, i < n → Spec.Fits (A i) n) (x b : DArr ℝ) (tol : ℝ) :
    ∃ (m : Nat) (x' : DArr ℝ),
      (∀ k : Nat, k < n → x' k = x k + (1 / 10) ^ m *
        Spec.wtStep (fun i j => Spec.entry (A i) j) (fun i => b i) n (fun i => x i) k) ∧
      (∀ j : Int, j < 0 ∨ n ≤ j → x' j = x j) ∧
      wtRes A n x' b ≤ wtRes A n x b ∧
      (∀ i, i < m → wtRes A n x b < Spec.resRms (fun i j => Spec.entry (A i) j) (fun i => b i) n fun k =>
        x k + (1 / 10) ^ i *
          Spec.wtStep (fun i j => Spec.entry (A i) j) (fun i => b i) n (fun i => x i) k) ∧
      ∀ fuel it, m < fuel → wtPass A n b tol fuel it (x, wtRes A n x b) =
        if wtRes A n x' b ≤ tol then .inl (some (it, x', wtRes A n x' b)) else .inr (x', wtRes A n x' b) := by
  obtain ⟨hd, hz⟩ := C96_direction hA x b
  set dx := wtDir A n x b (wtRes A n x b) with hdx
  have hcongr : ∀ s : ℝ, wtRes A n (fun j => x j + s * dx j) b =
      Spec.resRms (fun i j => Spec.entry (A i) j) (fun i => b i) n fun k => x k + s *
        Spec.wtStep (fun i j => Spec.entry (A i) j) (fun i => b i) n (fun i => x i) k := by
    intro s
    rw [wtRes_eq hA]
    unfold Spec.resRms Spec.linRes
    congr 2
    refine sum_congr rfl fun i _ => ?_
    congr 2
    exact sum_congr rfl fun j hj => by simp only [hd j (mem_range.mp hj)]
  obtain ⟨k, hk⟩ := wt_short (n := n) (fun i j => Spec.entry (A i) j) (fun i => b i) (fun i => x i)
  rw [← hcongr, ← wtRes_eq hA] at hk
  have key := fun fuel (hf : k < fuel) => (wtLine (A := A) (fuel := fuel) b dx hz (wtRes A n x b) x).resolve_right
    (fun h => absurd (h.2 k hf) (not_lt.mpr hk))
  obtain ⟨m, _, _, h2, h3⟩ := key (k + 1) (by omega)
  refine ⟨m, fun j => x j + (1 / 10) ^ m * dx j, fun j hj => by simp only [hd j hj], fun j hj => by
    simp only [hz j hj]; ring, h2, fun i hi => by rw [← hcongr]; exact h3 i hi, fun fuel it hf => ?_⟩
  rcases wtLine (A := A) (fuel := fuel) b dx hz (wtRes A n x b) x with ⟨m', h4, h5, h6, h7⟩ | h
  · have : m' = m := by
      rcases lt_trichotomy m' m with h | h | h
      · exact absurd (h3 m' h) (not_lt.mpr h6)
      · exact h
      · exact absurd (h7 m h) (not_lt.mpr h2)
    subst this
    unfold wtPass
    dsimp only
    rw [← hdx, h5]
  · exact absurd (h.2 m hf) (not_lt.mpr h2)

/-- Without enough rounds for the inner loop there is no result. -/
theorem wtPass_cases (hA : ∀ i, i < n → Spec.Fits (A i) n) (x b : DArr ℝ) (tol : ℝ) (fuel it : Nat) :
    wtPass A n b tol fuel it (x, wtRes A n x b) = .inl none ∨
    ∃ x', wtRes A n x' b ≤ wtRes A n x b ∧ (∀ j : Int, j < 0 ∨ n ≤ j → x' j = x j) ∧
      wtPass A n b tol fuel it (x, wtRes A n x b) =
        if wtRes A n x' b ≤ tol then .inl (some (it, x', wtRes A n x' b)) else .inr (x', wtRes A n x' b) := by
  obtain ⟨hd, hz⟩ := C96_direction hA x b
  rcases wtLine (A := A) (fuel := fuel) b _ hz (wtRes A n x b) x with ⟨m', h4, h5, h6, h7⟩ | ⟨⟨s, h⟩, _⟩
  · right
    refine ⟨_, h6, fun j hj => ?_, ?_⟩
    · simp only [hz j hj]; ring
    · unfold wtPass
      dsimp only
      rw [h5]
  · left
    unfold wtPass
    dsimp only
    rw [h]

/-- **C96** (`WTiterator`). `*normres` is the root mean square of the residual of the `x` that is left. It
is never larger than at the start. The return value is at most `itmax` exactly if it is at most `tol`,
otherwise the return value is `itmax+1`. -/
theorem C96_report (hA : ∀ i, i < n → Spec.Fits (A i) n) {fuel : Nat} {x b : DArr ℝ} {itmax : Nat} {tol : ℝ}
    {it : Nat} {x' : DArr ℝ} {normres : ℝ}
    (h : wtIterator fuel A n x b itmax tol = some (it, x', normres)) :
    normres = Spec.resRms (fun i j => Spec.entry (A i) j) (fun i => b i) n (fun i => x' i) ∧
    normres ≤ Spec.resRms (fun i j => Spec.entry (A i) j) (fun i => b i) n (fun i => x i) ∧
    (∀ j : Int, j < 0 ∨ n ≤ j → x' j = x j) ∧ it ≤ itmax + 1 ∧
    (it ≤ itmax ↔ normres ≤ tol) ∧
    (it = 0 ↔ Spec.resRms (fun i j => Spec.entry (A i) j) (fun i => b i) n (fun i => x i) ≤ tol) ∧
    (it = 0 → x' = x) := by
  rw [← wtRes_eq hA, ← wtRes_eq hA]
  unfold wtIterator at h
  dsimp only at h
  split_ifs at h with h0
  · cases h
    exact ⟨rfl, le_refl _, fun _ _ => rfl, by omega, ⟨fun _ => h0, fun _ => by omega⟩,
      ⟨fun _ => h0, fun _ => rfl⟩, fun _ => rfl⟩
  · push Not at h0
    revert h
    refine (forRet_inv (n := itmax) (body := wtPass A n b tol fuel) (s := (x, wtRes A n x b))
      (fun j s => s.2 = wtRes A n s.1 b ∧ s.2 ≤ wtRes A n x b ∧ tol < s.2 ∧
        ∀ j : Int, j < 0 ∨ n ≤ j → s.1 j = x j)
      (fun j r => ∀ it x' normres, r = some (it, x', normres) → it = j ∧ normres = wtRes A n x' b ∧
        normres ≤ wtRes A n x b ∧ normres ≤ tol ∧ ∀ j : Int, j < 0 ∨ n ≤ j → x' j = x j)
      ⟨rfl, le_refl _, h0, fun _ _ => rfl⟩ ?_ ?_).elim ?_ ?_
    · rintro j ⟨y, nr'⟩ r _ _ ⟨h1, h2, _, h4⟩ hb it x' nr rfl
      dsimp only at h1 h2 h4
      subst h1
      rcases wtPass_cases hA y b tol fuel j with h | ⟨y', h5, h6, h7⟩
      · rw [h] at hb
        cases hb
      · rw [h7] at hb
        split_ifs at hb with h8
        cases hb
        exact ⟨rfl, rfl, h5.trans h2, h8, fun k hk => (h6 k hk).trans (h4 k hk)⟩
    · rintro j ⟨y, nr'⟩ s' _ _ ⟨h1, h2, _, h4⟩ hb
      dsimp only at h1 h2 h4
      subst h1
      rcases wtPass_cases hA y b tol fuel j with h | ⟨y', h5, h6, h7⟩
      · rw [h] at hb
        cases hb
      · rw [h7] at hb
        split_ifs at hb with h8
        cases hb
        exact ⟨rfl, h5.trans h2, not_le.mp h8, fun k hk => (h6 k hk).trans (h4 k hk)⟩
    · rintro ⟨r, j, hj1, hj2, hr, hq⟩ h
      rw [hr] at h
      obtain ⟨rfl, h2, h3, h4, h5⟩ := hq _ _ _ h
      exact ⟨h2, h3, h5, by omega, ⟨fun _ => h4, fun _ => hj2⟩,
        ⟨fun h => absurd h (by omega), fun h => absurd h (not_le.mpr h0)⟩, fun h => absurd h (by omega)⟩
    · rintro ⟨s, hr, h1, h2, h3, h4⟩ h
      rw [hr] at h
      cases h
      exact ⟨h1, h2, h4, le_refl _, ⟨fun h => absurd h (by omega), fun h => absurd h (not_le.mpr h3)⟩,
        ⟨fun h => absurd h (by omega), fun h => absurd h (not_le.mpr h0)⟩, fun h => absurd h (by omega)⟩

/-- One more round. -/
theorem forRet_succ {σ ρ : Type} (n : Nat) (body : Nat → σ → ρ ⊕ σ) (s : σ) :
    forRet (n + 1) body s = match forRet n body s with
      | .inl x => .inl x
      | .inr s => body (n + 1) s := by
  unfold forRet
  rw [upLoop_succ (by omega)]
  cases upLoop 1 (n + 1) _ (Sum.inr s : ρ ⊕ σ) <;> rfl

/-- **C96** (`WTiterator` ends). All the line searches end: the result does not depend on the number of
rounds if it is large enough. -/
theorem C96_returns (hA : ∀ i, i < n → Spec.Fits (A i) n) (x b : DArr ℝ) (itmax : Nat) (tol : ℝ) :
    ∃ (r : Nat × DArr ℝ × ℝ) (N : Nat), ∀ fuel, N ≤ fuel → wtIterator fuel A n x b itmax tol = some r := by
  unfold wtIterator
  dsimp only
  split_ifs with h0
  · exact ⟨_, 0, fun _ _ => rfl⟩
  have key : ∀ m, ∃ N, (∃ r, ∀ fuel, N ≤ fuel →
        forRet m (wtPass A n b tol fuel) (x, wtRes A n x b) = .inl (some r)) ∨
      ∃ y, ∀ fuel, N ≤ fuel →
        forRet m (wtPass A n b tol fuel) (x, wtRes A n x b) = .inr (y, wtRes A n y b) := by
    intro m
    induction m with
    | zero => exact ⟨0, Or.inr ⟨x, fun _ _ => rfl⟩⟩
    | succ m ih =>
      obtain ⟨N, ⟨r, h⟩ | ⟨y, h⟩⟩ := ih
      · exact ⟨N, Or.inl ⟨r, fun fuel hf => by rw [forRet_succ, h fuel hf]⟩⟩
      · obtain ⟨k, y', _, _, _, _, hp⟩ := C96_line hA y b tol
        by_cases ht : wtRes A n y' b ≤ tol
        · refine ⟨N + k + 1, Or.inl ⟨(m + 1, y', wtRes A n y' b), fun fuel hf => ?_⟩⟩
          rw [forRet_succ, h fuel (by omega)]
          dsimp only
          rw [hp fuel (m + 1) (by omega), if_pos ht]
        · refine ⟨N + k + 1, Or.inr ⟨y', fun fuel hf => ?_⟩⟩
          rw [forRet_succ, h fuel (by omega)]
          dsimp only
          rw [hp fuel (m + 1) (by omega), if_neg ht]
  obtain ⟨N, ⟨r, h⟩ | ⟨y, h⟩⟩ := key itmax
  · exact ⟨r, N, fun fuel hf => by rw [h fuel hf]⟩
  · exact ⟨_, N, fun fuel hf => by rw [h fuel hf]⟩

end

/-- One equation. -/
theorem wtStep_one (a : Nat → Nat → ℝ) (ha : 0 < a 0 0) (b x : Nat → ℝ) :
    Spec.wtStep a b 1 x 0 = b 0 - a 0 0 * x 0 ∧ Spec.resRms a b 1 x = |a 0 0 * x 0 - b 0| := by
  have h2 : Spec.resRms a b 1 x = |a 0 0 * x 0 - b 0| := by
    unfold Spec.resRms Spec.linRes
    simp [Real.sqrt_sq_eq_abs]
  refine ⟨?_, h2⟩
  unfold Spec.wtStep
  rw [h2]
  unfold Spec.resGrad Spec.linRes
  simp only [sum_range_one, Real.sqrt_sq_eq_abs, abs_mul, abs_of_pos ha]
  rcases eq_or_ne (a 0 0 * x 0 - b 0) 0 with h | h
  · rw [h]; simp; linarith
  · have : |a 0 0 * x 0 - b 0| ≠ 0 := abs_ne_zero.mpr h
    field_simp
    ring

theorem fits_one (a : ℝ) : ∀ i, i < 1 → Spec.Fits ((fun _ => [(0, a)] : Nat → SVec ℝ) i) 1 := by
  intro i _ e he
  simp only [List.mem_singleton] at he
  subst he
  simp

theorem wtOne (a : ℝ) (ha : 0 < a) (x b : DArr ℝ) :
    Spec.wtStep (fun (i j : Nat) => Spec.entry ((fun _ => [(0, a)] : Nat → SVec ℝ) i) (j : Int)) (fun i => b i)
      1 (fun i => x i) 0 = b 0 - a * x 0 ∧
    wtRes (fun _ => [(0, a)]) 1 x b = |a * x 0 - b 0| := by
  rw [wtRes_eq (fits_one a)]
  have := wtStep_one (fun (i j : Nat) => Spec.entry ((fun _ => [(0, a)] : Nat → SVec ℝ) i) (j : Int))
    (by simpa [Spec.entry] using ha) (fun i => b i) (fun i => x i)
  simpa [Spec.entry] using this

/-- **C96** (no convergence). For the equation `2 x = 0` and `x = 1` at the start, `x` jumps between 1 and
-1 for ever. -/
theorem C96_stall_counterexample (itmax : Nat) :
    ∃ (x' : DArr ℝ) (N : Nat), x' 0 = (-1) ^ itmax ∧ ∀ fuel, N ≤ fuel →
      wtIterator fuel (fun _ => [(0, 2)]) 1 (fun _ => 1) (fun _ => 0) itmax 1 = some (itmax + 1, x', 2) := by
  set A : Nat → SVec ℝ := fun _ => [(0, 2)] with hA
  have hres : ∀ y : DArr ℝ, wtRes A 1 y (fun _ => 0) = |2 * y 0| := fun y => by
    rw [(wtOne 2 (by norm_num) y fun _ => 0).2, sub_zero]
  have key : ∀ m, ∃ (y : DArr ℝ) (N : Nat), y 0 = (-1) ^ m ∧ ∀ fuel, N ≤ fuel →
      forRet m (wtPass A 1 (fun _ => 0) 1 fuel) (fun _ => 1, wtRes A 1 (fun _ => 1) (fun _ => 0)) =
        .inr (y, wtRes A 1 y (fun _ => 0)) := by
    intro m
    induction m with
    | zero => exact ⟨fun _ => 1, 0, by simp, fun _ _ => rfl⟩
    | succ m ih =>
      obtain ⟨y, N, hy, h⟩ := ih
      obtain ⟨k, y', h1, _, _, h4, hp⟩ := C96_line (fits_one 2) y (fun _ => 0) 1
      rw [← hA] at h4 hp
      have hst := (wtOne 2 (by norm_num) y fun _ => 0).1
      have hk : k = 0 := by
        by_contra hk
        have h5 := h4 0 (by omega)
        rw [(wtStep_one _ (by simp [Spec.entry]) _ _).2, hres] at h5
        have e : ((0 : Nat) : Int) = 0 := rfl
        rw [hst, e] at h5
        simp only [Spec.entry, List.map_cons, List.map_nil, List.sum_cons, List.sum_nil] at h5
        have e2 : (2 + 0 : ℝ) * (y 0 + (1 / 10) ^ 0 * (0 - 2 * y 0)) - 0 = -(2 * y 0) := by ring
        simp only [if_true] at h5
        rw [e2, abs_neg] at h5
        exact lt_irrefl _ h5
      subst hk
      have h1' := h1 0 (by omega)
      rw [hst] at h1'
      have hy' : y' 0 = (-1) ^ (m + 1) := by
        have e : ((0 : Nat) : Int) = 0 := rfl
        rw [e, hy] at h1'
        rw [h1', pow_succ]
        ring
      refine ⟨y', N + 1, hy', fun fuel hf => ?_⟩
      rw [forRet_succ, h fuel (by omega)]
      dsimp only
      rw [hp fuel (m + 1) (by omega), if_neg]
      rw [hres, hy', abs_mul, abs_pow, abs_neg, abs_one, one_pow]
      norm_num
  obtain ⟨y, N, hy, h⟩ := key itmax
  refine ⟨y, N, hy, fun fuel hf => ?_⟩
  unfold wtIterator
  dsimp only
  rw [if_neg (by rw [hres]; norm_num), h fuel hf]
  dsimp only
  rw [hres, hy, abs_mul, abs_pow, abs_neg, abs_one, one_pow]
  norm_num

/-- For the equation `10 x = 0` and `x = 3` the step 1 leads to `x = -27`, the step 0.1 to the solution. -/
example : wtTry (fun _ => [(0, 10)]) 1 (fun _ => 0) (fun j => if j = 0 then -30 else 0) 30 (fun _ => 3, 1) =
    .inr (fun _ => 3, 1 / 10) ∧
    ∃ x', wtTry (fun _ => [(0, 10)]) 1 (fun _ => 0) (fun j => if j = 0 then -30 else 0) 30
      (fun _ => 3, 1 / 10) = .inl (x', 0) ∧ x' 0 = 0 := by
  have hz : ∀ j : Int, j < 0 ∨ (1 : Nat) ≤ j → (fun j => if j = 0 then (-30 : ℝ) else 0) j = 0 := by
    intro j hj
    simp only [ite_eq_right_iff]
    omega
  constructor
  · rw [wtTry_eq _ _ hz, (wtOne 10 (by norm_num) _ _).2, if_neg (by norm_num)]
    norm_num
  · refine ⟨fun j => 3 + 1 / 10 * (if j = 0 then -30 else 0), ?_, by norm_num⟩
    rw [wtTry_eq _ _ hz, (wtOne 10 (by norm_num) _ _).2, if_pos (by norm_num)]
    norm_num

end Sgrid
