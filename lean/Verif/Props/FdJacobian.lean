import Mathlib.Analysis.Calculus.Deriv.MeanValue
import Mathlib.Tactic.Ring
import Mathlib.Tactic.FieldSimp
import Mathlib.Tactic.NormNum
import Mathlib.Tactic.Positivity
import Mathlib.Tactic.Linarith
import Verif.Model.FdJacobian

/-!
C157: the finite difference Jacobian.
-/

namespace Sgrid

namespace Spec

/-- The point with the j-th coordinate moved by h. -/
noncomputable def moved (x : ℕ → ℝ) (j : ℕ) (h : ℝ) : ℕ → ℝ := fun k => if k = j then x k + h else x k

/-- The entry of the table is the difference quotient with the step h. -/
def IsQuotient (F : (ℕ → ℝ) → ℕ → ℝ) (x fvec : ℕ → ℝ) (df : ℕ → ℕ → ℝ) (i j : ℕ) (h : ℝ) : Prop :=
  df i j * h = F (moved x j h) i - fvec i

end Spec

theorem fdjacStep_eq (t : ℝ) : fdjacStep t = max (1 / 10 ^ 7 * |t|) (1 / 10 ^ 10) := by
  unfold fdjacStep fdjacEps fdjacHmin
  dsimp only
  split_ifs with h
  · rw [max_eq_right h.le]
  · rw [max_eq_left (not_lt.1 h)]

theorem fdjacStep_pos (t : ℝ) : 0 < fdjacStep t := by
  rw [fdjacStep_eq]; exact lt_of_lt_of_le (by norm_num) (le_max_right _ _)

theorem aset_moved (x : ℕ → ℝ) (j : ℕ) (h : ℝ) : aset x j (x j + h) = Spec.moved x j h := by
  funext k
  by_cases hk : k = j
  · subst hk; simp [Spec.moved]
  · rw [aset_ne _ _ hk]; simp [Spec.moved, hk]

theorem aset_back (x : ℕ → ℝ) (j : ℕ) (v : ℝ) : aset (aset x j v) j (x j) = x := by
  funext k
  by_cases hk : k = j
  · subst hk; simp
  · rw [aset_ne _ _ hk, aset_ne _ _ hk]

theorem fdjacSet_apply (df : ℕ → ℕ → ℝ) (i j : ℕ) (v : ℝ) (a b : ℕ) :
    fdjacSet df i j v a b = if a = i ∧ b = j then v else df a b := by
  unfold fdjacSet
  by_cases ha : a = i
  · subst ha
    rw [aset_self]
    by_cases hb : b = j
    · subst hb; simp
    · rw [aset_ne _ _ hb]; simp [hb]
  · rw [aset_ne _ _ ha]; simp [ha]

theorem fdjacColumn (n : ℕ) (w : ℕ → ℝ) (j : ℕ) (df : ℕ → ℕ → ℝ) (a b : ℕ) :
    upLoop 1 (n + 1) (fun i df => fdjacSet df i j (w i)) df a b =
      if (1 ≤ a ∧ a ≤ n) ∧ b = j then w a else df a b := by
  have := upLoop_inv (lo := 1) (hi := n + 1) (by omega) (body := fun i df => fdjacSet df i j (w i)) (s := df)
    (fun m t => ∀ a b, t a b = if (1 ≤ a ∧ a < m) ∧ b = j then w a else df a b)
    (by intro a b; rw [if_neg (by omega)])
    (by
      intro m t h1 h2 ih a b
      simp only [fdjacSet_apply, ih]
      by_cases ha : a = m
      · subst ha
        by_cases hb : b = j
        · simp [hb, h1]
        · simp [hb]
      · simp only [ha, false_and, if_false]
        congr 1
        simp only [eq_iff_iff]
        omega) a b
  rw [this]
  simp only [Nat.lt_succ_iff]

theorem fdjacColumnP (n : ℕ) (w : ℕ → ℝ) (j : ℕ) (df : ℕ → ℕ → ℝ) :
    (∀ a b, (upLoop 1 (n + 1) (fun i (t : (ℕ → ℕ → ℝ) × Bool) =>
        (fdjacSet t.1 i j (w i), if w i ≠ 0 then true else t.2)) (df, false)).1 a b =
      if (1 ≤ a ∧ a ≤ n) ∧ b = j then w a else df a b) ∧
    ((upLoop 1 (n + 1) (fun i (t : (ℕ → ℕ → ℝ) × Bool) =>
        (fdjacSet t.1 i j (w i), if w i ≠ 0 then true else t.2)) (df, false)).2 = true ↔
      ∃ i, (1 ≤ i ∧ i ≤ n) ∧ w i ≠ 0) := by
  have := upLoop_inv (lo := 1) (hi := n + 1) (by omega)
    (body := fun i (t : (ℕ → ℕ → ℝ) × Bool) => (fdjacSet t.1 i j (w i), if w i ≠ 0 then true else t.2))
    (s := (df, false))
    (fun m t => (∀ a b, t.1 a b = if (1 ≤ a ∧ a < m) ∧ b = j then w a else df a b) ∧
      (t.2 = true ↔ ∃ i, (1 ≤ i ∧ i < m) ∧ w i ≠ 0))
    ⟨by intro a b; rw [if_neg (by omega)], by
      simp only [Bool.false_eq_true, false_iff]
      rintro ⟨i, h, _⟩; omega⟩
    (by
      intro m t h1 h2 ⟨ih, ih2⟩
      refine ⟨fun a b => ?_, ?_⟩
      · simp only [fdjacSet_apply, ih]
        by_cases ha : a = m
        · subst ha
          by_cases hb : b = j
          · simp [hb, h1]
          · simp [hb]
        · simp only [ha, false_and, if_false]
          congr 1
          simp only [eq_iff_iff]
          omega
      · by_cases hw : w m ≠ 0
        · simp only [hw, not_false_eq_true, if_true, ne_eq, true_iff]
          exact ⟨m, ⟨h1, by omega⟩, hw⟩
        · simp only [hw, if_false]
          rw [ih2]
          constructor
          · rintro ⟨i, h, h'⟩; exact ⟨i, by omega, h'⟩
          · rintro ⟨i, h, h'⟩
            refine ⟨i, ⟨h.1, ?_⟩, h'⟩
            rcases Nat.lt_succ_iff_lt_or_eq.1 h.2 with h3 | h3
            · exact h3
            · subst h3; exact absurd h' hw)
  simpa only [Nat.lt_succ_iff] using this

theorem fdjac_eq (n : ℕ) (F : (ℕ → ℝ) → ℕ → ℝ) (x fvec : ℕ → ℝ) (df : ℕ → ℕ → ℝ) :
    (fdjac n F x fvec df).1 = x ∧
    ∀ i j, (fdjac n F x fvec df).2 i j =
      if (1 ≤ i ∧ i ≤ n) ∧ (1 ≤ j ∧ j ≤ n) then
        (F (Spec.moved x j (fdjacStep (x j))) i - fvec i) / fdjacStep (x j) else df i j := by
  have := upLoop_inv (lo := 1) (hi := n + 1) (by omega)
    (body := fun j (s : (ℕ → ℝ) × (ℕ → ℕ → ℝ)) =>
      let temp := s.1 j
      let h := fdjacStep temp
      let x1 := aset s.1 j (temp + h)
      let h := x1 j - temp
      let f := F x1
      let x2 := aset x1 j temp
      (x2, upLoop 1 (n + 1) (fun i df => fdjacSet df i j ((f i - fvec i) / h)) s.2)) (s := (x, df))
    (fun m s => s.1 = x ∧ ∀ i j, s.2 i j = if (1 ≤ i ∧ i ≤ n) ∧ (1 ≤ j ∧ j < m) then
        (F (Spec.moved x j (fdjacStep (x j))) i - fvec i) / fdjacStep (x j) else df i j)
    ⟨rfl, by intro i j; rw [if_neg (by omega)]⟩
    (by
      rintro m ⟨x', d'⟩ h1 h2 ⟨rfl, ih⟩
      refine ⟨aset_back _ _ _, fun i j => ?_⟩
      dsimp only at ih ⊢
      rw [fdjacColumn n (fun i => (F (aset x' m (x' m + fdjacStep (x' m))) i - fvec i) /
        (aset x' m (x' m + fdjacStep (x' m)) m - x' m)), ih]
      rw [aset_self, add_sub_cancel_left, aset_moved]
      by_cases hj : j = m
      · subst hj
        simp [h1]
      · simp only [hj, and_false, if_false]
        congr 1
        simp only [eq_iff_iff]
        omega)
  simpa only [Nat.lt_succ_iff, fdjac] using this

/-- C157: the Jacobian by finite differences.  The array x is what it was before the call.  Each entry of the table is
the quotient of differences with a step that is positive, at least 1e-10, and in proportion to the coordinate once
that is larger than 1e-3.  Entries outside of the table are left alone. -/
theorem C157_jacobian (n : ℕ) (F : (ℕ → ℝ) → ℕ → ℝ) (x fvec : ℕ → ℝ) (df : ℕ → ℕ → ℝ) :
    (fdjac n F x fvec df).1 = x ∧
    (∀ i j, 1 ≤ i → i ≤ n → 1 ≤ j → j ≤ n →
      Spec.IsQuotient F x fvec (fdjac n F x fvec df).2 i j (max (1 / 10 ^ 7 * |x j|) (1 / 10 ^ 10))) ∧
    (∀ i j, ¬ ((1 ≤ i ∧ i ≤ n) ∧ (1 ≤ j ∧ j ≤ n)) → (fdjac n F x fvec df).2 i j = df i j) := by
  obtain ⟨h1, h2⟩ := fdjac_eq n F x fvec df
  refine ⟨h1, fun i j hi hi' hj hj' => ?_, fun i j h => ?_⟩
  · unfold Spec.IsQuotient
    rw [h2, if_pos ⟨⟨hi, hi'⟩, hj, hj'⟩, ← fdjacStep_eq]
    exact div_mul_cancel₀ _ (fdjacStep_pos _).ne'
  · rw [h2, if_neg h]

theorem quotient_derivative {F : (ℕ → ℝ) → ℕ → ℝ} {x fvec : ℕ → ℝ} {df : ℕ → ℕ → ℝ} {i j : ℕ} {h : ℝ} (hh : 0 < h)
    (q : Spec.IsQuotient F x fvec df i j h) (hf : fvec i = F x i) (g : ℝ → ℝ)
    (hg : ∀ s, 0 ≤ s → s ≤ h → HasDerivAt (fun s => F (Spec.moved x j s) i) (g s) s) :
    ∃ s, 0 < s ∧ s < h ∧ df i j = g s := by
  obtain ⟨s, hs, e⟩ := exists_hasDerivAt_eq_slope (fun s => F (Spec.moved x j s) i) g hh
    (fun s hs => (hg s hs.1 hs.2).continuousAt.continuousWithinAt) (fun s hs => hg s hs.1.le hs.2.le)
  refine ⟨s, hs.1, hs.2, ?_⟩
  rw [e]
  have m0 : Spec.moved x j 0 = x := by funext k; simp [Spec.moved]
  rw [m0, ← hf, ← q, sub_zero, mul_div_assoc, div_self hh.ne', mul_one]

/-- C157: each entry is the partial derivative of the function at a point between x and x + h e_j, when `fvec` is the
value at x and the function can be differentiated there. -/
theorem C157_derivative (n : ℕ) (F : (ℕ → ℝ) → ℕ → ℝ) (x fvec : ℕ → ℝ) (df : ℕ → ℕ → ℝ) {i j : ℕ} (hi : 1 ≤ i)
    (hi' : i ≤ n) (hj : 1 ≤ j) (hj' : j ≤ n) (hf : fvec i = F x i) (g : ℝ → ℝ)
    (hg : ∀ s, 0 ≤ s → s ≤ max (1 / 10 ^ 7 * |x j|) (1 / 10 ^ 10) →
      HasDerivAt (fun s => F (Spec.moved x j s) i) (g s) s) :
    ∃ s, 0 < s ∧ s < max (1 / 10 ^ 7 * |x j|) (1 / 10 ^ 10) ∧ (fdjac n F x fvec df).2 i j = g s :=
  quotient_derivative (by rw [← fdjacStep_eq]; exact fdjacStep_pos _)
    ((C157_jacobian n F x fvec df).2.1 i j hi hi' hj hj') hf g hg

/-- C157: the entries are exact for a function that is linear in each step. -/
theorem C157_linear (n : ℕ) (F : (ℕ → ℝ) → ℕ → ℝ) (x fvec : ℕ → ℝ) (df : ℕ → ℕ → ℝ) {i j : ℕ} (hi : 1 ≤ i)
    (hi' : i ≤ n) (hj : 1 ≤ j) (hj' : j ≤ n) (hf : fvec i = F x i) (a : ℝ)
    (ha : ∀ h, F (Spec.moved x j h) i = F x i + a * h) : (fdjac n F x fvec df).2 i j = a := by
  have q := (C157_jacobian n F x fvec df).2.1 i j hi hi' hj hj'
  unfold Spec.IsQuotient at q
  rw [ha, hf, add_sub_cancel_left] at q
  exact mul_right_cancel₀ (by rw [← fdjacStep_eq]; exact (fdjacStep_pos _).ne') q

theorem fdjacTry_eq (n : ℕ) (F : (ℕ → ℝ) → ℕ → ℝ) (fvec : ℕ → ℝ) (j : ℕ) (x : ℕ → ℝ) :
    ∀ (fuel : ℕ) (h : ℝ) (df : ℕ → ℕ → ℝ), 0 < h →
      (fdjacTry n F fvec j (x j) (fuel + 1) h (x, df)).1 = x ∧
      ∃ k, k ≤ fuel ∧
        (∀ a b, (fdjacTry n F fvec j (x j) (fuel + 1) h (x, df)).2 a b =
          if (1 ≤ a ∧ a ≤ n) ∧ b = j then (F (Spec.moved x j (h * 10 ^ k)) a - fvec a) / (h * 10 ^ k) else df a b) ∧
        (∀ k', k' < k → ∀ a, 1 ≤ a → a ≤ n → F (Spec.moved x j (h * 10 ^ k')) a = fvec a) ∧
        (k < fuel → ∃ a, (1 ≤ a ∧ a ≤ n) ∧ F (Spec.moved x j (h * 10 ^ k)) a ≠ fvec a) := by
  have key : ∀ (fuel : ℕ) (h : ℝ) (df : ℕ → ℕ → ℝ),
      fdjacTry n F fvec j (x j) (fuel + 1) h (x, df) =
        let r := upLoop 1 (n + 1) (fun i (t : (ℕ → ℕ → ℝ) × Bool) =>
          (fdjacSet t.1 i j ((F (Spec.moved x j h) i - fvec i) / h),
            if (F (Spec.moved x j h) i - fvec i) / h ≠ 0 then true else t.2)) (df, false)
        if r.2 then (x, r.1) else fdjacTry n F fvec j (x j) fuel (h * 10) (x, r.1) := by
    intro fuel h df
    rw [fdjacTry]
    dsimp only
    rw [aset_self, add_sub_cancel_left, aset_back, aset_moved]
  intro fuel
  induction fuel with
  | zero =>
    intro h df hh
    obtain ⟨c1, c2⟩ := fdjacColumnP n (fun i => (F (Spec.moved x j h) i - fvec i) / h) j df
    rw [key]
    dsimp only
    have e0 : h * 10 ^ 0 = h := by simp
    constructor
    · split_ifs <;> rfl
    · refine ⟨0, le_rfl, ?_, by omega, by omega⟩
      rw [e0]
      intro a b
      rw [← c1 a b]
      split_ifs <;> rfl
  | succ fuel ih =>
    intro h df hh
    obtain ⟨c1, c2⟩ := fdjacColumnP n (fun i => (F (Spec.moved x j h) i - fvec i) / h) j df
    rw [key]
    dsimp only
    have e0 : h * 10 ^ 0 = h := by simp
    split_ifs with hr
    · refine ⟨rfl, 0, by omega, ?_, by omega, ?_⟩
      · rw [e0]; exact c1
      · intro _
        obtain ⟨i, hi, hne⟩ := c2.1 hr
        refine ⟨i, hi, fun e => hne ?_⟩
        rw [e0] at e
        simp [e]
    · obtain ⟨i1, k, hk, i2, i3, i4⟩ := ih (h * 10) _ (by positivity)
      have ek : ∀ k, h * 10 * 10 ^ k = h * 10 ^ (k + 1) := by intro k; ring
      refine ⟨i1, k + 1, by omega, ?_, ?_, ?_⟩
      · intro a b
        rw [i2, c1, ek]
        by_cases hc : (1 ≤ a ∧ a ≤ n) ∧ b = j
        · rw [if_pos hc, if_pos hc]
        · rw [if_neg hc, if_neg hc, if_neg hc]
      · intro k' hk' a ha ha'
        cases k' with
        | zero =>
          rw [e0]
          by_contra hne
          apply hr
          apply c2.2
          exact ⟨a, ⟨ha, ha'⟩, div_ne_zero (sub_ne_zero.2 hne) hh.ne'⟩
        | succ k' =>
          rw [← ek]
          exact i3 k' (by omega) a ha ha'
      · intro hlt
        rw [← ek]
        exact i4 (by omega)

/-- C157: the second version of the function.  The array x is what it was.  For each column there is a k below 8, such
that the entries are the quotients with the first step times 10^k.  This k is the first one for which the function
changes at all, and 7 when it changes for none of the steps before. -/
theorem C157_larger_steps (n : ℕ) (F : (ℕ → ℝ) → ℕ → ℝ) (x fvec : ℕ → ℝ) (df : ℕ → ℕ → ℝ) :
    (fdjacP n F x fvec df).1 = x ∧
    (∀ j, 1 ≤ j → j ≤ n → ∃ k, k < 8 ∧
      (∀ i, 1 ≤ i → i ≤ n → Spec.IsQuotient F x fvec (fdjacP n F x fvec df).2 i j
        (max (1 / 10 ^ 7 * |x j|) (1 / 10 ^ 10) * 10 ^ k)) ∧
      (∀ k', k' < k → ∀ i, 1 ≤ i → i ≤ n →
        F (Spec.moved x j (max (1 / 10 ^ 7 * |x j|) (1 / 10 ^ 10) * 10 ^ k')) i = fvec i) ∧
      (k < 7 → ∃ i, (1 ≤ i ∧ i ≤ n) ∧ (fdjacP n F x fvec df).2 i j ≠ 0)) ∧
    (∀ i j, ¬ ((1 ≤ i ∧ i ≤ n) ∧ (1 ≤ j ∧ j ≤ n)) → (fdjacP n F x fvec df).2 i j = df i j) := by
  have hs := fun j => fdjacStep_pos (x j)
  have := upLoop_inv (lo := 1) (hi := n + 1) (by omega)
    (body := fun j (s : (ℕ → ℝ) × (ℕ → ℕ → ℝ)) => fdjacTry n F fvec j (s.1 j) 8 (fdjacStep (s.1 j)) s) (s := (x, df))
    (fun m s => s.1 = x ∧
      (∀ j, 1 ≤ j → j < m → ∃ k, k < 8 ∧
        (∀ i, 1 ≤ i → i ≤ n → s.2 i j =
          (F (Spec.moved x j (fdjacStep (x j) * 10 ^ k)) i - fvec i) / (fdjacStep (x j) * 10 ^ k)) ∧
        (∀ k', k' < k → ∀ i, 1 ≤ i → i ≤ n → F (Spec.moved x j (fdjacStep (x j) * 10 ^ k')) i = fvec i) ∧
        (k < 7 → ∃ i, (1 ≤ i ∧ i ≤ n) ∧ F (Spec.moved x j (fdjacStep (x j) * 10 ^ k)) i ≠ fvec i)) ∧
      (∀ i j, ¬ ((1 ≤ i ∧ i ≤ n) ∧ (1 ≤ j ∧ j < m)) → s.2 i j = df i j))
    ⟨rfl, by intro j h1 h2; omega, fun _ _ _ => rfl⟩
    (by
      rintro m ⟨x', d'⟩ h1 h2 ⟨rfl, ih, ih'⟩
      obtain ⟨t1, k, hk, t2, t3, t4⟩ := fdjacTry_eq n F fvec m x' 7 (fdjacStep (x' m)) d' (hs m)
      refine ⟨t1, ?_, ?_⟩
      · intro j hj hj'
        by_cases hjm : j = m
        · subst hjm
          refine ⟨k, by omega, fun i hi hi' => ?_, t3, t4⟩
          rw [t2, if_pos ⟨⟨hi, hi'⟩, rfl⟩]
        · obtain ⟨k, hk, a1, a2, a3⟩ := ih j hj (by omega)
          refine ⟨k, hk, fun i hi hi' => ?_, a2, a3⟩
          rw [t2, if_neg (by tauto)]
          exact a1 i hi hi'
      · intro i j hij
        rw [t2, if_neg (by rintro ⟨h, rfl⟩; exact hij ⟨h, h1, by omega⟩)]
        exact ih' i j (by intro h; exact hij ⟨h.1, h.2.1, by omega⟩))
  obtain ⟨e1, e2, e3⟩ := this
  refine ⟨e1, ?_, ?_⟩
  · intro j hj hj'
    obtain ⟨k, hk, a1, a2, a3⟩ := e2 j hj (by omega)
    have hp : 0 < fdjacStep (x j) * 10 ^ k := mul_pos (hs j) (by positivity)
    rw [← fdjacStep_eq]
    refine ⟨k, hk, fun i hi hi' => ?_, a2, fun h7 => ?_⟩
    · unfold Spec.IsQuotient
      unfold fdjacP
      rw [a1 i hi hi']
      exact div_mul_cancel₀ _ hp.ne'
    · obtain ⟨i, hi, hne⟩ := a3 h7
      refine ⟨i, hi, ?_⟩
      unfold fdjacP
      rw [a1 i hi.1 hi.2]
      exact div_ne_zero (sub_ne_zero.2 hne) hp.ne'
  · intro i j hij
    exact e3 i j (by intro h; exact hij ⟨h.1, h.2.1, by omega⟩)

/-- C157: in the second version too each entry is a partial derivative between x and x + h e_j, now with a step h of up
to 1e7 times the first one. -/
theorem C157_larger_derivative (n : ℕ) (F : (ℕ → ℝ) → ℕ → ℝ) (x fvec : ℕ → ℝ) (df : ℕ → ℕ → ℝ) {i j : ℕ} (hi : 1 ≤ i)
    (hi' : i ≤ n) (hj : 1 ≤ j) (hj' : j ≤ n) (hf : fvec i = F x i) (g : ℝ → ℝ)
    (hg : ∀ s, 0 ≤ s → s ≤ max |x j| (1 / 10 ^ 3) → HasDerivAt (fun s => F (Spec.moved x j s) i) (g s) s) :
    ∃ s, 0 < s ∧ s < max |x j| (1 / 10 ^ 3) ∧ (fdjacP n F x fvec df).2 i j = g s := by
  obtain ⟨k, hk, q, -, -⟩ := (C157_larger_steps n F x fvec df).2.1 j hj hj'
  have hp : (0 : ℝ) < max (1 / 10 ^ 7 * |x j|) (1 / 10 ^ 10) := by rw [← fdjacStep_eq]; exact fdjacStep_pos _
  have le : max (1 / 10 ^ 7 * |x j|) (1 / 10 ^ 10) * 10 ^ k ≤ max |x j| (1 / 10 ^ 3) := by
    have h7 : (10 : ℝ) ^ k ≤ 10 ^ 7 := pow_le_pow_right₀ (by norm_num) (by omega)
    calc max (1 / 10 ^ 7 * |x j|) (1 / 10 ^ 10) * 10 ^ k
        ≤ max (1 / 10 ^ 7 * |x j|) (1 / 10 ^ 10) * 10 ^ 7 := mul_le_mul_of_nonneg_left h7 hp.le
      _ ≤ max |x j| (1 / 10 ^ 3) := by
        rw [max_mul_of_nonneg _ _ (by positivity)]
        apply max_le_max
        · apply le_of_eq; ring
        · norm_num
  obtain ⟨s, s1, s2, s3⟩ := quotient_derivative (mul_pos hp (by positivity)) (q i hi hi') hf g
    (fun s h1 h2 => hg s h1 (h2.trans le))
  exact ⟨s, s1, s2.trans_le le, s3⟩

/-- The derivative of 3 a - 2 b with respect to the second variable. -/
example (df : ℕ → ℕ → ℝ) :
    (fdjac 2 (fun x i => if i = 1 then 3 * x 1 - 2 * x 2 else x 1) (fun _ => 5) (fun _ => 5) df).2 1 2 = -2 :=
  C157_linear 2 _ _ _ df (by norm_num) (by norm_num) (by norm_num) (by norm_num) (by norm_num) (-2)
    (by intro h; simp only [Spec.moved]; norm_num; ring)

end Sgrid
