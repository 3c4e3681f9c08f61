import Verif.Model.SvdFit
import Verif.Props.MultiMin

/-!
C171: the least squares fit of Numerical Recipes.
-/

namespace Sgrid
open Finset

namespace Spec

/-- The weighted sum of squares. -/
noncomputable def chisq (x y sig : Nat → ℝ) (ndata ma : Nat) (funcs : ℝ → Nat → ℝ) (a : Nat → ℝ) : ℝ :=
  ∑ i ∈ Icc 1 ndata, ((y i - ∑ j ∈ Icc 1 ma, a j * funcs (x i) j) / sig i) ^ 2

/-- `u diag(w) v^T` is a singular value decomposition of A. -/
structure IsSvd (m n : Nat) (A : Nat → Nat → ℝ) (u : Nat → Nat → ℝ) (w : Nat → ℝ) (v : Nat → Nat → ℝ) : Prop where
  left : OrthCols m n u
  right : OrthCols n n v
  pos : ∀ j ∈ Icc 1 n, 0 ≤ w j
  prod : ∀ i ∈ Icc 1 m, ∀ l ∈ Icc 1 n, A i l = ∑ j ∈ Icc 1 n, u i j * w j * v l j

/-- The singular value j is less than 1e-8 times another one. -/
def Small (n : Nat) (w : Nat → ℝ) (j : Nat) : Prop := ∃ k ∈ Icc 1 n, w j < w k / 10 ^ 8

end Spec

theorem C171_chisq (x y sig : RArr) (ndata ma : Nat) (funcs : ℝ → RArr) (a : RArr) :
    fitChisq x y sig ndata ma funcs a = Spec.chisq x y sig ndata ma funcs a := by
  unfold fitChisq Spec.chisq
  dsimp only
  rw [upLoop_sum_Icc]
  refine Finset.sum_congr rfl fun i _ => ?_
  rw [upLoop_sum_Icc, sq]

theorem fitMatrix_apply (x y sig : RArr) (ndata ma : Nat) (funcs : ℝ → RArr) (u : Mat ℝ) (b : RArr) :
    ∀ i ∈ Icc 1 ndata, (∀ j ∈ Icc 1 ma, (fitMatrix x y sig ndata ma funcs u b).1 i j = funcs (x i) j / sig i) ∧
      (fitMatrix x y sig ndata ma funcs u b).2 i = y i / sig i := by
  have := upLoop_inv (lo := 1) (hi := ndata + 1) (by omega) (body := fun i (s : Mat ℝ × RArr) =>
      let afunc := funcs (x i)
      let tmp := 1 / sig i
      (aset s.1 i (upLoop 1 (ma + 1) (fun j r => aset r j (afunc j * tmp)) (s.1 i)), aset s.2 i (y i * tmp))) (s := (u, b))
    (fun m s => ∀ i, 1 ≤ i → i < m → (∀ j ∈ Icc 1 ma, s.1 i j = funcs (x i) j / sig i) ∧ s.2 i = y i / sig i)
    (by intro i h1 h2; omega) (by
      intro k t _ _ ht i h1 h2
      dsimp only
      by_cases e : i = k
      · subst e
        rw [aset_self, aset_self]
        refine ⟨fun j hj => ?_, by ring⟩
        rw [upLoop_fill, if_pos (by rw [Finset.mem_Icc] at hj; omega)]
        ring
      · rw [aset_ne _ _ e, aset_ne _ _ e]
        exact ht i h1 (by omega))
  intro i hi
  rw [Finset.mem_Icc] at hi
  exact this i hi.1 (by omega)

theorem fitWmax_spec (ma : Nat) (w : RArr) : (∀ j ∈ Icc 1 ma, w j ≤ fitWmax ma w) ∧
    (fitWmax ma w = 0 ∨ ∃ j ∈ Icc 1 ma, fitWmax ma w = w j) ∧ 0 ≤ fitWmax ma w := by
  have := upLoop_inv (lo := 1) (hi := ma + 1) (by omega) (body := fun j (m : ℝ) => if w j > m then w j else m) (s := 0)
    (fun k m => (∀ j, 1 ≤ j → j < k → w j ≤ m) ∧ (m = 0 ∨ ∃ j, 1 ≤ j ∧ j < k ∧ m = w j) ∧ 0 ≤ m)
    ⟨by intro j h1 h2; omega, Or.inl rfl, le_refl _⟩ (by
      rintro k m hk _ ⟨h1, h2, h3⟩
      split
      · rename_i hlt
        refine ⟨fun j a b => ?_, Or.inr ⟨k, hk, by omega, rfl⟩, by linarith⟩
        by_cases e : j = k
        · rw [e]
        · exact (h1 j a (by omega)).trans hlt.le
      · rename_i hlt
        refine ⟨fun j a b => ?_, ?_, h3⟩
        · by_cases e : j = k
          · rw [e]; exact not_lt.1 hlt
          · exact h1 j a (by omega)
        · rcases h2 with h2 | ⟨j, a, b, c⟩
          · exact Or.inl h2
          · exact Or.inr ⟨j, a, by omega, c⟩)
  obtain ⟨h1, h2, h3⟩ := this
  refine ⟨fun j hj => ?_, ?_, h3⟩
  · rw [Finset.mem_Icc] at hj
    exact h1 j hj.1 (by omega)
  · rcases h2 with h2 | ⟨j, a, b, c⟩
    · exact Or.inl h2
    · exact Or.inr ⟨j, by rw [Finset.mem_Icc]; omega, c⟩

theorem fitCut_apply (ma : Nat) (w : RArr) (hw : ∀ j ∈ Icc 1 ma, 0 ≤ w j) :
    ∀ j ∈ Icc 1 ma, (Spec.Small ma w j → fitCut ma w j = 0) ∧ (¬ Spec.Small ma w j → fitCut ma w j = w j) := by
  obtain ⟨m1, m2, m3⟩ := fitWmax_spec ma w
  have key : ∀ j ∈ Icc 1 ma, fitCut ma w j = if w j < 1 / 10 ^ 8 * fitWmax ma w then 0 else w j := by
    intro j hj
    have e : ∀ (i : Nat) (t : RArr), (if t i < 1 / 10 ^ 8 * fitWmax ma w then aset t i 0 else t) =
        aset t i (if t i < 1 / 10 ^ 8 * fitWmax ma w then 0 else t i) := by
      intro i t
      split
      · rfl
      · simp [aset]
    unfold fitCut
    rw [upLoop_congr (body' := fun i t => aset t i (if t i < 1 / 10 ^ 8 * fitWmax ma w then 0 else t i)) w
      (fun i t _ _ => e i t),
      upLoop_mapi (fun _ a => if a < 1 / 10 ^ 8 * fitWmax ma w then 0 else a), if_pos (by rw [Finset.mem_Icc] at hj; omega)]
  intro j hj
  rw [key j hj]
  constructor
  · rintro ⟨k, hk, h⟩
    rw [if_pos]
    have := m1 k hk
    linarith
  · intro h
    rw [if_neg]
    intro hlt
    rcases m2 with m2 | ⟨k, hk, e⟩
    · rw [m2] at hlt
      have := hw j hj
      linarith
    · exact h ⟨k, hk, by rw [e] at hlt; linarith⟩

/-- C171: if the decomposition is right, the fit has the least sum of squares of all linear combinations that
do not use the columns of v that belong to small singular values, and uses none of them itself. -/
theorem C171_fit (svd : Mat ℝ → Nat → Nat → Mat ℝ × RArr × Mat ℝ) (x y sig : RArr) (ndata : Nat) (a : RArr) (ma : Nat)
    (u0 : Mat ℝ) (junk : RArr) (funcs : ℝ → RArr) (u v : Mat ℝ) (w : RArr)
    (hsvd : svd (fitMatrix x y sig ndata ma funcs u0 junk).1 ndata ma = (u, w, v))
    (hd : Spec.IsSvd ndata ma (fun i l => funcs (x i) l / sig i) u w v) :
    let r := svdFit svd x y sig ndata a ma u0 junk funcs
    r.2 = Spec.chisq x y sig ndata ma funcs r.1 ∧
    (∀ j ∈ Icc 1 ma, Spec.Small ma w j → ∑ l ∈ Icc 1 ma, v l j * r.1 l = 0) ∧
    ∀ a' : RArr, (∀ j ∈ Icc 1 ma, Spec.Small ma w j → w j * ∑ l ∈ Icc 1 ma, v l j * a' l = 0) →
      r.2 ≤ Spec.chisq x y sig ndata ma funcs a' := by
  intro r
  have hr : r.2 = Spec.chisq x y sig ndata ma funcs r.1 := C171_chisq _ _ _ _ _ _ _
  obtain ⟨b, hb⟩ : ∃ b, (fitMatrix x y sig ndata ma funcs u0 junk).2 = b := ⟨_, rfl⟩
  have hbi : ∀ i ∈ Icc 1 ndata, b i = y i / sig i := fun i hi => by
    rw [← hb]; exact (fitMatrix_apply x y sig ndata ma funcs u0 junk i hi).2
  have hr1 : r.1 = svdBack u (fitCut ma w) v ndata ma b a := by
    show (svdFit svd x y sig ndata a ma u0 junk funcs).1 = _
    unfold svdFit
    dsimp only
    rw [hsvd, hb]
  have hcut := fitCut_apply ma w hd.pos
  have hV : ∀ j ∈ Icc 1 ma, Spec.Small ma w j → ∑ l ∈ Icc 1 ma, v l j * r.1 l = 0 := by
    intro k hk hs
    rw [hr1, Finset.sum_congr rfl fun l hl => by rw [svdBack_apply, if_pos hl, Finset.mul_sum], Finset.sum_comm]
    refine Finset.sum_eq_zero fun j hj => ?_
    rw [Finset.sum_congr rfl fun l _ => (mul_assoc (v l k) (v l j) _).symm, ← Finset.sum_mul, hd.right k hk j hj]
    by_cases e : k = j
    · rw [← e, (hcut k hk).1 hs]; simp
    · rw [if_neg e, zero_mul]
  have hres : ∀ a' : RArr, (∀ j ∈ Icc 1 ma, Spec.Small ma w j → w j * ∑ l ∈ Icc 1 ma, v l j * a' l = 0) →
      Spec.resid ndata ma (fun i l => ∑ j ∈ Icc 1 ma, u i j * fitCut ma w j * v l j) b a' =
        Spec.chisq x y sig ndata ma funcs a' := by
    intro a' h
    unfold Spec.resid Spec.chisq
    refine Finset.sum_congr rfl fun i hi => ?_
    have sw : ∀ w' : RArr, (∑ l ∈ Icc 1 ma, (∑ j ∈ Icc 1 ma, u i j * w' j * v l j) * a' l) =
        ∑ j ∈ Icc 1 ma, u i j * (w' j * ∑ l ∈ Icc 1 ma, v l j * a' l) := by
      intro w'
      simp only [Finset.sum_mul]
      rw [Finset.sum_comm]
      refine Finset.sum_congr rfl fun j _ => ?_
      rw [Finset.mul_sum, Finset.mul_sum]
      exact Finset.sum_congr rfl fun l _ => by ring
    have e : (∑ l ∈ Icc 1 ma, (∑ j ∈ Icc 1 ma, u i j * fitCut ma w j * v l j) * a' l) =
        ∑ l ∈ Icc 1 ma, funcs (x i) l / sig i * a' l := by
      have e0 : (∑ l ∈ Icc 1 ma, funcs (x i) l / sig i * a' l) =
          ∑ l ∈ Icc 1 ma, (∑ j ∈ Icc 1 ma, u i j * w j * v l j) * a' l :=
        Finset.sum_congr rfl fun l hl => by rw [← hd.prod i hi l hl]
      rw [e0, sw, sw]
      refine Finset.sum_congr rfl fun j hj => ?_
      by_cases hs : Spec.Small ma w j
      · rw [(hcut j hj).1 hs, h j hj hs]; simp
      · rw [(hcut j hj).2 hs]
    have e2 : (∑ l ∈ Icc 1 ma, funcs (x i) l / sig i * a' l) = (∑ j ∈ Icc 1 ma, a' j * funcs (x i) j) / sig i := by
      rw [div_eq_mul_inv, Finset.sum_mul]
      exact Finset.sum_congr rfl fun l _ => by ring
    rw [e, e2, hbi i hi]
    ring
  refine ⟨hr, hV, fun a' h => ?_⟩
  rw [hr, ← hres a' h, ← hres r.1 (fun j hj hs => by rw [hV j hj hs, mul_zero]), hr1]
  exact (C147_dsvbksb hd.left hd.right (fun _ _ => rfl) a').1

/-- C171: without small singular values other than 0 the fit has the least sum of squares. -/
theorem C171_least (svd : Mat ℝ → Nat → Nat → Mat ℝ × RArr × Mat ℝ) (x y sig : RArr) (ndata : Nat) (a : RArr) (ma : Nat)
    (u0 : Mat ℝ) (junk : RArr) (funcs : ℝ → RArr) (u v : Mat ℝ) (w : RArr)
    (hsvd : svd (fitMatrix x y sig ndata ma funcs u0 junk).1 ndata ma = (u, w, v))
    (hd : Spec.IsSvd ndata ma (fun i l => funcs (x i) l / sig i) u w v)
    (hw : ∀ j ∈ Icc 1 ma, Spec.Small ma w j → w j = 0) (a' : RArr) :
    (svdFit svd x y sig ndata a ma u0 junk funcs).2 ≤ Spec.chisq x y sig ndata ma funcs a' :=
  (C171_fit svd x y sig ndata a ma u0 junk funcs u v w hsvd hd).2.2 a' fun j hj hs => by rw [hw j hj hs, zero_mul]

/-- C171: nothing is written outside of the arrays. -/
theorem C171_inside (x y sig : RArr) (ndata ma : Nat) (funcs : ℝ → RArr) (u : Mat ℝ) (junk w : RArr) :
    (∀ j, j ∉ Icc 1 ma → fitCut ma w j = w j) ∧
    ∀ i, (i ∉ Icc 1 ndata → (fitMatrix x y sig ndata ma funcs u junk).1 i = u i ∧
      (fitMatrix x y sig ndata ma funcs u junk).2 i = junk i) ∧
      ∀ j, j ∉ Icc 1 ma → (fitMatrix x y sig ndata ma funcs u junk).1 i j = u i j := by
  constructor
  · intro j hj
    rw [Finset.mem_Icc] at hj
    exact upLoop_inv (lo := 1) (hi := ma + 1) (by omega) (s := w)
      (body := fun i (t : RArr) => if t i < 1 / 10 ^ 8 * fitWmax ma w then aset t i 0 else t) (fun _ t => t j = w j) rfl
      (by
        intro i t h1 h2 ht
        split
        · rw [aset_ne _ _ (by omega), ht]
        · exact ht)
  · refine upLoop_inv (lo := 1) (hi := ndata + 1) (by omega) (s := (u, junk)) (body := fun i (s : Mat ℝ × RArr) =>
      let afunc := funcs (x i)
      let tmp := 1 / sig i
      (aset s.1 i (upLoop 1 (ma + 1) (fun j r => aset r j (afunc j * tmp)) (s.1 i)), aset s.2 i (y i * tmp)))
      (fun _ s => ∀ i, (i ∉ Icc 1 ndata → s.1 i = u i ∧ s.2 i = junk i) ∧ ∀ j, j ∉ Icc 1 ma → s.1 i j = u i j)
      (fun i => ⟨fun _ => ⟨rfl, rfl⟩, fun _ _ => rfl⟩) ?_
    intro k t h1 h2 ht i
    dsimp only
    by_cases e : i = k
    · subst e
      refine ⟨fun h => absurd (by rw [Finset.mem_Icc]; omega) h, fun j hj => ?_⟩
      rw [aset_self, upLoop_fill, if_neg (by rw [Finset.mem_Icc] at hj; omega)]
      exact (ht i).2 j hj
    · rw [aset_ne _ _ e, aset_ne _ _ e]
      exact ht i

/-- The matrix that is decomposed is the one of the fit, whatever was in the memory before. -/
theorem C171_matrix (x y sig : RArr) (ndata ma : Nat) (funcs : ℝ → RArr) (u : Mat ℝ) (junk : RArr) :
    ∀ i ∈ Icc 1 ndata, ∀ j ∈ Icc 1 ma, (fitMatrix x y sig ndata ma funcs u junk).1 i j = funcs (x i) j / sig i :=
  fun i hi => (fitMatrix_apply x y sig ndata ma funcs u junk i hi).1

/-- The mean of 1 and 5: one basis function, u = (1/sqrt 2, 1/sqrt 2), w = sqrt 2, v = 1.  The sum of squares is 8. -/
example : (svdFit (fun _ _ _ => (fun _ _ => 1 / Real.sqrt 2, fun _ => Real.sqrt 2, fun _ _ => 1)) (fun _ => 0)
    (fun i => 4 * i - 3) (fun _ => 1) 2 (fun _ => 0) 1 (fun _ _ => 0) (fun _ => 0) (fun _ _ => 1)).2 ≤ 8 := by
  have s2 : Real.sqrt 2 * Real.sqrt 2 = 2 := Real.mul_self_sqrt (by norm_num)
  have p2 : 0 < Real.sqrt 2 := Real.sqrt_pos.2 (by norm_num)
  refine (C171_least _ _ _ _ _ _ _ _ _ _ (fun _ _ => 1 / Real.sqrt 2) (fun _ _ => 1) (fun _ => Real.sqrt 2) rfl
    ⟨?_, ?_, ?_, ?_⟩ ?_ (fun _ => 3)).trans (le_of_eq ?_)
  · intro j hj k hk
    simp only [Finset.Icc_self, Finset.mem_singleton] at hj hk
    subst hj; subst hk
    rw [show Icc 1 2 = {1, 2} from rfl, Finset.sum_pair (by norm_num), if_pos rfl]
    field_simp
    rw [sq, s2]; norm_num
  · intro j hj k hk
    simp only [Finset.Icc_self, Finset.mem_singleton] at hj hk
    subst hj; subst hk
    simp
  · intro j _; exact p2.le
  · intro i _ l _
    rw [Finset.Icc_self, Finset.sum_singleton]
    field_simp
  · rintro j _ ⟨k, _, h⟩
    exfalso
    dsimp only at h
    linarith
  · unfold Spec.chisq
    rw [show Icc 1 2 = {1, 2} from rfl, Finset.sum_pair (by norm_num), Finset.Icc_self, Finset.sum_singleton]
    norm_num

end Sgrid
