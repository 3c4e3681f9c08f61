import Mathlib.Topology.Order.IntermediateValue
import Mathlib.Topology.Algebra.Order.LiminfLimsup
import Mathlib.Topology.Instances.Real.Lemmas
import Mathlib.Topology.Continuous
import Mathlib.Data.Real.Basic
import Mathlib.Analysis.Calculus.Deriv.MeanValue
import Mathlib.Analysis.Calculus.Deriv.Pow
import Mathlib.Order.Interval.Set.UnorderedInterval
import Mathlib.Algebra.Order.Interval.Set.Group
import Mathlib.Tactic.FieldSimp
import Mathlib.Tactic.Linarith
import Mathlib.Tactic.Positivity
import Mathlib.Tactic.Ring
import Mathlib.Tactic.NormNum
import Verif.Model.RootFind

/-!
# C47, C85: root finders in one dimension
-/

namespace Sgrid

open Set

namespace Spec

/-- The values have the same sign and are not zero. -/
def SameSign (u v : ℝ) : Prop := (u < 0 ∧ v < 0) ∨ (0 < u ∧ 0 < v)

end Spec

theorem forRet_inv {σ ρ : Type} {n : Nat} {body : Nat → σ → ρ ⊕ σ} {s : σ} (P : Nat → σ → Prop)
    (Q : Nat → ρ → Prop) (h0 : P 1 s)
    (hr : ∀ j s x, 1 ≤ j → j ≤ n → P j s → body j s = .inl x → Q j x)
    (hs : ∀ j s s', 1 ≤ j → j ≤ n → P j s → body j s = .inr s' → P (j + 1) s') :
    (∃ x j, 1 ≤ j ∧ j ≤ n ∧ forRet n body s = .inl x ∧ Q j x) ∨
    ∃ s', forRet n body s = .inr s' ∧ P (n + 1) s' := by
  refine upLoop_inv (Nat.le_add_left 1 n) (s := (.inr s : ρ ⊕ σ)) (fun m r =>
    (∃ x j, 1 ≤ j ∧ j ≤ n ∧ r = .inl x ∧ Q j x) ∨ ∃ s', r = .inr s' ∧ P m s') (Or.inr ⟨s, rfl, h0⟩) ?_
  rintro j r h1 h2 (⟨x, i, hi1, hi2, rfl, hQ⟩ | ⟨s', rfl, hP⟩)
  · exact Or.inl ⟨x, i, hi1, hi2, rfl, hQ⟩
  · dsimp only
    cases hb : body j s' with
    | inl x => exact Or.inl ⟨x, j, h1, by omega, rfl, hr j s' x h1 (by omega) hP hb⟩
    | inr t => exact Or.inr ⟨t, rfl, hs j s' t h1 (by omega) hP hb⟩

/-- A continuous function has a root between points where the signs differ. -/
theorem root_between {f : ℝ → ℝ} {a b : ℝ} (hf : ContinuousOn f (uIcc a b))
    (h : ¬ Spec.SameSign (f a) (f b)) : ∃ z ∈ uIcc a b, f z = 0 := by
  have h0 : (0 : ℝ) ∈ uIcc (f a) (f b) := by
    rw [mem_uIcc]
    unfold Spec.SameSign at h
    rcases lt_trichotomy (f a) 0 with h1 | h1 | h1 <;> rcases lt_trichotomy (f b) 0 with h2 | h2 | h2
    · exact absurd (Or.inl ⟨h1, h2⟩) h
    · exact Or.inl ⟨h1.le, h2.ge⟩
    · exact Or.inl ⟨h1.le, h2.le⟩
    · exact Or.inr ⟨h2.le, h1.ge⟩
    · exact Or.inl ⟨h1.le, h2.ge⟩
    · exact Or.inl ⟨h1.le, h2.le⟩
    · exact Or.inr ⟨h2.le, h1.le⟩
    · exact Or.inr ⟨h2.le, h1.le⟩
    · exact absurd (Or.inr ⟨h1, h2⟩) h
  obtain ⟨z, hz, hz0⟩ := intermediate_value_uIcc hf h0
  exact ⟨z, hz, hz0⟩

theorem rtGuess_mem (x0 x1 x2 : ℝ) : rtGuess x0 x1 x2 ∈ uIcc x1 x2 := by
  unfold rtGuess
  rw [mem_uIcc]
  split
  · assumption
  · rcases le_total x1 x2 with h | h
    · exact Or.inl ⟨by linarith, by linarith⟩
    · exact Or.inr ⟨by linarith, by linarith⟩

theorem mid_mem {x1 x2 a b : ℝ} (ha : a ∈ uIcc x1 x2) (hb : b ∈ uIcc x1 x2) :
    a + 1 / 2 * (b - a) ∈ uIcc x1 x2 := by
  rw [mem_uIcc] at *
  rcases le_total x1 x2 with h | h
  · rcases ha with ha | ha <;> rcases hb with hb | hb <;>
      exact Or.inl ⟨by linarith, by linarith⟩
  · rcases ha with ha | ha <;> rcases hb with hb | hb <;>
      exact Or.inr ⟨by linarith, by linarith⟩

theorem mid_dist {a b z : ℝ} (hz : z ∈ uIcc a b) :
    |a + 1 / 2 * (b - a) - z| ≤ |1 / 2 * (b - a)| := by
  rw [mem_uIcc] at hz
  rw [abs_le]
  rcases le_total a b with h | h
  · rw [abs_of_nonneg (by linarith)]
    rcases hz with hz | hz <;> constructor <;> linarith
  · rw [abs_of_nonpos (by linarith)]
    rcases hz with hz | hz <;> constructor <;> linarith

/-! ### Bisection -/

structure BisInv (f : ℝ → ℝ) (x1 x2 : ℝ) (j : Nat) (s : BisState ℝ) : Prop where
  l : s.xl ∈ uIcc x1 x2
  h : s.xh ∈ uIcc x1 x2
  r : s.xrt ∈ uIcc s.xl s.xh
  fl : f s.xl < 0
  fh : 0 < f s.xh
  size : |s.xh - s.xl| ≤ |x2 - x1| / 2 ^ (j - 2)
  mid : j ≠ 1 → s.xrt = s.xl + 1 / 2 * (s.xh - s.xl)

theorem bisStep_cases {f : ℝ → ℝ} {x1 x2 xacc : ℝ} {j : Nat} (hj : 1 ≤ j) {s : BisState ℝ}
    (h : BisInv f x1 x2 j s) :
    (bisStep f xacc j s = .inl (j, s.xrt) ∧ f s.xrt = 0) ∨
    (∃ s', BisInv f x1 x2 (j + 1) s' ∧
      ((bisStep f xacc j s = .inl (j, s'.xrt) ∧ |1 / 2 * (s'.xh - s'.xl)| < xacc) ∨
       (bisStep f xacc j s = .inr s' ∧ xacc ≤ |1 / 2 * (s'.xh - s'.xl)|))) := by
  unfold bisStep
  by_cases h0 : f s.xrt = 0
  · left
    dsimp only
    rw [if_pos h0]
    exact ⟨rfl, h0⟩
  right
  have hsub : uIcc s.xl s.xh ⊆ uIcc x1 x2 := uIcc_subset_uIcc h.l h.h
  set xl := if f s.xrt < 0 then s.xrt else s.xl with hxl
  set xh := if f s.xrt < 0 then s.xh else s.xrt with hxh
  have hl : f xl < 0 := by
    rw [hxl]; split
    · assumption
    · exact h.fl
  have hh : 0 < f xh := by
    rw [hxh]; split
    · exact h.fh
    · rename_i hn; exact lt_of_le_of_ne (not_lt.mp hn) (Ne.symm h0)
  have ml : xl ∈ uIcc x1 x2 := by
    rw [hxl]; split
    · exact hsub h.r
    · exact h.l
  have mh : xh ∈ uIcc x1 x2 := by
    rw [hxh]; split
    · exact h.h
    · exact hsub h.r
  have hle : |xh - xl| ≤ |s.xh - s.xl| := by
    have hr := h.r
    rw [hxl, hxh]
    split
    · rw [mem_uIcc] at hr
      rcases hr with hr | hr
      · rw [abs_of_nonneg (by linarith), abs_of_nonneg (by linarith)]; linarith
      · rw [abs_of_nonpos (by linarith), abs_of_nonpos (by linarith)]; linarith
    · rw [mem_uIcc] at hr
      rcases hr with hr | hr
      · rw [abs_of_nonneg (by linarith), abs_of_nonneg (by linarith)]; linarith
      · rw [abs_of_nonpos (by linarith), abs_of_nonpos (by linarith)]; linarith
  have hsize : |xh - xl| ≤ |x2 - x1| / 2 ^ (j + 1 - 2) := by
    by_cases hj1 : j = 1
    · subst hj1
      exact hle.trans h.size
    · have hm := h.mid hj1
      have hhalf : |xh - xl| = |s.xh - s.xl| / 2 := by
        have : xh - xl = (s.xh - s.xl) / 2 := by
          rw [hxl, hxh]
          split <;> rw [hm] <;> ring
        rw [this, abs_div, abs_of_pos (show (0 : ℝ) < 2 by norm_num)]
      have h2 : |x2 - x1| / 2 ^ (j + 1 - 2) = |x2 - x1| / 2 ^ (j - 2) / 2 := by
        obtain ⟨i, rfl⟩ := Nat.exists_eq_add_of_le (show 2 ≤ j by omega)
        rw [show 2 + i + 1 - 2 = i + 1 by omega, show 2 + i - 2 = i by omega, pow_succ]
        field_simp
      rw [hhalf, h2]
      linarith [h.size]
  have hne : xl ≠ xh := fun he => by rw [he] at hl; linarith
  refine ⟨⟨xl, xh, xl + 1 / 2 * (xh - xl)⟩, ⟨ml, mh, mid_mem left_mem_uIcc right_mem_uIcc, hl, hh,
    hsize, fun _ => rfl⟩, ?_⟩
  dsimp only
  rw [if_neg h0, if_neg (fun he => hne (by linarith))]
  by_cases hx : |1 / 2 * (xh - xl)| < xacc
  · rw [if_pos hx]; exact Or.inl ⟨rfl, hx⟩
  · rw [if_neg hx]; exact Or.inr ⟨rfl, not_lt.mp hx⟩

/-- What the root finders do if the signs at the ends of the bracket are equal. -/
theorem bracket_flag (fl fh : ℝ) :
    (if fl ≥ 0 ∧ fh ≤ 0 then 1 else if fl ≤ 0 ∧ fh ≥ 0 then 1 else 0) = 0 ↔
      Spec.SameSign fl fh := by
  unfold Spec.SameSign
  constructor
  · intro h
    split at h
    · omega
    · split at h
      · omega
      · rename_i h1 h2
        rcases lt_trichotomy fl 0 with h3 | h3 | h3
        · left; exact ⟨h3, not_le.mp fun h4 => h2 ⟨h3.le, h4⟩⟩
        · exact absurd ⟨h3.ge, not_lt.mp fun h4 => h2 ⟨h3.le, h4.le⟩⟩ h1
        · right; exact ⟨h3, not_le.mp fun h4 => h1 ⟨h3.le, h4⟩⟩
  · rintro (⟨h1, h2⟩ | ⟨h1, h2⟩)
    · rw [if_neg (fun h => absurd h.1 (not_le.mpr h1)), if_neg (fun h => absurd h.2 (not_le.mpr h2))]
    · rw [if_neg (fun h => absurd h.2 (not_le.mpr h2)), if_neg (fun h => absurd h.1 (not_le.mpr h1))]

theorem bisStep_ret (f : ℝ → ℝ) (xacc : ℝ) (j : Nat) (s : BisState ℝ) :
    (∃ x, bisStep f xacc j s = .inl ((j : Int), x)) ∨ ∃ t, bisStep f xacc j s = .inr t := by
  unfold bisStep
  dsimp only
  generalize (if f s.xrt < 0 then s.xrt else s.xl) = xl
  generalize (if f s.xrt < 0 then s.xh else s.xrt) = xh
  split
  · exact Or.inl ⟨_, rfl⟩
  · split
    · exact Or.inl ⟨_, rfl⟩
    · split
      · exact Or.inl ⟨_, rfl⟩
      · exact Or.inr ⟨_, rfl⟩

/-- **C47** (`rtbisect`, no sign change): the return value is negative and `*x0` is left alone exactly
if the function has the same strict sign at both ends. -/
theorem C47_bisect_sign (f : ℝ → ℝ) (x0 x1 x2 : ℝ) (maxits : Nat) (xacc : ℝ) :
    ((rtbisect f x0 x1 x2 maxits xacc).1 < 0 ↔ Spec.SameSign (f x1) (f x2)) ∧
    ((rtbisect f x0 x1 x2 maxits xacc).1 < 0 → (rtbisect f x0 x1 x2 maxits xacc).2 = x0) := by
  unfold rtbisect
  dsimp only
  by_cases hs : Spec.SameSign (f x1) (f x2)
  · rw [if_pos ((bracket_flag _ _).mpr hs)]
    exact ⟨⟨fun _ => hs, fun _ => by dsimp only; omega⟩, fun _ => rfl⟩
  rw [if_neg (fun h => hs ((bracket_flag _ _).mp h))]
  suffices h : ∀ r : Int × ℝ, 0 ≤ r.1 → (r.1 < 0 ↔ Spec.SameSign (f x1) (f x2)) ∧
      (r.1 < 0 → r.2 = x0) by
    apply h
    split
    · exact le_rfl
    · split
      · exact le_rfl
      · generalize (if f x1 < 0 then (⟨x1, x2, rtGuess x0 x1 x2⟩ : BisState ℝ)
          else ⟨x2, x1, rtGuess x0 x1 x2⟩) = s0
        rcases forRet_inv (n := maxits) (body := bisStep f xacc) (s := s0) (fun _ _ => True)
          (fun j x => x.1 = j) trivial (fun j s x _ _ _ hb => by
            rcases bisStep_ret f xacc j s with ⟨y, hy⟩ | ⟨t, ht⟩
            · rw [hy] at hb; cases hb; rfl
            · rw [ht] at hb; cases hb) (fun _ _ _ _ _ _ _ => trivial) with ⟨x, j, _, _, hx, hj⟩ | ⟨s', hs', _⟩
        · rw [hx]; dsimp only; omega
        · rw [hs']; dsimp only; omega
  intro r hr
  exact ⟨⟨fun h => absurd hr (by omega), fun h => absurd h hs⟩, fun h => absurd hr (by omega)⟩

/-- **C47** (`rtbisect`): the returned point lies in the bracket. If the return value is an iteration
number within the limit, the point is a root or there is a root of the function closer than `xacc`. If
the limit is large enough for the bracket, the limit is not exceeded. -/
theorem C47_bisect (f : ℝ → ℝ) (x0 x1 x2 : ℝ) (maxits : Nat) (xacc : ℝ)
    (hf : ContinuousOn f (uIcc x1 x2)) (hs : ¬ Spec.SameSign (f x1) (f x2)) :
    0 ≤ (rtbisect f x0 x1 x2 maxits xacc).1 ∧
    (rtbisect f x0 x1 x2 maxits xacc).1 ≤ maxits + 1 ∧
    (rtbisect f x0 x1 x2 maxits xacc).2 ∈ uIcc x1 x2 ∧
    ((rtbisect f x0 x1 x2 maxits xacc).1 ≤ maxits →
      f (rtbisect f x0 x1 x2 maxits xacc).2 = 0 ∨
      ∃ z ∈ uIcc x1 x2, f z = 0 ∧ |(rtbisect f x0 x1 x2 maxits xacc).2 - z| < xacc) ∧
    (0 < maxits → |x2 - x1| / 2 ^ maxits < xacc →
      (rtbisect f x0 x1 x2 maxits xacc).1 ≤ maxits) := by
  unfold rtbisect
  have hflag : (if f x1 ≥ 0 ∧ f x2 ≤ 0 then 1 else if f x1 ≤ 0 ∧ f x2 ≥ 0 then 1 else 0) ≠ 0 :=
    fun h => hs ((bracket_flag _ _).mp h)
  dsimp only
  rw [if_neg hflag]
  by_cases h1 : f x1 = 0
  · rw [if_pos h1]
    exact ⟨le_rfl, by omega, left_mem_uIcc, fun _ => Or.inl h1, fun _ _ => by omega⟩
  rw [if_neg h1]
  by_cases h2 : f x2 = 0
  · rw [if_pos h2]
    exact ⟨le_rfl, by omega, right_mem_uIcc, fun _ => Or.inl h2, fun _ _ => by omega⟩
  rw [if_neg h2]
  have hinit : BisInv f x1 x2 1 (if f x1 < 0 then ⟨x1, x2, rtGuess x0 x1 x2⟩
      else ⟨x2, x1, rtGuess x0 x1 x2⟩) := by
    unfold Spec.SameSign at hs
    push Not at hs
    split
    · rename_i h3
      exact ⟨left_mem_uIcc, right_mem_uIcc, rtGuess_mem _ _ _, h3,
        lt_of_le_of_ne (hs.1 h3) (Ne.symm h2), by simp, fun h => absurd rfl h⟩
    · rename_i h3
      have h4 : 0 < f x1 := lt_of_le_of_ne (not_lt.mp h3) (Ne.symm h1)
      refine ⟨right_mem_uIcc, left_mem_uIcc, ?_, lt_of_le_of_ne (hs.2 h4) h2, h4, ?_,
        fun h => absurd rfl h⟩
      · rw [uIcc_comm]; exact rtGuess_mem _ _ _
      · rw [abs_sub_comm]; simp
  have hsub : ∀ {j} {s : BisState ℝ}, BisInv f x1 x2 j s → uIcc s.xl s.xh ⊆ uIcc x1 x2 :=
    fun h => uIcc_subset_uIcc h.l h.h
  generalize (if f x1 < 0 then (⟨x1, x2, rtGuess x0 x1 x2⟩ : BisState ℝ)
      else ⟨x2, x1, rtGuess x0 x1 x2⟩) = s0 at hinit ⊢
  refine (forRet_inv (n := maxits) (body := bisStep f xacc) (s := s0)
    (fun j s => BisInv f x1 x2 j s ∧ (j ≠ 1 → xacc ≤ |1 / 2 * (s.xh - s.xl)|)) (fun j x => x.1 = j ∧
      x.2 ∈ uIcc x1 x2 ∧ (f x.2 = 0 ∨ ∃ z ∈ uIcc x1 x2, f z = 0 ∧ |x.2 - z| < xacc))
    ⟨hinit, fun h => absurd rfl h⟩ ?_ ?_).elim ?_ ?_
  rotate_left 2
  · rintro ⟨x, j, hj1, hj2, hx, hxj, hm, hr⟩
    rw [hx]
    dsimp only
    exact ⟨by omega, by omega, hm, fun _ => hr, fun _ _ => by omega⟩
  · rintro ⟨s', hs', hinv, hacc⟩
    rw [hs']
    dsimp only
    refine ⟨by omega, le_rfl, hsub hinv hinv.r, fun h => absurd h (by omega), fun hm0 hlim => ?_⟩
    · exfalso
      have h5 := hacc (by omega)
      have h6 := hinv.size
      obtain ⟨i, rfl⟩ := Nat.exists_eq_add_of_le (show 1 ≤ maxits by omega)
      rw [show 1 + i + 1 - 2 = i by omega] at h6
      rw [show 1 + i = i + 1 by omega, pow_succ] at hlim
      rw [abs_mul, abs_of_pos (show (0 : ℝ) < 1 / 2 by norm_num)] at h5
      have h7 : |x2 - x1| / (2 ^ i * 2) = |x2 - x1| / 2 ^ i / 2 := by field_simp
      rw [h7] at hlim
      linarith
  · rintro j s x hj1 _ ⟨hP, _⟩ hb
    rcases bisStep_cases (xacc := xacc) hj1 hP with ⟨h3, h4⟩ | ⟨s', hP', ⟨h3, h4⟩ | ⟨h3, _⟩⟩
    · rw [h3] at hb
      cases hb
      exact ⟨rfl, hsub hP hP.r, Or.inl h4⟩
    · rw [h3] at hb
      cases hb
      refine ⟨rfl, hsub hP' hP'.r, Or.inr ?_⟩
      obtain ⟨z, hz, hz0⟩ := root_between (hf.mono (hsub hP')) (a := s'.xl) (b := s'.xh) (by
        rintro (⟨_, h5⟩ | ⟨h5, _⟩)
        · linarith [hP'.fh]
        · linarith [hP'.fl])
      refine ⟨z, hsub hP' hz, hz0, lt_of_le_of_lt ?_ h4⟩
      dsimp only
      rw [hP'.mid (by omega)]
      exact mid_dist hz
    · rw [h3] at hb
      cases hb
  · rintro j s s' hj1 _ ⟨hP, _⟩ hb
    rcases bisStep_cases (xacc := xacc) hj1 hP with ⟨h3, h4⟩ | ⟨s'', hP', ⟨h3, h4⟩ | ⟨h3, h4⟩⟩
    · rw [h3] at hb; cases hb
    · rw [h3] at hb; cases hb
    · rw [h3] at hb
      cases hb
      exact ⟨hP', fun _ => h4⟩

/-! ### Brent's method -/

theorem sameSign_iff (u v : ℝ) : ((u < 0 ∧ v < 0) ∨ (u > 0 ∧ v > 0)) ↔ Spec.SameSign u v := Iff.rfl

/-- Before a pass of the loop. -/
structure BrentInv (f : ℝ → ℝ) (x1 x2 : ℝ) (s : BrentState ℝ) : Prop where
  fa : s.fa = f s.a
  fb : s.fb = f s.b
  fc : s.fc = f s.c
  a : s.a ∈ uIcc x1 x2
  b : s.b ∈ uIcc x1 x2
  c : s.c ∈ uIcc x1 x2
  sign : Spec.SameSign (f s.b) (f s.c) → ¬ Spec.SameSign (f s.a) (f s.b)

/-- After the exchanges. -/
structure BrentInv' (f : ℝ → ℝ) (x1 x2 : ℝ) (s : BrentState ℝ) : Prop where
  fa : s.fa = f s.a
  fb : s.fb = f s.b
  fc : s.fc = f s.c
  a : s.a ∈ uIcc x1 x2
  b : s.b ∈ uIcc x1 x2
  c : s.c ∈ uIcc x1 x2
  sign : ¬ Spec.SameSign (f s.b) (f s.c)
  small : |f s.b| ≤ |f s.c|

theorem sameSign_comm {u v : ℝ} : Spec.SameSign u v ↔ Spec.SameSign v u := by
  unfold Spec.SameSign; tauto

theorem brentOrder_inv {f : ℝ → ℝ} {x1 x2 : ℝ} {s : BrentState ℝ} (h : BrentInv f x1 x2 s) :
    BrentInv' f x1 x2 (brentOrder s) := by
  unfold brentOrder
  dsimp only
  set t : BrentState ℝ := if (s.fb < 0 ∧ s.fc < 0) ∨ (s.fb > 0 ∧ s.fc > 0) then
      { s with c := s.a, fc := s.fa, e := s.b - s.a, d := s.b - s.a } else s with ht
  have h1 : BrentInv f x1 x2 t ∧ ¬ Spec.SameSign (f t.b) (f t.c) := by
    rw [ht]
    split
    · rename_i hs
      rw [h.fb, h.fc] at hs
      have h2 := h.sign hs
      refine ⟨⟨h.fa, h.fb, h.fa, h.a, h.b, h.a, fun h3 => absurd (sameSign_comm.mp h3) h2⟩, ?_⟩
      exact fun h3 => h2 (sameSign_comm.mp h3)
    · rename_i hs
      rw [h.fb, h.fc] at hs
      exact ⟨h, hs⟩
  obtain ⟨h1, h2⟩ := h1
  split
  · rename_i hlt
    rw [h1.fb, h1.fc] at hlt
    exact ⟨h1.fb, h1.fc, h1.fb, h1.b, h1.c, h1.b, fun h3 => h2 (sameSign_comm.mp h3), hlt.le⟩
  · rename_i hlt
    rw [h1.fb, h1.fc] at hlt
    exact ⟨h1.fa, h1.fb, h1.fc, h1.a, h1.b, h1.c, h2, not_lt.mp hlt⟩

theorem prod_mem {x1 x2 y : ℝ} (h : ¬ (y - x2) * (y - x1) > 0) : y ∈ uIcc x1 x2 := by
  rw [mem_uIcc]
  by_contra hn
  push Not at hn
  apply h
  rcases lt_or_ge y x1 with h1 | h1
  · have := hn.2
    rcases le_or_gt x2 y with h2 | h2
    · exact absurd (this h2) (not_lt.mpr h1.le)
    · exact mul_pos_of_neg_of_neg (by linarith) (by linarith)
  · have := hn.1 h1
    rcases lt_or_ge x2 y with h2 | h2
    · rcases lt_or_ge x1 y with h3 | h3
      · exact mul_pos (by linarith) (by linarith)
      · have := hn.2 h2.le; linarith
    · linarith

theorem brentMove_bis {x1 x2 b c tol : ℝ} (hb : b ∈ uIcc x1 x2) (hc : c ∈ uIcc x1 x2)
    (ht : tol < |1 / 2 * (c - b)|) :
    brentMove b (1 / 2 * (c - b)) tol (1 / 2 * (c - b)) ∈ uIcc x1 x2 := by
  unfold brentMove
  rw [if_pos ht]
  exact mid_mem hb hc

theorem brentNew_mem {f : ℝ → ℝ} {x1 x2 tol : ℝ} {s : BrentState ℝ} (h : BrentInv' f x1 x2 s)
    (ht : tol < |1 / 2 * (s.c - s.b)|) :
    (brentNew x1 x2 tol (1 / 2 * (s.c - s.b)) s).1 ∈ uIcc x1 x2 := by
  unfold brentNew
  dsimp only
  split
  · exact brentMove_bis h.b h.c ht
  · split
    · split
      · exact brentMove_bis h.b h.c ht
      · exact prod_mem (by assumption)
    · exact brentMove_bis h.b h.c ht

theorem brentMove_mem {b c tol d : ℝ} (h0 : 0 ≤ tol) (ht : tol < |1 / 2 * (c - b)|)
    (hd : 0 ≤ d * (c - b)) (hd' : |d| ≤ |c - b|) :
    brentMove b d tol (1 / 2 * (c - b)) ∈ uIcc b c := by
  unfold brentMove
  rw [mem_uIcc]
  rw [abs_mul, abs_of_pos (show (0 : ℝ) < 1 / 2 by norm_num)] at ht
  rcases lt_trichotomy b c with h | h | h
  · have hd2 : 0 ≤ d := nonneg_of_mul_nonneg_left hd (by linarith)
    rw [abs_of_nonneg hd2, abs_of_nonneg (show 0 ≤ c - b by linarith)] at hd'
    rw [abs_of_nonneg (show 0 ≤ c - b by linarith)] at ht
    left
    split
    · exact ⟨by linarith, by linarith⟩
    · rw [if_pos (by linarith)]
      exact ⟨by linarith, by linarith⟩
  · rw [h, sub_self, abs_zero] at ht
    linarith
  · have hd2 : d ≤ 0 := by
      by_contra hn
      push Not at hn
      have := mul_neg_of_pos_of_neg hn (show c - b < 0 by linarith)
      linarith
    rw [abs_of_nonpos hd2, abs_of_nonpos (show c - b ≤ 0 by linarith)] at hd'
    rw [abs_of_nonpos (show c - b ≤ 0 by linarith)] at ht
    right
    split
    · exact ⟨by linarith, by linarith⟩
    · rw [if_neg (by linarith)]
      exact ⟨by linarith, by linarith⟩

/-- Accepted interpolations end between `b` and `c`. -/
theorem brent_interp {p q w tol : ℝ} (hp : 0 ≤ p) (h : 2 * p < 3 * (1 / 2 * w) * q - |tol * q|) :
    0 ≤ p / q * w ∧ |p / q| ≤ |w| := by
  have h1 : 0 < w * q := by
    have := abs_nonneg (tol * q)
    nlinarith
  have hq : q ≠ 0 := by rintro rfl; simp at h1
  have hq2 : 0 < |q| := abs_pos.mpr hq
  constructor
  · have : p / q * w = p * (w * q) / (q * q) := by field_simp
    rw [this]
    exact div_nonneg (mul_nonneg hp h1.le) (mul_self_nonneg q)
  · rw [abs_div, abs_of_nonneg hp, div_le_iff₀ hq2, ← abs_mul, abs_of_pos h1]
    have := abs_nonneg (tol * q)
    linarith

/-- Brent's step stays between `b` and `c`. -/
theorem zbrentNew_mem {f : ℝ → ℝ} {x1 x2 tol : ℝ} {s : BrentState ℝ} (h : BrentInv' f x1 x2 s)
    (h0 : 0 ≤ tol) (ht : tol < |1 / 2 * (s.c - s.b)|) :
    (zbrentNew tol (1 / 2 * (s.c - s.b)) s).1 ∈ uIcc x1 x2 := by
  have hb : 0 ≤ 1 / 2 * (s.c - s.b) * (s.c - s.b) ∧ |1 / 2 * (s.c - s.b)| ≤ |s.c - s.b| := by
    constructor
    · have := mul_self_nonneg (s.c - s.b)
      linarith
    · rw [abs_mul, abs_of_pos (show (0 : ℝ) < 1 / 2 by norm_num)]
      linarith [abs_nonneg (s.c - s.b)]
  suffices hd : ∃ d, 0 ≤ d * (s.c - s.b) ∧ |d| ≤ |s.c - s.b| ∧
      (zbrentNew tol (1 / 2 * (s.c - s.b)) s).1 = brentMove s.b d tol (1 / 2 * (s.c - s.b)) by
    obtain ⟨d, h1, h2, h3⟩ := hd
    rw [h3]
    exact uIcc_subset_uIcc h.b h.c (brentMove_mem h0 ht h1 h2)
  unfold zbrentNew
  by_cases hc : |s.e| ≥ tol ∧ |s.fa| > |s.fb|
  · simp only [if_pos hc]
    have hp : 0 ≤ (brentPQ s (1 / 2 * (s.c - s.b))).1 := abs_nonneg _
    generalize brentPQ s (1 / 2 * (s.c - s.b)) = pq at hp ⊢
    generalize hm : (if 3 * (1 / 2 * (s.c - s.b)) * pq.2 - |tol * pq.2| < |s.e * pq.2| then _ else _) = m
    have hm' : m ≤ 3 * (1 / 2 * (s.c - s.b)) * pq.2 - |tol * pq.2| := by
      rw [← hm]
      split
      · exact le_rfl
      · exact not_lt.mp (by assumption)
    by_cases hlt : 2 * pq.1 < m
    · rw [if_pos hlt]
      obtain ⟨h1, h2⟩ := brent_interp hp (lt_of_lt_of_le hlt hm')
      exact ⟨_, h1, h2, rfl⟩
    · rw [if_neg hlt]
      exact ⟨_, hb.1, hb.2, rfl⟩
  · simp only [if_neg hc]
    exact ⟨_, hb.1, hb.2, rfl⟩

theorem brent_next {f : ℝ → ℝ} {x1 x2 : ℝ} {s : BrentState ℝ} (h : BrentInv' f x1 x2 s)
    {y : ℝ} (hy : y ∈ uIcc x1 x2) (d e : ℝ) :
    BrentInv f x1 x2 ⟨s.b, y, s.c, s.fb, f y, s.fc, d, e⟩ := by
  refine ⟨h.fb, rfl, h.fc, h.b, hy, h.c, fun h1 h2 => ?_⟩
  dsimp only at h1 h2
  have := h.sign
  unfold Spec.SameSign at this h1 h2
  rcases h1 with ⟨h1, h3⟩ | ⟨h1, h3⟩ <;> rcases h2 with ⟨h2, h4⟩ | ⟨h2, h4⟩
  · exact this (Or.inl ⟨h2, h3⟩)
  · linarith
  · linarith
  · exact this (Or.inr ⟨h2, h3⟩)

/-- When Brent's method stops. -/
theorem brent_root {f : ℝ → ℝ} {x1 x2 tol : ℝ} {s : BrentState ℝ} (h : BrentInv' f x1 x2 s)
    (hf : ContinuousOn f (uIcc x1 x2)) (hx : |1 / 2 * (s.c - s.b)| ≤ tol ∨ s.fb = 0) :
    f s.b = 0 ∨ ∃ z ∈ uIcc x1 x2, f z = 0 ∧ |s.b - z| ≤ 2 * tol := by
  rcases hx with hx | hx
  · right
    have hsub : uIcc s.b s.c ⊆ uIcc x1 x2 := uIcc_subset_uIcc h.b h.c
    obtain ⟨z, hz, hz0⟩ := root_between (hf.mono hsub) h.sign
    refine ⟨z, hsub hz, hz0, ?_⟩
    rw [abs_mul, abs_of_pos (show (0 : ℝ) < 1 / 2 by norm_num)] at hx
    have h1 : |s.b - z| ≤ |s.c - s.b| := by
      rw [mem_uIcc] at hz
      rcases hz with hz | hz
      · rw [abs_of_nonpos (by linarith), abs_of_nonneg (by linarith)]; linarith
      · rw [abs_of_nonneg (by linarith), abs_of_nonpos (by linarith)]; linarith
    linarith
  · left; rw [← h.fb]; exact hx

/-- **C47** (`rtbrent_brak`, no sign change): the return value is negative and `*x0` is left alone
exactly if the function has the same strict sign at both ends. -/
theorem C47_brent_sign (f : ℝ → ℝ) (x0 x1 x2 : ℝ) (maxits : Nat) (xacc : ℝ) :
    ((rtbrent f x0 x1 x2 maxits xacc).1 < 0 ↔ Spec.SameSign (f x1) (f x2)) ∧
    ((rtbrent f x0 x1 x2 maxits xacc).1 < 0 → (rtbrent f x0 x1 x2 maxits xacc).2 = x0) := by
  unfold rtbrent
  dsimp only
  by_cases hs : (f x1 < 0 ∧ f x2 < 0) ∨ (f x1 > 0 ∧ f x2 > 0)
  · rw [if_pos hs]
    exact ⟨⟨fun _ => hs, fun _ => by dsimp only; omega⟩, fun _ => rfl⟩
  · rw [if_neg hs]
    generalize (⟨x1, x2, x2, f x1, f x2, f x2, x2 - x1, x2 - x1⟩ : BrentState ℝ) = s0
    rcases forRet_inv (n := maxits) (body := brentStep f x1 x2 xacc) (s := s0) (fun _ _ => True)
      (fun j x => x.1 = j) trivial (fun j s x _ _ _ hb => by
        unfold brentStep at hb
        dsimp only at hb
        split at hb
        · cases hb; rfl
        · cases hb) (fun _ _ _ _ _ _ _ => trivial) with ⟨x, j, _, _, hx, hj⟩ | ⟨s', hs', _⟩
    · rw [hx]; dsimp only
      exact ⟨⟨fun h => absurd h (by omega), fun h => absurd h hs⟩, fun h => absurd h (by omega)⟩
    · rw [hs']; dsimp only
      exact ⟨⟨fun h => absurd h (by omega), fun h => absurd h hs⟩, fun h => absurd h (by omega)⟩

/-- **C47** (`rtbrent_brak`): the returned point lies in the bracket. If the return value is an
iteration number within the limit, the point is a root or there is a root of the function within
`xacc`, up to a multiple of the machine precision. -/
theorem C47_brent (f : ℝ → ℝ) (x0 x1 x2 : ℝ) (maxits : Nat) (xacc : ℝ)
    (hf : ContinuousOn f (uIcc x1 x2)) (hs : ¬ Spec.SameSign (f x1) (f x2)) :
    1 ≤ (rtbrent f x0 x1 x2 maxits xacc).1 ∧
    (rtbrent f x0 x1 x2 maxits xacc).1 ≤ maxits + 1 ∧
    (rtbrent f x0 x1 x2 maxits xacc).2 ∈ uIcc x1 x2 ∧
    ((rtbrent f x0 x1 x2 maxits xacc).1 ≤ maxits →
      f (rtbrent f x0 x1 x2 maxits xacc).2 = 0 ∨
      ∃ z ∈ uIcc x1 x2, f z = 0 ∧ |(rtbrent f x0 x1 x2 maxits xacc).2 - z| ≤
        xacc + 4 / 10 ^ 14 * |(rtbrent f x0 x1 x2 maxits xacc).2|) := by
  unfold rtbrent
  dsimp only
  have hs' := hs
  rw [if_neg (show ¬((f x1 < 0 ∧ f x2 < 0) ∨ (f x1 > 0 ∧ f x2 > 0)) from hs)]
  refine (forRet_inv (n := maxits) (body := brentStep f x1 x2 xacc)
    (s := ⟨x1, x2, x2, f x1, f x2, f x2, x2 - x1, x2 - x1⟩)
    (fun _ s => BrentInv f x1 x2 s) (fun j x => x.1 = j ∧ x.2 ∈ uIcc x1 x2 ∧
      (f x.2 = 0 ∨ ∃ z ∈ uIcc x1 x2, f z = 0 ∧ |x.2 - z| ≤ xacc + 4 / 10 ^ 14 * |x.2|))
    ⟨rfl, rfl, rfl, left_mem_uIcc, right_mem_uIcc, right_mem_uIcc, fun _ => hs⟩ ?_ ?_).elim ?_ ?_
  rotate_left 2
  · rintro ⟨x, j, hj1, hj2, hx, hxj, hm, hr⟩
    rw [hx]
    dsimp only
    exact ⟨by omega, by omega, hm, fun _ => hr⟩
  · rintro ⟨s', hs', hinv⟩
    rw [hs']
    dsimp only
    exact ⟨by omega, le_rfl, hinv.b, fun h => absurd h (by omega)⟩
  · intro j s x hj _ hP hb
    have hP' := brentOrder_inv hP
    unfold brentStep at hb
    dsimp only at hb
    generalize brentOrder s = t at hP' hb
    split at hb
    · rename_i hstop
      cases hb
      refine ⟨rfl, hP'.b, ?_⟩
      rcases brent_root hP' hf hstop with h1 | ⟨z, hz, hz0, h1⟩
      · exact Or.inl h1
      · refine Or.inr ⟨z, hz, hz0, h1.trans (le_of_eq ?_)⟩
        ring
    · cases hb
  · intro j s s' hj _ hP hb
    have hP' := brentOrder_inv hP
    unfold brentStep at hb
    dsimp only at hb
    generalize brentOrder s = t at hP' hb
    split at hb
    · cases hb
    · rename_i hstop
      push Not at hstop
      cases hb
      exact brent_next hP' (brentNew_mem hP' hstop.1) _ _

/-- **C47** (`zbrent_itsP`): the same for the version that never checks whether a point is in the
bracket, if the tolerance is not negative; whatever the uninitialised variables contain. If the limit is
exceeded a negative number is returned. -/
theorem C47_zbrent (f : ℝ → ℝ) (d0 e0 x0 x1 x2 : ℝ) (maxits : Nat) (tol : ℝ) (htol : 0 ≤ tol)
    (hf : ContinuousOn f (uIcc x1 x2)) :
    (Spec.SameSign (f x1) (f x2) → zbrentItsP f d0 e0 x0 x1 x2 maxits tol = (-1, x0)) ∧
    (¬ Spec.SameSign (f x1) (f x2) →
      zbrentItsP f d0 e0 x0 x1 x2 maxits tol = (-((maxits : Int) + 1) - 1, x0) ∨
      ((zbrentItsP f d0 e0 x0 x1 x2 maxits tol).1 ∈ Set.Icc (1 : Int) maxits ∧
       (zbrentItsP f d0 e0 x0 x1 x2 maxits tol).2 ∈ uIcc x1 x2 ∧
       (f (zbrentItsP f d0 e0 x0 x1 x2 maxits tol).2 = 0 ∨
        ∃ z ∈ uIcc x1 x2, f z = 0 ∧ |(zbrentItsP f d0 e0 x0 x1 x2 maxits tol).2 - z| ≤
          tol + 4 / 10 ^ 14 * |(zbrentItsP f d0 e0 x0 x1 x2 maxits tol).2|))) := by
  unfold zbrentItsP
  dsimp only
  constructor
  · intro hs
    rw [if_pos (Or.symm hs)]
  intro hs
  rw [if_neg (show ¬((f x1 > 0 ∧ f x2 > 0) ∨ (f x1 < 0 ∧ f x2 < 0)) from fun h => hs (Or.symm h))]
  refine (forRet_inv (n := maxits) (body := zbrentStep f tol)
    (s := ⟨x1, x2, x2, f x1, f x2, f x2, d0, e0⟩)
    (fun _ s => BrentInv f x1 x2 s) (fun j x => x.1 = j ∧ x.2 ∈ uIcc x1 x2 ∧
      (f x.2 = 0 ∨ ∃ z ∈ uIcc x1 x2, f z = 0 ∧ |x.2 - z| ≤ tol + 4 / 10 ^ 14 * |x.2|))
    ⟨rfl, rfl, rfl, left_mem_uIcc, right_mem_uIcc, right_mem_uIcc, fun _ => hs⟩ ?_ ?_).elim ?_ ?_
  rotate_left 2
  · rintro ⟨x, j, hj1, hj2, hx, hxj, hm, hr⟩
    rw [hx]
    dsimp only
    exact Or.inr ⟨⟨by omega, by omega⟩, hm, hr⟩
  · rintro ⟨s', hs', hinv⟩
    rw [hs']
    exact Or.inl rfl
  · intro j s x hj _ hP hb
    have hP' := brentOrder_inv hP
    unfold zbrentStep at hb
    dsimp only at hb
    generalize brentOrder s = t at hP' hb
    split at hb
    · rename_i hstop
      cases hb
      refine ⟨rfl, hP'.b, ?_⟩
      rcases brent_root hP' hf hstop with h1 | ⟨z, hz, hz0, h1⟩
      · exact Or.inl h1
      · refine Or.inr ⟨z, hz, hz0, h1.trans (le_of_eq ?_)⟩
        ring
    · cases hb
  · intro j s s' hj _ hP hb
    have hP' := brentOrder_inv hP
    unfold zbrentStep at hb
    dsimp only at hb
    generalize brentOrder s = t at hP' hb
    split at hb
    · cases hb
    · rename_i hstop
      push Not at hstop
      cases hb
      exact brent_next hP' (zbrentNew_mem hP' (by positivity) hstop.1) _ _

/-! ### Brackets -/

/-- **C47** (`rt_brak`). If a number of tries is returned, it is within the limit and the function has
different signs at the ends of the bracket, which contains the original one. Otherwise the return value is
negative. -/
theorem C47_brak (f : ℝ → ℝ) (x1 x2 : ℝ) (maxits : Nat) :
    ((rtBrak f x1 x2 maxits).1 < 0 ∨
      ((rtBrak f x1 x2 maxits).1 ∈ Set.Icc (1 : Int) maxits ∧
        f (rtBrak f x1 x2 maxits).2.1 * f (rtBrak f x1 x2 maxits).2.2 < 0)) ∧
    uIcc x1 x2 ⊆ uIcc (rtBrak f x1 x2 maxits).2.1 (rtBrak f x1 x2 maxits).2.2 ∧
    (x1 ≠ x2 → 1 ≤ maxits → f x1 * f x2 < 0 → rtBrak f x1 x2 maxits = (1, x1, x2)) := by
  unfold rtBrak
  by_cases h12 : x1 = x2
  · rw [if_pos h12]
    exact ⟨Or.inl (by norm_num), subset_rfl, fun h => absurd h12 h⟩
  rw [if_neg h12]
  have grow : ∀ {a b : ℝ}, uIcc a b ⊆ uIcc (a + 16 / 10 * (a - b)) b := by
    intro a b
    refine uIcc_subset_uIcc ?_ right_mem_uIcc
    rw [mem_uIcc]
    rcases le_total a b with h | h
    · exact Or.inl ⟨by linarith, h⟩
    · exact Or.inr ⟨h, by linarith⟩
  refine ⟨?_, ?_, ?_⟩
  · refine (forRet_inv (n := maxits) (body := brakStep f) (s := ⟨x1, x2, f x1, f x2⟩)
      (fun _ s => s.f1 = f s.x1 ∧ s.f2 = f s.x2) (fun j x => x.1 = j ∧ f x.2.1 * f x.2.2 < 0)
      ⟨rfl, rfl⟩ ?_ ?_).elim ?_ ?_
    · rintro j s x _ _ ⟨h1, h2⟩ hb
      unfold brakStep at hb
      split at hb
      · cases hb
        rename_i hlt
        rw [h1, h2] at hlt
        exact ⟨rfl, hlt⟩
      · split at hb <;> cases hb
    · rintro j s s' _ _ ⟨h1, h2⟩ hb
      unfold brakStep at hb
      split at hb
      · cases hb
      · split at hb <;> cases hb
        · exact ⟨rfl, h2⟩
        · exact ⟨h1, rfl⟩
    · rintro ⟨x, j, hj1, hj2, hx, hxj, hlt⟩
      rw [hx]
      exact Or.inr ⟨⟨by dsimp only; omega, by dsimp only; omega⟩, hlt⟩
    · rintro ⟨s', hs', _⟩
      rw [hs']
      exact Or.inl (by dsimp only; omega)
  · refine (forRet_inv (n := maxits) (body := brakStep f) (s := ⟨x1, x2, f x1, f x2⟩)
      (fun _ s => uIcc x1 x2 ⊆ uIcc s.x1 s.x2) (fun j x => uIcc x1 x2 ⊆ uIcc x.2.1 x.2.2)
      subset_rfl ?_ ?_).elim ?_ ?_
    · rintro j s x _ _ h hb
      unfold brakStep at hb
      split at hb
      · cases hb; exact h
      · split at hb <;> cases hb
    · rintro j s s' _ _ h hb
      unfold brakStep at hb
      split at hb
      · cases hb
      · split at hb <;> cases hb
        · exact h.trans grow
        · dsimp only
          rw [uIcc_comm s.x1] at *
          exact h.trans grow
    · rintro ⟨x, j, hj1, hj2, hx, hxj⟩
      rw [hx]
      exact hxj
    · rintro ⟨s', hs', h⟩
      rw [hs']
      exact h
  · intro _ hm hlt
    obtain ⟨n, rfl⟩ := Nat.exists_eq_add_of_le hm
    have h1 : ∀ n, forRet (1 + n) (brakStep f) ⟨x1, x2, f x1, f x2⟩ = .inl (1, x1, x2) := by
      intro n
      induction n with
      | zero =>
        unfold forRet
        rw [upLoop_succ (by omega), upLoop_nil (by omega)]
        dsimp only
        unfold brakStep
        rw [if_pos hlt]
        rfl
      | succ n ih =>
        unfold forRet at ih ⊢
        rw [upLoop_succ (by omega), show 1 + (n + 1) = 1 + n + 1 by omega, ih]
    rw [h1]

/-! ### Newton's method with a bracket -/

structure NewtInv (f : ℝ → ℝ) (x1 x2 : ℝ) (s : NewtState ℝ) : Prop where
  l : s.xl ∈ uIcc x1 x2
  h : s.xh ∈ uIcc x1 x2
  r : s.xrt ∈ uIcc s.xl s.xh
  fl : f s.xl < 0
  fh : 0 < f s.xh

/-- The ways in which a pass of the loop can end. -/
theorem newtStep_cases {f df : ℝ → ℝ} {x1 x2 xacc : ℝ} {j : Nat} {s : NewtState ℝ}
    (h : NewtInv f x1 x2 s) :
    (newtStep f df xacc j s = .inl (j, s.xrt) ∧ f s.xrt = 0) ∨
    (∃ s', NewtInv f x1 x2 s' ∧
      (newtStep f df xacc j s = .inr s' ∨
       (newtStep f df xacc j s = .inl (j, s'.xrt) ∧
        ((s'.xrt = s'.xl + 1 / 2 * (s'.xh - s'.xl) ∧ |1 / 2 * (s'.xh - s'.xl)| < xacc) ∨
         (s'.xrt = s.xrt - f s.xrt / df s.xrt ∧ |f s.xrt / df s.xrt| < xacc ∧ df s.xrt ≠ 0))))) := by
  unfold newtStep
  by_cases h0 : f s.xrt = 0
  · left
    dsimp only
    rw [if_pos h0]
    exact ⟨rfl, h0⟩
  right
  have hsub : uIcc s.xl s.xh ⊆ uIcc x1 x2 := uIcc_subset_uIcc h.l h.h
  dsimp only
  rw [if_neg h0]
  generalize ht : (if f s.xrt < 0 then { s with xl := s.xrt } else { s with xh := s.xrt } : NewtState ℝ) = t
  have htr : t.xrt = s.xrt := by rw [← ht]; split <;> rfl
  have hinv : NewtInv f x1 x2 t := by
    rw [← ht]
    split
    · exact ⟨hsub h.r, h.h, left_mem_uIcc, by assumption, h.fh⟩
    · rename_i hn
      exact ⟨h.l, hsub h.r, right_mem_uIcc, h.fl, lt_of_le_of_ne (not_lt.mp hn) (Ne.symm h0)⟩
  have hne : t.xl ≠ t.xh := fun he => by have := hinv.fl; rw [he] at this; linarith [hinv.fh]
  have hbis : ∃ s', NewtInv f x1 x2 s' ∧ (newtBisect xacc j t = .inr s' ∨
      (newtBisect xacc j t = .inl (j, s'.xrt) ∧ s'.xrt = s'.xl + 1 / 2 * (s'.xh - s'.xl) ∧
        |1 / 2 * (s'.xh - s'.xl)| < xacc)) := by
    refine ⟨{ t with xrt := t.xl + 1 / 2 * (t.xh - t.xl), dx := 1 / 2 * (t.xh - t.xl), dxold := t.dx },
      ⟨hinv.l, hinv.h, mid_mem left_mem_uIcc right_mem_uIcc, hinv.fl, hinv.fh⟩, ?_⟩
    unfold newtBisect
    dsimp only
    rw [if_neg (fun he => hne (by linarith))]
    split
    · exact Or.inr ⟨rfl, rfl, by assumption⟩
    · exact Or.inl rfl
  have hbis' : ∃ s', NewtInv f x1 x2 s' ∧ (newtBisect xacc j t = .inr s' ∨
      (newtBisect xacc j t = .inl (j, s'.xrt) ∧
        ((s'.xrt = s'.xl + 1 / 2 * (s'.xh - s'.xl) ∧ |1 / 2 * (s'.xh - s'.xl)| < xacc) ∨
         (s'.xrt = s.xrt - f s.xrt / df s.xrt ∧ |f s.xrt / df s.xrt| < xacc ∧ df s.xrt ≠ 0)))) := by
    obtain ⟨s', h1, h2 | ⟨h2, h3⟩⟩ := hbis
    · exact ⟨s', h1, Or.inl h2⟩
    · exact ⟨s', h1, Or.inr ⟨h2, Or.inl h3⟩⟩
  split
  · exact hbis'
  rename_i hstep
  split
  · exact hbis'
  rename_i hin
  push Not at hin
  have hdf : df s.xrt ≠ 0 := by
    intro hd
    rw [hd, mul_zero, abs_zero] at hstep
    exact hstep (abs_pos.mpr (mul_ne_zero two_ne_zero h0))
  rw [htr] at hin ⊢
  have hmem : s.xrt - f s.xrt / df s.xrt ∈ uIcc t.xl t.xh := prod_mem (not_lt.mpr hin.1)
  refine ⟨{ t with xrt := s.xrt - f s.xrt / df s.xrt, dx := f s.xrt / df s.xrt, dxold := t.dx },
    ⟨hinv.l, hinv.h, hmem, hinv.fl, hinv.fh⟩, ?_⟩
  split
  · exact Or.inr ⟨rfl, Or.inr ⟨rfl, by assumption, hdf⟩⟩
  · exact Or.inl rfl

theorem newton1d_spec (f df : ℝ → ℝ) (x0 x1 x2 : ℝ) (maxits : Nat) (xacc : ℝ)
    (hs : ¬ Spec.SameSign (f x1) (f x2)) :
    0 ≤ (newton1d f df x0 x1 x2 maxits xacc).1 ∧
    (newton1d f df x0 x1 x2 maxits xacc).1 ≤ maxits + 1 ∧
    (newton1d f df x0 x1 x2 maxits xacc).2 ∈ uIcc x1 x2 ∧
    ((newton1d f df x0 x1 x2 maxits xacc).1 ≤ maxits →
      f (newton1d f df x0 x1 x2 maxits xacc).2 = 0 ∨
      (∃ a ∈ uIcc x1 x2, ∃ b ∈ uIcc x1 x2, ¬ Spec.SameSign (f a) (f b) ∧
        (newton1d f df x0 x1 x2 maxits xacc).2 = a + 1 / 2 * (b - a) ∧ |1 / 2 * (b - a)| < xacc) ∨
      ∃ y ∈ uIcc x1 x2, (newton1d f df x0 x1 x2 maxits xacc).2 = y - f y / df y ∧
        |f y / df y| < xacc ∧ df y ≠ 0) := by
  unfold newton1d
  have hflag : (if f x1 ≥ 0 ∧ f x2 ≤ 0 then 1 else if f x1 ≤ 0 ∧ f x2 ≥ 0 then 1 else 0) ≠ 0 :=
    fun h => hs ((bracket_flag _ _).mp h)
  dsimp only
  rw [if_neg hflag]
  by_cases h1 : f x1 = 0
  · rw [if_pos h1]
    exact ⟨le_rfl, by omega, left_mem_uIcc, fun _ => Or.inl h1⟩
  rw [if_neg h1]
  by_cases h2 : f x2 = 0
  · rw [if_pos h2]
    exact ⟨le_rfl, by omega, right_mem_uIcc, fun _ => Or.inl h2⟩
  rw [if_neg h2]
  have hinit : NewtInv f x1 x2 (if f x1 < 0 then ⟨x1, x2, rtGuess x0 x1 x2, |x2 - x1|, |x2 - x1|⟩
      else ⟨x2, x1, rtGuess x0 x1 x2, |x2 - x1|, |x2 - x1|⟩) := by
    unfold Spec.SameSign at hs
    push Not at hs
    split
    · rename_i h3
      exact ⟨left_mem_uIcc, right_mem_uIcc, rtGuess_mem _ _ _, h3,
        lt_of_le_of_ne (hs.1 h3) (Ne.symm h2)⟩
    · rename_i h3
      have h4 : 0 < f x1 := lt_of_le_of_ne (not_lt.mp h3) (Ne.symm h1)
      refine ⟨right_mem_uIcc, left_mem_uIcc, ?_, lt_of_le_of_ne (hs.2 h4) h2, h4⟩
      rw [uIcc_comm]; exact rtGuess_mem _ _ _
  have hsub : ∀ {s : NewtState ℝ}, NewtInv f x1 x2 s → uIcc s.xl s.xh ⊆ uIcc x1 x2 :=
    fun h => uIcc_subset_uIcc h.l h.h
  generalize (if f x1 < 0 then (⟨x1, x2, rtGuess x0 x1 x2, |x2 - x1|, |x2 - x1|⟩ : NewtState ℝ)
      else ⟨x2, x1, rtGuess x0 x1 x2, |x2 - x1|, |x2 - x1|⟩) = s0 at hinit ⊢
  refine (forRet_inv (n := maxits) (body := newtStep f df xacc) (s := s0)
    (fun _ s => NewtInv f x1 x2 s) (fun j x => x.1 = j ∧ x.2 ∈ uIcc x1 x2 ∧
      (f x.2 = 0 ∨ (∃ a ∈ uIcc x1 x2, ∃ b ∈ uIcc x1 x2, ¬ Spec.SameSign (f a) (f b) ∧
        x.2 = a + 1 / 2 * (b - a) ∧ |1 / 2 * (b - a)| < xacc) ∨
      ∃ y ∈ uIcc x1 x2, x.2 = y - f y / df y ∧ |f y / df y| < xacc ∧ df y ≠ 0))
    hinit ?_ ?_).elim ?_ ?_
  · rintro j s x _ _ hP hb
    rcases newtStep_cases (df := df) (xacc := xacc) (j := j) hP with
      ⟨h3, h4⟩ | ⟨s', hP', h3 | ⟨h3, ⟨h4, h5⟩ | ⟨h4, h5, h6⟩⟩⟩
    · rw [h3] at hb
      cases hb
      exact ⟨rfl, hsub hP hP.r, Or.inl h4⟩
    · rw [h3] at hb; cases hb
    · rw [h3] at hb
      cases hb
      refine ⟨rfl, hsub hP' hP'.r, Or.inr (Or.inl ⟨s'.xl, hP'.l, s'.xh, hP'.h, ?_, h4, h5⟩)⟩
      rintro (⟨_, h6⟩ | ⟨h6, _⟩)
      · linarith [hP'.fh]
      · linarith [hP'.fl]
    · rw [h3] at hb
      cases hb
      exact ⟨rfl, hsub hP' hP'.r, Or.inr (Or.inr ⟨s.xrt, hsub hP hP.r, h4, h5, h6⟩)⟩
  · rintro j s t _ _ hP hb
    rcases newtStep_cases (df := df) (xacc := xacc) (j := j) hP with
      ⟨h3, h4⟩ | ⟨s', hP', h3 | ⟨h3, _⟩⟩
    · rw [h3] at hb; cases hb
    · rw [h3] at hb; cases hb; exact hP'
    · rw [h3] at hb; cases hb
  · rintro ⟨x, j, hj1, hj2, hx, hxj, hm, hr⟩
    rw [hx]
    dsimp only
    exact ⟨by omega, by omega, hm, fun _ => hr⟩
  · rintro ⟨s', hs', hinv⟩
    rw [hs']
    dsimp only
    exact ⟨by omega, le_rfl, hsub hinv hinv.r, fun h => absurd h (by omega)⟩

/-- **C85** (`newton1d_brak`, `rtsafe_itsP`). The return value is negative exactly if the function has
the same strict sign at both ends; then `*x0` is left alone. Otherwise the returned point lies in the
bracket and the number of iterations is at most one more than the limit. -/
theorem C85_bracket (f df : ℝ → ℝ) (x0 x1 x2 : ℝ) (maxits : Nat) (xacc : ℝ) :
    (Spec.SameSign (f x1) (f x2) →
      newton1d f df x0 x1 x2 maxits xacc = (-2 * (maxits : Int) - 3, x0)) ∧
    (¬ Spec.SameSign (f x1) (f x2) →
      (newton1d f df x0 x1 x2 maxits xacc).1 ∈ Set.Icc (0 : Int) (maxits + 1) ∧
      (newton1d f df x0 x1 x2 maxits xacc).2 ∈ uIcc x1 x2) := by
  constructor
  · intro hs
    unfold newton1d
    dsimp only
    rw [if_pos ((bracket_flag _ _).mpr hs)]
  · intro hs
    obtain ⟨h1, h2, h3, _⟩ := newton1d_spec f df x0 x1 x2 maxits xacc hs
    exact ⟨⟨h1, h2⟩, h3⟩

/-- **C85** (accuracy for a function with slopes between `m` and `M`): a return value within the limit
means that a root is closer than `(1 + M/m)` times `xacc`. -/
theorem C85_accuracy (f df : ℝ → ℝ) (x0 x1 x2 : ℝ) (maxits : Nat) (xacc m M : ℝ) (hacc : 0 < xacc)
    (hd : ∀ x ∈ uIcc x1 x2, HasDerivAt f (df x) x) (hm : 0 < m)
    (hdf : ∀ x ∈ uIcc x1 x2, m ≤ |df x| ∧ |df x| ≤ M) (hs : ¬ Spec.SameSign (f x1) (f x2))
    (hr : (newton1d f df x0 x1 x2 maxits xacc).1 ≤ maxits) :
    ∃ z ∈ uIcc x1 x2, f z = 0 ∧
      |(newton1d f df x0 x1 x2 maxits xacc).2 - z| < (1 + M / m) * xacc := by
  obtain ⟨_, _, hx, hcase⟩ := newton1d_spec f df x0 x1 x2 maxits xacc hs
  have hc : ContinuousOn f (uIcc x1 x2) := fun x hx => (hd x hx).continuousAt.continuousWithinAt
  have hM : 0 < M / m := by
    have := hdf x1 left_mem_uIcc
    exact div_pos (by linarith) hm
  have hbig : xacc ≤ (1 + M / m) * xacc := by nlinarith
  rcases hcase hr with h1 | ⟨a, ha, b, hb, hsab, h1, h2⟩ | ⟨y, hy, h1, h2, h3⟩
  · exact ⟨_, hx, h1, by rw [sub_self, abs_zero]; linarith⟩
  · have hsub : uIcc a b ⊆ uIcc x1 x2 := uIcc_subset_uIcc ha hb
    obtain ⟨z, hz, hz0⟩ := root_between (hc.mono hsub) hsab
    refine ⟨z, hsub hz, hz0, ?_⟩
    rw [h1]
    linarith [mid_dist hz]
  · obtain ⟨z, hz, hz0⟩ := root_between hc hs
    refine ⟨z, hz, hz0, ?_⟩
    have hslope : ∃ ξ ∈ uIcc x1 x2, f y = df ξ * (y - z) := by
      have hsub : uIcc y z ⊆ uIcc x1 x2 := uIcc_subset_uIcc hy hz
      rcases lt_trichotomy y z with hyz | hyz | hyz
      · rw [uIcc_of_le hyz.le] at hsub
        obtain ⟨ξ, hξ, he⟩ := exists_hasDerivAt_eq_slope f df hyz (hc.mono hsub)
          (fun x hx => hd x (hsub (Ioo_subset_Icc_self hx)))
        refine ⟨ξ, hsub (Ioo_subset_Icc_self hξ), ?_⟩
        rw [he, hz0]
        have : z - y ≠ 0 := by linarith
        field_simp
        ring
      · exact ⟨y, hy, by rw [hyz, hz0, sub_self, mul_zero]⟩
      · rw [uIcc_of_ge hyz.le] at hsub
        obtain ⟨ξ, hξ, he⟩ := exists_hasDerivAt_eq_slope f df hyz (hc.mono hsub)
          (fun x hx => hd x (hsub (Ioo_subset_Icc_self hx)))
        refine ⟨ξ, hsub (Ioo_subset_Icc_self hξ), ?_⟩
        rw [he, hz0]
        have : y - z ≠ 0 := by linarith
        field_simp
        ring
    obtain ⟨ξ, hξ, he⟩ := hslope
    have hmξ := (hdf ξ hξ).1
    have hMy := (hdf y hy).2
    have h4 : |f y| = |df ξ| * |y - z| := by rw [he, abs_mul]
    have h5 : |f y| < M * xacc := by
      rw [abs_div] at h2
      have h6 : 0 < |df y| := abs_pos.mpr h3
      rw [div_lt_iff₀ h6] at h2
      have : xacc * |df y| ≤ xacc * M := mul_le_mul_of_nonneg_left hMy hacc.le
      linarith
    have h6 : |y - z| < M / m * xacc := by
      have h7 : m * |y - z| ≤ |f y| := by
        rw [h4]
        exact mul_le_mul_of_nonneg_right hmξ (abs_nonneg _)
      have : M / m * xacc = M * xacc / m := by ring
      rw [this, lt_div_iff₀ hm]
      linarith
    rw [h1, show y - f y / df y - z = (y - z) - f y / df y by ring]
    have := abs_sub (y - z) (f y / df y)
    linarith

/-- **C85** (no accuracy in general): for every factor `k` there is a polynomial for which the returned
point is `k` times `xacc` away from its only root. -/
theorem C85_accuracy_counterexample (k : Nat) (hk : 0 < k) :
    ∃ (f df : ℝ → ℝ) (x0 x1 x2 xacc : ℝ), (∀ x, HasDerivAt f (df x) x) ∧ (∀ z, f z = 0 ↔ z = 0) ∧
      (newton1d f df x0 x1 x2 10 xacc).1 = 1 ∧
      |(newton1d f df x0 x1 x2 10 xacc).2 - 0| = k * xacc ∧ 0 < xacc := by
  have hk' : (0 : ℝ) < 2 * k + 1 := by positivity
  refine ⟨fun x => x ^ (2 * k + 1), fun x => (2 * k + 1) * x ^ (2 * k), 1, -1, 2, 2 / (2 * k + 1), ?_, ?_,
    ?_⟩
  · intro x
    have := hasDerivAt_pow (2 * k + 1) x
    simpa using this
  · intro z
    exact pow_eq_zero_iff (by omega)
  have hodd : (-1 : ℝ) ^ (2 * k + 1) = -1 := Odd.neg_one_pow ⟨k, rfl⟩
  have h2p : (0 : ℝ) < 2 ^ (2 * k + 1) := by positivity
  have hstep : newtStep (fun x : ℝ => x ^ (2 * k + 1)) (fun x => (2 * k + 1) * x ^ (2 * k))
      (2 / (2 * k + 1)) 1 ⟨-1, 2, 1, |2 - -1|, |2 - -1|⟩ = .inl (1, 1 - 1 / (2 * k + 1)) := by
    unfold newtStep
    dsimp only
    simp only [one_pow, mul_one]
    rw [if_neg one_ne_zero, if_neg (show ¬ (1 : ℝ) < 0 by norm_num)]
    dsimp only
    have h3 : |(2 : ℝ) - -1| = 3 := by norm_num
    have hq : 0 < 1 / (2 * (k : ℝ) + 1) := by positivity
    have hq1 : 1 / (2 * (k : ℝ) + 1) < 1 := by
      rw [div_lt_one hk']
      have : (1 : ℝ) ≤ k := by exact_mod_cast hk
      linarith
    rw [if_neg, if_neg, if_pos]
    · rfl
    · rw [abs_of_pos hq]
      exact div_lt_div_of_pos_right (by norm_num) hk'
    · push Not
      constructor
      · nlinarith
      · intro h
        linarith
    · push Not
      rw [h3, abs_mul, abs_of_pos hk']
      have : (1 : ℝ) ≤ k := by exact_mod_cast hk
      norm_num
      linarith
  have hres : newton1d (fun x : ℝ => x ^ (2 * k + 1)) (fun x => (2 * k + 1) * x ^ (2 * k)) 1 (-1) 2 10
      (2 / (2 * k + 1)) = (1, 1 - 1 / (2 * (k : ℝ) + 1)) := by
    unfold newton1d
    dsimp only
    rw [hodd]
    have hg : rtGuess (1 : ℝ) (-1) 2 = 1 := by unfold rtGuess; norm_num
    rw [hg, if_neg (fun h => by
        rw [if_neg (by norm_num), if_pos ⟨by norm_num, h2p.le⟩] at h; exact one_ne_zero h),
      if_neg (by norm_num), if_neg h2p.ne', if_pos (by norm_num)]
    have : forRet 10 (newtStep (fun x : ℝ => x ^ (2 * k + 1)) (fun x => (2 * k + 1) * x ^ (2 * k))
      (2 / (2 * k + 1))) ⟨-1, 2, 1, |2 - -1|, |2 - -1|⟩ = .inl (1, 1 - 1 / (2 * k + 1)) := by
      have h1 : ∀ n, forRet (1 + n) (newtStep (fun x : ℝ => x ^ (2 * k + 1))
          (fun x => (2 * k + 1) * x ^ (2 * k)) (2 / (2 * k + 1))) ⟨-1, 2, 1, |2 - -1|, |2 - -1|⟩ =
          .inl (1, 1 - 1 / (2 * k + 1)) := by
        intro n
        induction n with
        | zero =>
          unfold forRet
          rw [upLoop_succ (by omega), upLoop_nil (by omega)]
          exact hstep
        | succ n ih =>
          unfold forRet at ih ⊢
          rw [upLoop_succ (by omega), show 1 + (n + 1) = 1 + n + 1 by omega, ih]
      exact h1 9
    rw [this]
  rw [hres]
  refine ⟨rfl, ?_, by positivity⟩
  have : (1 : ℝ) - 1 / (2 * k + 1) - 0 = k * (2 / (2 * k + 1)) := by
    field_simp
    ring
  dsimp only
  rw [this]
  exact abs_of_nonneg (by positivity)

/-! ### Examples: the square root of 2 in `[0,4]` -/

example : rtbisect (fun x : ℚ => x * x - 2) 1 0 4 20 (1 / 100) = (9, 725 / 512) := by decide +kernel

example : rtbisect (fun x : ℚ => x * x + 2) 7 0 4 20 (1 / 100) = (-43, 7) := by decide +kernel

example : (rtbrent (fun x : ℚ => x * x - 2) 7 0 4 20 (1 / 100)) =
    (8, 3290789919937 / 2327268115414) := by decide +kernel

example : (newton1d (fun x : ℚ => x * x - 2) (fun x => 2 * x) 1 0 4 20 (1 / 100)).1 = 3 := by
  decide +kernel

example : rtBrak (fun x : ℚ => x - 9) 0 1 20 = (4, 0, 2197 / 125) := by
  decide +kernel

example : rtBrak (fun _ : ℚ => 1) 0 1 2 = (-4, 0, 169 / 25) := by decide +kernel

end Sgrid
