import Mathlib.Algebra.Order.Field.Rat
import Mathlib.Algebra.Order.BigOperators.Group.Finset
import Mathlib.Tactic.Linarith
import Mathlib.Tactic.Positivity
import Verif.Model.MultiMin
import Verif.Props.NewtonLine
import Verif.Props.Minimize

/-!
C147: golden sections, dpythag and dsvbksb. C148: linmin and powell (Model/MultiMin).
-/

namespace Sgrid

open Finset Spec

/-! ### Golden sections -/

theorem goldR_val : (goldR : ℝ) = 61803399 / 100000000 := rfl

theorem goldC_val : (goldC : ℝ) = 38196601 / 100000000 := by unfold goldC; rw [goldR_val]; norm_num

structure GoldInv (f : ℝ → ℝ) (ax bx cx : ℝ) (s : GoldState ℝ) : Prop where
  ord : (s.x0 < s.x1 ∧ s.x1 < s.x2 ∧ s.x2 < s.x3) ∨ (s.x3 < s.x2 ∧ s.x2 < s.x1 ∧ s.x1 < s.x0)
  in0 : min ax cx ≤ s.x0 ∧ s.x0 ≤ max ax cx
  in3 : min ax cx ≤ s.x3 ∧ s.x3 ≤ max ax cx
  f1 : s.f1 = f s.x1
  f2 : s.f2 = f s.x2
  le : min s.f1 s.f2 ≤ f bx
  z : ∀ z, Valley f (min ax cx) z (max ax cx) → min s.x0 s.x3 ≤ z ∧ z ≤ max s.x0 s.x3

theorem goldInit_inv (f : ℝ → ℝ) {ax bx cx : ℝ} (h : (ax < bx ∧ bx < cx) ∨ (cx < bx ∧ bx < ax)) :
    GoldInv f ax bx cx (goldInit f ax bx cx) := by
  unfold goldInit
  have hz : ∀ z, Valley f (min ax cx) z (max ax cx) → min ax cx ≤ z ∧ z ≤ max ax cx := fun z hz => ⟨hz.1, hz.2.1⟩
  split
  · refine ⟨?_, ⟨min_le_left _ _, le_max_left _ _⟩, ⟨min_le_right _ _, le_max_right _ _⟩, rfl, rfl, min_le_left _ _, hz⟩
    dsimp only
    rw [goldC_val]
    rcases h with ⟨h1, h2⟩ | ⟨h1, h2⟩
    · exact Or.inl ⟨h1, by linarith, by linarith⟩
    · exact Or.inr ⟨by linarith, by linarith, h2⟩
  · refine ⟨?_, ⟨min_le_left _ _, le_max_left _ _⟩, ⟨min_le_right _ _, le_max_right _ _⟩, rfl, rfl, min_le_right _ _, hz⟩
    dsimp only
    rw [goldC_val]
    rcases h with ⟨h1, h2⟩ | ⟨h1, h2⟩
    · exact Or.inl ⟨by linarith, by linarith, h2⟩
    · exact Or.inr ⟨h1, by linarith, by linarith⟩

theorem goldStep_inv {f : ℝ → ℝ} {ax bx cx : ℝ} {s : GoldState ℝ} (h : GoldInv f ax bx cx s) :
    GoldInv f ax bx cx (goldStep f s) := by
  obtain ⟨x0, x1, x2, x3, f1, f2⟩ := s
  obtain ⟨hord, h0, h3, hf1, hf2, hle, hz⟩ := h
  dsimp only at hord h0 h3 hf1 hf2 hle hz
  unfold goldStep
  dsimp only
  by_cases hlt : f2 < f1
  · rw [if_pos hlt]
    refine ⟨?_, ?_, h3, hf2, rfl, ?_, ?_⟩
    · dsimp only
      rw [goldC_val, goldR_val]
      rcases hord with ⟨a, b, c⟩ | ⟨a, b, c⟩
      · exact Or.inl ⟨b, by linarith, by linarith⟩
      · exact Or.inr ⟨by linarith, by linarith, b⟩
    · dsimp only
      rcases hord with ⟨a, b, c⟩ | ⟨a, b, c⟩
      · exact ⟨by linarith [h0.1], by linarith [h3.2]⟩
      · exact ⟨by linarith [h3.1], by linarith [h0.2]⟩
    · dsimp only
      rw [min_eq_right hlt.le] at hle
      exact (min_le_left _ _).trans hle
    · intro z hV
      obtain ⟨z1, z2⟩ := hz z hV
      obtain ⟨v1, v2, v3, v4⟩ := hV
      dsimp only
      rcases hord with ⟨a, b, c⟩ | ⟨a, b, c⟩
      · rw [min_eq_left (by linarith)] at z1 ⊢
        rw [max_eq_right (by linarith)] at z2 ⊢
        refine ⟨?_, z2⟩
        by_contra hc
        have hc := not_le.mp hc
        have := v4 (a := x1) (b := x2) ⟨hc.le, by linarith [h3.2]⟩ ⟨by linarith, by linarith [h3.2]⟩ b
        rw [← hf1, ← hf2] at this
        linarith
      · rw [min_eq_right (by linarith)] at z1 ⊢
        rw [max_eq_left (by linarith)] at z2 ⊢
        refine ⟨z1, ?_⟩
        by_contra hc
        have hc := not_le.mp hc
        have := v3 (a := x2) (b := x1) ⟨by linarith [h3.1], by linarith⟩ ⟨by linarith [h3.1], hc.le⟩ b
        rw [← hf1, ← hf2] at this
        linarith
  · rw [if_neg hlt]
    have hge := not_lt.mp hlt
    refine ⟨?_, h0, ?_, rfl, hf1, ?_, ?_⟩
    · dsimp only
      rw [goldC_val, goldR_val]
      rcases hord with ⟨a, b, c⟩ | ⟨a, b, c⟩
      · exact Or.inl ⟨by linarith, by linarith, b⟩
      · exact Or.inr ⟨b, by linarith, by linarith⟩
    · dsimp only
      rcases hord with ⟨a, b, c⟩ | ⟨a, b, c⟩
      · exact ⟨by linarith [h0.1], by linarith [h3.2]⟩
      · exact ⟨by linarith [h3.1], by linarith [h0.2]⟩
    · dsimp only
      rw [min_eq_left hge] at hle
      exact (min_le_right _ _).trans hle
    · intro z hV
      obtain ⟨z1, z2⟩ := hz z hV
      obtain ⟨v1, v2, v3, v4⟩ := hV
      dsimp only
      rcases hord with ⟨a, b, c⟩ | ⟨a, b, c⟩
      · rw [min_eq_left (by linarith)] at z1 ⊢
        rw [max_eq_right (by linarith)] at z2 ⊢
        refine ⟨z1, ?_⟩
        by_contra hc
        have hc := not_le.mp hc
        have := v3 (a := x1) (b := x2) ⟨by linarith [h0.1], by linarith⟩ ⟨by linarith [h0.1], hc.le⟩ b
        rw [← hf1, ← hf2] at this
        linarith
      · rw [min_eq_right (by linarith)] at z1 ⊢
        rw [max_eq_left (by linarith)] at z2 ⊢
        refine ⟨?_, z2⟩
        by_contra hc
        have hc := not_le.mp hc
        have := v4 (a := x2) (b := x1) ⟨hc.le, by linarith [h0.2]⟩ ⟨by linarith, by linarith [h0.2]⟩ b
        rw [← hf1, ← hf2] at this
        linarith

theorem goldLoop_inv {f : ℝ → ℝ} {ax bx cx tol : ℝ} {fuel : Nat} {s t : GoldState ℝ} (h : GoldInv f ax bx cx s)
    (hr : goldLoop f tol fuel s = some t) :
    GoldInv f ax bx cx t ∧ |t.x3 - t.x0| ≤ tol * (|t.x1| + |t.x2|) := by
  induction fuel generalizing s with
  | zero => exact absurd hr (by simp [goldLoop])
  | succ fuel ih =>
    rw [goldLoop] at hr
    split at hr
    · exact ih (goldStep_inv h) hr
    · rename_i hc
      cases hr
      exact ⟨h, not_lt.mp hc⟩

/-- **C147** (golden). The place that is found is in the bracket, the value is the one there and not above the value in
the middle. If `f` falls to `z` and rises after it, the distance to `z` is at most `2 tol |x| / (1 - tol)`. -/
theorem C147_golden {fuel : Nat} {f : ℝ → ℝ} {ax bx cx tol x fx : ℝ}
    (hb : (ax < bx ∧ bx < cx) ∨ (cx < bx ∧ bx < ax)) (hr : golden fuel f ax bx cx tol = some (x, fx)) :
    fx = f x ∧ f x ≤ f bx ∧ min ax cx < x ∧ x < max ax cx ∧
    ∀ z, 0 ≤ tol → tol < 1 → Valley f (min ax cx) z (max ax cx) → |x - z| ≤ 2 * tol * |x| / (1 - tol) := by
  unfold golden at hr
  cases hl : goldLoop f tol fuel (goldInit f ax bx cx) with
  | none => rw [hl] at hr; cases hr
  | some t =>
    rw [hl] at hr
    obtain ⟨⟨hord, h0, h3, hf1, hf2, hle, hz⟩, hstop⟩ := goldLoop_inv (goldInit_inv f hb) hl
    obtain ⟨x0, x1, x2, x3, f1, f2⟩ := t
    dsimp only at *
    have hx : (x = x1 ∨ x = x2) ∧ fx = f x ∧ f x ≤ f bx := by
      simp only [Option.map_some, Option.some.injEq] at hr
      split at hr
      · rename_i hlt
        cases hr
        rw [min_eq_left hlt.le] at hle
        exact ⟨Or.inl rfl, hf1, by rw [← hf1]; exact hle⟩
      · rename_i hlt
        cases hr
        rw [min_eq_right (not_lt.mp hlt)] at hle
        exact ⟨Or.inr rfl, hf2, by rw [← hf2]; exact hle⟩
    obtain ⟨hx, hfx, hfb⟩ := hx
    refine ⟨hfx, hfb, ?_, ?_, fun z ht0 ht1 hV => ?_⟩
    · rcases hord with ⟨a, b, c⟩ | ⟨a, b, c⟩ <;> rcases hx with rfl | rfl <;> linarith [h0.1, h3.1]
    · rcases hord with ⟨a, b, c⟩ | ⟨a, b, c⟩ <;> rcases hx with rfl | rfl <;> linarith [h0.2, h3.2]
    · obtain ⟨z1, z2⟩ := hz z hV
      rw [le_div_iff₀ (by linarith)]
      have hL : |x - z| ≤ |x3 - x0| ∧ |x1| + |x2| ≤ 2 * |x| + |x3 - x0| := by
        rcases hord with ⟨a, b, c⟩ | ⟨a, b, c⟩
        · rw [min_eq_left (by linarith)] at z1
          rw [max_eq_right (by linarith)] at z2
          rw [abs_of_pos (show 0 < x3 - x0 by linarith)]
          refine ⟨abs_le.mpr ?_, ?_⟩
          · rcases hx with rfl | rfl <;> constructor <;> linarith
          · have e : |x1 - x2| = x2 - x1 := by rw [abs_of_neg (by linarith)]; ring
            have t1 := abs_sub_abs_le_abs_sub x1 x2
            have t2 := abs_sub_abs_le_abs_sub x2 x1
            rw [abs_sub_comm x2 x1] at t2
            rcases hx with rfl | rfl <;> linarith
        · rw [min_eq_right (by linarith)] at z1
          rw [max_eq_left (by linarith)] at z2
          rw [abs_of_neg (show x3 - x0 < 0 by linarith)]
          refine ⟨abs_le.mpr ?_, ?_⟩
          · rcases hx with rfl | rfl <;> constructor <;> linarith
          · have e : |x1 - x2| = x1 - x2 := abs_of_pos (by linarith)
            have t1 := abs_sub_abs_le_abs_sub x1 x2
            have t2 := abs_sub_abs_le_abs_sub x2 x1
            rw [abs_sub_comm x2 x1] at t2
            rcases hx with rfl | rfl <;> linarith
      obtain ⟨q1, q2⟩ := hL
      have q3 : |x3 - x0| ≤ tol * (2 * |x| + |x3 - x0|) := hstop.trans (mul_le_mul_of_nonneg_left q2 ht0)
      have q4 : |x - z| * (1 - tol) ≤ |x3 - x0| * (1 - tol) := mul_le_mul_of_nonneg_right q1 (by linarith)
      linarith

/-- The lengths of the three parts of the bracket. -/
def goldParts (s : GoldState ℝ) : ℝ × ℝ × ℝ := (|s.x1 - s.x0|, |s.x2 - s.x1|, |s.x3 - s.x2|)

theorem gold_parts (f : ℝ → ℝ) (s : GoldState ℝ) :
    goldParts (goldStep f s) = ((goldParts s).2.1, goldC * (goldParts s).2.2, goldR * (goldParts s).2.2) ∨
    goldParts (goldStep f s) = (goldR * (goldParts s).1, goldC * (goldParts s).1, (goldParts s).2.1) := by
  have hR : (0 : ℝ) ≤ goldR := by rw [goldR_val]; norm_num
  have hC : (0 : ℝ) ≤ goldC := by rw [goldC_val]; norm_num
  have hRC : (goldC : ℝ) = 1 - goldR := rfl
  unfold goldStep
  split
  · left
    unfold goldParts
    dsimp only
    have e1 : goldR * s.x2 + goldC * s.x3 - s.x2 = goldC * (s.x3 - s.x2) := by rw [hRC]; ring
    have e2 : s.x3 - (goldR * s.x2 + goldC * s.x3) = goldR * (s.x3 - s.x2) := by rw [hRC]; ring
    rw [e1, e2, abs_mul, abs_mul, abs_of_nonneg hR, abs_of_nonneg hC]
  · right
    unfold goldParts
    dsimp only
    have e1 : goldR * s.x1 + goldC * s.x0 - s.x0 = goldR * (s.x1 - s.x0) := by rw [hRC]; ring
    have e2 : s.x1 - (goldR * s.x1 + goldC * s.x0) = goldC * (s.x1 - s.x0) := by rw [hRC]; ring
    rw [e1, e2, abs_mul, abs_mul, abs_of_nonneg hR, abs_of_nonneg hC]

theorem gold_length {f : ℝ → ℝ} {ax bx cx : ℝ} {s : GoldState ℝ} (h : GoldInv f ax bx cx s) :
    |s.x3 - s.x0| = (goldParts s).1 + (goldParts s).2.1 + (goldParts s).2.2 := by
  unfold goldParts
  dsimp only
  rcases h.ord with ⟨a, b, c⟩ | ⟨a, b, c⟩
  · rw [abs_of_pos (by linarith), abs_of_pos (by linarith), abs_of_pos (by linarith), abs_of_pos (by linarith)]; ring
  · rw [abs_of_neg (by linarith), abs_of_neg (by linarith), abs_of_neg (by linarith), abs_of_neg (by linarith)]; ring

/-- Four steps shorten the bracket by a factor. -/
theorem gold_four {f : ℝ → ℝ} {ax bx cx : ℝ} {s : GoldState ℝ} (h : GoldInv f ax bx cx s) :
    let t := goldStep f (goldStep f (goldStep f (goldStep f s)))
    GoldInv f ax bx cx t ∧ |t.x3 - t.x0| ≤ 62 / 100 * |s.x3 - s.x0| := by
  intro t
  have h1 := goldStep_inv h
  have h2 := goldStep_inv h1
  have h3 := goldStep_inv h2
  have h4 := goldStep_inv h3
  refine ⟨h4, ?_⟩
  rw [gold_length h4, gold_length h]
  have p1 := gold_parts f s
  have p2 := gold_parts f (goldStep f s)
  have p3 := gold_parts f (goldStep f (goldStep f s))
  have p4 := gold_parts f (goldStep f (goldStep f (goldStep f s)))
  have n1 : 0 ≤ (goldParts s).1 := abs_nonneg _
  have n2 : 0 ≤ (goldParts s).2.1 := abs_nonneg _
  have n3 : 0 ≤ (goldParts s).2.2 := abs_nonneg _
  generalize goldParts (goldStep f (goldStep f (goldStep f (goldStep f s)))) = q4 at p4 ⊢
  generalize goldParts (goldStep f (goldStep f (goldStep f s))) = q3 at p3 p4
  generalize goldParts (goldStep f (goldStep f s)) = q2 at p2 p3
  generalize goldParts (goldStep f s) = q1 at p1 p2
  rw [goldR_val, goldC_val] at p1 p2 p3 p4
  rcases p1 with rfl | rfl <;> rcases p2 with rfl | rfl <;> rcases p3 with rfl | rfl <;> rcases p4 with rfl | rfl <;>
    dsimp only <;> linarith

/-- Four passes of the loop. -/
theorem goldLoop_four (f : ℝ → ℝ) (tol : ℝ) {fuel : Nat} {s : GoldState ℝ}
    (h : goldLoop f tol (fuel + 4) s = none) :
    goldLoop f tol fuel (goldStep f (goldStep f (goldStep f (goldStep f s)))) = none := by
  have one : ∀ (k : Nat) (s : GoldState ℝ), goldLoop f tol (k + 1) s = none → goldLoop f tol k (goldStep f s) = none := by
    intro k s h
    rw [goldLoop] at h
    split at h
    · exact h
    · cases h
  exact one _ _ (one _ _ (one _ _ (one _ _ h)))

/-- **C147** (golden, the loop ends). If 0 is not in the bracket and `tol` is positive, the loop ends. The full statement
would be without `h0`; it is wrong (C147_golden_zero_counterexample). -/
theorem C147_golden_ends_partial (f : ℝ → ℝ) {ax bx cx tol d : ℝ} (hb : (ax < bx ∧ bx < cx) ∨ (cx < bx ∧ bx < ax))
    (htol : 0 < tol) (hd : 0 < d) (h0 : ∀ x, min ax cx ≤ x → x ≤ max ax cx → d ≤ |x|) :
    ∃ fuel x fx, golden fuel f ax bx cx tol = some (x, fx) := by
  have key : ∀ (k : Nat) (s : GoldState ℝ), GoldInv f ax bx cx s → goldLoop f tol (4 * k + 1) s = none →
      tol * (2 * d) < (62 / 100) ^ k * |s.x3 - s.x0| := by
    intro k
    induction k with
    | zero =>
      intro s hs hn
      rw [Nat.mul_zero, Nat.zero_add, goldLoop] at hn
      split at hn
      · rename_i hc
        have i1 : d ≤ |s.x1| := h0 _ (by rcases hs.ord with ⟨a, b, c⟩ | ⟨a, b, c⟩ <;> linarith [hs.in0.1, hs.in3.1])
          (by rcases hs.ord with ⟨a, b, c⟩ | ⟨a, b, c⟩ <;> linarith [hs.in0.2, hs.in3.2])
        have i2 : d ≤ |s.x2| := h0 _ (by rcases hs.ord with ⟨a, b, c⟩ | ⟨a, b, c⟩ <;> linarith [hs.in0.1, hs.in3.1])
          (by rcases hs.ord with ⟨a, b, c⟩ | ⟨a, b, c⟩ <;> linarith [hs.in0.2, hs.in3.2])
        rw [pow_zero, one_mul]
        exact lt_of_le_of_lt (mul_le_mul_of_nonneg_left (by linarith) htol.le) hc
      · cases hn
    | succ k ih =>
      intro s hs hn
      obtain ⟨g1, g2⟩ := gold_four hs
      have := ih _ g1 (goldLoop_four f tol (by rw [show 4 * k + 1 + 4 = 4 * (k + 1) + 1 by omega]; exact hn))
      refine this.trans_le ?_
      rw [pow_succ, mul_assoc]
      exact mul_le_mul_of_nonneg_left g2 (by positivity)
  have hL : 0 < |(goldInit f ax bx cx).x3 - (goldInit f ax bx cx).x0| := by
    rw [abs_pos]
    show cx - ax ≠ 0
    rcases hb with ⟨a, b⟩ | ⟨a, b⟩
    · exact ne_of_gt (by linarith)
    · exact ne_of_lt (by linarith)
  obtain ⟨k, hk⟩ := exists_pow_lt_of_lt_one
    (show (0 : ℝ) < tol * (2 * d) / |(goldInit f ax bx cx).x3 - (goldInit f ax bx cx).x0| by positivity)
    (show (62 / 100 : ℝ) < 1 by norm_num)
  rw [lt_div_iff₀ hL] at hk
  refine ⟨4 * k + 1, ?_⟩
  unfold golden
  cases hl : goldLoop f tol (4 * k + 1) (goldInit f ax bx cx) with
  | none => exact absurd (key k _ (goldInit_inv f hb) hl) (not_lt.mpr hk.le)
  | some t =>
    refine ⟨(if t.f1 < t.f2 then (t.x1, t.f1) else (t.x2, t.f2)).1, (if t.f1 < t.f2 then (t.x1, t.f1) else (t.x2, t.f2)).2, rfl⟩

/-- **C147** (golden, counterexample). The tolerance is a fraction of the place itself: if the bottom is at 0 and `tol` is
less than 1/2, no number of passes is enough. -/
theorem C147_golden_zero_counterexample (f : ℝ → ℝ) {ax bx cx tol : ℝ}
    (hb : (ax < bx ∧ bx < cx) ∨ (cx < bx ∧ bx < ax)) (h0 : 0 ≤ tol) (h1 : tol < 1 / 2)
    (hV : Valley f (min ax cx) 0 (max ax cx)) (fuel : Nat) : golden fuel f ax bx cx tol = none := by
  unfold golden
  cases hl : goldLoop f tol fuel (goldInit f ax bx cx) with
  | none => rfl
  | some t =>
    exfalso
    obtain ⟨⟨hord, i0, i3, hf1, hf2, hle, hz⟩, hstop⟩ := goldLoop_inv (goldInit_inv f hb) hl
    obtain ⟨x0, x1, x2, x3, f1, f2⟩ := t
    dsimp only at *
    obtain ⟨z1, z2⟩ := hz 0 hV
    have hL : 0 < |x3 - x0| ∧ |x1| ≤ |x3 - x0| ∧ |x2| ≤ |x3 - x0| := by
      rcases hord with ⟨a, b, c⟩ | ⟨a, b, c⟩
      · rw [min_eq_left (by linarith)] at z1
        rw [max_eq_right (by linarith)] at z2
        rw [abs_of_pos (show 0 < x3 - x0 by linarith)]
        exact ⟨by linarith, abs_le.mpr ⟨by linarith, by linarith⟩, abs_le.mpr ⟨by linarith, by linarith⟩⟩
      · rw [min_eq_right (by linarith)] at z1
        rw [max_eq_left (by linarith)] at z2
        rw [abs_of_neg (show x3 - x0 < 0 by linarith)]
        exact ⟨by linarith, abs_le.mpr ⟨by linarith, by linarith⟩, abs_le.mpr ⟨by linarith, by linarith⟩⟩
    obtain ⟨q1, q2, q3⟩ := hL
    have q4 : tol * (|x1| + |x2|) ≤ tol * (2 * |x3 - x0|) := mul_le_mul_of_nonneg_left (by linarith) h0
    nlinarith

/-- `x²` between -1 and 2 is such a function. -/
theorem C147_golden_square_counterexample (fuel : Nat) :
    golden fuel (fun x : ℝ => x * x) (-1) 1 2 (1 / 1000) = none := by
  refine C147_golden_zero_counterexample _ (Or.inl ⟨by norm_num, by norm_num⟩) (by norm_num) (by norm_num) ?_ fuel
  rw [min_eq_left (by norm_num), max_eq_right (by norm_num)]
  refine ⟨by norm_num, by norm_num, ?_, ?_⟩
  · intro a ha b hb hab
    have h1 := ha.2
    have h2 := hb.2
    dsimp only
    nlinarith
  · intro a ha b hb hab
    have h1 := ha.1
    have h2 := hb.1
    dsimp only
    nlinarith

-- The bottom of `(x-3)²` between 1 and 5, found up to a tenth.
example : ∃ x fx, golden 20 (fun x : ℚ => (x - 3) * (x - 3)) 1 2 5 (1 / 10) = some (x, fx) ∧ |x - 3| ≤ 1 / 5 := by
  have : ((golden 20 (fun x : ℚ => (x - 3) * (x - 3)) 1 2 5 (1 / 10)).any fun r => decide (|r.1 - 3| ≤ 1 / 5)) = true := by
    decide +kernel
  cases h : golden 20 (fun x : ℚ => (x - 3) * (x - 3)) 1 2 5 (1 / 10) with
  | none => rw [h] at this; cases this
  | some r =>
    rw [h] at this
    exact ⟨r.1, r.2, rfl, of_decide_eq_true this⟩

/-! ### dpythag and dsvbksb -/

theorem pythag_part {a b : ℝ} (h : 0 < |a|) : |a| * Real.sqrt (1 + (|b| / |a|) * (|b| / |a|)) = Real.sqrt (a ^ 2 + b ^ 2) := by
  rw [← Real.sqrt_sq h.le, ← Real.sqrt_mul (sq_nonneg _), Real.sqrt_sq h.le]
  congr 1
  field_simp
  rw [sq_abs, sq_abs]

/-- **C147** (dpythag). -/
theorem C147_dpythag (a b : ℝ) : dpythag a b = Real.sqrt (a ^ 2 + b ^ 2) := by
  unfold dpythag
  dsimp only
  split
  · rename_i h
    exact pythag_part (lt_of_le_of_lt (abs_nonneg b) h)
  · rename_i h
    split
    · rename_i hb
      have ha : |a| = 0 := le_antisymm (hb ▸ not_lt.mp h) (abs_nonneg a)
      rw [abs_eq_zero] at ha hb
      rw [ha, hb]
      norm_num
    · rename_i hb
      rw [add_comm (a ^ 2)]
      exact pythag_part (lt_of_le_of_ne (abs_nonneg b) (Ne.symm hb))

example : dpythag 3 (-4) = 5 := by
  rw [C147_dpythag, show ((3 : ℝ) ^ 2 + (-4) ^ 2) = 5 ^ 2 by norm_num, Real.sqrt_sq (by norm_num)]

namespace Spec

/-- The columns 1..n of a matrix with rows 1..m are orthonormal. -/
def OrthCols (m n : Nat) (q : Nat → Nat → ℝ) : Prop :=
  ∀ j ∈ Finset.Icc 1 n, ∀ k ∈ Finset.Icc 1 n, (∑ i ∈ Finset.Icc 1 m, q i j * q i k) = if j = k then 1 else 0

/-- The square of the length of `A y - b`. -/
def resid (m n : Nat) (A : Nat → Nat → ℝ) (b y : Nat → ℝ) : ℝ :=
  ∑ i ∈ Finset.Icc 1 m, ((∑ l ∈ Finset.Icc 1 n, A i l * y l) - b i) ^ 2

end Spec

theorem orth_square {m n : Nat} {q : Nat → Nat → ℝ} (h : Spec.OrthCols m n q) (c b : Nat → ℝ) :
    (∑ i ∈ Finset.Icc 1 m, ((∑ j ∈ Finset.Icc 1 n, q i j * c j) - b i) ^ 2) =
    (∑ j ∈ Finset.Icc 1 n, (c j - ∑ i ∈ Finset.Icc 1 m, q i j * b i) ^ 2) +
    ((∑ i ∈ Finset.Icc 1 m, b i ^ 2) - ∑ j ∈ Finset.Icc 1 n, (∑ i ∈ Finset.Icc 1 m, q i j * b i) ^ 2) := by
  have e1 : (∑ i ∈ Finset.Icc 1 m, (∑ j ∈ Finset.Icc 1 n, q i j * c j) ^ 2) = ∑ j ∈ Finset.Icc 1 n, c j ^ 2 := by
    have : ∀ i, (∑ j ∈ Finset.Icc 1 n, q i j * c j) ^ 2 =
        ∑ j ∈ Finset.Icc 1 n, ∑ k ∈ Finset.Icc 1 n, (q i j * q i k) * (c j * c k) := by
      intro i
      rw [sq, Finset.sum_mul_sum]
      exact Finset.sum_congr rfl fun j _ => Finset.sum_congr rfl fun k _ => by ring
    rw [Finset.sum_congr rfl fun i _ => this i, Finset.sum_comm]
    refine Finset.sum_congr rfl fun j hj => ?_
    rw [Finset.sum_comm]
    rw [Finset.sum_congr rfl fun k hk => by rw [← Finset.sum_mul, h j hj k hk]]
    simp only [ite_mul, one_mul, zero_mul]
    rw [Finset.sum_ite_eq, if_pos hj, sq]
  have e2 : (∑ i ∈ Finset.Icc 1 m, (∑ j ∈ Finset.Icc 1 n, q i j * c j) * b i) =
      ∑ j ∈ Finset.Icc 1 n, c j * ∑ i ∈ Finset.Icc 1 m, q i j * b i := by
    rw [Finset.sum_congr rfl fun i _ => Finset.sum_mul _ _ _, Finset.sum_comm]
    refine Finset.sum_congr rfl fun j _ => ?_
    rw [Finset.mul_sum]
    exact Finset.sum_congr rfl fun i _ => by ring
  have l : ∀ i, ((∑ j ∈ Finset.Icc 1 n, q i j * c j) - b i) ^ 2 =
      (∑ j ∈ Finset.Icc 1 n, q i j * c j) ^ 2 - 2 * ((∑ j ∈ Finset.Icc 1 n, q i j * c j) * b i) + b i ^ 2 := fun i => by ring
  have r : ∀ j, (c j - ∑ i ∈ Finset.Icc 1 m, q i j * b i) ^ 2 =
      c j ^ 2 - 2 * (c j * ∑ i ∈ Finset.Icc 1 m, q i j * b i) + (∑ i ∈ Finset.Icc 1 m, q i j * b i) ^ 2 := fun j => by ring
  simp only [l, r, Finset.sum_add_distrib, Finset.sum_sub_distrib, ← Finset.mul_sum, e1, e2]
  ring

theorem upLoop_sum_Icc (n : Nat) (g : Nat → ℝ) :
    upLoop 1 (n + 1) (fun i s => s + g i) (0 : ℝ) = ∑ i ∈ Finset.Icc 1 n, g i := by
  rw [upLoop_sum, zero_add]
  rfl

theorem svdBack_apply (u : Mat ℝ) (w : RArr) (v : Mat ℝ) (m n : Nat) (b x : RArr) (l : Nat) :
    svdBack u w v m n b x l = if l ∈ Finset.Icc 1 n then ∑ j ∈ Finset.Icc 1 n, v l j *
      (if w j ≠ 0 then (∑ i ∈ Finset.Icc 1 m, u i j * b i) / w j else 0) else x l := by
  unfold svdBack
  rw [upLoop_fill]
  have e : (1 ≤ l ∧ l < n + 1) = (l ∈ Finset.Icc 1 n) := by rw [Finset.mem_Icc, Nat.lt_succ_iff]
  simp only [e]
  split
  · rw [upLoop_sum_Icc]
    refine Finset.sum_congr rfl fun j hj => ?_
    rw [upLoop_fill, if_pos (by rw [Finset.mem_Icc] at hj; omega), upLoop_sum_Icc]
  · rfl

/-- **C147** (dsvbksb). If the columns of `U` and of `V` are orthonormal and `A = U diag(w) V^T`, the solution has the
smallest residual, and of all vectors with this residual it is the shortest. -/
theorem C147_dsvbksb {m n : Nat} {u v A : Mat ℝ} {w b x0 : RArr} (hu : Spec.OrthCols m n u) (hv : Spec.OrthCols n n v)
    (hA : ∀ i l, A i l = ∑ j ∈ Finset.Icc 1 n, u i j * w j * v l j) (y : RArr) :
    Spec.resid m n A b (svdBack u w v m n b x0) ≤ Spec.resid m n A b y ∧
    (Spec.resid m n A b y = Spec.resid m n A b (svdBack u w v m n b x0) →
      ∑ l ∈ Finset.Icc 1 n, svdBack u w v m n b x0 l ^ 2 ≤ ∑ l ∈ Finset.Icc 1 n, y l ^ 2) := by
  set x := svdBack u w v m n b x0 with hxdef
  let beta : Nat → ℝ := fun j => ∑ i ∈ Finset.Icc 1 m, u i j * b i
  let t : Nat → ℝ := fun j => if w j ≠ 0 then beta j / w j else 0
  let V : RArr → Nat → ℝ := fun y j => ∑ l ∈ Finset.Icc 1 n, v l j * y l
  have hx : ∀ l ∈ Finset.Icc 1 n, x l = ∑ j ∈ Finset.Icc 1 n, v l j * t j := fun l hl => by
    rw [hxdef, svdBack_apply, if_pos hl]
  have hAy : ∀ (y : RArr) i, (∑ l ∈ Finset.Icc 1 n, A i l * y l) = ∑ j ∈ Finset.Icc 1 n, u i j * (w j * V y j) := by
    intro y i
    simp only [hA, Finset.sum_mul]
    rw [Finset.sum_comm]
    refine Finset.sum_congr rfl fun j _ => ?_
    show _ = u i j * (w j * ∑ l ∈ Finset.Icc 1 n, v l j * y l)
    rw [Finset.mul_sum, Finset.mul_sum]
    exact Finset.sum_congr rfl fun l _ => by ring
  have hVx : ∀ k ∈ Finset.Icc 1 n, V x k = t k := by
    intro k hk
    show (∑ l ∈ Finset.Icc 1 n, v l k * x l) = t k
    rw [Finset.sum_congr rfl fun l hl => by rw [hx l hl, Finset.mul_sum], Finset.sum_comm]
    have : ∀ j ∈ Finset.Icc 1 n, (∑ l ∈ Finset.Icc 1 n, v l k * (v l j * t j)) = if k = j then t j else 0 := by
      intro j hj
      rw [Finset.sum_congr rfl fun l _ => (mul_assoc (v l k) (v l j) (t j)).symm, ← Finset.sum_mul, hv k hk j hj]
      split <;> ring
    rw [Finset.sum_congr rfl this, Finset.sum_ite_eq, if_pos hk]
  have hres : ∀ y : RArr, Spec.resid m n A b y = (∑ j ∈ Finset.Icc 1 n, (w j * V y j - beta j) ^ 2) +
      ((∑ i ∈ Finset.Icc 1 m, b i ^ 2) - ∑ j ∈ Finset.Icc 1 n, beta j ^ 2) := by
    intro y
    unfold Spec.resid
    simp only [hAy]
    exact orth_square hu _ _
  have hterm : ∀ j ∈ Finset.Icc 1 n, (w j * V x j - beta j) ^ 2 ≤ (w j * V y j - beta j) ^ 2 := by
    intro j hj
    rw [hVx j hj]
    by_cases hw : w j = 0
    · rw [hw, zero_mul, zero_mul]
    · have : w j * t j = beta j := by
        show w j * (if w j ≠ 0 then beta j / w j else 0) = beta j
        rw [if_pos hw]
        field_simp
      rw [this, sub_self, zero_pow (by norm_num)]
      exact sq_nonneg _
  refine ⟨?_, fun heq => ?_⟩
  · rw [hres, hres]
    linarith [Finset.sum_le_sum hterm]
  · rw [hres, hres] at heq
    have hall := (Finset.sum_eq_sum_iff_of_le hterm).mp (by linarith)
    have ht : ∀ j ∈ Finset.Icc 1 n, t j ^ 2 ≤ V y j ^ 2 := by
      intro j hj
      by_cases hw : w j = 0
      · have : t j = 0 := by
          show (if w j ≠ 0 then beta j / w j else 0) = 0
          rw [if_neg (not_not.mpr hw)]
        rw [this, zero_pow (by norm_num)]
        exact sq_nonneg _
      · have h1 := hall j hj
        rw [hVx j hj] at h1
        have h2 : w j * t j = beta j := by
          show w j * (if w j ≠ 0 then beta j / w j else 0) = beta j
          rw [if_pos hw]
          field_simp
        rw [h2, sub_self, zero_pow (by norm_num)] at h1
        have h3 : w j * V y j - beta j = 0 := pow_eq_zero_iff (by norm_num) |>.mp h1.symm
        have h4 : V y j = t j := mul_left_cancel₀ hw (by rw [h2]; linarith)
        rw [h4]
    have hn : ∑ l ∈ Finset.Icc 1 n, x l ^ 2 = ∑ j ∈ Finset.Icc 1 n, t j ^ 2 := by
      have := orth_square hv t (fun _ => 0)
      simp only [mul_zero, Finset.sum_const_zero, sub_zero, zero_pow (two_ne_zero), add_zero] at this
      rw [← this]
      exact Finset.sum_congr rfl fun l hl => by rw [hx l hl]
    have hB := orth_square hv (V y) y
    have h0 : (∑ j ∈ Finset.Icc 1 n, (V y j - ∑ i ∈ Finset.Icc 1 n, v i j * y i) ^ 2) = 0 :=
      Finset.sum_eq_zero fun j _ => by
        show (V y j - V y j) ^ 2 = 0
        rw [sub_self, zero_pow two_ne_zero]
    rw [h0, zero_add] at hB
    have hB0 : 0 ≤ ∑ i ∈ Finset.Icc 1 n, ((∑ j ∈ Finset.Icc 1 n, v i j * V y j) - y i) ^ 2 :=
      Finset.sum_nonneg fun i _ => sq_nonneg _
    have := Finset.sum_le_sum ht
    rw [hn]
    have e : (∑ j ∈ Finset.Icc 1 n, (∑ i ∈ Finset.Icc 1 n, v i j * y i) ^ 2) = ∑ j ∈ Finset.Icc 1 n, V y j ^ 2 := rfl
    linarith

-- One column (3,4)/5 with the singular value 5: A = (3,4), b = (1,1), x = 7/25.
example : svdBack (fun i _ => if i = 1 then 3 / 5 else 4 / 5) (fun _ => 5) (fun _ _ => 1) 2 1 (fun _ => 1) (fun _ => 0) 1 =
    7 / 25 := by
  rw [svdBack_apply]
  simp [Finset.sum_Icc_succ_top]
  norm_num

/-! ### linmin and powell -/

namespace Spec

/-- `func` looks only at the entries 1..n. -/
def DependsOn (n : Nat) (func : RArr → ℝ) : Prop :=
  ∀ a b : RArr, (∀ j, 1 ≤ j → j ≤ n → a j = b j) → func a = func b

/-- `g` falls everywhere before `z` and rises everywhere after `z`. -/
def Bottom (g : ℝ → ℝ) (z : ℝ) : Prop := (∀ a b, a < b → b ≤ z → g b < g a) ∧ ∀ a b, z ≤ a → a < b → g a < g b

end Spec

theorem f1dim_eq {func : RArr → ℝ} {n : Nat} (hd : Spec.DependsOn n func) (junk p xi : RArr) :
    f1dim func n (upLoop 1 (n + 1) (fun j a => aset a j (p j)) junk)
      (upLoop 1 (n + 1) (fun j a => aset a j (xi j)) junk) junk = fun x => func fun j => p j + x * xi j := by
  funext x
  refine hd _ _ fun j h1 h2 => ?_
  rw [upLoop_fill, if_pos ⟨h1, by omega⟩, upLoop_fill, if_pos ⟨h1, by omega⟩, upLoop_fill, if_pos ⟨h1, by omega⟩]

theorem linmin_move (n : Nat) (xmin : ℝ) (p xi : RArr) :
    ∀ j, (linMove n xmin p xi).1 j = (if 1 ≤ j ∧ j ≤ n then p j + xmin * xi j else p j) ∧
      (linMove n xmin p xi).2 j = if 1 ≤ j ∧ j ≤ n then xmin * xi j else xi j := by
  intro j
  have := upLoop_inv (lo := 1) (hi := n + 1) (by omega) (body := fun j (s : RArr × RArr) =>
      let xi := aset s.2 j (s.2 j * xmin)
      (aset s.1 j (s.1 j + xi j), xi)) (s := (p, xi))
    (fun m s => ∀ j, s.1 j = (if 1 ≤ j ∧ j < m then p j + xmin * xi j else p j) ∧
      s.2 j = if 1 ≤ j ∧ j < m then xmin * xi j else xi j)
    (fun j => by rw [if_neg (by omega), if_neg (by omega)]; exact ⟨rfl, rfl⟩)
    (by
      intro m s h1 h2 ih j
      dsimp only
      by_cases hj : j = m
      · subst hj
        obtain ⟨i1, i2⟩ := ih j
        rw [if_neg (by omega)] at i1 i2
        rw [aset_self, aset_self, if_pos ⟨h1, by omega⟩, if_pos ⟨h1, by omega⟩, i1, i2]
        exact ⟨by ring, by ring⟩
      · obtain ⟨i1, i2⟩ := ih j
        rw [aset_ne _ _ hj, aset_ne _ _ hj, i1, i2]
        constructor <;> congr 1 <;> (apply propext; omega)) j
  simp only [Nat.lt_succ_iff] at this
  exact this

/-- **C148** (linmin). The point moves along the direction, which becomes the step. The value is the one at the new
point, not above the values at the old point and at the old point plus the direction. If the function has one bottom
along the line, the step goes there, up to the tolerance of brent. -/
theorem C148_linmin {n : Nat} {func : RArr → ℝ} (hd : Spec.DependsOn n func) (fuel : Nat) (junk p xi : RArr) :
    linmin fuel func n junk p xi = .abort ∨
    ∃ (p' xi' : RArr) (t : ℝ), linmin fuel func n junk p xi = .ok (p', xi', func p') ∧
      (∀ j, 1 ≤ j → j ≤ n → p' j = p j + t * xi j ∧ xi' j = t * xi j) ∧
      (∀ j, ¬ (1 ≤ j ∧ j ≤ n) → p' j = p j ∧ xi' j = xi j) ∧
      func p' ≤ func p ∧ func p' ≤ func (fun j => p j + xi j) ∧
      ∀ z, Spec.Bottom (fun s => func fun j => p j + s * xi j) z → |t - z| ≤ 2 * (2 / 10 ^ 4 * |t| + 1 / 10 ^ 10) := by
  unfold linmin
  dsimp only
  rw [f1dim_eq hd]
  set f : ℝ → ℝ := fun s => func fun j => p j + s * xi j with hf
  obtain ⟨j, s, hs, hj1, hj2, ha, hb, hc, hba, hb0, hb1, hord, hbc⟩ := C87_min_brak f 0 1 (by norm_num) fuel
  rw [hs]
  dsimp only
  by_cases hfu : (j : Int) > fuel
  · rw [if_pos hfu]; exact Or.inl rfl
  rw [if_neg hfu]
  have hbc := hbc (by omega)
  have hmem : s.b ∈ Set.uIcc s.a s.c := by
    rcases hord with ⟨h1, h2⟩ | ⟨h1, h2⟩
    · exact Set.mem_uIcc.mpr (Or.inl ⟨h1.le, h2.le⟩)
    · exact Set.mem_uIcc.mpr (Or.inr ⟨h1.le, h2.le⟩)
  rcases C86_brent f s.a s.b s.c (2 / 10 ^ 4) (by positivity) hmem with hab | ⟨k, t, hk, _, _, ht, hft, hz⟩
  · left
    rw [hab]
    rfl
  · right
    rw [hk]
    have hm := linmin_move n t p xi
    have hfp : f t = func (linMove n t p xi).1 := by
      refine hd _ _ fun j h1 h2 => ?_
      rw [(hm j).1, if_pos ⟨h1, h2⟩]
    refine ⟨(linMove n t p xi).1, (linMove n t p xi).2, t, ?_, fun j h1 h2 => ?_, fun j h => ?_, ?_, ?_, fun z hzb => hz z ?_⟩
    · rw [← hfp]
      rfl
    · rw [(hm j).1, (hm j).2, if_pos ⟨h1, h2⟩, if_pos ⟨h1, h2⟩]
      exact ⟨rfl, rfl⟩
    · rw [(hm j).1, (hm j).2, if_neg h, if_neg h]
      exact ⟨rfl, rfl⟩
    · rw [← hfp]
      have : f 0 = func p := by
        show func (fun j => p j + 0 * xi j) = func p
        simp
      rw [← this]
      rw [hb] at hb0
      exact hft.trans hb0
    · rw [← hfp]
      have : f 1 = func fun j => p j + xi j := by
        show func (fun j => p j + 1 * xi j) = _
        simp
      rw [← this]
      rw [hb] at hb1
      exact hft.trans hb1
    · obtain ⟨z1, z2⟩ := hzb
      rw [hb, ha] at hba
      rw [hb, hc] at hbc
      have hzin : min s.a s.c ≤ z ∧ z ≤ max s.a s.c := by
        rcases hord with ⟨h1, h2⟩ | ⟨h1, h2⟩
        · rw [min_eq_left (by linarith), max_eq_right (by linarith)]
          constructor
          · by_contra h
            exact absurd (z2 s.a s.b (not_le.mp h).le h1) (not_lt.mpr hba)
          · by_contra h
            exact absurd (z1 s.b s.c h2 (not_le.mp h).le) (not_lt.mpr hbc)
        · rw [min_eq_right (by linarith), max_eq_left (by linarith)]
          constructor
          · by_contra h
            exact absurd (z2 s.c s.b (not_le.mp h).le h1) (not_lt.mpr hbc)
          · by_contra h
            exact absurd (z1 s.b s.a h2 (not_le.mp h).le) (not_lt.mpr hba)
      exact ⟨hzin.1, hzin.2, fun a ha b hb hab => z1 a b hab hb.2, fun a ha b hb hab => z2 a b ha.1 hab⟩

-- Along (1,0) from (3,5), the bottom of x² + y² is at -3.
example : Spec.Bottom (fun s : ℝ => (3 + s * 1) ^ 2 + (5 + s * 0) ^ 2) (-3) :=
  ⟨fun a b h1 h2 => by dsimp only; nlinarith, fun a b h1 h2 => by dsimp only; nlinarith⟩

theorem forN_abort {σ : Type} {n : Nat} {body : Nat → σ → Res σ} {s : σ} (P : Nat → σ → Prop) (h0 : P 0 s)
    (hs : ∀ i, i < n → ∀ t, P i t → body i t = .abort ∨ ∃ t', body i t = .ok t' ∧ P (i + 1) t') :
    forN n body s = .abort ∨ ∃ t, forN n body s = .ok t ∧ P n t := by
  induction n with
  | zero => exact Or.inr ⟨s, rfl, h0⟩
  | succ n ih =>
    rcases ih fun i hi => hs i (by omega) with h | ⟨t, ht, hP⟩
    · left; rw [forN, h]; rfl
    · rcases hs n (by omega) t hP with h | ⟨t', ht', hP'⟩
      · left; rw [forN, ht]; exact h
      · exact Or.inr ⟨t', by rw [forN, ht]; exact ht', hP'⟩

namespace Spec

/-- The points `qs 0, …, qs m` are found one after the other along the first `m` columns of `xi`: none is higher than the
one before, or than the one before plus the column. -/
def Sweep (func : RArr → ℝ) (n : Nat) (xi : Nat → Nat → ℝ) (m : Nat) (qs : Nat → RArr) : Prop :=
  ∀ i, 1 ≤ i → i ≤ m → (∃ t : ℝ, ∀ j, 1 ≤ j → j ≤ n → qs i j = qs (i - 1) j + t * xi j i) ∧
    func (qs i) ≤ func (qs (i - 1)) ∧ func (qs i) ≤ func (fun j => qs (i - 1) j + xi j i) ∧
    ∀ j, ¬ (1 ≤ j ∧ j ≤ n) → qs i j = qs (i - 1) j

end Spec

-- Down to the bottom of x² + y² from (3,5), along the two axes.
example : Spec.Sweep (fun p => p 1 ^ 2 + p 2 ^ 2) 2 (fun j k => if j = k then 1 else 0) 2
    (fun k j => if k = 0 then (if j = 1 then 3 else 5) else if k = 1 then (if j = 1 then 0 else 5) else
      if j = 1 then 0 else if j = 2 then 0 else 5) := by
  intro i h1 h2
  obtain rfl | rfl : i = 1 ∨ i = 2 := by omega
  · refine ⟨⟨-3, fun j j1 j2 => ?_⟩, by norm_num, by norm_num, fun j hj => ?_⟩
    · obtain rfl | rfl : j = 1 ∨ j = 2 := by omega
      · norm_num
      · norm_num
    · have a1 : j ≠ 1 := by omega
      simp [a1]
  · refine ⟨⟨-5, fun j j1 j2 => ?_⟩, by norm_num, by norm_num, fun j hj => ?_⟩
    · obtain rfl | rfl : j = 1 ∨ j = 2 := by omega
      · norm_num
      · norm_num
    · have a1 : j ≠ 1 := by omega
      have a2 : j ≠ 2 := by omega
      simp [a1, a2]

theorem sweep_mono {func : RArr → ℝ} {n m : Nat} {xi : Mat ℝ} {qs : Nat → RArr} (h : Spec.Sweep func n xi m qs) :
    ∀ k, k ≤ m → func (qs k) ≤ func (qs 0) := by
  intro k
  induction k with
  | zero => intro _; exact le_rfl
  | succ k ih => intro hk; exact (h (k + 1) (by omega) hk).2.1.trans (ih (by omega))

theorem sweep_outside {func : RArr → ℝ} {n m : Nat} {xi : Mat ℝ} {qs : Nat → RArr} (h : Spec.Sweep func n xi m qs)
    {j : Nat} (hj : ¬ (1 ≤ j ∧ j ≤ n)) : ∀ k, k ≤ m → qs k j = qs 0 j := by
  intro k
  induction k with
  | zero => intro _; rfl
  | succ k ih => intro hk; exact ((h (k + 1) (by omega) hk).2.2.2 j hj).trans (ih (by omega))

/-- The loop over the directions. -/
theorem powLines_spec {n : Nat} {func : RArr → ℝ} (hd : Spec.DependsOn n func) (fuel : Nat) (junk : RArr) (xi : Mat ℝ)
    (p : RArr) :
    powLines fuel func n junk xi p (func p) = .abort ∨
    ∃ (l : PowLine) (qs : Nat → RArr), powLines fuel func n junk xi p (func p) = .ok l ∧ qs 0 = p ∧ qs n = l.p ∧
      l.fret = func l.p ∧ Spec.Sweep func n xi n qs ∧
      ((l.ibig = 0 ∧ l.del = 0) ∨ (1 ≤ l.ibig ∧ l.ibig ≤ n ∧ l.del = func (qs (l.ibig - 1)) - func (qs l.ibig))) ∧
      0 ≤ l.del ∧ ∀ k, 1 ≤ k → k ≤ n → func (qs (k - 1)) - func (qs k) ≤ l.del := by
  refine (forN_abort (n := n) (body := fun i0 (s : PowLine) =>
    let i := i0 + 1
    let xit := upLoop 1 (n + 1) (fun j a => aset a j (xi j i)) junk
    let fptt := s.fret
    (linmin fuel func n junk s.p xit).bind fun o =>
    .ok (if |fptt - o.2.2| > s.del then (⟨o.1, o.2.2, i, |fptt - o.2.2|⟩ : PowLine) else ⟨o.1, o.2.2, s.ibig, s.del⟩))
    (s := ⟨p, func p, 0, 0⟩)
    (fun m l => ∃ qs : Nat → RArr, qs 0 = p ∧ qs m = l.p ∧ l.fret = func l.p ∧ Spec.Sweep func n xi m qs ∧
      ((l.ibig = 0 ∧ l.del = 0) ∨ (1 ≤ l.ibig ∧ l.ibig ≤ m ∧ l.del = func (qs (l.ibig - 1)) - func (qs l.ibig))) ∧
      0 ≤ l.del ∧ ∀ k, 1 ≤ k → k ≤ m → func (qs (k - 1)) - func (qs k) ≤ l.del)
    ⟨fun _ => p, rfl, rfl, rfl, fun i h1 h2 => absurd h2 (by omega), Or.inl ⟨rfl, rfl⟩, le_rfl,
      fun k h1 h2 => absurd h2 (by omega)⟩ ?_).elim Or.inl fun ⟨l, hl, qs, h⟩ => Or.inr ⟨l, qs, hl, h⟩
  · rintro m hm l ⟨qs, h0, hq, hf, hS, hI, hdel, hmax⟩
    dsimp only
    set xit := upLoop 1 (n + 1) (fun j a => aset a j (xi j (m + 1))) junk with hxit
    have hx : ∀ j, 1 ≤ j → j ≤ n → xit j = xi j (m + 1) := fun j h1 h2 => by
      rw [hxit, upLoop_fill, if_pos ⟨h1, by omega⟩]
    rcases C148_linmin hd fuel junk l.p xit with h | ⟨p', xi', t, hr, hin, hout, hle, hle1, _⟩
    · left; rw [h]; rfl
    · right
      rw [hr]
      refine ⟨_, rfl, fun k => if k = m + 1 then p' else qs k, ?_⟩
      have hold : ∀ k, k ≤ m → (if k = m + 1 then p' else qs k) = qs k := fun k hk => if_neg (by omega)
      have habs : |l.fret - func p'| = func l.p - func p' := by
        rw [hf, abs_of_nonneg (by linarith)]
      dsimp only
      rw [habs]
      have hS' : Spec.Sweep func n xi (m + 1) (fun k => if k = m + 1 then p' else qs k) := by
        intro i h1 h2
        dsimp only
        by_cases hi : i = m + 1
        · subst hi
          rw [if_pos rfl, hold (m + 1 - 1) (by omega), Nat.add_sub_cancel, hq]
          refine ⟨⟨t, fun j j1 j2 => ?_⟩, hle, ?_, fun j hj => (hout j hj).1⟩
          · rw [(hin j j1 j2).1, hx j j1 j2]
          · refine hle1.trans (le_of_eq (hd _ _ fun j j1 j2 => ?_))
            rw [hx j j1 j2]
        · rw [hold i (by omega), hold (i - 1) (by omega)]
          exact hS i h1 (by omega)
      have hnew : (if m + 1 = m + 1 then p' else qs (m + 1)) = p' := if_pos rfl
      by_cases hgt : func l.p - func p' > l.del
      · rw [if_pos hgt]
        refine ⟨by rw [hold 0 (by omega), h0], hnew, rfl, hS', Or.inr ⟨by dsimp only; omega, le_rfl, ?_⟩, ?_, ?_⟩
        · dsimp only
          rw [hnew, hold (m + 1 - 1) (by omega), Nat.add_sub_cancel, hq]
        · dsimp only; linarith
        · intro k k1 k2
          dsimp only
          by_cases hk : k = m + 1
          · subst hk
            rw [hnew, hold (m + 1 - 1) (by omega), Nat.add_sub_cancel, hq]
          · rw [hold k (by omega), hold (k - 1) (by omega)]
            exact (hmax k k1 (by omega)).trans hgt.le
      · rw [if_neg hgt]
        refine ⟨by rw [hold 0 (by omega), h0], hnew, rfl, hS', ?_, hdel, ?_⟩
        · rcases hI with h | ⟨h1, h2, h3⟩
          · exact Or.inl h
          · right
            dsimp only
            rw [hold _ h2, hold _ (by omega)]
            exact ⟨h1, by omega, h3⟩
        · intro k k1 k2
          dsimp only
          by_cases hk : k = m + 1
          · subst hk
            rw [hnew, hold (m + 1 - 1) (by omega), Nat.add_sub_cancel, hq]
            exact not_lt.mp hgt
          · rw [hold k (by omega), hold (k - 1) (by omega)]
            exact hmax k k1 (by omega)

theorem powReplace_spec {n ibig : Nat} (h1 : 1 ≤ ibig) (xit : RArr) (xi : Mat ℝ) :
    ∃ xi', powReplace n ibig xit xi = .ok xi' ∧ ∀ j k, 1 ≤ j → j ≤ n →
      xi' j k = if k = n then xit j else if k = ibig then xi j n else xi j k := by
  unfold powReplace
  rw [if_neg (by omega)]
  refine ⟨_, rfl, fun j k j1 j2 => ?_⟩
  have := upLoop_inv (lo := 1) (hi := n + 1) (by omega)
    (body := fun j (xi : Mat ℝ) => mset (mset xi j ibig (xi j n)) j n (xit j)) (s := xi)
    (fun m t => ∀ j k, t j k = if 1 ≤ j ∧ j < m then (if k = n then xit j else if k = ibig then xi j n else xi j k)
      else xi j k) (fun j k => by rw [if_neg (by omega)]) (by
      intro m t m1 m2 ih j k
      by_cases hj : j = m
      · subst hj
        rw [if_pos ⟨m1, by omega⟩]
        by_cases hk : k = n
        · rw [if_pos hk, hk, mset_self]
        · rw [if_neg hk, mset_ne _ _ (by omega)]
          by_cases hb : k = ibig
          · rw [if_pos hb, hb, mset_self, ih, if_neg (by omega)]
          · rw [if_neg hb, mset_ne _ _ (by omega), ih, if_neg (by omega)]
      · rw [mset_ne _ _ (by omega), mset_ne _ _ (by omega), ih]
        congr 1
        apply propext
        omega) j k
  rw [this, if_pos ⟨j1, by omega⟩]

/-- What holds before every pass of powell. -/
def PowInv (func : RArr → ℝ) (n : Nat) (p0 : RArr) (s : PowState) : Prop :=
  s.fret = func s.p ∧ s.fret ≤ func p0 ∧ ∀ j, ¬ (1 ≤ j ∧ j ≤ n) → s.p j = p0 j

/-- **C148** (one pass of powell). The pass ends the program, returns the last point of a sweep that was found to be
converged, or goes on from a point that is not higher. The directions are then the old ones; or the direction with the
largest drop is replaced by the last one, and the last one by a multiple of the way made since the end of the sweep
before (`pt`). -/
theorem C148_pass {n : Nat} {func : RArr → ℝ} (hd : Spec.DependsOn n func) (fuel : Nat) (junk : RArr) (ftol : ℝ)
    (iter : Nat) {p0 : RArr} {s : PowState} (hs : PowInv func n p0 s) :
    powPass fuel func n junk ftol iter s = .inl .abort ∨
    ∃ qs : Nat → RArr, qs 0 = s.p ∧ Spec.Sweep func n s.xi n qs ∧
      ((powPass fuel func n junk ftol iter s = .inl (.ok (⟨qs n, s.xi, s.pt, func (qs n)⟩, iter)) ∧
        2 * |func (qs 0) - func (qs n)| ≤ ftol * (|func (qs 0)| + |func (qs n)|)) ∨
      ∃ s', powPass fuel func n junk ftol iter s = .inr s' ∧ iter ≠ 200 ∧
        ftol * (|func (qs 0)| + |func (qs n)|) < 2 * |func (qs 0) - func (qs n)| ∧
        PowInv func n p0 s' ∧ s'.fret ≤ func (qs n) ∧ (∀ j, 1 ≤ j → j ≤ n → s'.pt j = qs n j) ∧
        (s'.xi = s.xi ∧ s'.p = qs n ∨
        func (fun j => 2 * qs n j - s.pt j) < func (qs 0) ∧
        ∃ (ibig : Nat) (t : ℝ), 1 ≤ ibig ∧ ibig ≤ n ∧
          (∀ k, 1 ≤ k → k ≤ n → func (qs (k - 1)) - func (qs k) ≤ func (qs (ibig - 1)) - func (qs ibig)) ∧
          ∀ j, 1 ≤ j → j ≤ n → s'.p j = qs n j + t * (qs n j - s.pt j) ∧ ∀ k, s'.xi j k =
            if k = n then t * (qs n j - s.pt j) else if k = ibig then s.xi j n else s.xi j k)) := by
  obtain ⟨hfret, hp0, hout⟩ := hs
  unfold powPass
  rw [hfret]
  dsimp only
  rcases powLines_spec hd fuel junk s.xi s.p with h | ⟨l, qs, hl, h0, hn, hf, hS, hI, hdel, hmax⟩
  · left; rw [h]
  rw [hl]
  dsimp only
  by_cases hconv : 2 * |func s.p - l.fret| ≤ ftol * (|func s.p| + |l.fret|)
  · right
    rw [if_pos hconv]
    refine ⟨qs, h0, hS, Or.inl ⟨?_, ?_⟩⟩
    · rw [hn, hf]
    · rw [h0, hn, ← hf]; exact hconv
  rw [if_neg hconv]
  by_cases hit : iter = 200
  · left; rw [if_pos hit]
  rw [if_neg hit]
  have hnc : ftol * (|func (qs 0)| + |func (qs n)|) < 2 * |func (qs 0) - func (qs n)| := by
    rw [h0, hn, ← hf]; exact not_le.mp hconv
  have hpt' : ∀ j, 1 ≤ j → j ≤ n → (upLoop 1 (n + 1) (fun j a => aset a j (l.p j)) s.pt) j = qs n j := fun j h1 h2 => by
    rw [upLoop_fill, if_pos ⟨h1, by omega⟩, hn]
  have hle : func l.p ≤ func s.p := by rw [← hn, ← h0]; exact sweep_mono hS n le_rfl
  have hlout : ∀ j, ¬ (1 ≤ j ∧ j ≤ n) → l.p j = p0 j := fun j hj => by
    rw [← hn, sweep_outside hS hj n le_rfl, h0, hout j hj]
  have keep : PowInv func n p0 ⟨l.p, s.xi, upLoop 1 (n + 1) (fun j a => aset a j (l.p j)) s.pt, l.fret⟩ :=
    ⟨hf, by dsimp only; rw [hf]; linarith, hlout⟩
  split
  · rename_i hext
    split
    · rename_i ht
      have hib : 1 ≤ l.ibig ∧ l.ibig ≤ n ∧ l.del = func (qs (l.ibig - 1)) - func (qs l.ibig) := by
        rcases hI with ⟨hi, hd0⟩ | h
        · exfalso
          have hall : ∀ k, k ≤ n → func (qs k) = func (qs 0) := by
            intro k
            induction k with
            | zero => intro _; rfl
            | succ k ih =>
              intro hk
              have h1 := hmax (k + 1) (by omega) hk
              have h2 := (hS (k + 1) (by omega) hk).2.1
              rw [Nat.add_sub_cancel] at h1 h2
              rw [hd0] at h1
              rw [← ih (by omega)]
              linarith
          have hfe : l.fret = func s.p := by rw [hf, ← hn, hall n le_rfl, h0]
          rw [hfe, hd0] at ht
          simp at ht
        · exact h
      rcases C148_linmin hd fuel junk l.p (upLoop 1 (n + 1) (fun j a => aset a j (l.p j - s.pt j)) junk) with
        h | ⟨p', xi', t, hr, hin, houtl, hle1, _, _⟩
      · left; rw [h]; rfl
      · right
        obtain ⟨xi2, hx2, hxi⟩ := powReplace_spec (n := n) hib.1 xi' s.xi
        rw [hr]
        have hb : ((Res.ok (p', xi', func p')).bind fun o => (powReplace n l.ibig o.2.1 s.xi).bind fun xi =>
            Res.ok (⟨o.1, xi, upLoop 1 (n + 1) (fun j a => aset a j (l.p j)) s.pt, o.2.2⟩ : PowState)) =
            .ok ⟨p', xi2, upLoop 1 (n + 1) (fun j a => aset a j (l.p j)) s.pt, func p'⟩ := by
          show (powReplace n l.ibig xi' s.xi).bind _ = _
          rw [hx2]
          rfl
        rw [hb]
        have hmove : ∀ j, 1 ≤ j → j ≤ n → p' j = qs n j + t * (qs n j - s.pt j) ∧ xi' j = t * (qs n j - s.pt j) := by
          intro j j1 j2
          have := hin j j1 j2
          rw [upLoop_fill, if_pos ⟨j1, by omega⟩, ← hn] at this
          exact this
        refine ⟨qs, h0, hS, Or.inr ⟨_, rfl, hit, hnc, ⟨rfl, ?_, fun j hj => ?_⟩, ?_, hpt', Or.inr ⟨?_, l.ibig, t, hib.1, hib.2.1,
          fun k k1 k2 => ?_, fun j j1 j2 => ⟨(hmove j j1 j2).1, fun k => ?_⟩⟩⟩⟩
        · dsimp only; linarith
        · dsimp only; rw [(houtl j hj).1, hlout j hj]
        · dsimp only; rw [hn]; exact hle1
        · rw [h0]
          refine lt_of_eq_of_lt (hd _ _ fun j j1 j2 => ?_) hext
          rw [upLoop_fill, if_pos ⟨j1, by omega⟩, hn]
        · rw [← hib.2.2]; exact hmax k k1 k2
        · dsimp only
          rw [hxi j k j1 j2, (hmove j j1 j2).2]
    · right
      exact ⟨qs, h0, hS, Or.inr ⟨_, rfl, hit, hnc, keep, by dsimp only; rw [hn, hf], hpt', Or.inl ⟨rfl, hn.symm⟩⟩⟩
  · right
    exact ⟨qs, h0, hS, Or.inr ⟨_, rfl, hit, hnc, keep, by dsimp only; rw [hn, hf], hpt', Or.inl ⟨rfl, hn.symm⟩⟩⟩

/-- **C148** (powell). The column `ibig = 0` is never written. If powell returns, the value is the one at the point that
is returned, and not above the first value. The point is the end of a sweep along the directions that are returned, over
which the value changed by no more than the tolerance. -/
theorem C148_powell {n : Nat} {func : RArr → ℝ} (hd : Spec.DependsOn n func) (fuel : Nat) (junk : RArr) (ftol : ℝ)
    (p : RArr) (xi : Mat ℝ) :
    powell fuel func n junk ftol p xi = .abort ∨
    ∃ (s : PowState) (iter : Nat), powell fuel func n junk ftol p xi = .ok (s, iter) ∧ 1 ≤ iter ∧ iter ≤ 200 ∧
      s.fret = func s.p ∧ s.fret ≤ func p ∧ (∀ j, ¬ (1 ≤ j ∧ j ≤ n) → s.p j = p j) ∧
      ∃ qs : Nat → RArr, qs n = s.p ∧ Spec.Sweep func n s.xi n qs ∧
        2 * |func (qs 0) - s.fret| ≤ ftol * (|func (qs 0)| + |s.fret|) := by
  unfold powell
  dsimp only
  rcases forRet_inv (n := 200) (body := powPass fuel func n junk ftol)
    (s := ⟨p, xi, upLoop 1 (n + 1) (fun j a => aset a j (p j)) junk, func p⟩) (fun _ s => PowInv func n p s)
    (fun iter r => r = .abort ∨ ∃ s, r = .ok (s, iter) ∧ s.fret = func s.p ∧ s.fret ≤ func p ∧
      (∀ j, ¬ (1 ≤ j ∧ j ≤ n) → s.p j = p j) ∧
      ∃ qs : Nat → RArr, qs n = s.p ∧ Spec.Sweep func n s.xi n qs ∧
        2 * |func (qs 0) - s.fret| ≤ ftol * (|func (qs 0)| + |s.fret|))
    ⟨rfl, le_rfl, fun _ _ => rfl⟩
    (by
      intro iter s r _ _ hs hr
      rcases C148_pass hd fuel junk ftol iter hs with h | ⟨qs, h0, hS, ⟨h, hc⟩ | ⟨s', h, _⟩⟩
      · rw [h] at hr; cases hr; exact Or.inl rfl
      · rw [h] at hr
        cases hr
        refine Or.inr ⟨_, rfl, rfl, ?_, fun j hj => ?_, qs, rfl, hS, hc⟩
        · have := sweep_mono hS n le_rfl
          rw [h0, ← hs.1] at this
          exact this.trans hs.2.1
        · exact (sweep_outside hS hj n le_rfl).trans (by rw [h0]; exact hs.2.2 j hj)
      · rw [h] at hr; cases hr)
    (by
      intro iter s s' _ _ hs hr
      rcases C148_pass hd fuel junk ftol iter hs with h | ⟨qs, h0, hS, ⟨h, hc⟩ | ⟨s2, h, _, _, hI, _⟩⟩
      · rw [h] at hr; cases hr
      · rw [h] at hr; cases hr
      · rw [h] at hr; cases hr; exact hI)
    with ⟨r, iter, h1, h2, hr, h | ⟨s, hs, h⟩⟩ | ⟨s, hs, _⟩
  · left; rw [hr, h]
  · right; rw [hr, hs]; exact ⟨s, iter, rfl, h1, h2, h⟩
  · left; rw [hs]

end Sgrid
