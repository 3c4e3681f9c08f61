import Mathlib.Algebra.Order.Field.Rat
import Verif.Model.Minimize
import Verif.Props.RootFind

/-!
# C86, C87: minimisation in one dimension
-/

namespace Sgrid

open Set

namespace Spec

/-- `f` falls strictly up to `z` and rises strictly after `z`, between `A` and `B`. -/
def Valley (f : ℝ → ℝ) (A z B : ℝ) : Prop :=
  A ≤ z ∧ z ≤ B ∧ StrictAntiOn f (Icc A z) ∧ StrictMonoOn f (Icc z B)

end Spec

theorem forRet_congr_inv {σ ρ : Type} {n : Nat} {body body' : Nat → σ → ρ ⊕ σ} {s : σ}
    (P : Nat → σ → Prop) (h0 : P 1 s)
    (hb : ∀ j s, 1 ≤ j → j ≤ n → P j s → body j s = body' j s)
    (hs : ∀ j s s', 1 ≤ j → j ≤ n → P j s → body j s = .inr s' → P (j + 1) s') :
    forRet n body s = forRet n body' s := by
  unfold forRet
  have key : ∀ m, m ≤ n → (∀ t, upLoop 1 (m + 1) (fun j r => match r with
      | .inl x => .inl x
      | .inr s => body j s) (.inr s) = (.inr t : ρ ⊕ σ) → P (m + 1) t) ∧
      upLoop 1 (m + 1) (fun j r => match r with
      | .inl x => .inl x
      | .inr s => body j s) (.inr s : ρ ⊕ σ) = upLoop 1 (m + 1) (fun j r => match r with
      | .inl x => .inl x
      | .inr s => body' j s) (.inr s : ρ ⊕ σ) := by
    intro m
    induction m with
    | zero =>
      intro _
      rw [upLoop_nil (by omega), upLoop_nil (by omega)]
      exact ⟨fun t ht => by cases ht; exact h0, rfl⟩
    | succ m ih =>
      intro hm
      obtain ⟨ih1, ih2⟩ := ih (by omega)
      rw [upLoop_succ (show 1 ≤ m + 1 by omega), upLoop_succ (show 1 ≤ m + 1 by omega), ← ih2]
      generalize upLoop 1 (m + 1) (fun j r => match r with
        | .inl x => .inl x
        | .inr s => body j s) (.inr s : ρ ⊕ σ) = r at ih1
      rcases r with x | t
      · refine ⟨fun t ht => ?_, rfl⟩
        cases ht
      · dsimp only
        have hP := ih1 t rfl
        rw [← hb (m + 1) t (by omega) (by omega) hP]
        exact ⟨fun t' ht' => hs (m + 1) t t' (by omega) (by omega) hP ht', rfl⟩
  exact (key n le_rfl).2

/-! ### The minimum in a bracket -/

structure MinInv (f : ℝ → ℝ) (A B bx : ℝ) (s : MinState ℝ) : Prop where
  a : A ≤ s.a
  b : s.b ≤ B
  ax : s.a ≤ s.x
  xb : s.x ≤ s.b
  fx : s.fx = f s.x
  le : f s.x ≤ f bx
  z : ∀ z, Spec.Valley f A z B → s.a ≤ z ∧ z ≤ s.b

/-- The side of `x` that is chosen is longer than twice the tolerance. -/
theorem min_long {a b x t : ℝ} (h : 2 * t - 1 / 2 * (b - a) < |x - 1 / 2 * (a + b)|) :
    (x ≥ 1 / 2 * (a + b) → 2 * t < x - a) ∧ (¬ x ≥ 1 / 2 * (a + b) → 2 * t < b - x) := by
  constructor
  · intro h1
    rw [abs_of_nonneg (by linarith)] at h
    linarith
  · intro h1
    push Not at h1
    rw [abs_of_neg (by linarith)] at h
    linarith

theorem withSignOf_abs {a b : ℝ} : |withSignOf a b| = |a| := by
  unfold withSignOf
  split
  · exact abs_abs a
  · rw [abs_neg, abs_abs]

theorem minTry_mem {a b x t u : ℝ} {s : MinState ℝ} {ed : ℝ × ℝ} (ha : s.a = a) (hb : s.b = b)
    (hx : s.x = x) (ht : 0 < t) (hax : a ≤ x) (hxb : x ≤ b)
    (hstop : 2 * t - 1 / 2 * (b - a) < |x - 1 / 2 * (a + b)|)
    (h : minTry (1 / 2 * (a + b)) t (2 * t) s = some ed)
    (hu : u = if |ed.2| ≥ t then x + ed.2 else x + withSignOf t ed.2) :
    a ≤ u ∧ u ≤ b ∧ u ≠ x := by
  obtain ⟨hl1, hl2⟩ := min_long hstop
  -- a step in the direction of the longer side
  have side : ∀ d : ℝ, (x ≥ 1 / 2 * (a + b) → a - x ≤ d ∧ d < 0) →
      (¬ x ≥ 1 / 2 * (a + b) → 0 < d ∧ d ≤ b - x) →
      a ≤ (if |d| ≥ t then x + d else x + withSignOf t d) ∧
      (if |d| ≥ t then x + d else x + withSignOf t d) ≤ b ∧
      (if |d| ≥ t then x + d else x + withSignOf t d) ≠ x := by
    intro d h1 h2
    by_cases hxm : x ≥ 1 / 2 * (a + b)
    · have h3 := h1 hxm
      have h4 := hl1 hxm
      split
      · exact ⟨by linarith, by linarith, by linarith⟩
      · unfold withSignOf
        rw [if_neg (by linarith), abs_of_pos ht]
        exact ⟨by linarith, by linarith, by linarith⟩
    · have h3 := h2 hxm
      have h4 := hl2 hxm
      split
      · exact ⟨by linarith, by linarith, by linarith⟩
      · unfold withSignOf
        rw [if_pos (by linarith), abs_of_pos ht]
        exact ⟨by linarith, by linarith, by linarith⟩
  have gold : ed = minGolden (1 / 2 * (a + b)) s → a ≤ u ∧ u ≤ b ∧ u ≠ x := by
    intro he
    rw [hu, he]
    unfold minGolden
    dsimp only
    rw [ha, hb, hx]
    apply side
    · intro h1
      rw [if_pos h1]
      have := hl1 h1
      constructor <;> linarith
    · intro h1
      rw [if_neg h1]
      have := hl2 h1
      constructor <;> linarith
  unfold minTry at h
  dsimp only at h
  split at h
  · rename_i he
    split at h
    · cases h
    · rename_i d0 hd0
      split at h
      · exact gold (Option.some.inj h).symm
      · rename_i hpar
        push Not at hpar
        obtain ⟨hp, hlo, hhi⟩ := hpar
        have hq : 0 < (minParabola s).2 := by
          have h0 : 0 ≤ (minParabola s).2 := by unfold minParabola; exact abs_nonneg _
          rcases h0.lt_or_eq with h1 | h1
          · exact h1
          · rw [← h1] at hp
            simp only [mul_zero, zero_mul, abs_zero] at hp
            exact absurd hp (not_lt.mpr (abs_nonneg _))
        have hed : ed.2 = if s.x + (minParabola s).1 / (minParabola s).2 - s.a < 2 * t ∨
            s.b - (s.x + (minParabola s).1 / (minParabola s).2) < 2 * t then
            withSignOf t (1 / 2 * (a + b) - s.x) else (minParabola s).1 / (minParabola s).2 := by
          rw [← Option.some.inj h]
        rw [ha, hb, hx] at hed
        rw [ha, hx] at hlo
        rw [hb, hx] at hhi
        have hlo' : a - x < (minParabola s).1 / (minParabola s).2 := by
          rw [lt_div_iff₀ hq]; linarith
        have hhi' : (minParabola s).1 / (minParabola s).2 < b - x := by
          rw [div_lt_iff₀ hq]; linarith
        generalize (minParabola s).1 / (minParabola s).2 = d at *
        split at hed
        · -- close to the ends
          have habs : |ed.2| = t := by rw [hed, withSignOf_abs, abs_of_pos ht]
          rw [if_pos (by rw [habs])] at hu
          rw [hu, hed]
          unfold withSignOf
          rw [abs_of_pos ht]
          by_cases hxm : x ≥ 1 / 2 * (a + b)
          · have := hl1 hxm
            split
            · exact ⟨by linarith, by linarith, by linarith⟩
            · exact ⟨by linarith, by linarith, by linarith⟩
          · have := hl2 hxm
            rw [if_pos (by linarith)]
            exact ⟨by linarith, by linarith, by linarith⟩
        · rename_i hends
          push Not at hends
          rw [hu, hed]
          split
          · rename_i hbig
            refine ⟨by linarith, by linarith, ?_⟩
            intro h0
            have : d = 0 := by linarith
            rw [this, abs_zero] at hbig
            linarith
          · unfold withSignOf
            rw [abs_of_pos ht]
            split
            · exact ⟨by linarith, by linarith, by linarith⟩
            · exact ⟨by linarith, by linarith, by linarith⟩
  · exact gold (Option.some.inj h).symm

theorem minKeep_x {u fu : ℝ} {s : MinState ℝ} :
    (minKeep u fu s).x = s.x ∨ (minKeep u fu s).x = u := by
  unfold minKeep
  dsimp only
  repeat' split
  all_goals simp

theorem minKeep_inv {f : ℝ → ℝ} {A B bx u : ℝ} {s : MinState ℝ} (h : MinInv f A B bx s)
    (h1 : s.a ≤ u) (h2 : u ≤ s.b) (h3 : u ≠ s.x) : MinInv f A B bx (minKeep u (f u) s) := by
  have hx := h.ax
  have hb := h.xb
  have hA := h.a
  have hB := h.b
  have hle := h.le
  unfold minKeep
  by_cases hf : f u ≤ s.fx
  · rw [if_pos hf]
    rw [h.fx] at hf
    by_cases hu : u ≥ s.x
    · rw [if_pos hu]
      have hlt : s.x < u := lt_of_le_of_ne hu (Ne.symm h3)
      refine ⟨by dsimp only; linarith, h.b, hu, h2, rfl, by dsimp only; linarith, ?_⟩
      intro z hz
      refine ⟨?_, (h.z z hz).2⟩
      by_contra hn
      push Not at hn
      dsimp only at hn
      have := hz.2.2.2 ⟨hn.le, by linarith⟩ ⟨by linarith, by linarith⟩ hlt
      linarith
    · rw [if_neg hu]
      push Not at hu
      refine ⟨h.a, by dsimp only; linarith, h1, hu.le, rfl, by dsimp only; linarith, ?_⟩
      intro z hz
      refine ⟨(h.z z hz).1, ?_⟩
      by_contra hn
      push Not at hn
      dsimp only at hn
      have := hz.2.2.1 ⟨by linarith, by linarith⟩ ⟨by linarith, hn.le⟩ hu
      linarith
  · rw [if_neg hf]
    rw [h.fx] at hf
    push Not at hf
    have hmain : MinInv f A B bx (if u < s.x then { s with a := u } else { s with b := u }) := by
      split
      · rename_i hu
        refine ⟨by dsimp only; linarith, h.b, hu.le, h.xb, h.fx, h.le, ?_⟩
        intro z hz
        refine ⟨?_, (h.z z hz).2⟩
        by_contra hn
        push Not at hn
        dsimp only at hn
        have := hz.2.2.2 ⟨hn.le, by linarith⟩ ⟨by linarith, by linarith⟩ hu
        linarith
      · rename_i hu
        push Not at hu
        have hlt : s.x < u := lt_of_le_of_ne hu (Ne.symm h3)
        refine ⟨h.a, by dsimp only; linarith, h.ax, hu, h.fx, h.le, ?_⟩
        intro z hz
        refine ⟨(h.z z hz).1, ?_⟩
        by_contra hn
        push Not at hn
        dsimp only at hn
        have := hz.2.2.1 ⟨by linarith, by linarith⟩ ⟨by linarith, hn.le⟩ hlt
        linarith
    generalize (if u < s.x then { s with a := u } else { s with b := u } : MinState ℝ) = t at hmain
    dsimp only
    split
    · exact ⟨hmain.a, hmain.b, hmain.ax, hmain.xb, hmain.fx, hmain.le, hmain.z⟩
    · split
      · exact ⟨hmain.a, hmain.b, hmain.ax, hmain.xb, hmain.fx, hmain.le, hmain.z⟩
      · exact hmain

theorem MinInv.junk {f : ℝ → ℝ} {A B bx : ℝ} {s : MinState ℝ} (h : MinInv f A B bx s) (d : Option ℝ) :
    MinInv f A B bx { s with d := d } := ⟨h.a, h.b, h.ax, h.xb, h.fx, h.le, h.z⟩

/-- What one pass does. -/
theorem minPass_cases {f : ℝ → ℝ} {A B bx tol : ℝ} (htol : 0 ≤ tol) {j : Nat} {s : MinState ℝ}
    (h : MinInv f A B bx s) :
    (minPass f tol j s = .inl (.ok (j, s.x, f s.x)) ∧
      ∀ z, Spec.Valley f A z B → |s.x - z| ≤ 2 * (tol * |s.x| + 1 / 10 ^ 10)) ∨
    (minPass f tol j s = .inl .ub ∧ s.d = none ∧ tol * |s.x| + 1 / 10 ^ 10 < |s.e|) ∨
    ∃ u, u ∈ Icc A B ∧
      (∀ g : ℝ → ℝ, g u = f u → minPass g tol j s = minPass f tol j s) ∧
      ∃ s', minPass f tol j s = .inr s' ∧ s'.d ≠ none ∧ MinInv f A B bx s' ∧
        (¬ |s.e| > tol * |s.x| + 1 / 10 ^ 10 → 2 * (tol * |s.x| + 1 / 10 ^ 10) < |s'.e| ∧
          |s'.x - s.x| ≤ 1 / 2 * |s'.e|) := by
  have ht : 0 < tol * |s.x| + 1 / 10 ^ 10 := by positivity
  unfold minPass
  dsimp only
  generalize hT : tol * |s.x| + 1 / 10 ^ 10 = T at *
  by_cases hstop : |s.x - 1 / 2 * (s.a + s.b)| ≤ 2 * T - 1 / 2 * (s.b - s.a)
  · left
    rw [if_pos hstop]
    refine ⟨by rw [h.fx], ?_⟩
    intro z hz
    obtain ⟨hz1, hz2⟩ := h.z z hz
    rw [abs_le] at hstop ⊢
    constructor <;> linarith
  · right
    rw [if_neg hstop]
    push Not at hstop
    cases htry : minTry (1 / 2 * (s.a + s.b)) T (2 * T) s with
    | none =>
      left
      refine ⟨rfl, ?_⟩
      unfold minTry at htry
      split at htry
      · rename_i he
        refine ⟨?_, he⟩
        dsimp only at htry
        split at htry
        · assumption
        · split at htry <;> cases htry
      · cases htry
    | some ed =>
      right
      dsimp only
      obtain ⟨hu1, hu2, hu3⟩ := minTry_mem rfl rfl rfl ht h.ax h.xb hstop htry rfl
      have hk := minKeep_inv h hu1 hu2 hu3
      have hxx := minKeep_x (u := if |ed.2| ≥ T then s.x + ed.2 else s.x + withSignOf T ed.2)
        (fu := f (if |ed.2| ≥ T then s.x + ed.2 else s.x + withSignOf T ed.2)) (s := s)
      refine ⟨if |ed.2| ≥ T then s.x + ed.2 else s.x + withSignOf T ed.2,
        ⟨h.a.trans hu1, hu2.trans h.b⟩, ?_, _, rfl, by dsimp only; simp,
        ⟨hk.a, hk.b, hk.ax, hk.xb, hk.fx, hk.le, hk.z⟩, ?_⟩
      · intro g hg
        rw [if_neg (not_le.mpr hstop), hg]
      · intro hsmall
        have hed : ed = minGolden (1 / 2 * (s.a + s.b)) s := by
          unfold minTry at htry
          rw [if_neg hsmall] at htry
          exact (Option.some.inj htry).symm
        obtain ⟨hl1, hl2⟩ := min_long hstop
        have hlong : 2 * T < |ed.1| ∧ ed.2 = 381966 / 1000000 * ed.1 := by
          rw [hed]
          unfold minGolden
          dsimp only
          refine ⟨?_, rfl⟩
          split
          · rename_i h1
            rw [abs_sub_comm]
            exact lt_of_lt_of_le (hl1 h1) (le_abs_self _)
          · rename_i h1
            exact lt_of_lt_of_le (hl2 h1) (le_abs_self _)
        dsimp only
        refine ⟨hlong.1, ?_⟩
        have hstep : |(if |ed.2| ≥ T then s.x + ed.2 else s.x + withSignOf T ed.2) - s.x| ≤
            1 / 2 * |ed.1| := by
          split
          · rw [add_sub_cancel_left, hlong.2, abs_mul, abs_of_pos (by norm_num : (0 : ℝ) < 381966 / 1000000)]
            have := abs_nonneg ed.1
            linarith
          · rw [add_sub_cancel_left, withSignOf_abs, abs_of_pos ht]
            linarith
        rcases hxx with hxx | hxx
        · rw [hxx, sub_self, abs_zero]
          positivity
        · rw [hxx]; exact hstep

theorem minInit_inv {f : ℝ → ℝ} {ax bx cx : ℝ} (h : bx ∈ uIcc ax cx) :
    MinInv f (min ax cx) (max ax cx) bx (minInit f ax bx cx) := by
  have ha : (minInit f ax bx cx).a = min ax cx := by
    unfold minInit
    dsimp only
    split
    · rw [min_eq_left (by linarith)]
    · rw [min_eq_right (by linarith)]
  have hb : (minInit f ax bx cx).b = max ax cx := by
    unfold minInit
    dsimp only
    split
    · rw [max_eq_left (by linarith)]
    · rw [max_eq_right (by linarith)]
  refine ⟨ha.ge, hb.le, ?_, ?_, rfl, le_rfl, fun z hz => ?_⟩
  · rw [ha]; exact h.1
  · rw [hb]; exact h.2
  · rw [ha, hb]; exact ⟨hz.1, hz.2.1⟩

/-- **C86** (`brent_with_pointer_to_pars`). The function ends the program after 100 passes, or it returns a
point of the bracket and the value there, which is not larger than the value at the starting point. If the
function has a single valley in the bracket, the point is as close to its bottom as the tolerance says. No
variable is read before it is set. -/
theorem C86_brent (f : ℝ → ℝ) (ax bx cx tol : ℝ) (htol : 0 ≤ tol) (hb : bx ∈ uIcc ax cx) :
    brentMin f ax bx cx tol = .abort ∨
    ∃ (j : Nat) (x : ℝ), brentMin f ax bx cx tol = .ok (j, x, f x) ∧ 1 ≤ j ∧ j ≤ 100 ∧
      x ∈ uIcc ax cx ∧ f x ≤ f bx ∧
      ∀ z, Spec.Valley f (min ax cx) z (max ax cx) → |x - z| ≤ 2 * (tol * |x| + 1 / 10 ^ 10) := by
  unfold brentMin
  refine (forRet_inv (n := 100) (body := minPass f tol) (s := minInit f ax bx cx)
    (fun j s => MinInv f (min ax cx) (max ax cx) bx s ∧ (j = 1 ∧ s.e = 0 ∨ s.d ≠ none))
    (fun j r => ∃ x, r = .ok (j, x, f x) ∧ x ∈ uIcc ax cx ∧ f x ≤ f bx ∧
      ∀ z, Spec.Valley f (min ax cx) z (max ax cx) → |x - z| ≤ 2 * (tol * |x| + 1 / 10 ^ 10))
    ⟨minInit_inv hb, Or.inl ⟨rfl, rfl⟩⟩ ?_ ?_).elim ?_ ?_
  · rintro j s r _ _ ⟨hI, hd⟩ hr
    rcases minPass_cases htol (j := j) hI with ⟨h1, h2⟩ | ⟨_, h1, h2⟩ | ⟨u, _, _, s', h1, _⟩
    · rw [h1] at hr
      cases hr
      exact ⟨s.x, rfl, ⟨hI.a.trans hI.ax, hI.xb.trans hI.b⟩, hI.le, h2⟩
    · rcases hd with ⟨_, hd⟩ | hd
      · rw [hd, abs_zero] at h2
        have : 0 < tol * |s.x| + 1 / 10 ^ 10 := by positivity
        linarith
      · exact absurd h1 hd
    · rw [h1] at hr; cases hr
  · rintro j s t _ _ ⟨hI, hd⟩ hr
    rcases minPass_cases htol (j := j) hI with ⟨h1, h2⟩ | ⟨h1, _⟩ | ⟨u, _, _, s', h1, h2, h3, _⟩
    · rw [h1] at hr; cases hr
    · rw [h1] at hr; cases hr
    · rw [h1] at hr
      cases hr
      exact ⟨h3, Or.inr h2⟩
  · rintro ⟨r, j, h1, h2, hr, x, rfl, hx⟩
    rw [hr]
    exact Or.inr ⟨j, x, rfl, h1, h2, hx⟩
  · rintro ⟨s, hs, _⟩
    rw [hs]
    exact Or.inl rfl

/-- **C86** (only points of the bracket are used): functions that agree in the bracket give the same
result. -/
theorem C86_brent_inside (f g : ℝ → ℝ) (ax bx cx tol : ℝ) (htol : 0 ≤ tol) (hb : bx ∈ uIcc ax cx)
    (hfg : ∀ x ∈ uIcc ax cx, g x = f x) : brentMin g ax bx cx tol = brentMin f ax bx cx tol := by
  unfold brentMin
  have hinit : minInit g ax bx cx = minInit f ax bx cx := by
    unfold minInit
    rw [hfg bx hb]
  rw [hinit]
  congr 1
  symm
  refine forRet_congr_inv (fun _ s => MinInv f (min ax cx) (max ax cx) bx s) (minInit_inv hb) ?_ ?_
  · intro j s _ _ hI
    rcases minPass_cases htol (j := j) hI with ⟨h1, _⟩ | ⟨h1, _⟩ | ⟨u, hu, h1, _⟩
    · unfold minPass at h1 ⊢
      dsimp only at h1 ⊢
      split
      · rfl
      · rename_i hn
        rw [if_neg hn] at h1
        revert h1
        split <;> intro h1 <;> cases h1
    · unfold minPass at h1 ⊢
      dsimp only at h1 ⊢
      split
      · rfl
      · rename_i hn
        rw [if_neg hn] at h1
        revert h1
        split
        · intro _; rfl
        · intro h1; cases h1
    · exact (h1 g (hfg u hu)).symm
  · intro j s t _ _ hI hr
    rcases minPass_cases htol (j := j) hI with ⟨h1, h2⟩ | ⟨h1, _⟩ | ⟨u, _, _, s', h1, h2, h3, _⟩
    · rw [h1] at hr; cases hr
    · rw [h1] at hr; cases hr
    · rw [h1] at hr
      cases hr
      exact h3

/-- **C86** (`minbrent_brak`, the full statement of `C86_brent` fails for it). `d` is read before it is set
in the second pass, if the second pass does not return: the behaviour is undefined unless the function
returns in the first two passes. -/
theorem C86_minbrent_undefined (f : ℝ → ℝ) (ax bx cx tol : ℝ) (maxits : Nat) (htol : 0 ≤ tol)
    (htol1 : tol ≤ 1) (hb : bx ∈ uIcc ax cx) (hm : 2 ≤ maxits) :
    minbrent (fun _ => none) f ax bx cx maxits tol = .ub ∨
    ∃ (j : Nat) (x : ℝ), minbrent (fun _ => none) f ax bx cx maxits tol = .ok (j, x, f x) ∧
      1 ≤ j ∧ j ≤ 2 := by
  unfold minbrent
  refine (forRet_inv (n := maxits) (body := fun j s => minPass f tol j { s with d := none })
    (s := minInit f ax bx cx)
    (fun j s => MinInv f (min ax cx) (max ax cx) bx s ∧
      (j = 1 ∧ s.e = 0 ∨ j = 2 ∧ tol * |s.x| + 1 / 10 ^ 10 < |s.e|))
    (fun j r => r = .ub ∨ j ≤ 2 ∧ ∃ x, r = .ok (j, x, f x))
    ⟨minInit_inv hb, Or.inl ⟨rfl, rfl⟩⟩ ?_ ?_).elim ?_ ?_
  · rintro j s r _ _ ⟨hI, hd⟩ hr
    rcases minPass_cases htol (j := j) (hI.junk none) with ⟨h1, h2⟩ | ⟨h1, _⟩ | ⟨u, _, _, s', h1, _⟩
    · rw [h1] at hr
      cases hr
      exact Or.inr ⟨by omega, _, rfl⟩
    · rw [h1] at hr
      cases hr
      exact Or.inl rfl
    · rw [h1] at hr; cases hr
  · rintro j s t _ _ ⟨hI, hd⟩ hr
    rcases minPass_cases htol (j := j) (hI.junk none) with
      ⟨h1, h2⟩ | ⟨h1, _⟩ | ⟨u, _, _, s', h1, h2, h3, h4⟩
    · rw [h1] at hr; cases hr
    · rw [h1] at hr; cases hr
    · have hs' : s' = t := by rw [h1] at hr; cases hr; rfl
      subst hs'
      refine ⟨h3, Or.inr ?_⟩
      rcases hd with ⟨hj, he⟩ | ⟨hj, he⟩
      · have hT : 0 < tol * |s.x| + 1 / 10 ^ 10 := by positivity
        obtain ⟨h5, h6⟩ := h4 (by dsimp only; rw [he, abs_zero]; linarith)
        dsimp only at h5 h6
        refine ⟨by omega, ?_⟩
        have h7 : |s'.x| ≤ |s.x| + 1 / 2 * |s'.e| := by
          have := abs_sub_abs_le_abs_sub s'.x s.x
          linarith
        have h8 : tol * |s'.x| ≤ tol * |s.x| + tol * (1 / 2 * |s'.e|) := by
          rw [← mul_add]
          exact mul_le_mul_of_nonneg_left h7 htol
        have h9 : tol * (1 / 2 * |s'.e|) ≤ 1 / 2 * |s'.e| := by
          have : 0 ≤ 1 / 2 * |s'.e| := by positivity
          nlinarith
        linarith
      · exfalso
        have hub : minPass f tol j { s with d := none } = .inl .ub ∨
            ∃ r, minPass f tol j { s with d := none } = .inl r := by
          unfold minPass
          dsimp only
          split
          · exact Or.inr ⟨_, rfl⟩
          · left
            have : minTry (1 / 2 * (s.a + s.b)) (tol * |s.x| + 1 / 10 ^ 10)
                (2 * (tol * |s.x| + 1 / 10 ^ 10)) { s with d := none } = none := by
              unfold minTry
              rw [if_pos he]
            rw [this]
        rcases hub with hub | ⟨r, hub⟩
        · rw [h1] at hub; cases hub
        · rw [h1] at hub; cases hub
  · rintro ⟨r, j, h1, h2, hr, rfl | ⟨hj, x, rfl⟩⟩
    · rw [hr]
      exact Or.inl rfl
    · rw [hr]
      exact Or.inr ⟨j, x, rfl, h1, hj⟩
  · rintro ⟨s, hs, _, ⟨h1, _⟩ | ⟨h1, _⟩⟩ <;> omega

/-- **C86** (`minbrent_brak`, missing: the code reads an uninitialised variable). If reading `d` gives some
numbers, whatever they are, the result is a point of the bracket, with the same properties as above. -/
theorem C86_minbrent_partial (junk : Nat → ℝ) (f : ℝ → ℝ) (ax bx cx tol : ℝ) (maxits : Nat)
    (htol : 0 ≤ tol) (hb : bx ∈ uIcc ax cx) :
    ∃ (j : Nat) (x : ℝ), minbrent (fun j => some (junk j)) f ax bx cx maxits tol = .ok (j, x, f x) ∧
      1 ≤ j ∧ j ≤ maxits + 1 ∧ x ∈ uIcc ax cx ∧ f x ≤ f bx ∧
      (j ≤ maxits → ∀ z, Spec.Valley f (min ax cx) z (max ax cx) →
        |x - z| ≤ 2 * (tol * |x| + 1 / 10 ^ 10)) := by
  unfold minbrent
  refine (forRet_inv (n := maxits) (body := fun j s => minPass f tol j { s with d := some (junk j) })
    (s := minInit f ax bx cx)
    (fun _ s => MinInv f (min ax cx) (max ax cx) bx s)
    (fun j r => ∃ x, r = .ok (j, x, f x) ∧ x ∈ uIcc ax cx ∧ f x ≤ f bx ∧
      ∀ z, Spec.Valley f (min ax cx) z (max ax cx) → |x - z| ≤ 2 * (tol * |x| + 1 / 10 ^ 10))
    (minInit_inv hb) ?_ ?_).elim ?_ ?_
  · rintro j s r _ _ hI hr
    rcases minPass_cases htol (j := j) (hI.junk (some (junk j))) with
      ⟨h1, h2⟩ | ⟨_, h1, _⟩ | ⟨u, _, _, s', h1, _⟩
    · rw [h1] at hr
      cases hr
      exact ⟨s.x, rfl, ⟨hI.a.trans hI.ax, hI.xb.trans hI.b⟩, hI.le, h2⟩
    · cases h1
    · rw [h1] at hr; cases hr
  · rintro j s t _ _ hI hr
    rcases minPass_cases htol (j := j) (hI.junk (some (junk j))) with
      ⟨h1, h2⟩ | ⟨h1, _⟩ | ⟨u, _, _, s', h1, h2, h3, _⟩
    · rw [h1] at hr; cases hr
    · rw [h1] at hr; cases hr
    · rw [h1] at hr
      cases hr
      exact h3
  · rintro ⟨r, j, h1, h2, hr, x, rfl, hx1, hx2, hx3⟩
    rw [hr]
    exact ⟨j, x, rfl, h1, by omega, hx1, hx2, fun _ => hx3⟩
  · rintro ⟨s, hs, hI⟩
    rw [hs]
    refine ⟨maxits + 1, s.x, ?_, by omega, le_rfl, ⟨hI.a.trans hI.ax, hI.xb.trans hI.b⟩, hI.le,
      fun h => absurd h (by omega)⟩
    dsimp only
    rw [hI.fx]
    push_cast
    rfl

/-- A parabola between -1 and 2: the third pass would be needed. -/
theorem C86_minbrent_counterexample :
    minbrent (fun _ => none) (fun x : ℚ => x * x) (-1) (1 / 2) 2 100 (1 / 100) = .ub := by
  decide +kernel

example : brentMin (fun x : ℚ => x * x) (-1) (1 / 2) 2 (1 / 100) = .ok (6, 0, 0) := by
  decide +kernel

/-! ### Brackets of a minimum -/

structure TriInv (f : ℝ → ℝ) (s : Tri ℝ) : Prop where
  fa : s.fa = f s.a
  fb : s.fb = f s.b
  fc : s.fc = f s.c
  ba : s.fb ≤ s.fa
  bet : 0 < (s.b - s.a) * (s.c - s.b)

theorem bet_beyond {a b : ℝ} (h : a ≠ b) {k : ℝ} (hk : 0 < k) : 0 < (b - a) * (b + k * (b - a) - b) := by
  have : (b - a) * (b + k * (b - a) - b) = k * (b - a) ^ 2 := by ring
  rw [this]
  exact mul_pos hk (pow_pos_of_ne (sub_ne_zero.mpr (Ne.symm h)))
where
  pow_pos_of_ne {x : ℝ} (hx : x ≠ 0) : 0 < x ^ 2 := by positivity

theorem triNext_inv {f : ℝ → ℝ} {s : Tri ℝ} (h : TriInv f s) (hc : s.fc ≤ s.fb) {u : ℝ}
    (hu : 0 < (s.c - s.b) * (u - s.c)) : TriInv f ⟨s.b, s.c, u, s.fb, s.fc, f u⟩ :=
  ⟨h.fb, h.fc, rfl, hc, hu⟩

theorem triStep_cases {f : ℝ → ℝ} {j : Nat} {s : Tri ℝ} (h : TriInv f s) :
    (∃ s', triStep f j s = .inl (j, s') ∧ TriInv f s' ∧ s'.fb ≤ s'.fc) ∨
    ∃ s', triStep f j s = .inr s' ∧ TriInv f s' := by
  have hbc : s.b ≠ s.c := by
    intro he
    have := h.bet
    rw [he, sub_self, mul_zero] at this
    exact lt_irrefl _ this
  have hba : s.a ≠ s.b := by
    intro he
    have := h.bet
    rw [he, sub_self, zero_mul] at this
    exact lt_irrefl _ this
  unfold triStep
  by_cases h0 : s.fb ≤ s.fc
  · left
    rw [if_pos h0]
    exact ⟨s, rfl, h, h0⟩
  rw [if_neg h0]
  push Not at h0
  dsimp only
  generalize triParabola s = u
  by_cases h1 : (s.b - u) * (u - s.c) > 0
  · rw [if_pos h1]
    have hpos : 0 < (s.b - s.a) * (u - s.b) ∧ 0 < (u - s.b) * (s.c - u) := by
      have h2 := h.bet
      rcases mul_pos_iff.mp h1 with ⟨h3, h4⟩ | ⟨h3, h4⟩
      · rcases mul_pos_iff.mp h2 with ⟨h5, h6⟩ | ⟨h5, h6⟩
        · linarith
        · exact ⟨mul_pos_of_neg_of_neg h5 (by linarith), mul_pos_of_neg_of_neg (by linarith) (by linarith)⟩
      · rcases mul_pos_iff.mp h2 with ⟨h5, h6⟩ | ⟨h5, h6⟩
        · exact ⟨mul_pos h5 (by linarith), mul_pos (by linarith) (by linarith)⟩
        · linarith
    split
    · rename_i h2
      left
      exact ⟨_, rfl, ⟨h.fb, rfl, h.fc, by dsimp only; linarith, hpos.2⟩, h2.le⟩
    · split
      · rename_i h2
        left
        exact ⟨_, rfl, ⟨h.fa, h.fb, rfl, h.ba, hpos.1⟩, h2.le⟩
      · right
        exact ⟨_, rfl, triNext_inv h h0.le (bet_beyond hbc (by norm_num))⟩
  · rw [if_neg h1]
    split
    · rename_i h2
      have hu : 0 < (s.c - s.b) * (u - s.c) := by
        rcases mul_pos_iff.mp h2 with ⟨h3, h4⟩ | ⟨h3, h4⟩
        · exact mul_pos_of_neg_of_neg (by linarith) (by linarith)
        · exact mul_pos (by linarith) (by linarith)
      split
      · rename_i h3
        right
        refine ⟨_, rfl, ?_⟩
        have hcu : s.c ≠ u := by
          intro he
          rw [he, sub_self, mul_zero] at hu
          exact lt_irrefl _ hu
        exact ⟨h.fc, rfl, rfl, h3.le, bet_beyond hcu (by norm_num)⟩
      · right
        exact ⟨_, rfl, triNext_inv h h0.le hu⟩
    · split
      · right
        refine ⟨_, rfl, triNext_inv h h0.le ?_⟩
        have : (s.c - s.b) * (s.b + 100 * (s.c - s.b) - s.c) = 99 * (s.c - s.b) ^ 2 := by ring
        rw [this]
        have : s.c - s.b ≠ 0 := sub_ne_zero.mpr (Ne.symm hbc)
        positivity
      · right
        exact ⟨_, rfl, triNext_inv h h0.le (bet_beyond hbc (by norm_num))⟩

/-- **C87** (`min_brak`, `mnbrak_with_pointer_to_pars`). For different starting points a return value within
the limit means that the middle point is strictly between the others and that the value there is not larger
than the values at the others; in every case the values returned are those of the function, and the middle
value is not larger than the values at the starting points. -/
theorem C87_min_brak (f : ℝ → ℝ) (ax bx : ℝ) (hab : ax ≠ bx) (maxits : Nat) :
    ∃ (j : Nat) (s : Tri ℝ), minBrak f ax bx maxits = ((j : Int), s) ∧ 1 ≤ j ∧ j ≤ maxits + 1 ∧
      s.fa = f s.a ∧ s.fb = f s.b ∧ s.fc = f s.c ∧ s.fb ≤ s.fa ∧ s.fb ≤ f ax ∧ s.fb ≤ f bx ∧
      ((s.a < s.b ∧ s.b < s.c) ∨ (s.c < s.b ∧ s.b < s.a)) ∧ (j ≤ maxits → s.fb ≤ s.fc) := by
  have hbet : ∀ {s : Tri ℝ}, TriInv f s → (s.a < s.b ∧ s.b < s.c) ∨ (s.c < s.b ∧ s.b < s.a) := by
    intro s h
    rcases mul_pos_iff.mp h.bet with ⟨h3, h4⟩ | ⟨h3, h4⟩
    · exact Or.inl ⟨by linarith, by linarith⟩
    · exact Or.inr ⟨by linarith, by linarith⟩
  have hinit : TriInv f (triInit f ax bx) ∧ (triInit f ax bx).fb ≤ f ax ∧ (triInit f ax bx).fb ≤ f bx := by
    unfold triInit
    dsimp only
    split
    · rename_i h
      exact ⟨⟨rfl, rfl, rfl, h.le, bet_beyond (Ne.symm hab) (by norm_num)⟩, le_rfl, h.le⟩
    · rename_i h
      exact ⟨⟨rfl, rfl, rfl, not_lt.mp h, bet_beyond hab (by norm_num)⟩, not_lt.mp h, le_rfl⟩
  have hmono : ∀ {j : Nat} {s : Tri ℝ}, TriInv f s →
      (∀ s', triStep f j s = .inl (j, s') → s'.fb ≤ s.fb) ∧
      (∀ s', triStep f j s = .inr s' → s'.fb ≤ s.fb) := by
    intro j s h
    unfold triStep
    dsimp only
    generalize triParabola s = u
    refine ⟨fun s' hs' => ?_, fun s' hs' => ?_⟩
    all_goals
      split at hs'
      · cases hs' <;> exact le_rfl
      · rename_i h0
        push Not at h0
        repeat' split at hs'
        all_goals first
          | (cases hs'; done)
          | (cases hs'; dsimp only; linarith)
  unfold minBrak
  refine (forRet_inv (n := maxits) (body := triStep f) (s := triInit f ax bx)
    (fun _ s => TriInv f s ∧ s.fb ≤ f ax ∧ s.fb ≤ f bx)
    (fun j r => ∃ s, r = ((j : Int), s) ∧ TriInv f s ∧ s.fb ≤ f ax ∧ s.fb ≤ f bx ∧ s.fb ≤ s.fc)
    hinit ?_ ?_).elim ?_ ?_
  · rintro j s r _ _ ⟨hI, h1, h2⟩ hr
    rcases triStep_cases (j := j) hI with ⟨s', h3, h4, h5⟩ | ⟨s', h3, _⟩
    · have h6 := (hmono hI).1 s' h3
      rw [h3] at hr
      cases hr
      exact ⟨s', rfl, h4, by linarith, by linarith, h5⟩
    · rw [h3] at hr; cases hr
  · rintro j s t _ _ ⟨hI, h1, h2⟩ hr
    rcases triStep_cases (j := j) hI with ⟨s', h3, _⟩ | ⟨s', h3, h4⟩
    · rw [h3] at hr; cases hr
    · have h6 := (hmono hI (j := j)).2 s' h3
      rw [h3] at hr
      cases hr
      exact ⟨h4, by linarith, by linarith⟩
  · rintro ⟨r, j, h1, h2, hr, s, rfl, hI, h3, h4, h5⟩
    rw [hr]
    exact ⟨j, s, rfl, h1, by omega, hI.fa, hI.fb, hI.fc, hI.ba, h3, h4, hbet hI, fun _ => h5⟩
  · rintro ⟨s, hs, hI, h3, h4⟩
    rw [hs]
    exact ⟨maxits + 1, s, by push_cast; rfl, by omega, le_rfl, hI.fa, hI.fb, hI.fc, hI.ba, h3, h4, hbet hI,
      fun h => absurd h (by omega)⟩

example : minBrak (fun x : ℚ => (x - 5) ^ 2) 0 1 100 =
    (2, ⟨2618034 / 1000000, 5, 5 + 1618034 / 1000000 * (5 - 2618034 / 1000000),
      (2618034 / 1000000 - 5) ^ 2, 0, (1618034 / 1000000 * (5 - 2618034 / 1000000)) ^ 2⟩) := by
  decide +kernel

example : withSignOf (3 : ℚ) 0 = 3 ∧ withSignOf (-3 : ℚ) (-2) = -3 := by decide +kernel

end Sgrid
