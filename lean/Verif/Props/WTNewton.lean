import Verif.Model.WTNewton
import Verif.Props.NewtonLine

/-!
C149: WT_newton (Model/WTNewton).
-/

namespace Sgrid

open Finset

theorem linePass_zero (n : Nat) (F : RArr → RArr) (xold p : RArr) (fold slope slope' : ℝ) :
    linePass n F xold p fold slope 0 = linePass n F xold p fold slope' 0 := by
  funext s
  unfold linePass
  dsimp only
  rw [if_pos (Or.inl rfl), if_pos (Or.inl rfl)]

/-- WT_linesrch is linesrchP for a gradient along the step. -/
theorem wtLinesrch_eq (fuel n : Nat) (F : RArr → RArr) (xold : RArr) (fold : ℝ) (p x : RArr) (stpmax : ℝ) :
    ∃ g : RArr, wtLinesrch fuel n F xold fold p x stpmax = linesrch fuel n F xold fold g p x stpmax ∧
      ((∃ i, i < n ∧ p i ≠ 0) → ∑ i ∈ range n, g i * p i = -2 * fold) := by
  by_cases hp : ∃ i, i < n ∧ p i ≠ 0
  · have hS : 0 < ∑ i ∈ range n, p i * p i := by
      obtain ⟨i, hi, h⟩ := hp
      have := single_le_sum (f := fun i => p i * p i) (fun i _ => mul_self_nonneg _) (mem_range.mpr hi)
      exact lt_of_lt_of_le (mul_self_pos.mpr h) this
    generalize hSd : ∑ i ∈ range n, p i * p i = S at hS
    refine ⟨fun i => -2 * fold * p i / S, ?_, fun _ => ?_⟩
    · unfold wtLinesrch linesrch
      dsimp only
      have : (if Real.sqrt (sumLoop n fun i => p i * p i) > stpmax
          then -2 * fold * (stpmax / Real.sqrt (sumLoop n fun i => p i * p i)) else -2 * fold) =
          sumLoop n fun i => -2 * fold * p i / S * lineScale n p stpmax i := by
        unfold lineScale
        generalize hr : Real.sqrt (sumLoop n fun i => p i * p i) = r
        split
        · rw [sumLoop_eq, sum_congr rfl fun i hi => by
            rw [setLoop_eq, if_pos (mem_range.mp hi),
              show -2 * fold * p i / S * (p i * (stpmax / r)) = -2 * fold * (stpmax / r) / S * (p i * p i) by ring],
            ← mul_sum, hSd]
          field_simp
        · rw [sumLoop_eq, sum_congr rfl fun i _ => by
            rw [show -2 * fold * p i / S * p i = -2 * fold / S * (p i * p i) by ring], ← mul_sum, hSd]
          field_simp
      rw [this]
      rfl
    · dsimp only
      rw [sum_congr rfl fun i _ => by
        rw [show -2 * fold * p i / S * p i = -2 * fold / S * (p i * p i) by ring], ← mul_sum, hSd]
      field_simp
  · refine ⟨fun _ => 0, ?_, fun h => absurd h hp⟩
    push Not at hp
    have htest : maxLoop n (fun i => |lineScale n p stpmax i| / max |xold i| 1) = 0 := by
      obtain ⟨h0, _, h | ⟨i, hi, h⟩⟩ := maxLoop_spec n (fun i => |lineScale n p stpmax i| / max |xold i| 1)
      · exact h
      · have hz : lineScale n p stpmax i = 0 := by
          unfold lineScale
          split
          · rw [setLoop_eq, if_pos hi, hp i hi, zero_mul]
          · exact hp i hi
        rw [h, hz, abs_zero, zero_div]
    unfold wtLinesrch linesrch
    dsimp only
    rw [htest]
    simp only [linePass_zero n F xold (lineScale n p stpmax) fold _ 0]
    rfl

/-- The line search of WT_newton, for any step: it ends, `f` is not larger than before, and `x` is set back if `check`
is 1. -/
theorem wtLinesrch_spec {fuel n : Nat} {F : RArr → RArr} {x p : RArr} {stpmax : ℝ} (hst : 0 < stpmax)
    (hnz : ∃ i, i < n ∧ F x i ≠ 0) :
    (∀ o, wtLinesrch fuel n F x (Spec.half2 n (F x)) p x stpmax = some (.ok o) →
      (∀ i, n ≤ i → o.x i = x i) ∧ o.f = Spec.half2 n o.fvec ∧ (o.check = false → o.fvec = F o.x) ∧
      (o.check = true → o.x = x ∧ ∃ y, Spec.Close n x y ∧ o.fvec = F y ∧ ∀ i, n ≤ i → y i = x i) ∧
      Spec.half2 n (F o.x) ≤ Spec.half2 n (F x)) ∧
    (∀ r, wtLinesrch fuel n F x (Spec.half2 n (F x)) p x stpmax = some r → ∃ o, r = .ok o) ∧
    (stpmax * (6 / 10) ^ (fuel - 1) < 1 / 10 ^ 14 → 1 ≤ fuel →
      wtLinesrch fuel n F x (Spec.half2 n (F x)) p x stpmax ≠ none) := by
  obtain ⟨g, hg, hsl⟩ := wtLinesrch_eq fuel n F x (Spec.half2 n (F x)) p x stpmax
  rw [hg]
  have hpos := half2_pos hnz
  have hI : NLInv n F x ⟨x, Spec.half2 n (F x), F x, false⟩ := ⟨fun _ _ => rfl, rfl, rfl, hnz⟩
  by_cases hp : ∃ i, i < n ∧ p i ≠ 0
  · have hneg : ∑ i ∈ range n, g i * p i < 0 := by rw [hsl hp]; linarith
    obtain ⟨c, _, _, _, _, _, hok, _⟩ := linesrch_spec fuel n F x (Spec.half2 n (F x)) g p x hst
    refine ⟨fun o ho => ?_, (hok hneg).1, (hok hneg).2⟩
    obtain ⟨h1, h2, h3, h4, h5⟩ := linesrch_done hst hI ho
    exact ⟨h1, h2, h3, h4, h5 hneg⟩
  · push Not at hp
    have h0 : ∑ i ∈ range n, p i ^ 2 = 0 := sum_eq_zero fun i hi => by rw [hp i (mem_range.mp hi)]; norm_num
    have htiny : 1 ≤ fuel → linesrch fuel n F x (Spec.half2 n (F x)) g p x stpmax =
        some (.ok ⟨x, Spec.half2 n (F x), F x, true⟩) := fun hf =>
      linesrch_tiny hf F _ g hst (by rw [h0, Real.sqrt_zero]; exact hst.le) (fun i hi => by
        rw [hp i hi, abs_zero]
        have : (0 : ℝ) < max |x i| 1 := lt_of_lt_of_le one_pos (le_max_right _ _)
        positivity) (fun i hi => by rw [hp i hi, add_zero]) fun _ _ => rfl
    refine ⟨fun o ho => ?_, fun r hr => ?_, fun _ hf => by rw [htiny hf]; nofun⟩
    · obtain ⟨h1, h2, h3, h4, _⟩ := linesrch_done hst hI ho
      refine ⟨h1, h2, h3, h4, ?_⟩
      rcases Nat.eq_zero_or_pos fuel with rfl | hf
      · cases ho
      · rw [htiny hf] at ho
        cases ho
        exact le_rfl
    · rcases Nat.eq_zero_or_pos fuel with rfl | hf
      · cases hr
      · rw [htiny hf] at hr
        cases hr
        exact ⟨_, rfl⟩

namespace Spec

/-- How WT_newton may end in a pass with a return value that is not negative: at a root; at a point next to a root; at a
point from which the line search did not move; after a tiny step. -/
inductive WTEnding (n : Nat) (F : (Nat → ℝ) → Nat → ℝ) (tolf : ℝ) (check : Bool) (x : Nat → ℝ) : Prop where
  | root : check = false → (∀ i, i < n → |F x i| < tolf) → WTEnding n F tolf check x
  | near (y : Nat → ℝ) : check = false → Close n x y → (∀ i, n ≤ i → y i = x i) →
      (∀ i, i < n → |F y i| < tolf) → WTEnding n F tolf check x
  | stuck (y : Nat → ℝ) : check = true → Close n x y → (∀ i, n ≤ i → y i = x i) → (∃ i, i < n ∧ tolf ≤ |F y i|) →
      WTEnding n F tolf check x
  | slow (y : Nat → ℝ) : check = false → Close n x y → (∀ i, n ≤ i → y i = x i) → (∃ i, i < n ∧ tolf ≤ |F x i|) →
      WTEnding n F tolf check x

end Spec

/-- What is known at the beginning of a pass. -/
structure WTInv (n : Nat) (F : RArr → RArr) (x0 : RArr) (s : WTState) : Prop where
  tail : ∀ i, n ≤ i → s.x i = x0 i
  fvec : s.fvec = F s.x
  f : s.f = Spec.half2 n (F s.x)
  nz : ∃ i, i < n ∧ F s.x i ≠ 0
  le : Spec.half2 n (F s.x) ≤ Spec.half2 n (F x0)

theorem wtTests_spec {n : Nat} {F : RArr → RArr} {tolf : ℝ} (ht : 0 < tolf) {x : RArr} {o : LineOut}
    (h1 : ∀ i, n ≤ i → o.x i = x i) (h3 : o.check = false → o.fvec = F o.x)
    (h4 : o.check = true → o.x = x ∧ ∃ y, Spec.Close n x y ∧ o.fvec = F y ∧ ∀ i, n ≤ i → y i = x i) :
    (∀ check, wtTests n tolf x o = some check → Spec.WTEnding n F tolf check o.x) ∧
    (wtTests n tolf x o = none → o.check = false ∧ ∃ i, i < n ∧ tolf ≤ |F o.x i|) := by
  have hden : ∀ i, (0 : ℝ) < max |o.x i| 1 := fun i => lt_of_lt_of_le one_pos (le_max_right _ _)
  unfold wtTests
  split_ifs with ha hb hc
  · refine ⟨?_, nofun⟩
    intro check hck
    cases hck
    rw [maxLoop_lt ht] at ha
    cases hch : o.check with
    | false => exact .root rfl (by rw [← h3 hch]; exact ha)
    | true =>
      obtain ⟨e1, y, e2, e3, e4⟩ := h4 hch
      rw [e1]
      exact .near y rfl e2 e4 (by rw [← e3]; exact ha)
  · refine ⟨?_, nofun⟩
    intro check hck
    cases hck
    obtain ⟨e1, y, e2, e3, e4⟩ := h4 hb
    have hnz := not_lt_ex ht ha
    rw [e3] at hnz
    rw [e1]
    refine .stuck y ?_ e2 e4 hnz
    rw [decide_eq_true_iff, maxLoop_lt (by positivity)]
    intro i _
    positivity
  · refine ⟨?_, nofun⟩
    intro check hck
    have hf : o.check = false := by simpa using hb
    rw [hf] at hck
    cases hck
    rw [maxLoop_lt (by positivity)] at hc
    refine .slow x rfl (fun i hi => ?_) (fun i hi => (h1 i hi).symm) ?_
    · have := hc i hi
      rw [div_lt_iff₀ (hden i), abs_sub_comm] at this
      exact this.le
    · rw [← h3 hf]
      exact not_lt_ex ht ha
  · refine ⟨nofun, fun _ => ?_⟩
    have hf : o.check = false := by simpa using hb
    have hnz := not_lt_ex ht ha
    rw [h3 hf] at hnz
    exact ⟨hf, hnz⟩

/-- What a pass returns. -/
def WTReturn (n : Nat) (F : RArr → RArr) (linSol : RArr → RArr → RArr → ℝ → Int × RArr) (tolf lintolfac : ℝ) (x0 : RArr)
    (its : Nat) (out : NLOut) : Prop :=
  (∀ i, n ≤ i → out.2.2 i = x0 i) ∧ Spec.half2 n (F out.2.2) ≤ Spec.half2 n (F x0) ∧
  ((out.1 = its ∧ Spec.WTEnding n F tolf out.2.1 out.2.2) ∨
    (out.1 = -its - 1 ∧ ∃ p, (linSol (F out.2.2) p out.2.2 (wtTol n (F out.2.2) * lintolfac)).1 < 0))

theorem wtNewtonPass_spec {fuel n : Nat} {F : RArr → RArr} {linSol : RArr → RArr → RArr → ℝ → Int × RArr}
    {tolf stpmax lintolfac : ℝ} (ht : 0 < tolf) (hst : 0 < stpmax) {x0 : RArr} {its : Nat} {s : WTState}
    (hI : WTInv n F x0 s) :
    (∀ out, wtNewtonPass fuel n F linSol stpmax tolf lintolfac its s = .inl (some (.ok out)) →
      WTReturn n F linSol tolf lintolfac x0 its out) ∧
    (∀ s', wtNewtonPass fuel n F linSol stpmax tolf lintolfac its s = .inr s' → WTInv n F x0 s' ∧ s'.check = false ∧
      ∃ i, i < n ∧ tolf ≤ |F s'.x i|) ∧
    (1 ≤ fuel → stpmax * (6 / 10) ^ (fuel - 1) < 1 / 10 ^ 14 →
      (∃ out, wtNewtonPass fuel n F linSol stpmax tolf lintolfac its s = .inl (some (.ok out))) ∨
      ∃ s', wtNewtonPass fuel n F linSol stpmax tolf lintolfac its s = .inr s') := by
  unfold wtNewtonPass
  dsimp only
  rw [hI.fvec, hI.f]
  generalize hr : linSol (F s.x) s.p s.x (wtTol n (F s.x) * lintolfac) = r
  split
  · rename_i hneg
    refine ⟨fun out ho => ?_, nofun, fun _ _ => Or.inl ⟨_, rfl⟩⟩
    cases ho
    exact ⟨hI.tail, hI.le, Or.inr ⟨rfl, s.p, by dsimp only; rw [hr]; exact hneg⟩⟩
  · generalize setLoop n (fun i => -r.2 i) r.2 = p
    obtain ⟨k1, k2, k3⟩ := wtLinesrch_spec (fuel := fuel) (p := p) hst hI.nz
    cases hl : wtLinesrch fuel n F s.x (Spec.half2 n (F s.x)) p s.x stpmax with
    | none => exact ⟨nofun, nofun, fun hf hsm => absurd hl (k3 hsm hf)⟩
    | some q =>
      obtain ⟨o, rfl⟩ := k2 q hl
      dsimp only
      obtain ⟨h1, h2, h3, h4, h5⟩ := k1 o hl
      obtain ⟨t1, t2⟩ := wtTests_spec ht h1 h3 h4
      cases htst : wtTests n tolf s.x o with
      | some check =>
        refine ⟨fun out ho => ?_, nofun, fun _ _ => Or.inl ⟨_, rfl⟩⟩
        cases ho
        exact ⟨fun i hi => by dsimp only; rw [h1 i hi, hI.tail i hi], h5.trans hI.le, Or.inl ⟨rfl, t1 check htst⟩⟩
      | none =>
        refine ⟨nofun, fun s' hs => ?_, fun _ _ => Or.inr ⟨_, rfl⟩⟩
        cases hs
        obtain ⟨c1, i, hi, c2⟩ := t2 htst
        refine ⟨⟨fun i hi => by dsimp only; rw [h1 i hi, hI.tail i hi], h3 c1, ?_, ⟨i, hi, fun h0 => ?_⟩,
          h5.trans hI.le⟩, c1, i, hi, c2⟩
        · dsimp only; rw [h2, h3 c1]
        · dsimp only at h0; rw [h0, abs_zero] at c2; linarith

theorem wtInit {n : Nat} {F : RArr → RArr} {tolf : ℝ} (ht : 0 < tolf) {x junk : RArr} {check0 : Bool}
    (h : ¬maxLoop n (fun i => |F x i|) < 1 / 100 * tolf) :
    WTInv n F x ⟨x, lineObj n (F x), F x, check0, junk⟩ ∧
    0 < 100 * max (Real.sqrt (sumLoop n (fun i => x i * x i))) (n : ℝ) := by
  obtain ⟨hI, hst⟩ := nlInit (check0 := check0) ht h
  exact ⟨⟨hI.tail, hI.fvec, hI.f, hI.nz, le_rfl⟩, hst⟩

/-- **C149** (WT_newton). The entries of `x` beyond `n` are not touched, and the sum of squares is not larger than before,
whatever the linear solver does. The value 0 means that `x` was a root already; a value from 1 to `MAXITS` means one of
the endings in `Spec.WTEnding`; a negative value `-its-1` means that the linear solver has failed in pass `its`; the only
other value is `MAXITS+1`, and then `x` is no root. -/
theorem C149_report {fuel n : Nat} {F : RArr → RArr} {linSol : RArr → RArr → RArr → ℝ → Int × RArr} {maxits : Nat}
    {tolf lintolfac : ℝ} (ht : 0 < tolf) {junk x : RArr} {check0 : Bool} {ret : Int} {check : Bool} {x' : RArr}
    (h : wtNewton fuel n F linSol maxits tolf lintolfac junk x check0 = some (.ok (ret, check, x'))) :
    (∀ i, n ≤ i → x' i = x i) ∧ Spec.half2 n (F x') ≤ Spec.half2 n (F x) ∧
    ((ret = 0 ∧ check = false ∧ x' = x ∧ ∀ i, i < n → |F x i| < tolf / 100) ∨
     (1 ≤ ret ∧ ret ≤ maxits ∧ Spec.WTEnding n F tolf check x') ∨
     (-maxits - 1 ≤ ret ∧ ret ≤ -2 ∧ ∃ p tol, (linSol (F x') p x' tol).1 < 0) ∨
     (ret = maxits + 1 ∧ ∃ i, i < n ∧ tolf / 100 ≤ |F x' i| ∧ (1 ≤ maxits → check = false ∧ tolf ≤ |F x' i|))) := by
  unfold wtNewton at h
  dsimp only at h
  split at h
  · rename_i hs
    cases h
    rw [maxLoop_lt (by positivity)] at hs
    exact ⟨fun _ _ => rfl, le_rfl, Or.inl ⟨rfl, rfl, rfl, fun i hi => by have := hs i hi; linarith⟩⟩
  rename_i hs
  obtain ⟨hI, hst⟩ := wtInit (check0 := check0) (junk := junk) ht hs
  obtain ⟨i0, hi0, h0⟩ := not_lt_ex (by positivity) hs
  generalize 100 * max (Real.sqrt (sumLoop n (fun i => x i * x i))) (n : ℝ) = stpmax at h hst
  refine (forRet_inv (n := maxits) (body := wtNewtonPass fuel n F linSol stpmax tolf lintolfac)
    (s := ⟨x, lineObj n (F x), F x, check0, junk⟩)
    (fun j s => WTInv n F x s ∧ ∃ i, i < n ∧ tolf / 100 ≤ |F s.x i| ∧ (2 ≤ j → s.check = false ∧ tolf ≤ |F s.x i|))
    (fun j r => ∀ out, r = some (.ok out) → WTReturn n F linSol tolf lintolfac x j out)
    ⟨hI, i0, hi0, by dsimp only; linarith, by omega⟩ ?_ ?_).elim ?_ ?_
  · rintro j s r _ _ ⟨hP, _⟩ hb out rfl
    exact (wtNewtonPass_spec ht hst hP).1 out hb
  · rintro j s s' _ _ ⟨hP, _⟩ hb
    obtain ⟨h1, h2, i, hi, h3⟩ := (wtNewtonPass_spec ht hst hP).2.1 s' hb
    exact ⟨h1, i, hi, by linarith, fun _ => ⟨h2, h3⟩⟩
  · rintro ⟨r, j, hj1, hj2, he, hQ⟩
    rw [he] at h
    dsimp only at h
    obtain ⟨h1, h2, ⟨h3, h4⟩ | ⟨h3, p, h4⟩⟩ := hQ _ h
    · dsimp only at h3
      exact ⟨h1, h2, Or.inr (Or.inl ⟨by omega, by omega, h4⟩)⟩
    · dsimp only at h3
      exact ⟨h1, h2, Or.inr (Or.inr (Or.inl ⟨by omega, by omega, p, _, h4⟩))⟩
  · rintro ⟨s, he, hP, i, hi, h1, h2⟩
    rw [he] at h
    cases h
    exact ⟨hP.tail, hP.le, Or.inr (Or.inr (Or.inr ⟨rfl, i, hi, h1, fun hm => h2 (by omega)⟩))⟩

/-- **C149** (WT_newton returns). With any linear solver the line searches end, and there is no round-off problem. -/
theorem C149_returns {fuel n : Nat} {F : RArr → RArr} (linSol : RArr → RArr → RArr → ℝ → Int × RArr) {maxits : Nat}
    {tolf : ℝ} (lintolfac : ℝ) (ht : 0 < tolf) (junk : RArr) {x : RArr} (check0 : Bool) (hf : 1 ≤ fuel)
    (hfuel : 100 * max (Real.sqrt (∑ i ∈ range n, x i * x i)) n * (6 / 10) ^ (fuel - 1) < 1 / 10 ^ 14) :
    ∃ ret check x', wtNewton fuel n F linSol maxits tolf lintolfac junk x check0 = some (.ok (ret, check, x')) := by
  unfold wtNewton
  dsimp only
  split
  · exact ⟨_, _, _, rfl⟩
  rename_i hs
  obtain ⟨hI, hst⟩ := wtInit (check0 := check0) (junk := junk) ht hs
  rw [← sumLoop_eq] at hfuel
  generalize 100 * max (Real.sqrt (sumLoop n (fun i => x i * x i))) (n : ℝ) = stpmax at hst hfuel ⊢
  refine (forRet_inv (n := maxits) (body := wtNewtonPass fuel n F linSol stpmax tolf lintolfac)
    (s := ⟨x, lineObj n (F x), F x, check0, junk⟩) (fun _ s => WTInv n F x s) (fun j r => ∃ out, r = some (.ok out))
    hI ?_ ?_).elim ?_ ?_
  · rintro j s r _ _ hP hb
    rcases (wtNewtonPass_spec (its := j) ht hst hP).2.2 hf hfuel with ⟨out, ho⟩ | ⟨s', ho⟩
    · rw [hb] at ho; cases ho; exact ⟨out, rfl⟩
    · rw [hb] at ho; cases ho
  · rintro j s s' _ _ hP hb
    exact ((wtNewtonPass_spec ht hst hP).2.1 s' hb).1
  · rintro ⟨r, j, _, _, he, ⟨r1, r2, r3⟩, rfl⟩
    rw [he]
    exact ⟨_, _, _, rfl⟩
  · rintro ⟨s, he, hP⟩
    rw [he]
    exact ⟨_, _, _, rfl⟩

/-- **C149** (a full step to a root). If the linear solver gives a step that leads to a root, not longer than the largest
step and not tiny, WT_newton goes there and returns 1. -/
theorem C149_root {fuel n : Nat} {F : RArr → RArr} {linSol : RArr → RArr → RArr → ℝ → Int × RArr} {maxits : Nat}
    {tolf lintolfac : ℝ} (ht : 0 < tolf) {junk x z : RArr} (check0 : Bool) (hit : 1 ≤ maxits) (hf : 1 ≤ fuel)
    (hx : ∃ i, i < n ∧ tolf / 100 ≤ |F x i|) {j : Int} {dx : RArr}
    (hsol : linSol (F x) junk x (wtTol n (F x) * lintolfac) = (j, dx)) (hj : 0 ≤ j)
    (hzx : ∀ i, i < n → z i = x i - dx i) (hzt : ∀ i, n ≤ i → z i = x i) (hz : ∀ i, i < n → F z i = 0)
    (hlong : Real.sqrt (∑ i ∈ range n, (z i - x i) ^ 2) ≤ 100 * max (Real.sqrt (∑ i ∈ range n, x i * x i)) n)
    (htiny : ∃ i, i < n ∧ 1 / 10 ^ 14 * max |x i| 1 ≤ |z i - x i|) :
    wtNewton fuel n F linSol maxits tolf lintolfac junk x check0 = some (.ok (1, false, z)) := by
  have hs : ¬maxLoop n (fun i => |F x i|) < 1 / 100 * tolf := by
    rw [maxLoop_lt (by positivity)]
    push Not
    obtain ⟨i, hi, h⟩ := hx
    exact ⟨i, hi, by linarith⟩
  obtain ⟨hI, hst⟩ := wtInit (check0 := check0) (junk := junk) ht hs
  have hF0 : Spec.half2 n (F z) = 0 := by
    unfold Spec.half2
    rw [sum_eq_zero fun i hi => by rw [hz i (mem_range.mp hi)]; ring]
    ring
  have hpass : wtNewtonPass fuel n F linSol (100 * max (Real.sqrt (sumLoop n (fun i => x i * x i))) n) tolf lintolfac 1
      ⟨x, lineObj n (F x), F x, check0, junk⟩ = .inl (some (.ok (1, false, z))) := by
    unfold wtNewtonPass
    dsimp only
    rw [hsol]
    dsimp only
    rw [if_neg (by omega)]
    have hp : ∀ i, i < n → setLoop n (fun i => -dx i) dx i = z i - x i := fun i hi => by
      rw [setLoop_eq, if_pos hi, hzx i hi]; ring
    generalize setLoop n (fun i => -dx i) dx = p at hp
    obtain ⟨g, hg, hsl⟩ := wtLinesrch_eq fuel n F x (lineObj n (F x)) p x
      (100 * max (Real.sqrt (sumLoop n (fun i => x i * x i))) n)
    obtain ⟨c, _, _, hc1, _, _, _, hfull⟩ := linesrch_spec fuel n F x (lineObj n (F x)) g p x hst
    have hc : c = 1 := by
      apply hc1
      rw [sum_congr rfl fun i hi => by rw [hp i (mem_range.mp hi)], sumLoop_eq]
      exact hlong
    subst hc
    rw [hg, hfull z (fun i hi => by rw [hp i hi]; ring) hzt hf (by
      obtain ⟨i, hi, h⟩ := htiny
      exact ⟨i, hi, by rw [one_mul, hp i hi]; exact h⟩) (by
      rw [hsl (by
        obtain ⟨i, hi, h⟩ := htiny
        refine ⟨i, hi, fun h0 => ?_⟩
        rw [← hp i hi, h0, abs_zero] at h
        have : (0 : ℝ) < max |x i| 1 := lt_of_lt_of_le one_pos (le_max_right _ _)
        have : (0 : ℝ) < 1 / 10 ^ 14 * max |x i| 1 := by positivity
        linarith), hF0, lineFun_eq]
      have := half2_nonneg n (F x)
      norm_num
      linarith)]
    dsimp only
    have htst : wtTests n tolf x ⟨z, Spec.half2 n (F z), F z, false⟩ = some false := by
      unfold wtTests
      rw [if_pos]
      rw [maxLoop_lt ht]
      intro i hi
      dsimp only
      rw [hz i hi, abs_zero]
      exact ht
    rw [htst]
    rfl
  unfold wtNewton
  dsimp only
  rw [if_neg hs, forRet_first hit hpass]

/-- The tolerance for the linear solver is a fraction of the largest entry, not of the largest absolute value. -/
theorem wtTol_eq (n : Nat) (v : RArr) : wtTol n v = maxLoop n v := by
  unfold wtTol maxLoop
  have := upLoop_inv (Nat.zero_le n) (body := fun i test => if v i > test then |v i| else test) (s := (0 : ℝ))
    (fun m t => t = upLoop 0 m (fun i test => if v i > test then v i else test) 0 ∧ 0 ≤ t)
    ⟨by rw [upLoop_nil (le_refl 0)], le_rfl⟩ (by
      rintro j t _ _ ⟨h1, h2⟩
      rw [upLoop_succ (Nat.zero_le j), ← h1]
      split
      · rename_i h
        have : 0 ≤ v j := h2.trans h.le
        rw [abs_of_nonneg this]
        exact ⟨rfl, this⟩
      · exact ⟨rfl, h2⟩)
  exact this.1

/-- **C149**, counterexample: if no entry of the function is positive, the linear solver is asked for the tolerance 0. -/
theorem C149_tolerance_counterexample {n : Nat} {v : RArr} (h : ∀ i, i < n → v i ≤ 0) (lintolfac : ℝ) :
    wtTol n v * lintolfac = 0 := by
  rw [wtTol_eq]
  obtain ⟨h0, _, h1 | ⟨i, hi, h1⟩⟩ := maxLoop_spec n v
  · rw [h1, zero_mul]
  · rw [le_antisymm (h1 ▸ h i hi) h0, zero_mul]

/-- A linear solver for the matrix (1) that fails if the tolerance is 0, as an iteration in doubles does if the residual
cannot vanish. -/
noncomputable def wtStrictSol (sign : ℝ) : RArr → RArr → RArr → ℝ → Int × RArr :=
  fun b dx _ tol => if 0 < tol then (0, fun i => sign * b i) else (-1, dx)

/-- **C149**, counterexample: `3 - x` is solved and `x - 3` is not. -/
theorem C149_sign_counterexample {fuel maxits : Nat} (hf : 1 ≤ fuel) (hit : 1 ≤ maxits) (junk : RArr) (check0 : Bool) :
    wtNewton fuel 1 (fun y _ => 3 - y 0) (wtStrictSol (-1)) maxits (1 / 10) (1 / 10) junk (fun _ => 0) check0 =
      some (.ok (1, false, fun i => if i = 0 then 3 else 0)) ∧
    wtNewton fuel 1 (fun y _ => y 0 - 3) (wtStrictSol 1) maxits (1 / 10) (1 / 10) junk (fun _ => 0) check0 =
      some (.ok (-2, check0, fun _ => 0)) := by
  constructor
  · refine C149_root (by norm_num) check0 hit hf ⟨0, by omega, ?_⟩ (j := 0) (dx := fun _ => -3) ?_ le_rfl ?_ ?_ ?_ ?_
      ⟨0, by omega, ?_⟩
    · norm_num
    · rw [wtTol_eq, wtStrictSol]
      have hpos : (0 : ℝ) < maxLoop 1 (fun _ : Nat => (3 : ℝ) - 0) * (1 / 10) := by
        have := (maxLoop_spec 1 (fun _ : Nat => (3 : ℝ) - 0)).2.1 0 (by omega)
        exact mul_pos (lt_of_lt_of_le (by norm_num) this) (by norm_num)
      dsimp only
      rw [if_pos hpos]
      congr 1
      funext i
      norm_num
    · intro i hi
      rw [if_pos (by omega)]
      norm_num
    · intro i hi
      rw [if_neg (by omega)]
    · intro i _
      norm_num
    · rw [sum_range_one, if_pos rfl, Real.sqrt_sq (by norm_num)]
      have : (1 : ℝ) ≤ max (Real.sqrt (∑ i ∈ range 1, (0 : ℝ) * 0)) ((1 : Nat) : ℝ) := by
        rw [Nat.cast_one]; exact le_max_right _ _
      linarith
    · rw [if_pos rfl, abs_zero, max_eq_right zero_le_one]
      norm_num
  · have htol := C149_tolerance_counterexample (n := 1) (v := fun _ => (0 : ℝ) - 3) (fun _ _ => by norm_num) (1 / 10)
    unfold wtNewton
    dsimp only
    rw [if_neg]
    · rw [forRet_first hit (r := some (.ok (-2, check0, fun _ => 0)))]
      unfold wtNewtonPass
      dsimp only
      rw [htol, wtStrictSol, if_neg (lt_irrefl _), if_pos (by norm_num)]
      rfl
    · rw [maxLoop_lt (by norm_num)]
      push Not
      exact ⟨0, by omega, by norm_num⟩

/-- **C149**, counterexample: after `MAXITS` passes without a root the return value is `MAXITS+1`, which is not negative.
The function is `x³` with the exact derivative. -/
theorem C149_maxits_counterexample {fuel : Nat} (hf : 1 ≤ fuel) (junk : RArr) (check0 : Bool) :
    wtNewton fuel 1 (fun y _ => y 0 ^ 3) (fun b _ x _ => (0, fun i => b i / (3 * x i ^ 2))) 1 (1 / 10) (1 / 10) junk
      (fun _ => 1) check0 = some (.ok (2, false, fun i => if i = 0 then 2 / 3 else 1)) := by
  have hs : ¬maxLoop 1 (fun _ => |(1 : ℝ) ^ 3|) < 1 / 100 * (1 / 10) := by
    rw [maxLoop_lt (by norm_num)]
    push Not
    exact ⟨0, by omega, by norm_num⟩
  have hfo : lineObj 1 (fun _ => (1 : ℝ) ^ 3) = 1 / 2 := by
    rw [lineFun_eq, Spec.half2, sum_range_one]; norm_num
  have hst : (0 : ℝ) < 100 * max (Real.sqrt (sumLoop 1 (fun _ => (1 : ℝ) * 1))) ((1 : Nat) : ℝ) := by
    have : (1 : ℝ) ≤ max (Real.sqrt (sumLoop 1 (fun _ => (1 : ℝ) * 1))) ((1 : Nat) : ℝ) := by
      rw [Nat.cast_one]; exact le_max_right _ _
    linarith
  have hst1 : (1 : ℝ) ≤ 100 * max (Real.sqrt (sumLoop 1 (fun _ => (1 : ℝ) * 1))) ((1 : Nat) : ℝ) := by
    have : (1 : ℝ) ≤ max (Real.sqrt (sumLoop 1 (fun _ => (1 : ℝ) * 1))) ((1 : Nat) : ℝ) := by
      rw [Nat.cast_one]; exact le_max_right _ _
    linarith
  unfold wtNewton
  dsimp only
  rw [if_neg hs]
  generalize 100 * max (Real.sqrt (sumLoop 1 (fun _ => (1 : ℝ) * 1))) ((1 : Nat) : ℝ) = stpmax at hst hst1
  have hpass : ∃ q, wtNewtonPass fuel 1 (fun y _ => y 0 ^ 3) (fun b _ x _ => (0, fun i => b i / (3 * x i ^ 2))) stpmax (1 / 10)
      (1 / 10) 1 ⟨fun _ => 1, lineObj 1 (fun _ => (1 : ℝ) ^ 3), fun _ => 1 ^ 3, check0, junk⟩ =
      .inr ⟨fun i => if i = 0 then 2 / 3 else 1, Spec.half2 1 (fun _ => (2 / 3 : ℝ) ^ 3), fun _ => (2 / 3) ^ 3, false, q⟩ := by
    unfold wtNewtonPass
    dsimp only
    rw [if_neg (by norm_num)]
    have hp : ∀ i, i < 1 → setLoop 1 (fun i => -((1 : ℝ) ^ 3 / (3 * 1 ^ 2))) (fun i => (1 : ℝ) ^ 3 / (3 * 1 ^ 2)) i =
        -1 / 3 := fun i hi => by
      rw [setLoop_eq, if_pos hi]; norm_num
    generalize setLoop 1 (fun i => -((1 : ℝ) ^ 3 / (3 * 1 ^ 2))) (fun i => (1 : ℝ) ^ 3 / (3 * 1 ^ 2)) = p at hp
    obtain ⟨g, hg, hsl⟩ := wtLinesrch_eq fuel 1 (fun y _ => y 0 ^ 3) (fun _ => 1) (lineObj 1 (fun _ => (1 : ℝ) ^ 3)) p
      (fun _ => 1) stpmax
    obtain ⟨c, _, _, hc1, _, _, _, hfull⟩ := linesrch_spec fuel 1 (fun y _ => y 0 ^ 3) (fun _ => 1)
      (lineObj 1 (fun _ => (1 : ℝ) ^ 3)) g p (fun _ => 1) hst
    have hc : c = 1 := by
      apply hc1
      rw [sum_range_one, hp 0 (by omega), Real.sqrt_le_left hst.le]
      nlinarith
    subst hc
    rw [hg, hfull (fun i => if i = 0 then 2 / 3 else 1) (fun i hi => by
        rw [hp i hi, if_pos (by omega)]; norm_num) (fun i hi => if_neg (by omega)) hf
      ⟨0, by omega, by rw [hp 0 (by omega), abs_one, max_self]; norm_num [abs_of_neg]⟩ (by
        rw [hsl ⟨0, by omega, by rw [hp 0 (by omega)]; norm_num⟩, hfo, Spec.half2, sum_range_one]
        norm_num)]
    dsimp only
    have htst : wtTests 1 (1 / 10) (fun _ => 1) ⟨fun i => if i = 0 then 2 / 3 else 1,
        Spec.half2 1 (fun _ => (if 0 = 0 then 2 / 3 else 1 : ℝ) ^ 3), fun _ => (if 0 = 0 then 2 / 3 else 1) ^ 3, false⟩ =
        none := by
      unfold wtTests
      rw [if_neg, if_neg (by simp), if_neg]
      · rw [maxLoop_lt (by norm_num)]
        push Not
        refine ⟨0, by omega, ?_⟩
        rw [if_pos rfl, max_eq_right (by norm_num [abs_of_pos]), div_one]
        norm_num [abs_of_neg]
      · rw [maxLoop_lt (by norm_num)]
        push Not
        exact ⟨0, by omega, by norm_num [abs_of_pos]⟩
    rw [htst]
    exact ⟨_, rfl⟩
  obtain ⟨q, hq⟩ := hpass
  have : forRet 1 (wtNewtonPass fuel 1 (fun y _ => y 0 ^ 3) (fun b _ x _ => (0, fun i => b i / (3 * x i ^ 2))) stpmax (1 / 10)
      (1 / 10)) ⟨fun _ => 1, lineObj 1 (fun _ => (1 : ℝ) ^ 3), fun _ => 1 ^ 3, check0, junk⟩ =
      .inr ⟨fun i => if i = 0 then 2 / 3 else 1, Spec.half2 1 (fun _ => (2 / 3 : ℝ) ^ 3), fun _ => (2 / 3) ^ 3, false, q⟩ := by
    unfold forRet
    rw [upLoop_succ (le_refl 1), upLoop_nil (le_refl 1)]
    exact hq
  rw [this]
  rfl

end Sgrid
