import Mathlib.Algebra.BigOperators.Group.Finset.Basic
import Mathlib.Algebra.Order.Field.Rat
import Mathlib.Analysis.SpecialFunctions.Pow.Real
import Mathlib.Tactic.Linarith
import Mathlib.Tactic.LinearCombination
import Mathlib.Tactic.Positivity
import Mathlib.Tactic.Ring
import Verif.Model.Ode
import Verif.Props.RkOrder
import Verif.Props.RootFind

/-!
# C89: ordinary differential equations
-/

namespace Sgrid

open Finset

/-! ### The Runge-Kutta step -/

/-- The table of Cash and Karp with the weights of order 5. -/
def Spec.cashKarp5 : Butcher ℚ :=
  ⟨6, [[], [1 / 5], [3 / 40, 9 / 40], [3 / 10, -9 / 10, 6 / 5], [-11 / 54, 5 / 2, -70 / 27, 35 / 27],
    [1631 / 55296, 175 / 512, 575 / 13824, 44275 / 110592, 253 / 4096]],
    [37 / 378, 0, 250 / 621, 125 / 594, 0, 512 / 1771], []⟩

/-- The same with the weights of order 4. -/
def Spec.cashKarp4 : Butcher ℚ :=
  { Spec.cashKarp5 with b := [2825 / 27648, 0, 18575 / 48384, 13525 / 55296, 277 / 14336, 1 / 4] }

/-- The stages of an explicit Runge-Kutta step with a table: stage `i` is the right hand side at
`x + h Σ a_ij` and `y + h Σ a_ij k_j`. -/
def Spec.RkStages (t : Butcher ℚ) (f : Rhs ℝ) (y : Nat → ℝ) (x h : ℝ) (k : Nat → Nat → ℝ) : Prop :=
  ∀ i, i < t.nstages → k i = f (x + (∑ j ∈ range i, (t.A i j : ℝ)) * h)
    (fun m => y m + h * ∑ j ∈ range i, (t.A i j : ℝ) * k j m)

/-- **C89** (`rkck`): a Runge-Kutta step with the table of Cash and Karp, which has order 5. The second result
is the difference to the step with the weights of order 4. -/
theorem C89_rkck (f : Rhs ℝ) (y : Nat → ℝ) (x h : ℝ) :
    ∃ k, Spec.RkStages Spec.cashKarp5 f y x h k ∧
      (rkck f y (f x y) x h).1 = (fun m => y m + h * ∑ i ∈ range 6, (Spec.cashKarp5.B i : ℝ) * k i m) ∧
      (rkck f y (f x y) x h).2 = (fun m =>
        (y m + h * ∑ i ∈ range 6, (Spec.cashKarp5.B i : ℝ) * k i m) -
        (y m + h * ∑ i ∈ range 6, (Spec.cashKarp4.B i : ℝ) * k i m)) := by
  let ak1 := f x y
  let ak2 := f (x + 2 / 10 * h) (fun i => y i + 2 / 10 * h * ak1 i)
  let ak3 := f (x + 3 / 10 * h) (fun i => y i + h * (3 / 40 * ak1 i + 9 / 40 * ak2 i))
  let ak4 := f (x + 6 / 10 * h)
    (fun i => y i + h * (3 / 10 * ak1 i + -(9 / 10) * ak2 i + 12 / 10 * ak3 i))
  let ak5 := f (x + 1 * h)
    (fun i => y i + h * (-(11 / 54) * ak1 i + 25 / 10 * ak2 i + -(70 / 27) * ak3 i + 35 / 27 * ak4 i))
  let ak6 := f (x + 875 / 1000 * h)
    (fun i => y i + h * (1631 / 55296 * ak1 i + 175 / 512 * ak2 i + 575 / 13824 * ak3 i +
      44275 / 110592 * ak4 i + 253 / 4096 * ak5 i))
  refine ⟨fun i => match i with
    | 0 => ak1 | 1 => ak2 | 2 => ak3 | 3 => ak4 | 4 => ak5 | _ => ak6, ?_, ?_, ?_⟩
  · intro i hi
    have hi6 : i < 6 := hi
    have hcases : i = 0 ∨ i = 1 ∨ i = 2 ∨ i = 3 ∨ i = 4 ∨ i = 5 := by omega
    rcases hcases with rfl | rfl | rfl | rfl | rfl | rfl
    · simp [ak1]
    all_goals
      simp only [sum_range_succ, sum_range_zero, Spec.cashKarp5, Butcher.A, List.getD_cons_zero,
        List.getD_cons_succ]
      push_cast
      first
        | refine congrArg₂ f ?_ ?_
          · ring
          · funext m
            ring
  · funext m
    simp only [sum_range_succ, sum_range_zero, Spec.cashKarp5, Butcher.B, List.getD_cons_zero,
        List.getD_cons_succ]
    push_cast
    show y m + h * (37 / 378 * ak1 m + 250 / 621 * ak3 m + 125 / 594 * ak4 m + 512 / 1771 * ak6 m) = _
    ring
  · funext m
    simp only [sum_range_succ, sum_range_zero, Spec.cashKarp5, Spec.cashKarp4, Butcher.B,
      List.getD_cons_zero, List.getD_cons_succ]
    push_cast
    show h * ((37 / 378 - 2825 / 27648) * ak1 m + (250 / 621 - 18575 / 48384) * ak3 m +
      (125 / 594 - 13525 / 55296) * ak4 m + -(277 / 14336) * ak5 m + (512 / 1771 - 1 / 4) * ak6 m) = _
    ring

/-- **C89**: the weights satisfy all order conditions of order 5 and 4. -/
theorem C89_order : Spec.OrderConditions Spec.cashKarp5 5 ∧ Spec.OrderConditions Spec.cashKarp4 4 ∧
    ¬ Spec.OrderConditions Spec.cashKarp5 6 ∧ ¬ Spec.OrderConditions Spec.cashKarp4 5 :=
  ⟨order_of_check _ 4 (by decide +kernel), order_of_check _ 3 (by decide +kernel),
    fun h => absurd (h (.cons (.cons (.cons (.cons (.cons .nil .nil) .nil) .nil) .nil) .nil) (by decide))
      (by decide +kernel),
    fun h => absurd (h (.cons (.cons (.cons (.cons .nil .nil) .nil) .nil) .nil) (by decide))
      (by decide +kernel)⟩

/-- One step for y' = y with y = 1. -/
example : (rkck (fun _ y => y) (fun _ => (1 : ℚ)) (fun _ => 1) 0 (1 / 2)).1 1 = 253243 / 153600 := by
  decide +kernel

/-! ### Step size control -/

theorem rkck_zero (f : Rhs ℝ) (y dydx : Nat → ℝ) (x : ℝ) (i : Nat) : (rkck f y dydx x 0).2 i = 0 := by
  unfold rkck
  simp

/-- `errmax` is at least every single error. -/
theorem rkErr_le {f : Rhs ℝ} {y dydx : Nat → ℝ} {n : Nat} {x h eps : ℝ} {yscal : Nat → ℝ} (heps : 0 < eps)
    (he : rkErr f y dydx n x h eps yscal ≤ 1) (hy : ∀ i, 1 ≤ i → i ≤ n → 0 < yscal i) (i : Nat) (h1 : 1 ≤ i)
    (hn : i ≤ n) : |(rkck f y dydx x h).2 i| ≤ eps * yscal i := by
  unfold rkErr at he
  dsimp only at he
  have key := upLoop_inv (lo := 1) (hi := n + 1) (by omega) (s := (0 : ℝ))
    (body := fun i e => if e > |(rkck f y dydx x h).2 i / yscal i| then e
      else |(rkck f y dydx x h).2 i / yscal i|)
    (fun m e => ∀ i, 1 ≤ i → i < m → |(rkck f y dydx x h).2 i / yscal i| ≤ e)
    (fun i h1 h2 => absurd h2 (by omega)) ?_
  · have h2 := key i h1 (by omega)
    rw [div_le_one heps] at he
    have h3 := h2.trans he
    rw [abs_div, abs_of_pos (hy i h1 hn), div_le_iff₀ (hy i h1 hn)] at h3
    exact h3
  · intro j e hj1 hj2 ih i h1 h2
    rcases Nat.lt_or_ge i j with h3 | h3
    · have := ih i h1 h3
      split
      · exact this
      · rename_i h4
        exact this.trans (not_lt.mp h4)
    · obtain rfl : i = j := by omega
      split
      · rename_i h4
        exact h4.le
      · exact le_rfl

theorem rkErr_zero {f : Rhs ℝ} {y dydx : Nat → ℝ} {n : Nat} {x eps : ℝ} {yscal : Nat → ℝ} :
    rkErr f y dydx n x 0 eps yscal = 0 := by
  unfold rkErr
  dsimp only
  have : upLoop 1 (n + 1) (fun i e => if e > |(rkck f y dydx x 0).2 i / yscal i| then e
      else |(rkck f y dydx x 0).2 i / yscal i|) (0 : ℝ) = 0 := by
    refine upLoop_inv (lo := 1) (hi := n + 1) (by omega) (fun _ e => e = 0) rfl ?_
    rintro j e _ _ rfl
    simp [rkck_zero]
  rw [this, zero_div]

/-- A step that is not good enough is made smaller by a factor between 0.1 and 0.9. -/
theorem rkShrink_eq {h e : ℝ} (he : 1 < e) :
    ∃ θ, 1 / 10 ≤ θ ∧ θ ≤ 9 / 10 ∧ rkShrink Real.rpow h e = θ * h := by
  have h0 : 0 < Real.rpow e (-(25 / 100)) := Real.rpow_pos_of_pos (by linarith) _
  have h1 : Real.rpow e (-(25 / 100)) < 1 := Real.rpow_lt_one_of_one_lt_of_neg he (by norm_num)
  unfold rkShrink
  dsimp only
  generalize Real.rpow e (-(25 / 100)) = p at h0 h1
  refine ⟨max (9 / 10 * p) (1 / 10), le_max_right _ _, max_le (by linarith) (by norm_num), ?_⟩
  rcases le_total (9 / 10 * p) (1 / 10) with h2 | h2
  · rw [max_eq_right h2]
    split
    · rename_i h3
      rw [if_neg]
      rw [gt_iff_lt, not_lt]
      nlinarith
    · rename_i h3
      rw [if_neg]
      rw [not_lt]
      nlinarith
  · rw [max_eq_left h2]
    split
    · rename_i h3
      split
      · ring
      · rename_i h4
        nlinarith
    · rename_i h3
      split
      · ring
      · rename_i h4
        nlinarith

theorem rkAttempts_spec {f : Rhs ℝ} {y dydx : Nat → ℝ} {n : Nat} {x eps : ℝ} {yscal : Nat → ℝ} :
    ∀ (fuel : Nat) (h : ℝ) r, rkAttempts Real.rpow f y dydx n x eps yscal fuel h = some r →
      ∃ θ, 0 < θ ∧ θ ≤ 1 ∧ r = .ok (θ * h, rkErr f y dydx n x (θ * h) eps yscal) ∧
        rkErr f y dydx n x (θ * h) eps yscal ≤ 1 := by
  intro fuel
  induction fuel with
  | zero => intro h r hr; cases hr
  | succ fuel ih =>
    intro h r hr
    unfold rkAttempts at hr
    dsimp only at hr
    split at hr
    · rename_i h1
      cases hr
      exact ⟨1, one_pos, le_rfl, by rw [one_mul], by rw [one_mul]; exact h1⟩
    · rename_i h1
      obtain ⟨θ, h2, h3, h4⟩ := rkShrink_eq (h := h) (not_le.mp h1)
      rw [h4] at hr
      split at hr
      · rename_i h5
        exfalso
        have h6 : h = 0 := by
          have : θ * h = 0 := by linarith
          rcases mul_eq_zero.mp this with h7 | h7
          · linarith
          · exact h7
        rw [h6, rkErr_zero] at h1
        exact h1 zero_le_one
      · obtain ⟨θ', h6, h7, h8, h9⟩ := ih _ _ hr
        rw [← mul_assoc] at h8 h9
        exact ⟨θ' * θ, mul_pos h6 (by linarith), by nlinarith, h8, h9⟩

/-- What `odeintegrate` needs from its stepper: it goes a part of the way it was asked to, and proposes a step
in the same direction. -/
def Spec.Stepper (step : (Nat → ℝ) → (Nat → ℝ) → ℝ → ℝ → (Nat → ℝ) → Res (OdeStep ℝ)) : Prop :=
  ∀ y dydx x h yscal t, step y dydx x h yscal = .ok t →
    t.x = x + t.hdid ∧ (∃ θ, 0 < θ ∧ θ ≤ 1 ∧ t.hdid = θ * h) ∧ ∃ φ, 0 < φ ∧ t.hnext = φ * t.hdid

/-- **C89** (`rkqs`): if the attempts end, they do so without an error message, with a step of a part of the
size asked for and in the same direction; the new `y` is the Runge-Kutta step of this size and its estimated
errors are within the bounds. The next step has between 0.9 and 5.1 times the size of this one. -/
theorem C89_rkqs (f : Rhs ℝ) (n : Nat) (eps : ℝ) (heps : 0 < eps) (fuel : Nat) (y dydx : Nat → ℝ) (x htry : ℝ)
    (yscal : Nat → ℝ) (hy : ∀ i, 1 ≤ i → i ≤ n → 0 < yscal i) (r : Res (OdeStep ℝ))
    (hr : rkqs Real.rpow f n eps fuel y dydx x htry yscal = some r) :
    ∃ t, r = .ok t ∧ t.x = x + t.hdid ∧ (∃ θ, 0 < θ ∧ θ ≤ 1 ∧ t.hdid = θ * htry) ∧
      t.y = (rkck f y dydx x t.hdid).1 ∧
      (∀ i, 1 ≤ i → i ≤ n → |(rkck f y dydx x t.hdid).2 i| ≤ eps * yscal i) ∧
      ∃ φ, 9 / 10 ≤ φ ∧ φ ≤ 51 / 10 ∧ t.hnext = φ * t.hdid := by
  unfold rkqs at hr
  generalize hA : rkAttempts Real.rpow f y dydx n x eps yscal fuel htry = A at hr
  cases A with
  | none => cases hr
  | some A =>
    obtain ⟨θ, h1, h2, rfl, h4⟩ := rkAttempts_spec _ _ _ hA
    dsimp only at hr
    cases hr
    refine ⟨_, rfl, rfl, ⟨θ, h1, h2, rfl⟩, rfl, fun i h5 h6 => rkErr_le heps h4 hy i h5 h6, ?_⟩
    dsimp only
    generalize rkErr f y dydx n x (θ * htry) eps yscal = e at h4
    split
    · rename_i h5
      refine ⟨9 / 10 * Real.rpow e (-(2 / 10)), ?_, ?_, by ring⟩
      · have : 1 ≤ Real.rpow e (-(2 / 10)) :=
          Real.one_le_rpow_of_pos_of_le_one_of_nonpos (by linarith) h4 (by norm_num)
        linarith
      · have h6 : Real.rpow e (-(2 / 10)) ≤ Real.rpow ((3 / 17) ^ (5 : ℝ)) (-(2 / 10)) := by
          refine Real.rpow_le_rpow_of_nonpos (by positivity) ?_ (by norm_num)
          have : ((3 / 17 : ℝ) ^ (5 : ℝ)) = (3 / 17) ^ (5 : ℕ) := by
            rw [← Real.rpow_natCast]
            norm_num
          rw [this]
          refine le_trans ?_ h5.le
          norm_num
        have h7 : Real.rpow ((3 / 17) ^ (5 : ℝ)) (-(2 / 10)) = 17 / 3 := by
          show ((3 / 17 : ℝ) ^ (5 : ℝ)) ^ (-(2 / 10) : ℝ) = 17 / 3
          rw [← Real.rpow_mul (by norm_num)]
          rw [show (5 : ℝ) * -(2 / 10) = -1 by norm_num, Real.rpow_neg_one]
          norm_num
        rw [h7] at h6
        linarith
    · exact ⟨5, by norm_num, by norm_num, rfl⟩

/-- **C89** (`rkqs`, the next step): with `E` the largest ratio of the error of a component to its bound, the
next step is `0.9 E^(-1/5)` times this one if `E` is above 1.89e-4, and 5 times this one otherwise. -/
theorem C89_hnext (f : Rhs ℝ) (n : Nat) (eps : ℝ) (fuel : Nat) (y dydx : Nat → ℝ) (x htry : ℝ)
    (yscal : Nat → ℝ) (t : OdeStep ℝ) (heps : 0 < eps) (hn : 1 ≤ n)
    (hr : rkqs Real.rpow f n eps fuel y dydx x htry yscal = some (.ok t)) :
    ∃ E, (∃ i, 1 ≤ i ∧ i ≤ n ∧ E = |(rkck f y dydx x t.hdid).2 i / yscal i| / eps) ∧
      (∀ i, 1 ≤ i → i ≤ n → |(rkck f y dydx x t.hdid).2 i / yscal i| / eps ≤ E) ∧
      t.hnext = if 1.89e-4 < E then 0.9 * t.hdid * E ^ (-0.2 : ℝ) else 5 * t.hdid := by
  unfold rkqs at hr
  generalize hA : rkAttempts Real.rpow f y dydx n x eps yscal fuel htry = A at hr
  cases A with
  | none => cases hr
  | some A =>
    obtain ⟨θ, h1, h2, rfl, h4⟩ := rkAttempts_spec _ _ _ hA
    dsimp only at hr
    cases hr
    dsimp only
    have key := upLoop_inv (lo := 1) (hi := n + 1) (by omega) (s := (0 : ℝ))
      (body := fun i e => if e > |(rkck f y dydx x (θ * htry)).2 i / yscal i| then e
        else |(rkck f y dydx x (θ * htry)).2 i / yscal i|)
      (fun m e => (∀ i, 1 ≤ i → i < m → |(rkck f y dydx x (θ * htry)).2 i / yscal i| ≤ e) ∧
        ((m = 1 ∧ e = 0) ∨ ∃ i, 1 ≤ i ∧ i < m ∧ e = |(rkck f y dydx x (θ * htry)).2 i / yscal i|))
      ⟨fun i h1 h2 => absurd h2 (by omega), Or.inl ⟨rfl, rfl⟩⟩ ?_
    · refine ⟨rkErr f y dydx n x (θ * htry) eps yscal, ?_, fun i h5 h6 => ?_, ?_⟩
      · rcases key.2 with ⟨h5, -⟩ | ⟨i, h5, h6, h7⟩
        · omega
        · exact ⟨i, h5, by omega, congrArg (· / eps) h7⟩
      · exact div_le_div_of_nonneg_right (key.1 i h5 (by omega)) heps.le
      · rw [show (1.89e-4 : ℝ) = 189 / 1000000 by norm_num, show (0.9 : ℝ) = 9 / 10 by norm_num,
          show (-0.2 : ℝ) = -(2 / 10) by norm_num]
        rfl
    · rintro j e hj1 hj2 ⟨ih, ih'⟩
      by_cases h3 : e > |(rkck f y dydx x (θ * htry)).2 j / yscal j|
      · simp only [if_pos h3]
        refine ⟨fun i h5 h6 => ?_, ?_⟩
        · rcases Nat.lt_or_ge i j with h7 | h7
          · exact ih i h5 h7
          · obtain rfl : i = j := by omega
            exact h3.le
        · rcases ih' with ⟨-, rfl⟩ | ⟨i, h5, h6, h7⟩
          · exact absurd (abs_nonneg _) (not_le.mpr h3)
          · exact Or.inr ⟨i, h5, by omega, h7⟩
      · simp only [if_neg h3]
        refine ⟨fun i h5 h6 => ?_, Or.inr ⟨j, hj1, by omega, rfl⟩⟩
        rcases Nat.lt_or_ge i j with h7 | h7
        · exact (ih i h5 h7).trans (not_lt.mp h3)
        · obtain rfl : i = j := by omega
          exact le_rfl

/-- **C89** (`rkqs` ends): if all sufficiently small steps are good enough, the attempts end. -/
theorem C89_rkqs_ends (f : Rhs ℝ) (n : Nat) (eps : ℝ) (y dydx : Nat → ℝ) (x htry : ℝ)
    (yscal : Nat → ℝ) (δ : ℝ) (hδ : 0 < δ)
    (hs : ∀ h, |h| ≤ δ → rkErr f y dydx n x h eps yscal ≤ 1) :
    ∃ fuel r, rkqs Real.rpow f n eps fuel y dydx x htry yscal = some r := by
  have key : ∀ (k : Nat) (h : ℝ), (9 / 10) ^ k * |h| ≤ δ →
      ∃ r, rkAttempts Real.rpow f y dydx n x eps yscal (k + 1) h = some r := by
    intro k
    induction k with
    | zero =>
      intro h hh
      rw [pow_zero, one_mul] at hh
      unfold rkAttempts
      dsimp only
      rw [if_pos (hs h hh)]
      exact ⟨_, rfl⟩
    | succ k ih =>
      intro h hh
      rw [rkAttempts]
      dsimp only
      split
      · exact ⟨_, rfl⟩
      · rename_i h1
        split
        · exact ⟨_, rfl⟩
        · obtain ⟨θ, h2, h3, h4⟩ := rkShrink_eq (h := h) (not_le.mp h1)
          refine ih _ ?_
          rw [h4, abs_mul, abs_of_pos (by linarith : 0 < θ)]
          refine le_trans ?_ hh
          rw [pow_succ, mul_assoc]
          exact mul_le_mul_of_nonneg_left (mul_le_mul_of_nonneg_right h3 (abs_nonneg h)) (by positivity)
  obtain ⟨k, hk⟩ : ∃ k : Nat, (9 / 10 : ℝ) ^ k < δ / (|htry| + 1) :=
    exists_pow_lt_of_lt_one (by positivity) (by norm_num)
  obtain ⟨r, hr⟩ := key k htry (by
    rw [lt_div_iff₀ (by positivity)] at hk
    have : 0 ≤ (9 / 10 : ℝ) ^ k := by positivity
    nlinarith)
  refine ⟨k + 1, ?_⟩
  unfold rkqs
  rw [hr]
  obtain ⟨θ, _, _, rfl, _⟩ := rkAttempts_spec _ _ _ hr
  exact ⟨_, rfl⟩

/-- **C89**: `rkqs` is a stepper, with the scale of `odeintegrate`. -/
theorem C89_rkqs_stepper (f : Rhs ℝ) (n : Nat) (eps : ℝ) (heps : 0 < eps) (fuel : Nat) (y dydx : Nat → ℝ)
    (x h : ℝ) (yscal : Nat → ℝ) (hy : ∀ i, 1 ≤ i → i ≤ n → 0 < yscal i) (t : OdeStep ℝ)
    (hr : rkqs Real.rpow f n eps fuel y dydx x h yscal = some (.ok t)) :
    t.x = x + t.hdid ∧ (∃ θ, 0 < θ ∧ θ ≤ 1 ∧ t.hdid = θ * h) ∧ ∃ φ, 0 < φ ∧ t.hnext = φ * t.hdid := by
  obtain ⟨t', h1, h2, h3, _, _, φ, h4, _, h5⟩ := C89_rkqs f n eps heps fuel y dydx x h yscal hy _ hr
  cases h1
  exact ⟨h2, h3, φ, by linarith, h5⟩

/-! ### The integration -/

/-- The step is shortened so that it does not lead beyond the end. -/
theorem ode_clip {x x1 x2 h θ : ℝ} (hx1 : 0 ≤ (x - x1) * (x2 - x1)) (hx2 : 0 < (x2 - x) * (x2 - x1))
    (hh : 0 ≤ h * (x2 - x1)) (h1 : θ ≤ 1) {h' : ℝ}
    (hh' : h' = if (x + h - x2) * (x + h - x1) > 0 then x2 - x else h) :
    0 ≤ h' * (x2 - x1) ∧ 0 ≤ (x2 - (x + θ * h')) * (x2 - x1) := by
  set d := x2 - x1 with hd
  have hle : 0 ≤ h' * d ∧ h' * d ≤ (x2 - x) * d := by
    rw [hh']
    split
    · exact ⟨hx2.le, le_rfl⟩
    · rename_i h2
      refine ⟨hh, ?_⟩
      by_contra h3
      rw [not_le] at h3
      have h4 : 0 < (x + h - x2) * d := by linarith
      have h5 : 0 < (x + h - x1) * d := by linarith
      have h6 : 0 < (x + h - x2) * (x + h - x1) * (d * d) := by
        have := mul_pos h4 h5
        linarith
      exact h2 (pos_of_mul_pos_left h6 (mul_self_nonneg d))
  refine ⟨hle.1, ?_⟩
  have : θ * (h' * d) ≤ h' * d := mul_le_of_le_one_left hle.1 h1
  linarith [hle.2]

/-- The points kept in the arrays `xp`, `yp`: they satisfy `P`, lie between `x1` and `x2` and follow each other
in the direction of the integration with a distance of more than `dxsav`. -/
structure Spec.Kept (P : ℝ → (Nat → ℝ) → Prop) (x1 x2 dxsav : ℝ) (n : Nat) (xp : Nat → ℝ)
    (yp : Nat → Nat → ℝ) : Prop where
  holds : ∀ k, 1 ≤ k → k ≤ n → P (xp k) (yp k)
  lower : ∀ k, 1 ≤ k → k ≤ n → 0 ≤ (xp k - x1) * (x2 - x1)
  upper : ∀ k, 1 ≤ k → k ≤ n → 0 < (x2 - xp k) * (x2 - x1)
  ordered : ∀ k, 1 ≤ k → k < n → 0 < (xp (k + 1) - xp k) * (x2 - x1)
  far : ∀ k, 1 ≤ k → k < n → |dxsav| < |xp (k + 1) - xp k|

/-- Before pass `j`. -/
structure OdeInv (a : OdeArgs ℝ) (P : ℝ → (Nat → ℝ) → Prop) (xp0 : Nat → ℝ) (yp0 : Nat → Nat → ℝ) (j : Nat)
    (s : OdeState ℝ) : Prop where
  holds : P s.x s.y
  lower : 0 ≤ (s.x - a.x1) * (a.x2 - a.x1)
  upper : 0 < (a.x2 - s.x) * (a.x2 - a.x1)
  dir : 0 ≤ s.h * (a.x2 - a.x1)
  count : (s.kount : Int) ≤ max 0 (a.kmax - 1)
  kept : Spec.Kept P a.x1 a.x2 a.dxsav s.kount s.xp s.yp
  saved : 1 ≤ s.kount → s.xsav = s.xp s.kount ∧ 0 ≤ (s.x - s.xp s.kount) * (a.x2 - a.x1)
  first : s.kount = 0 → a.dxsav ≠ 0 → 2 ≤ a.kmax → j = 1 ∧ s.x = a.x1 ∧ s.xsav = a.x1 - a.dxsav * 2
  start : 1 ≤ s.kount → a.dxsav ≠ 0 → s.xp 1 = a.x1 ∧ s.yp 1 = a.ystart
  begin : j = 1 → s.y = a.ystart
  rest : ∀ k, k = 0 ∨ s.kount < k → s.xp k = xp0 k ∧ s.yp k = yp0 k
  steps : s.nok + s.nbad + 1 = j

theorem odeSave_inv {a : OdeArgs ℝ} {P : ℝ → (Nat → ℝ) → Prop} {xp0 : Nat → ℝ} {yp0 : Nat → Nat → ℝ} {j : Nat}
    {s : OdeState ℝ} (h : OdeInv a P xp0 yp0 j s) :
    OdeInv a P xp0 yp0 j (odeSave a s) ∧ (odeSave a s).x = s.x ∧ (odeSave a s).y = s.y ∧
      (odeSave a s).h = s.h ∧ (odeSave a s).nok = s.nok ∧ (odeSave a s).nbad = s.nbad ∧
      (a.dxsav ≠ 0 → 2 ≤ a.kmax → 1 ≤ (odeSave a s).kount) := by
  unfold odeSave
  split
  · rename_i hc
    obtain ⟨h1, h2, h3⟩ := hc
    refine ⟨?_, rfl, rfl, rfl, rfl, rfl, fun _ _ => by dsimp only; omega⟩
    have hne : ∀ k, k ≤ s.kount → aset s.xp (s.kount + 1) s.x k = s.xp k ∧
        aset s.yp (s.kount + 1) s.y k = s.yp k :=
      fun k hk => ⟨aset_ne _ _ (by omega), aset_ne _ _ (by omega)⟩
    refine ⟨h.holds, h.lower, h.upper, h.dir, ?_, ⟨?_, ?_, ?_, ?_, ?_⟩, ?_, ?_, ?_, h.begin, ?_, h.steps⟩
    · dsimp only
      push_cast
      omega
    · intro k hk1 hk2
      dsimp only at hk2 ⊢
      rcases Nat.lt_or_ge s.kount k with hk3 | hk3
      · obtain rfl : k = s.kount + 1 := by omega
        rw [aset_self, aset_self]
        exact h.holds
      · rw [(hne k hk3).1, (hne k hk3).2]
        exact h.kept.holds k hk1 hk3
    · intro k hk1 hk2
      dsimp only at hk2 ⊢
      rcases Nat.lt_or_ge s.kount k with hk3 | hk3
      · obtain rfl : k = s.kount + 1 := by omega
        rw [aset_self]
        exact h.lower
      · rw [(hne k hk3).1]
        exact h.kept.lower k hk1 hk3
    · intro k hk1 hk2
      dsimp only at hk2 ⊢
      rcases Nat.lt_or_ge s.kount k with hk3 | hk3
      · obtain rfl : k = s.kount + 1 := by omega
        rw [aset_self]
        exact h.upper
      · rw [(hne k hk3).1]
        exact h.kept.upper k hk1 hk3
    · intro k hk1 hk2
      dsimp only at hk2 ⊢
      rcases Nat.lt_or_ge k s.kount with hk3 | hk3
      · rw [(hne k (by omega)).1, (hne (k + 1) (by omega)).1]
        exact h.kept.ordered k hk1 hk3
      · obtain rfl : k = s.kount := by omega
        rw [aset_self, (hne s.kount le_rfl).1]
        obtain ⟨h4, h5⟩ := h.saved hk1
        refine lt_of_le_of_ne h5 (Ne.symm ?_)
        rw [h4] at h3
        refine mul_ne_zero ?_ ?_
        · intro h6
          rw [h6, abs_zero] at h3
          exact absurd h3 (not_lt.mpr (abs_nonneg _))
        · intro h6
          have := h.upper
          rw [h6, mul_zero] at this
          exact lt_irrefl _ this
    · intro k hk1 hk2
      dsimp only at hk2 ⊢
      rcases Nat.lt_or_ge k s.kount with hk3 | hk3
      · rw [(hne k (by omega)).1, (hne (k + 1) (by omega)).1]
        exact h.kept.far k hk1 hk3
      · obtain rfl : k = s.kount := by omega
        rw [aset_self, (hne s.kount le_rfl).1, ← (h.saved hk1).1]
        exact h3
    · intro _
      dsimp only
      rw [aset_self]
      exact ⟨rfl, by simp⟩
    · intro hk
      dsimp only at hk
      omega
    · intro _ hd
      dsimp only
      rcases Nat.eq_zero_or_pos s.kount with hk | hk
      · obtain ⟨h4, h5, _⟩ := h.first hk hd (by omega)
        rw [hk, aset_self, aset_self]
        exact ⟨h5, h.begin h4⟩
      · rw [(hne 1 hk).1, (hne 1 hk).2]
        exact h.start hk hd
    · intro k hk
      dsimp only at hk ⊢
      rw [aset_ne _ _ (by omega), aset_ne _ _ (by omega)]
      exact h.rest k (by omega)
  · rename_i hc
    refine ⟨h, rfl, rfl, rfl, rfl, rfl, fun hd hk => ?_⟩
    by_contra h1
    obtain ⟨_, h2, h3⟩ := h.first (by omega) hd hk
    refine hc ⟨by omega, by omega, ?_⟩
    rw [h2, h3, show a.x1 - (a.x1 - a.dxsav * 2) = a.dxsav * 2 by ring, abs_mul]
    have := abs_pos.mpr hd
    norm_num
    linarith

/-- What holds at the end of `odeintegrate` with status 0. -/
structure Spec.OdeDone (a : OdeArgs ℝ) (P : ℝ → (Nat → ℝ) → Prop) (xp0 : Nat → ℝ) (yp0 : Nat → Nat → ℝ)
    (o : OdeOut ℝ) : Prop where
  status : o.status = 0
  ret : o.ret = a.x2
  holds : P a.x2 o.ystart
  /-- Without arrays nothing is kept. -/
  none : a.kmax = 0 → o.kcount = 0 ∧ o.xp = xp0 ∧ o.yp = yp0
  /-- With arrays for `kmax` points these arrays are not exceeded, the last point is the end, the points before
  lie as described, the remaining entries are not touched. -/
  kept : 0 < a.kmax → ∃ k : Nat, o.kcount = k + 1 ∧ ((k + 1 : Nat) : Int) ≤ a.kmax ∧
    o.xp (k + 1) = a.x2 ∧ o.yp (k + 1) = o.ystart ∧ Spec.Kept P a.x1 a.x2 a.dxsav k o.xp o.yp ∧
    ∀ i, i = 0 ∨ k + 1 < i → o.xp i = xp0 i ∧ o.yp i = yp0 i
  /-- The first point is the start. -/
  start : a.dxsav ≠ 0 → 2 ≤ a.kmax → o.xp 1 = a.x1 ∧ o.yp 1 = a.ystart

/-- What holds at the end of `odeintegrate` with another status. -/
structure Spec.OdeFailed (a : OdeArgs ℝ) (P : ℝ → (Nat → ℝ) → Prop) (xp0 : Nat → ℝ) (yp0 : Nat → Nat → ℝ)
    (o : OdeOut ℝ) : Prop where
  ystart : o.ystart = a.ystart
  kcount : o.kcount = a.kcount
  lower : 0 ≤ (o.ret - a.x1) * (a.x2 - a.x1)
  upper : 0 < (a.x2 - o.ret) * (a.x2 - a.x1)
  holds : ∃ y, P o.ret y
  rest : ∀ i : Nat, i = 0 ∨ max 0 (a.kmax - 1) < (i : Int) → o.xp i = xp0 i ∧ o.yp i = yp0 i

theorem odePass_spec {a : OdeArgs ℝ} (hne : a.x1 ≠ a.x2) (hstep : Spec.Stepper a.step)
    {P : ℝ → (Nat → ℝ) → Prop}
    (hP : ∀ x y h yscal t, P x y → a.step y (a.derivs x y) x h yscal = .ok t → P t.x t.y)
    {xp0 : Nat → ℝ} {yp0 : Nat → Nat → ℝ} {j : Nat} {s : OdeState ℝ} (h : OdeInv a P xp0 yp0 j s) :
    (∃ o, odePass a j s = .inl (.ok o) ∧ Spec.OdeDone a P xp0 yp0 o ∧ o.nok + o.nbad = j) ∨
    (∃ o, odePass a j s = .inl (.ok o) ∧ o.status = -1 ∧ Spec.OdeFailed a P xp0 yp0 o ∧ o.nok + o.nbad = j) ∨
    (∃ s', odePass a j s = .inr s' ∧ OdeInv a P xp0 yp0 (j + 1) s') ∨
    odePass a j s = .inl .abort ∨ odePass a j s = .inl .ub := by
  obtain ⟨h, ex, ey, eh, e1, e2, hfirst⟩ := odeSave_inv h
  unfold odePass
  dsimp only
  rw [← ey, ← ex]
  generalize odeSave a s = s' at *
  generalize (fun i => |s'.y i| + |a.derivs s'.x s'.y i * s.h| + 1 / 10 ^ 250) = yscal
  set h' := if (s'.x + s'.h - a.x2) * (s'.x + s'.h - a.x1) > 0 then a.x2 - s'.x else s'.h with hh'
  generalize ht : a.step s'.y (a.derivs s'.x s'.y) s'.x h' yscal = t
  cases t with
  | abort => exact Or.inr (Or.inr (Or.inr (Or.inl rfl)))
  | ub => exact Or.inr (Or.inr (Or.inr (Or.inr rfl)))
  | ok t =>
    obtain ⟨hx, ⟨θ, hθ0, hθ1, hθ⟩, φ, hφ0, hφ⟩ := hstep _ _ _ _ _ _ ht
    obtain ⟨hc1, hc2⟩ := ode_clip h.lower h.upper h.dir hθ1 hh'
    rw [← hθ, ← hx] at hc2
    have hc3 : 0 ≤ (t.x - s'.x) * (a.x2 - a.x1) := by
      rw [hx, add_sub_cancel_left, hθ, mul_assoc]
      exact mul_nonneg hθ0.le hc1
    have hPt := hP _ _ _ _ _ h.holds ht
    have hd : a.x2 - a.x1 ≠ 0 := sub_ne_zero.mpr (Ne.symm hne)
    dsimp only
    have hn : (if t.hdid = h' then s'.nok + 1 else s'.nok) + (if t.hdid = h' then s'.nbad else s'.nbad + 1) =
        j := by
      have := h.steps
      split <;> omega
    split
    · rename_i hend
      have hxe : t.x = a.x2 := by
        have h3 : (a.x2 - t.x) * (a.x2 - a.x1) = 0 := by linarith
        rcases mul_eq_zero.mp h3 with h4 | h4
        · linarith
        · exact absurd h4 hd
      rw [hxe] at hPt
      left
      split
      · rename_i hk
        refine ⟨_, rfl, ⟨rfl, rfl, hPt, fun h0 => absurd h0 hk, fun hk0 => ?_, fun hd0 hk2 => ?_⟩, hn⟩
        · have hc := h.count
          refine ⟨s'.kount, rfl, by push_cast; omega, ?_, ?_, ?_, ?_⟩
          · dsimp only
            rw [aset_self, hxe]
          · dsimp only
            rw [aset_self]
          · have hne : ∀ k, k ≤ s'.kount → aset s'.xp (s'.kount + 1) t.x k = s'.xp k ∧
                aset s'.yp (s'.kount + 1) t.y k = s'.yp k :=
              fun k hk => ⟨aset_ne _ _ (by omega), aset_ne _ _ (by omega)⟩
            refine ⟨fun k h1 h2 => ?_, fun k h1 h2 => ?_, fun k h1 h2 => ?_, fun k h1 h2 => ?_,
              fun k h1 h2 => ?_⟩
            · dsimp only; rw [(hne k h2).1, (hne k h2).2]; exact h.kept.holds k h1 h2
            · dsimp only; rw [(hne k h2).1]; exact h.kept.lower k h1 h2
            · dsimp only; rw [(hne k h2).1]; exact h.kept.upper k h1 h2
            · dsimp only; rw [(hne k (by omega)).1, (hne (k + 1) (by omega)).1]; exact h.kept.ordered k h1 h2
            · dsimp only; rw [(hne k (by omega)).1, (hne (k + 1) (by omega)).1]; exact h.kept.far k h1 h2
          · intro i hi
            dsimp only
            rw [aset_ne _ _ (by omega), aset_ne _ _ (by omega)]
            exact h.rest i (by omega)
        · have h1 := hfirst hd0 hk2
          dsimp only
          rw [aset_ne _ _ (by omega), aset_ne _ _ (by omega)]
          exact h.start h1 hd0
      · rename_i hk
        have hk : a.kmax = 0 := not_not.mp hk
        have hc := h.count
        have h0 : s'.kount = 0 := by omega
        refine ⟨_, rfl, ⟨rfl, rfl, hPt, fun _ => ⟨by dsimp only; omega, ?_, ?_⟩, fun h1 => by omega,
          fun _ h2 => by omega⟩, hn⟩
        · funext i
          exact (h.rest i (by omega)).1
        · funext i
          exact (h.rest i (by omega)).2
    · rename_i hend
      have hup : 0 < (a.x2 - t.x) * (a.x2 - a.x1) := by
        rw [ge_iff_le, not_le] at hend
        linarith
      have hlo : 0 ≤ (t.x - a.x1) * (a.x2 - a.x1) := by
        have := h.lower
        linarith
      right
      split
      · left
        refine ⟨_, rfl, rfl, ⟨rfl, rfl, hlo, hup, ⟨_, hPt⟩, fun i hi => h.rest i ?_⟩, hn⟩
        have := h.count
        omega
      · right
        left
        refine ⟨_, rfl, hPt, hlo, hup, ?_, h.count, h.kept, fun hk => ⟨(h.saved hk).1, ?_⟩, fun h0 hd0 hk2 => ?_,
          h.start, fun h0 => ?_, h.rest, ?_⟩
        · dsimp only
          rw [hφ, hθ, mul_assoc, mul_assoc]
          exact mul_nonneg hφ0.le (mul_nonneg hθ0.le hc1)
        · have := (h.saved hk).2
          dsimp only
          linarith
        · have h1 := hfirst hd0 hk2
          dsimp only at h0
          omega
        · have := h.steps
          omega
        · dsimp only
          omega

/-- **C89** (`odeintegrate`). Let the stepper satisfy its contract, let `P x y` be any statement that holds at
the start and is preserved by the steps of the stepper. If `odeintegrate` returns with status 0, it has reached
`x2`, `P` holds there for the `ystart` it leaves and at all points kept in the arrays, which are not exceeded
and whose first and last points are the start and the end. Otherwise the status is -1 or -2 and `ystart` and
`kcount` are what they were. -/
theorem C89_odeintegrate (maxstp : Nat) (a : OdeArgs ℝ) (hne : a.x1 ≠ a.x2) (hstep : Spec.Stepper a.step)
    (P : ℝ → (Nat → ℝ) → Prop) (h0 : P a.x1 a.ystart)
    (hP : ∀ x y h yscal t, P x y → a.step y (a.derivs x y) x h yscal = .ok t → P t.x t.y)
    (h1 : ℝ) (xp0 : Nat → ℝ) (yp0 : Nat → Nat → ℝ) (o : OdeOut ℝ)
    (ho : odeintegrate maxstp a h1 xp0 yp0 = .ok o) :
    (Spec.OdeDone a P xp0 yp0 o ∧ 1 ≤ o.nok + o.nbad ∧ o.nok + o.nbad ≤ maxstp) ∨
    (o.status = -1 ∧ Spec.OdeFailed a P xp0 yp0 o ∧ o.nok + o.nbad ≤ maxstp) ∨
    (o.status = -2 ∧ Spec.OdeFailed a P xp0 yp0 o ∧ o.nok + o.nbad = maxstp) := by
  have hd : a.x2 - a.x1 ≠ 0 := sub_ne_zero.mpr (Ne.symm hne)
  unfold odeintegrate at ho
  refine (forRet_inv (n := maxstp) (body := odePass a)
    (s := ⟨a.ystart, a.x1, withSignOf h1 (a.x2 - a.x1), a.x1 - a.dxsav * 2, 0, xp0, yp0, 0, 0⟩)
    (fun j s => OdeInv a P xp0 yp0 j s)
    (fun j r => ∀ o, r = .ok o → (Spec.OdeDone a P xp0 yp0 o ∧ o.nok + o.nbad = j) ∨
      (o.status = -1 ∧ Spec.OdeFailed a P xp0 yp0 o ∧ o.nok + o.nbad = j)) ?_ ?_ ?_).elim ?_ ?_
  · refine ⟨h0, by simp, mul_self_pos.mpr hd, ?_, by simp, ⟨?_, ?_, ?_, ?_, ?_⟩, fun h => absurd h (by simp),
      fun _ _ _ => ⟨rfl, rfl, rfl⟩, fun h => absurd h (by simp), fun _ => rfl, fun _ _ => ⟨rfl, rfl⟩, rfl⟩
    · dsimp only
      unfold withSignOf
      split
      · rename_i h
        exact mul_nonneg (abs_nonneg _) h
      · rename_i h
        rw [neg_mul, ← mul_neg]
        exact mul_nonneg (abs_nonneg _) (by rw [ge_iff_le, not_le] at h; linarith)
    all_goals intro k h2 h3; exact absurd h3 (by simp; try omega)
  · rintro j s r _ _ hI hr o rfl
    rcases odePass_spec hne hstep hP hI with ⟨o', h2, h3, h4⟩ | ⟨o', h2, h3, h4, h5⟩ | ⟨s', h2, _⟩ | h2 | h2
    · rw [h2] at hr
      cases hr
      exact Or.inl ⟨h3, h4⟩
    · rw [h2] at hr
      cases hr
      exact Or.inr ⟨h3, h4, h5⟩
    all_goals rw [h2] at hr; cases hr
  · rintro j s s' _ _ hI hr
    rcases odePass_spec hne hstep hP hI with ⟨o', h2, h3, h4⟩ | ⟨o', h2, h3, h4, h5⟩ | ⟨s', h2, h3⟩ | h2 | h2
    · rw [h2] at hr; cases hr
    · rw [h2] at hr; cases hr
    · rw [h2] at hr
      cases hr
      exact h3
    all_goals rw [h2] at hr; cases hr
  · rintro ⟨r, j, h2, h3, hr, hQ⟩
    rw [hr] at ho
    rcases hQ o ho with ⟨h4, h5⟩ | ⟨h4, h5, h6⟩
    · exact Or.inl ⟨h4, by omega, by omega⟩
    · exact Or.inr (Or.inl ⟨h4, h5, by omega⟩)
  · rintro ⟨s, hr, hI⟩
    rw [hr] at ho
    cases ho
    refine Or.inr (Or.inr ⟨rfl, ⟨rfl, rfl, hI.lower, hI.upper, ⟨_, hI.holds⟩, fun i hi => hI.rest i ?_⟩, ?_⟩)
    · have := hI.count
      omega
    · have := hI.steps
      dsimp only
      omega

/-- **C89** (`odeintegrate` over an interval of length zero): one step of size zero, status 0. -/
theorem C89_empty (maxstp : Nat) (hm : 1 ≤ maxstp) (a : OdeArgs ℝ) (he : a.x1 = a.x2) (h1 : ℝ) (xp0 : Nat → ℝ) (yp0 : Nat → Nat → ℝ) (o : OdeOut ℝ)
    (ho : odeintegrate maxstp a h1 xp0 yp0 = .ok o) :
    o.status = 0 ∧ o.ret = a.x2 ∧ o.nok + o.nbad = 1 := by
  unfold odeintegrate at ho
  refine (forRet_inv (n := maxstp) (body := odePass a)
    (s := ⟨a.ystart, a.x1, withSignOf h1 (a.x2 - a.x1), a.x1 - a.dxsav * 2, 0, xp0, yp0, 0, 0⟩)
    (fun j s => j = 1 ∧ s.nok = 0 ∧ s.nbad = 0)
    (fun _ r => ∀ o, r = .ok o → o.status = 0 ∧ o.ret = a.x2 ∧ o.nok + o.nbad = 1) ⟨rfl, rfl, rfl⟩
    ?_ ?_).elim ?_ ?_
  · rintro j s r _ _ ⟨_, h2, h3⟩ hr o rfl
    have e1 : (odeSave a s).nok = 0 ∧ (odeSave a s).nbad = 0 := by
      unfold odeSave
      split <;> exact ⟨h2, h3⟩
    unfold odePass at hr
    dsimp only at hr
    split at hr
    · rw [he, sub_self, mul_zero, if_pos le_rfl, e1.1, e1.2] at hr
      split at hr
      · cases hr
        refine ⟨rfl, rfl, ?_⟩
        dsimp only
        split_ifs <;> rfl
      · cases hr
        refine ⟨rfl, rfl, ?_⟩
        dsimp only
        split_ifs <;> rfl
    · cases hr
    · cases hr
  · rintro j s s' _ _ _ hr
    unfold odePass at hr
    dsimp only at hr
    split at hr
    · rw [he, sub_self, mul_zero, if_pos le_rfl] at hr
      split at hr <;> cases hr
    · cases hr
    · cases hr
  · rintro ⟨r, j, _, _, hr, hQ⟩
    rw [hr] at ho
    exact hQ o ho
  · rintro ⟨s, _, h2, _⟩
    omega

/-- Euler steps, as a stepper. -/
def eulerStep {K : Type} [Field K] (y dydx : Nat → K) (x h : K) (_yscal : Nat → K) : Res (OdeStep K) :=
  .ok ⟨fun i => y i + h * dydx i, x + h, h, h⟩

/-- Arguments for the examples: y' = y from 0 to 1 with Euler steps. -/
def eulerArgs (kmax : Int) (dxsav : ℚ) : OdeArgs ℚ :=
  ⟨fun _ y => y, eulerStep, fun _ => 1, 0, 1, 0, kmax, 0, dxsav⟩

/-- Return value, status, `ystart[1]`, `kcount`, and the first five entries of `xp`. -/
def odeShow (r : Res (OdeOut ℚ)) : Option (ℚ × Int × ℚ × Int × List ℚ) :=
  match r with
  | .ok o => some (o.ret, o.status, o.ystart 1, o.kcount, [o.xp 1, o.xp 2, o.xp 3, o.xp 4, o.xp 5])
  | _ => none

/-- Steps of 2/5, the last one is shorter. -/
example : odeShow (odeintegrate 10 (eulerArgs 4 (1 / 10)) (2 / 5) (fun _ => -1) (fun _ _ => -1)) =
    some (1, 0, 294 / 125, 4, [0, 2 / 5, 4 / 5, 1, -1]) := by decide +kernel

/-- Fewer places than steps: the end is always kept. -/
example : odeShow (odeintegrate 10 (eulerArgs 2 (1 / 10)) (2 / 5) (fun _ => -1) (fun _ _ => -1)) =
    some (1, 0, 294 / 125, 2, [0, 1, -1, -1, -1]) := by decide +kernel

/-- Too few steps allowed. -/
example : odeShow (odeintegrate 2 (eulerArgs 2 (1 / 10)) (2 / 5) (fun _ => -1) (fun _ _ => -1)) =
    some (4 / 5, -2, 1, 0, [0, -1, -1, -1, -1]) := by decide +kernel

/-- **C89 fails** for `dxsav = 0`: the starting point is not kept. -/
theorem C89_start_counterexample :
    odeShow (odeintegrate 10 (eulerArgs 4 0) (2 / 5) (fun _ => -1) (fun _ _ => -1)) =
      some (1, 0, 294 / 125, 3, [2 / 5, 4 / 5, 1, -1, -1]) := by decide +kernel

/-- **C89 fails** for negative `kmax`: a point is written although there is no place for one. -/
theorem C89_negative_counterexample :
    odeShow (odeintegrate 10 (eulerArgs (-1) 0) (2 / 5) (fun _ => -1) (fun _ _ => -1)) =
      some (1, 0, 294 / 125, 1, [1, -1, -1, -1, -1]) := by decide +kernel

/-! ### The version that uses the GSL -/

/-- **C93** (missing: the integration by the GSL may fail). If all integrations by the GSL reach their ends,
`odeintegrate` returns `x2` and keeps `kmax` points at equal distances. `P` is any statement preserved by the
integrations. -/
theorem C93_gsl_partial (gsl : Gsl ℝ) (P : ℝ → (Nat → ℝ) → Prop) (y : Nat → ℝ) (x1 x2 : ℝ) (kmax : Nat)
    (hg : ∀ xs xe y, (gsl xs xe y).1 = xe ∧ (P xs y → P xe (gsl xs xe y).2.1)) (h0 : P x1 y)
    (xp : Nat → ℝ) (yp : Nat → Nat → ℝ) (o : OdeOut ℝ) (ho : o = gslOdeintegrate gsl y x1 x2 kmax xp yp) :
    o.status = 0 ∧ o.ret = x2 ∧ P x2 o.ystart ∧ o.kcount = kmax ∧
      (∀ k, 1 ≤ k → k ≤ kmax → P (o.xp k) (o.yp k) ∧
        (2 ≤ kmax → o.xp k = x1 + (k - 1) * (x2 - x1) / (kmax - 1))) ∧
      (1 ≤ kmax → o.xp 1 = x1 ∧ o.yp 1 = y) ∧
      (2 ≤ kmax → o.xp kmax = x2 ∧ o.yp kmax = o.ystart) ∧
      ∀ k, k = 0 ∨ kmax < k → o.xp k = xp k ∧ o.yp k = yp k := by
  unfold gslOdeintegrate at ho
  dsimp only at ho
  rw [(hg x1 x2 y).1] at ho
  split at ho
  · rename_i hk
    rw [if_pos (by omega)] at ho
    dsimp only at ho
    rw [aset_self] at ho
    have hk1 : ((kmax : ℝ) - 1) ≠ 0 := by
      have : (2 : ℝ) ≤ kmax := by exact_mod_cast hk
      linarith
    set g : Nat → ℝ := fun k => x1 + (k - 1) * (x2 - x1) / (kmax - 1) with hgdef
    have hlast : g kmax = x2 := by
      rw [hgdef]
      dsimp only
      rw [mul_comm, mul_div_assoc, div_self hk1]
      ring
    have hpass : ∀ j (s : GslState ℝ), gslPass gsl x1 x2 kmax j s =
        .inr ⟨g (j + 1), (gsl s.xs (g (j + 1)) s.y).2.1, s.kcount + 1, aset s.xp (j + 1) (g (j + 1)),
          aset s.yp (j + 1) (gsl s.xs (g (j + 1)) s.y).2.1⟩ := by
      intro j s
      have e : x1 + j * (x2 - x1) / (kmax - 1) = g (j + 1) := by
        rw [hgdef]
        dsimp only
        push_cast
        ring
      unfold gslPass
      dsimp only
      rw [e, (hg _ _ _).1, if_neg (lt_irrefl _)]
    refine (forRet_inv (n := kmax - 1) (body := gslPass gsl x1 x2 kmax)
      (s := ⟨x1, y, 1, aset xp 1 x1, aset yp 1 y⟩)
      (fun j s => s.xs = g j ∧ P s.xs s.y ∧ s.kcount = j ∧
        (∀ k, 1 ≤ k → k ≤ j → P (s.xp k) (s.yp k) ∧ s.xp k = g k) ∧ s.yp 1 = y ∧ s.yp j = s.y ∧
        ∀ k, k = 0 ∨ j < k → s.xp k = xp k ∧ s.yp k = yp k) (fun _ _ => False) ?_ ?_ ?_).elim ?_ ?_
    · have e : x1 = g 1 := by rw [hgdef]; simp
      refine ⟨e, h0, rfl, fun k h1 h2 => ?_, aset_self yp 1 y, aset_self yp 1 y, fun k hk => ?_⟩
      · obtain rfl : k = 1 := by omega
        dsimp only
        rw [aset_self, aset_self]
        exact ⟨h0, e⟩
      · exact ⟨aset_ne _ _ (by omega), aset_ne _ _ (by omega)⟩
    · intro j s x _ _ _ hx
      rw [hpass] at hx
      cases hx
    · rintro j s s' hj1 hj2 ⟨h1, h2, h3, h4, h5, _, h6⟩ hx
      rw [hpass] at hx
      cases hx
      have hP := (hg s.xs (g (j + 1)) s.y).2 h2
      refine ⟨rfl, hP, by dsimp only; omega, fun k hk1 hk2 => ?_, ?_, aset_self _ _ _, fun k hk => ?_⟩
      · dsimp only
        rcases Nat.lt_or_ge j k with hk3 | hk3
        · obtain rfl : k = j + 1 := by omega
          rw [aset_self, aset_self]
          exact ⟨hP, rfl⟩
        · rw [aset_ne _ _ (by omega), aset_ne _ _ (by omega)]
          exact h4 k hk1 hk3
      · dsimp only
        rw [aset_ne _ _ (by omega)]
        exact h5
      · dsimp only
        rw [aset_ne _ _ (by omega), aset_ne _ _ (by omega)]
        exact h6 k (by omega)
    · rintro ⟨_, _, _, _, _, h⟩
      exact h.elim
    · rintro ⟨s, hs, h1, h2, h3, h4, h5, h6, h7⟩
      rw [hs] at ho
      dsimp only at ho
      rw [show kmax - 1 + 1 = kmax by omega] at h1 h3 h4 h6 h7
      subst ho
      rw [hlast] at h1
      rw [h1] at h2
      refine ⟨rfl, h1, h2, by dsimp only; omega, fun k hk1 hk2 => ⟨(h4 k hk1 hk2).1, fun _ => (h4 k hk1 hk2).2⟩,
        fun _ => ⟨?_, h5⟩, fun _ => ⟨?_, h6⟩, h7⟩
      · dsimp only
        rw [(h4 1 le_rfl (by omega)).2, hgdef]
        simp
      · dsimp only
        rw [(h4 kmax (by omega) le_rfl).2, hlast]
  · rename_i hk
    subst ho
    have hP := (hg x1 x2 y).2 h0
    refine ⟨rfl, rfl, hP, ?_⟩
    split
    · obtain rfl : kmax = 1 := by omega
      refine ⟨rfl, fun k h1 h2 => ?_, fun _ => ⟨aset_self xp 1 x1, aset_self yp 1 y⟩, fun h => absurd h (by omega),
        fun k h1 => ⟨aset_ne _ _ (by omega), aset_ne _ _ (by omega)⟩⟩
      obtain rfl : k = 1 := by omega
      dsimp only
      rw [aset_self, aset_self]
      exact ⟨h0, fun h => absurd h (by omega)⟩
    · obtain rfl : kmax = 0 := by omega
      exact ⟨rfl, fun k h1 h2 => absurd h1 (by omega), fun h => absurd h (by omega),
        fun h => absurd h (by omega), fun k _ => ⟨rfl, rfl⟩⟩

/-- **C93 fails**: the status is 0 whatever the GSL says. Here it gives up at 1/2 with an error code. -/
theorem C93_status_counterexample :
    ∃ gsl : Gsl ℚ, (∀ y, (gsl 0 1 y).2.2 ≠ 0) ∧
      ∀ y kmax xp yp, (gslOdeintegrate gsl y 0 1 kmax xp yp).status = 0 ∧
        (kmax ≤ 1 → (gslOdeintegrate gsl y 0 1 kmax xp yp).ret = 1 / 2) := by
  refine ⟨fun _ _ y => (1 / 2, y, 4), fun _ => by simp, fun y kmax xp yp => ⟨?_, fun hk => ?_⟩⟩
  · unfold gslOdeintegrate
    dsimp only
    split
    · split <;> rfl
    · rfl
  · unfold gslOdeintegrate
    rw [if_neg (by omega)]

/-- Three points from 0 to 1, with a GSL that does Euler steps for y' = y. -/
example : odeShow (.ok (gslOdeintegrate (fun xs xe y => (xe, fun i => y i + (xe - xs) * y i, 0)) (fun _ => 1)
    (0 : ℚ) 1 3 (fun _ => -1) (fun _ _ => -1))) = some (1, 0, 9 / 4, 3, [0, 1 / 2, 1, -1, -1]) := by
  decide +kernel

/-- The counters of steps are those of the Numerical Recipes version and stay 0. -/
example :
    let o := gslOdeintegrate (fun xs xe y => (xe, fun i => y i + (xe - xs) * y i, 0)) (fun _ => 1) (0 : ℚ) 1 3
      (fun _ => -1) (fun _ _ => -1)
    o.nok = 0 ∧ o.nbad = 0 := by
  decide +kernel

/-- A GSL that goes only half of the way: the points after the first stop are not filled. -/
example :
    let o := gslOdeintegrate (fun xs xe y => ((xs + xe) / 2, fun i => y i + 1, 0)) (fun _ => 1) (0 : ℚ) 1 3
      (fun _ => -1) (fun _ _ => -1)
    o.nok = 0 ∧ o.nbad = 0 ∧ o.status = 0 ∧ o.kcount = 2 ∧ o.ret = 1 / 8 ∧ o.xp 2 = 1 / 8 ∧ o.xp 3 = -1 := by
  decide +kernel

end Sgrid
