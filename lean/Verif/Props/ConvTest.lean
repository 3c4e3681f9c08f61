import Mathlib.Tactic.Linarith
import Mathlib.Tactic.Ring
import Mathlib.Tactic.FieldSimp
import Mathlib.Tactic.NormNum
import Mathlib.Tactic.Positivity
import Verif.Model.ConvTest

/-!
C165: the advection test.
-/

namespace Sgrid

namespace Spec

/-- The three numbers are the derivatives of a function of three variables at a point: the chain rule holds for all
paths through it. -/
def Gradient3 (f : ℝ → ℝ → ℝ → ℝ) (x y z u1 u2 u3 : ℝ) : Prop :=
  ∀ (a b c : ℝ → ℝ) (a' b' c' : ℝ), a 0 = x → b 0 = y → c 0 = z → HasDerivAt a a' 0 → HasDerivAt b b' 0 →
    HasDerivAt c c' 0 → HasDerivAt (fun s => f (a s) (b s) (c s)) (u1 * a' + u2 * b' + u3 * c') 0

/-- The distance from the origin. -/
noncomputable def originDist (x y z : ℝ) : ℝ := Real.sqrt (x ^ 2 + y ^ 2 + z ^ 2)

end Spec

theorem conv_dist (x y z : ℝ) : Real.sqrt (x * x + y * y + z * z) = Spec.originDist x y z := by
  unfold Spec.originDist; simp only [pow_two]

/-- C165: where the first coordinate is the distance from the origin, the function of the test is a solution of the
equation that is evolved: its derivative with respect to time is the right hand side, with the derivatives of the
function itself. -/
theorem C165_solution (t x y z u1 u2 u3 : ℝ) (hr : 0 < Spec.originDist x y z)
    (hu : Spec.Gradient3 (fun x y z => convF t x y z (Spec.originDist x y z)) x y z u1 u2 u3) :
    HasDerivAt (fun τ => convF τ x y z (Spec.originDist x y z)) (convRhs x y z u1 u2 u3) t := by
  set r := Spec.originDist x y z with hrdef
  have lin : ∀ w : ℝ, HasDerivAt (fun s : ℝ => w + s * (w / r)) (w / r) 0 := by
    intro w
    simpa using ((hasDerivAt_id (0 : ℝ)).mul_const (w / r)).const_add w
  have h := hu (fun s => x + s * (x / r)) (fun s => y + s * (y / r)) (fun s => z + s * (z / r)) (x / r) (y / r) (z / r)
    (by simp) (by simp) (by simp) (lin x) (lin y) (lin z)
  have e : u1 * (x / r) + u2 * (y / r) + u3 * (z / r) = convRhs x y z u1 u2 u3 := by
    unfold convRhs
    dsimp only
    rw [conv_dist, ← hrdef]
    field_simp
  rw [e] at h
  have hd : ∀ s, -r < s → Spec.originDist (x + s * (x / r)) (y + s * (y / r)) (z + s * (z / r)) = r + s := by
    intro s hs
    have hq : x ^ 2 + y ^ 2 + z ^ 2 = r ^ 2 := by
      rw [hrdef]; unfold Spec.originDist; rw [Real.sq_sqrt (by positivity)]
    have hsq : (x + s * (x / r)) ^ 2 + (y + s * (y / r)) ^ 2 + (z + s * (z / r)) ^ 2 = (r + s) ^ 2 := by
      have : (x + s * (x / r)) ^ 2 + (y + s * (y / r)) ^ 2 + (z + s * (z / r)) ^ 2 =
          (x ^ 2 + y ^ 2 + z ^ 2) * (1 + s / r) ^ 2 := by ring
      rw [this, hq]
      field_simp
    unfold Spec.originDist
    rw [hsq, Real.sqrt_sq (by linarith)]
  have ev : (fun s => convF (t + s) x y z r) =ᶠ[nhds 0] fun s =>
      convF t (x + s * (x / r)) (y + s * (y / r)) (z + s * (z / r))
        (Spec.originDist (x + s * (x / r)) (y + s * (y / r)) (z + s * (z / r))) := by
    have hn : ∀ᶠ s : ℝ in nhds 0, -r < s := eventually_gt_nhds (by linarith)
    refine hn.mono fun s hs => ?_
    have hrs : r + s ≠ 0 := by linarith
    simp only [convF, conv_dist]
    rw [hd s hs, ← hrdef]
    have hx : (x + s * (x / r)) / (r + s) = x / r := by field_simp
    rw [mul_div_assoc _ _ (r + s), hx, mul_div_assoc _ x r]
    congr 1
    ring
  have h2 := h.congr_of_eventuallyEq ev
  have h3 : HasDerivAt (fun τ => convF (t + (τ - t)) x y z r) (convRhs x y z u1 u2 u3) t := by
    have hsub : HasDerivAt (fun τ : ℝ => τ - t) 1 t := (hasDerivAt_id t).sub_const t
    have h2' : HasDerivAt (fun s => convF (t + s) x y z r) (convRhs x y z u1 u2 u3) (t - t) := by
      rw [sub_self]; exact h2
    have := HasDerivAt.comp (h₂ := fun s => convF (t + s) x y z r) (h := fun τ : ℝ => τ - t) t h2' hsub
    rw [mul_one] at this
    exact this
  simpa using h3

open Classical in
theorem conv_zero (n1 n2 n3 : Nat) (u : Nat → ℝ) (i : Nat) :
    upLoop 0 n3 (fun k u => upLoop 0 n2 (fun j u => aset u (n1 - 1 + n1 * j + n1 * n2 * k) 0) u) u i =
      if ∃ j k, j < n2 ∧ k < n3 ∧ i = n1 - 1 + n1 * j + n1 * n2 * k then 0 else u i := by
  have inner : ∀ (k : Nat) (u : Nat → ℝ) (i : Nat),
      upLoop 0 n2 (fun j u => aset u (n1 - 1 + n1 * j + n1 * n2 * k) 0) u i =
        if ∃ j, j < n2 ∧ i = n1 - 1 + n1 * j + n1 * n2 * k then 0 else u i := by
    intro k u
    have key := upLoop_inv (lo := 0) (hi := n2) (Nat.zero_le _)
      (body := fun j (u : Nat → ℝ) => aset u (n1 - 1 + n1 * j + n1 * n2 * k) 0) (s := u)
      (fun m t => ∀ i, t i = if ∃ j, j < m ∧ i = n1 - 1 + n1 * j + n1 * n2 * k then 0 else u i)
      (by intro i; rw [if_neg]; rintro ⟨j, h, _⟩; omega)
      (by
        intro m t _ _ ih i
        by_cases hi : i = n1 - 1 + n1 * m + n1 * n2 * k
        · rw [hi, aset_self, if_pos ⟨m, by omega, rfl⟩]
        · rw [aset_ne _ _ hi, ih]
          refine if_congr ⟨?_, ?_⟩ rfl rfl
          · rintro ⟨j, h1, h2⟩; exact ⟨j, by omega, h2⟩
          · rintro ⟨j, h1, h2⟩
            refine ⟨j, ?_, h2⟩
            rcases Nat.lt_succ_iff_lt_or_eq.1 h1 with h | h
            · exact h
            · subst h; exact absurd h2 hi)
    exact key
  have key := upLoop_inv (lo := 0) (hi := n3) (Nat.zero_le _)
    (body := fun k (u : Nat → ℝ) => upLoop 0 n2 (fun j u => aset u (n1 - 1 + n1 * j + n1 * n2 * k) 0) u) (s := u)
    (fun m t => ∀ i, t i = if ∃ j k, j < n2 ∧ k < m ∧ i = n1 - 1 + n1 * j + n1 * n2 * k then 0 else u i)
    (by intro i; rw [if_neg]; rintro ⟨j, k, _, h, _⟩; omega)
    (by
      intro m t _ _ ih i
      rw [inner, ih]
      by_cases h1 : ∃ j, j < n2 ∧ i = n1 - 1 + n1 * j + n1 * n2 * m
      · rw [if_pos h1, if_pos]
        obtain ⟨j, a, b⟩ := h1
        exact ⟨j, m, a, by omega, b⟩
      · rw [if_neg h1]
        refine if_congr ⟨?_, ?_⟩ rfl rfl
        · rintro ⟨j, k, a, b, c⟩; exact ⟨j, k, a, by omega, c⟩
        · rintro ⟨j, k, a, b, c⟩
          refine ⟨j, k, a, ?_, c⟩
          rcases Nat.lt_succ_iff_lt_or_eq.1 b with h | h
          · exact h
          · subst h; exact absurd ⟨j, a, c⟩ h1)
  exact key i

/-- C165: the step.  At the points of the last surface (first index n1-1) the new value is 0; at all others it is the
old value plus dt times the right hand side, or the right hand side itself for dt = 0.  Nothing is written beyond the
points of the box. -/
theorem C165_step (n1 n2 n3 : Nat) (dt : ℝ) (x y z u1 u2 u3 upre unew : Nat → ℝ) :
    (∀ i j k, i < n1 → j < n2 → k < n3 →
      convEvo n1 n2 n3 dt x y z u1 u2 u3 upre unew (i + n1 * j + n1 * n2 * k) =
        if i = n1 - 1 then 0 else
        (if dt = 0 then 0 else upre (i + n1 * j + n1 * n2 * k)) + (if dt = 0 then 1 else dt) *
          ((u1 (i + n1 * j + n1 * n2 * k) * x (i + n1 * j + n1 * n2 * k) +
            u2 (i + n1 * j + n1 * n2 * k) * y (i + n1 * j + n1 * n2 * k) +
            u3 (i + n1 * j + n1 * n2 * k) * z (i + n1 * j + n1 * n2 * k)) /
            Spec.originDist (x (i + n1 * j + n1 * n2 * k)) (y (i + n1 * j + n1 * n2 * k)) (z (i + n1 * j + n1 * n2 * k)))) ∧
    (0 < n1 → ∀ p, n1 * n2 * n3 ≤ p → convEvo n1 n2 n3 dt x y z u1 u2 u3 upre unew p = unew p) := by
  have first : ∀ p, upLoop 0 (n1 * n2 * n3) (fun i unew =>
      if dt ≠ 0 then aset unew i (upre i + dt * convRhs (x i) (y i) (z i) (u1 i) (u2 i) (u3 i))
      else aset unew i (convRhs (x i) (y i) (z i) (u1 i) (u2 i) (u3 i))) unew p =
      if p < n1 * n2 * n3 then (if dt = 0 then 0 else upre p) + (if dt = 0 then 1 else dt) *
        convRhs (x p) (y p) (z p) (u1 p) (u2 p) (u3 p) else unew p := by
    intro p
    have hb : (fun (i : Nat) (unew : Nat → ℝ) =>
        if dt ≠ 0 then aset unew i (upre i + dt * convRhs (x i) (y i) (z i) (u1 i) (u2 i) (u3 i))
        else aset unew i (convRhs (x i) (y i) (z i) (u1 i) (u2 i) (u3 i))) =
        fun i unew => aset unew i ((if dt = 0 then 0 else upre i) + (if dt = 0 then 1 else dt) *
          convRhs (x i) (y i) (z i) (u1 i) (u2 i) (u3 i)) := by
      funext i u
      by_cases h : dt = 0 <;> simp [h]
    rw [hb, upLoop_fill (fun i => (if dt = 0 then 0 else upre i) + (if dt = 0 then 1 else dt) *
          convRhs (x i) (y i) (z i) (u1 i) (u2 i) (u3 i))]
    simp
  have bound : ∀ i j k, i < n1 → j < n2 → k < n3 → i + n1 * j + n1 * n2 * k < n1 * n2 * n3 := by
    intro i j k hi hj hk
    have a : i + n1 * j < n1 * n2 := by
      calc i + n1 * j < n1 + n1 * j := by omega
        _ = n1 * (j + 1) := by ring
        _ ≤ n1 * n2 := Nat.mul_le_mul_left _ hj
    calc i + n1 * j + n1 * n2 * k < n1 * n2 + n1 * n2 * k := by omega
      _ = n1 * n2 * (k + 1) := by ring
      _ ≤ n1 * n2 * n3 := Nat.mul_le_mul_left _ hk
  constructor
  · intro i j k hi hj hk
    unfold convEvo
    dsimp only
    rw [conv_zero n1 n2 n3]
    by_cases hl : i = n1 - 1
    · rw [if_pos hl, if_pos ⟨j, k, hj, hk, by rw [hl]⟩]
    · rw [if_neg hl, if_neg, first, if_pos (bound i j k hi hj hk)]
      · unfold convRhs
        dsimp only
        rw [conv_dist]
      · rintro ⟨j', k', hj', hk', e⟩
        apply hl
        have m1 : (i + n1 * j + n1 * n2 * k) % n1 = i := by
          rw [show i + n1 * j + n1 * n2 * k = i + n1 * (j + n2 * k) by ring, Nat.add_mul_mod_self_left,
            Nat.mod_eq_of_lt hi]
        have m2 : (n1 - 1 + n1 * j' + n1 * n2 * k') % n1 = n1 - 1 := by
          rw [show n1 - 1 + n1 * j' + n1 * n2 * k' = n1 - 1 + n1 * (j' + n2 * k') by ring, Nat.add_mul_mod_self_left,
            Nat.mod_eq_of_lt (by omega)]
        rw [← m1, e, m2]
  · intro hn p hp
    unfold convEvo
    dsimp only
    rw [conv_zero n1 n2 n3, if_neg, first, if_neg (by omega)]
    rintro ⟨j, k, hj, hk, e⟩
    have := bound (n1 - 1) j k (by omega) hj hk
    omega

/-- C165: the error is zero if and only if the values are those of the solution. -/
theorem C165_error (t x y z X u : ℝ) : convErr t x y z X u = 0 ↔ u = convF t x y z X := by
  unfold convErr; exact sub_eq_zero

/-- The function is largest at the point with x = 1.2 at the time 0, where it is 1. -/
example : convF 0 1.2 0 0 1.2 = 1 := by
  unfold convF
  have : Real.sqrt (1.2 * 1.2 + 0 * 0 + 0 * 0) = 1.2 := by
    rw [show (1.2 * 1.2 + 0 * 0 + 0 * 0 : ℝ) = 1.2 ^ 2 by norm_num, Real.sqrt_sq (by norm_num)]
  rw [this]
  norm_num

end Sgrid
