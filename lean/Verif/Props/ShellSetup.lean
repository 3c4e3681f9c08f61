import Mathlib.Algebra.Order.Ring.Rat
import Mathlib.Algebra.Field.Rat
import Mathlib.Algebra.Order.Field.Basic
import Mathlib.Tactic.Linarith
import Mathlib.Tactic.Ring
import Verif.Model.ShellSetup

/-!
C164: the shells overlap by two points of each.
-/

namespace Sgrid

variable {K : Type} [Field K] [LinearOrder K] [IsStrictOrderedRing K]

/-- C164: each shell is moved as a whole, by S b; the first one stays where it is.  Then the first point of each shell is
at or below the last but one point of the shell before it, its second point is at or below the last one, and at
least one of these points coincide: the overlap holds two points of each shell, and is the smallest one
of this kind that has a common point.  The parameters of other boxes stay as they are. -/
theorem C164_overlap (nboxes : Nat) (box : Nat → Shell K) (min1 max1 : Nat → K) :
    ∃ S : Nat → K, S 0 = 0 ∧
      (∀ b, 1 ≤ b → b < nboxes →
        (setupShells nboxes box min1 max1).min1 b = (box b).X 0 + S b ∧
        (setupShells nboxes box min1 max1).max1 b = (box b).X ((box b).n1 - 1) + S b ∧
        (box b).X 0 + S b ≤ (box (b - 1)).X ((box (b - 1)).n1 - 2) + S (b - 1) ∧
        (box b).X 1 + S b ≤ (box (b - 1)).X ((box (b - 1)).n1 - 1) + S (b - 1) ∧
        ((box b).X 0 + S b = (box (b - 1)).X ((box (b - 1)).n1 - 2) + S (b - 1) ∨
          (box b).X 1 + S b = (box (b - 1)).X ((box (b - 1)).n1 - 1) + S (b - 1))) ∧
      (∀ b, b = 0 ∨ nboxes ≤ b → (setupShells nboxes box min1 max1).min1 b = min1 b ∧
        (setupShells nboxes box min1 max1).max1 b = max1 b) := by
  rcases Nat.lt_or_ge nboxes 1 with hn | hn
  · refine ⟨fun _ => 0, rfl, fun b h1 h2 => by omega, fun b _ => ?_⟩
    unfold setupShells
    rw [upLoop_nil (by omega)]
    exact ⟨rfl, rfl⟩
  have key := upLoop_inv (lo := 1) (hi := nboxes) hn
    (body := fun b (s : ShellPars K) =>
      let X := (box b).X
      let n1 := (box b).n1
      let lX := (box (b - 1)).X
      let ln1 := (box (b - 1)).n1
      let dX := X 1 - X 0
      let dlX := lX (ln1 - 1) - lX (ln1 - 2)
      let shift := if dX > dlX then s.shift + (lX (ln1 - 1) - X 1) else s.shift + (lX (ln1 - 2) - X 0)
      (⟨shift, aset s.min1 b (X 0 + shift), aset s.max1 b (X (n1 - 1) + shift)⟩ : ShellPars K)) (s := ⟨0, min1, max1⟩)
    (fun k s => ∃ S : Nat → K, S 0 = 0 ∧ s.shift = S (k - 1) ∧
      (∀ b, 1 ≤ b → b < k →
        s.min1 b = (box b).X 0 + S b ∧ s.max1 b = (box b).X ((box b).n1 - 1) + S b ∧
        (box b).X 0 + S b ≤ (box (b - 1)).X ((box (b - 1)).n1 - 2) + S (b - 1) ∧
        (box b).X 1 + S b ≤ (box (b - 1)).X ((box (b - 1)).n1 - 1) + S (b - 1) ∧
        ((box b).X 0 + S b = (box (b - 1)).X ((box (b - 1)).n1 - 2) + S (b - 1) ∨
          (box b).X 1 + S b = (box (b - 1)).X ((box (b - 1)).n1 - 1) + S (b - 1))) ∧
      (∀ b, b = 0 ∨ k ≤ b → s.min1 b = min1 b ∧ s.max1 b = max1 b))
    ⟨fun _ => 0, rfl, rfl, fun b h1 h2 => by omega, fun _ _ => ⟨rfl, rfl⟩⟩
    (by
      rintro k s h1 h2 ⟨S, S0, hs, ih, ih'⟩
      dsimp only
      generalize hsh : (if (box k).X 1 - (box k).X 0 > (box (k - 1)).X ((box (k - 1)).n1 - 1) -
        (box (k - 1)).X ((box (k - 1)).n1 - 2) then s.shift + ((box (k - 1)).X ((box (k - 1)).n1 - 1) - (box k).X 1)
        else s.shift + ((box (k - 1)).X ((box (k - 1)).n1 - 2) - (box k).X 0)) = sh
      have hk0 : (k - 1) ≠ k := by omega
      refine ⟨aset S k sh, ?_, ?_, fun b hb hb' => ?_, fun b hb => ?_⟩
      · rw [aset_ne _ _ (by omega)]; exact S0
      · rw [Nat.add_sub_cancel, aset_self]
      · by_cases hbk : b = k
        · subst hbk
          rw [aset_self, aset_self, aset_self, aset_ne _ _ hk0, ← hs]
          refine ⟨rfl, rfl, ?_⟩
          split_ifs at hsh with hc
          · subst hsh
            refine ⟨by linarith, by linarith, Or.inr (by ring)⟩
          · subst hsh
            rw [gt_iff_lt, not_lt] at hc
            refine ⟨by linarith, by linarith, Or.inl (by ring)⟩
        · rw [aset_ne _ _ hbk, aset_ne _ _ hbk, aset_ne _ _ hbk, aset_ne _ _ (show b - 1 ≠ k by omega)]
          exact ih b hb (by omega)
      · rw [aset_ne _ _ (by omega), aset_ne _ _ (by omega)]
        exact ih' b (by omega))
  obtain ⟨S, S0, -, h1, h2⟩ := key
  exact ⟨S, S0, h1, h2⟩

/-- Three shells with 3, 4 and 3 points in [0, 2], [2, 3] and [3, 7]. -/
example : (fun s : ShellPars ℚ => (s.min1 1, s.max1 1, s.min1 2, s.max1 2))
    (setupShells 3 (fun b => if b = 0 then ⟨3, fun i => i⟩ else if b = 1 then ⟨4, fun i => 2 + i / 3⟩
      else ⟨3, fun i => 3 + 2 * i⟩) (fun _ => 0) (fun _ => 0)) = (1, 2, 0, 4) := by decide +kernel

end Sgrid
