import Mathlib.Algebra.Order.Field.Rat
import Mathlib.Data.Fin.VecNotation
import Mathlib.Tactic.Linarith
import Mathlib.Tactic.NormNum
import Mathlib.Tactic.Ring
import Verif.Model.Bicgstab
import Verif.Props.RootFind

/-!
# C50: what bicgstab reports
-/

namespace Sgrid

namespace Spec

/-- `A` is linear. -/
def Linear {ι K : Type} [Field K] (A : (ι → K) → ι → K) : Prop :=
  ∀ (u v : ι → K) (a : K) (i : ι), A (fun i => u i + a * v i) i = A u i + a * A v i

/-- The residual `b - A x`. -/
def residual {ι K : Type} [Field K] (A : (ι → K) → ι → K) (b x : ι → K) : ι → K := fun i => b i - A x i

end Spec

variable {ι K : Type} [Field K] [LinearOrder K]

/-- What holds at the start of each pass: `r` is the residual, its norm is known and too large. -/
structure BicgInv (o : BicgOps ι K) (b : ι → K) (tol : K) (s : Bicg ι K) : Prop where
  r : s.r = Spec.residual o.lop b s.x
  n : s.normres = o.norm2 s.r
  t : tol < s.normres

/-- One pass of the loop. -/
theorem bicgStep_cases {o : BicgOps ι K} (hA : Spec.Linear o.lop) {b rt : ι → K} {tol : K} {j : Nat}
    {s : Bicg ι K} (h : BicgInv o b tol s) :
    bicgStep o rt tol j s = .inl none ∨
    (∃ s', bicgStep o rt tol j s = .inl (some (j - 1, s')) ∧
      s'.normres = o.norm2 (Spec.residual o.lop b s'.x) ∧
      (s'.normres ≤ tol ∨ |s'.rho| < bicgTiny ∨ |s'.omega| < bicgTiny)) ∨
    (∃ s', bicgStep o rt tol j s = .inr s' ∧ BicgInv o b tol s') := by
  unfold bicgStep
  dsimp only
  by_cases h1 : |o.dot rt s.r| < bicgTiny
  · rw [if_pos h1]
    exact Or.inr (Or.inl ⟨_, rfl, by dsimp only; rw [h.n, h.r], Or.inr (Or.inl h1)⟩)
  rw [if_neg h1]
  cases bicgDir j (o.dot rt s.r) s with
  | none => exact Or.inl rfl
  | some p =>
    dsimp only
    by_cases h2 : o.dot rt (o.lop (o.precon p)) = 0
    · rw [if_pos h2]
      exact Or.inl rfl
    rw [if_neg h2]
    generalize o.dot rt s.r / o.dot rt (o.lop (o.precon p)) = alpha
    generalize o.precon p = ph
    have hs : (fun i => s.r i - alpha * o.lop ph i) =
        Spec.residual o.lop b (fun i => s.x i + alpha * ph i) := by
      funext i
      rw [h.r]
      unfold Spec.residual
      rw [hA]
      ring
    by_cases h3 : o.norm2 (fun i => s.r i - alpha * o.lop ph i) ≤ tol
    · rw [if_pos h3]
      exact Or.inr (Or.inl ⟨_, rfl, by dsimp only; rw [hs], Or.inl h3⟩)
    rw [if_neg h3]
    by_cases h4 : o.dot (o.lop (o.precon fun i => s.r i - alpha * o.lop ph i))
        (o.lop (o.precon fun i => s.r i - alpha * o.lop ph i)) = 0
    · rw [if_pos h4]
      exact Or.inl rfl
    rw [if_neg h4]
    generalize o.dot (o.lop (o.precon fun i => s.r i - alpha * o.lop ph i))
      (fun i => s.r i - alpha * o.lop ph i) / o.dot (o.lop (o.precon fun i => s.r i - alpha * o.lop ph i))
        (o.lop (o.precon fun i => s.r i - alpha * o.lop ph i)) = omega
    generalize (o.precon fun i => s.r i - alpha * o.lop ph i) = sh
    have hr : (fun i => s.r i - alpha * o.lop ph i - omega * o.lop sh i) =
        Spec.residual o.lop b (fun i => s.x i + (alpha * ph i + omega * sh i)) := by
      funext i
      have e : (fun i => s.x i + (alpha * ph i + omega * sh i)) =
          fun i => (fun i => s.x i + alpha * ph i) i + omega * sh i := by
        funext k
        ring
      rw [e]
      have := congrFun hs i
      unfold Spec.residual at *
      rw [hA, this]
      ring
    by_cases h5 : o.norm2 (fun i => s.r i - alpha * o.lop ph i - omega * o.lop sh i) ≤ tol
    · rw [if_pos h5]
      exact Or.inr (Or.inl ⟨_, rfl, by dsimp only; rw [hr], Or.inl h5⟩)
    rw [if_neg h5]
    by_cases h6 : |omega| < bicgTiny
    · rw [if_pos h6]
      exact Or.inr (Or.inl ⟨_, rfl, by dsimp only; rw [hr], Or.inr (Or.inr h6)⟩)
    rw [if_neg h6]
    exact Or.inr (Or.inr ⟨_, rfl, hr, rfl, not_le.mp h5⟩)

/-- **C50.** `bicgstab` always reports the norm of the residual that belongs to the `x` it returns. The
return value is -10, -11 or between 0 and `itmax+1`. If it is between 0 and `itmax` the reported norm is at
most the tolerance. If it is `itmax+1` the norm is larger than the tolerance: this is the failure to converge
that the property wants to be negative (C50_counterexample). -/
theorem C50_partial (o : BicgOps ι K) (hA : Spec.Linear o.lop) (x b p0 v0 : ι → K) (itmax : Nat) (tol : K)
    (code : Int) (x' r' : ι → K) (n' : K)
    (hres : bicgstab o x b p0 v0 itmax tol = some (code, x', r', n')) :
    n' = o.norm2 (Spec.residual o.lop b x') ∧
    (code = -10 ∨ code = -11 ∨ 0 ≤ code ∧ code ≤ itmax + 1) ∧
    (0 ≤ code → code ≤ itmax → n' ≤ tol) ∧
    (code = itmax + 1 → tol < n') := by
  unfold bicgstab at hres
  dsimp only at hres
  have hr0 : (fun i => b i - o.lop x i) = Spec.residual o.lop b x := rfl
  by_cases h0 : o.norm2 (fun i => b i - o.lop x i) ≤ tol
  · rw [if_pos h0] at hres
    cases hres
    refine ⟨by rw [hr0], Or.inr (Or.inr ⟨le_rfl, by positivity⟩), fun _ _ => h0, fun h => absurd h ?_⟩
    omega
  rw [if_neg h0] at hres
  revert hres
  refine (forRet_inv (n := itmax) (body := bicgStep o (fun i => b i - o.lop x i) tol)
    (s := ⟨x, fun i => b i - o.lop x i, p0, v0, 0, 0, 1, 0, o.norm2 fun i => b i - o.lop x i⟩)
    (fun _ s => BicgInv o b tol s)
    (fun j q => q = none ∨ ∃ s', q = some (j - 1, s') ∧
      s'.normres = o.norm2 (Spec.residual o.lop b s'.x) ∧
      (s'.normres ≤ tol ∨ |s'.rho| < bicgTiny ∨ |s'.omega| < bicgTiny))
    ⟨hr0, rfl, not_le.mp h0⟩ ?_ ?_).elim ?_ ?_
  · intro j s q _ _ hI hq
    rcases bicgStep_cases hA hI with h1 | ⟨s', h1, h2⟩ | ⟨s', h1, _⟩ <;> rw [h1] at hq <;> cases hq
    · exact Or.inl rfl
    · exact Or.inr ⟨s', rfl, h2⟩
  · intro j s q _ _ hI hq
    rcases bicgStep_cases hA hI with h1 | ⟨s', h1, _⟩ | ⟨s', h1, h2⟩ <;> rw [h1] at hq <;> cases hq
    exact h2
  · rintro ⟨q, j, h1, h2, hq, hQ⟩
    rw [hq]
    intro hres
    rcases hQ with rfl | ⟨s', rfl, h3, h4⟩
    · cases hres
    dsimp only at hres
    cases hres
    unfold bicgCode
    rw [if_neg (by omega)]
    split
    · exact ⟨h3, Or.inl rfl, fun h => absurd h (by omega), fun h => absurd h (by omega)⟩
    split
    · exact ⟨h3, Or.inr (Or.inl rfl), fun h => absurd h (by omega), fun h => absurd h (by omega)⟩
    rename_i h5 h6
    refine ⟨h3, Or.inr (Or.inr ⟨by omega, by omega⟩), fun _ _ => ?_, fun h => absurd h (by omega)⟩
    rcases h4 with h4 | h4 | h4
    · exact h4
    · exact absurd h4 h5
    · exact absurd h4 h6
  · rintro ⟨s, hs, hI⟩
    rw [hs]
    intro hres
    dsimp only at hres
    cases hres
    unfold bicgCode
    rw [if_neg (by omega)]
    have h3 : s.normres = o.norm2 (Spec.residual o.lop b s.x) := by rw [hI.n, hI.r]
    split
    · exact ⟨h3, Or.inl rfl, fun h => absurd h (by omega), fun h => absurd h (by omega)⟩
    split
    · exact ⟨h3, Or.inr (Or.inl rfl), fun h => absurd h (by omega), fun h => absurd h (by omega)⟩
    exact ⟨h3, Or.inr (Or.inr ⟨by omega, by omega⟩), fun _ h => absurd h (by omega), fun _ => hI.t⟩

/-- The operators used in the examples: a 2×2 matrix, no preconditioner, and the square of the norm. -/
def bicgExample (a b c d : ℚ) : BicgOps (Fin 2) ℚ where
  lop := fun u => ![a * u 0 + b * u 1, c * u 0 + d * u 1]
  precon := fun u => u
  dot := fun u v => u 0 * v 0 + u 1 * v 1
  norm2 := fun u => u 0 * u 0 + u 1 * u 1

/-- **C50** fails: with the matrix (2 1; 0 3) and one iteration the return value is 2, which is not negative,
and the reported residual is larger than the tolerance. -/
theorem C50_counterexample :
    (bicgstab (bicgExample 2 1 0 3) ![0, 0] ![1, 2] ![0, 0] ![0, 0] 1 (1 / 10 ^ 10)).map
      (fun q => (q.1, q.2.2.2)) = some (2, 1 / 128) := by
  decide +kernel

/-- The opposite happens as well: for the unit matrix the first half of the first pass finds the solution,
the residual is zero, and the return value is -11. -/
theorem C50_unit_matrix_counterexample :
    (bicgstab (bicgExample 1 0 0 1) ![0, 0] ![1, 2] ![0, 0] ![0, 0] 100 (1 / 10 ^ 10)).map
      (fun q => (q.1, q.2.1, q.2.2.2)) = some (-11, ![1, 2], 0) := by
  decide +kernel

/-- With two iterations the first system is solved. -/
example : (bicgstab (bicgExample 2 1 0 3) ![0, 0] ![1, 2] ![0, 0] ![0, 0] 2 (1 / 10 ^ 10)).map
      (fun q => (q.1, q.2.1, q.2.2.2)) = some (2, ![1 / 6, 2 / 3], 0) := by
  decide +kernel

end Sgrid
