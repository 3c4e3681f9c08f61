import Verif.Props.Fourier
import Mathlib.LinearAlgebra.FiniteDimensional.Basic

/-!
# C33, continued: a trigonometric series is determined by its values at the grid points
-/

namespace Sgrid

open Real Finset

/-- The first entries of an array, zero beyond. -/
def extendFin {N : Nat} (c : Fin N → ℝ) (m : Nat) : ℝ := if h : m < N then c ⟨m, h⟩ else 0

theorem extendFin_of {N : Nat} (c : Nat → ℝ) (m : Nat) (h : m < N) : extendFin (fun i : Fin N => c i) m = c m := by
  simp [extendFin, h]

/-- The values of a series at a point, as a linear map of the coefficients. -/
noncomputable def seriesMap (N : Nat) : (Fin N → ℝ) →ₗ[ℝ] (Fin N → ℝ) where
  toFun c j := Spec.fourSeries 0 1 (extendFin c) N (0 + (j : Nat) * (1 - 0) / (N : Nat))
  map_add' c d := by
    ext j
    have e : extendFin (c + d) = fun m => extendFin c m * 1 + extendFin d m := by
      ext m; simp only [extendFin]; split <;> simp
    rw [e, fourSeries_lin, one_mul]; rfl
  map_smul' s c := by
    ext j
    have e : extendFin (s • c) = fun m => extendFin c m * s + (fun _ => (0 : ℝ)) m := by
      ext m; simp only [extendFin]; split <;> simp [mul_comm]
    have z : ∀ X, Spec.fourSeries 0 1 (fun _ => (0 : ℝ)) N X = 0 := by
      intro X; simp [Spec.fourSeries]
    rw [e, fourSeries_lin, z, add_zero]; rfl

/-- **C33.** Two sets of coefficients with the same values at the grid points are the same. -/
theorem C33_unique (c d w : Nat → ℝ) (n : Nat) (h : ∀ j, j ≤ n → fourEval c w n j = fourEval d w n j) :
    ∀ m, m ≤ n → c m = d m := by
  have ev : ∀ (c : Nat → ℝ) (j : Fin (n + 1)), seriesMap (n + 1) (fun i => c i) j = fourEval c w n j := by
    intro c j
    rw [C33_eval 0 1 (by norm_num) c w n j (by have := j.2; omega)]
    exact fourSeries_congr _ _ _ _ _ (by omega) _ fun m hm => extendFin_of c m hm
  have hsurj : Function.Surjective (seriesMap (n + 1)) := by
    intro u
    refine ⟨fun i => fourCoeffs (fun _ => 0) (extendFin u) n i, ?_⟩
    ext j
    rw [ev, C33_inverse _ _ _ _ _ (by have := j.2; omega)]
    exact dif_pos j.2
  have hinj := LinearMap.injective_iff_surjective.2 hsurj
  have : (fun i : Fin (n + 1) => c i) = fun i : Fin (n + 1) => d i := by
    apply hinj
    ext j
    rw [ev, ev]
    exact h j (by have := j.2; omega)
  intro m hm
  exact congrFun this ⟨m, by omega⟩

/-- **C33.** The transform of the values of a series gives its coefficients back: `four_coeffs` after `four_eval` changes nothing. -/
theorem C33_coeffs_of_eval (c w v : Nat → ℝ) (n m : Nat) (hm : m ≤ n) : fourCoeffs v (fourEval c w n) n m = c m :=
  C33_unique _ _ w n (fun j hj => C33_inverse _ _ _ _ _ hj) m hm

/-- Values that are those of a series, with the coefficients found by `four_coeffs`. -/
theorem fourCoeffs_of_series (a b : ℝ) (hab : a ≠ b) (c v u : Nat → ℝ) (n m : Nat) (hm : m ≤ n)
    (hu : ∀ j, j ≤ n → u j = Spec.fourSeries a b c (n + 1) (a + j * (b - a) / (n + 1 : Nat))) :
    fourCoeffs v u n m = c m := by
  refine C33_unique _ _ u n (fun j hj => ?_) m hm
  rw [C33_inverse _ _ _ _ _ hj, C33_eval a b hab c u n j hj, hu j hj]

/-- Non-vacuity: with three points the coefficients of `1 + cos φ` are found. -/
example : ∀ m, m ≤ 2 → fourCoeffs (fun _ => 0) (fourEval (fun m => if m = 0 then 3 else if m = 1 then 3 / 2 else 0) (fun _ => 0) 2) 2 m =
    if m = 0 then 3 else if m = 1 then 3 / 2 else 0 := fun m hm => C33_coeffs_of_eval _ _ _ _ _ hm

end Sgrid
