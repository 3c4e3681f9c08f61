import Mathlib.Analysis.SpecialFunctions.Trigonometric.Deriv
import Mathlib.Analysis.Calculus.Deriv.Mul
import Mathlib.Analysis.Calculus.Deriv.Add
import Mathlib.Algebra.BigOperators.Fin
import Mathlib.Tactic.FinCases
import Mathlib.Tactic.Ring
import Mathlib.Tactic.FieldSimp
import Verif.Model.Thz
import Verif.Props.AnsorgXR

/-!
The tables of first and second derivatives of the coordinates that move with the particle (C154).
-/

namespace Sgrid
open Real

/-- The table `df` holds the first derivatives of `f`, a function of four variables: along every differentiable
path the value of `f` changes at the rate that the table and the velocity of the path give. -/
def Spec.Jac4 (f : (Fin 4 → ℝ) → ℝ) (df : (Fin 4 → ℝ) → Fin 4 → ℝ) : Prop :=
  ∀ (p : ℝ → Fin 4 → ℝ) (t : ℝ) (V : Fin 4 → ℝ), (∀ i, HasDerivAt (fun s => p s i) (V i) t) →
    HasDerivAt (fun s => f (p s)) (df (p t) 0 * V 0 + df (p t) 1 * V 1 + df (p t) 2 * V 2 + df (p t) 3 * V 3) t

/-- `df` and `ddf` hold the first and second derivatives of `f`. -/
def Spec.Hess4 (f : (Fin 4 → ℝ) → ℝ) (df : (Fin 4 → ℝ) → Fin 4 → ℝ) (ddf : (Fin 4 → ℝ) → Fin 4 → Fin 4 → ℝ) : Prop :=
  Spec.Jac4 f df ∧ (∀ i, Spec.Jac4 (fun q => df q i) (fun q => ddf q i)) ∧ ∀ q i j, ddf q i j = ddf q j i

theorem kd4_10 : kd4 1 0 = 0 := by simp [kd4]
theorem kd4_11 : kd4 1 1 = 1 := by simp [kd4]
theorem kd4_12 : kd4 1 2 = 0 := by simp [kd4]
theorem kd4_13 : kd4 1 3 = 0 := by simp [kd4]
theorem kd4_20 : kd4 2 0 = 0 := by simp [kd4]
theorem kd4_21 : kd4 2 1 = 0 := by simp [kd4]
theorem kd4_22 : kd4 2 2 = 1 := by simp [kd4]
theorem kd4_23 : kd4 2 3 = 0 := by simp [kd4]
theorem kd4_30 : kd4 3 0 = 0 := by simp [kd4]
theorem kd4_31 : kd4 3 1 = 0 := by simp [kd4]
theorem kd4_32 : kd4 3 2 = 0 := by simp [kd4]
theorem kd4_33 : kd4 3 3 = 1 := by simp [kd4]
theorem kd4_00 : kd4 0 0 = 1 := by simp [kd4]
theorem kd4_01 : kd4 0 1 = 0 := by simp [kd4]
theorem kd4_02 : kd4 0 2 = 0 := by simp [kd4]
theorem kd4_03 : kd4 0 3 = 0 := by simp [kd4]

/-- Replace every entry of the Kronecker symbol with numbers as indices by its value. -/
macro "kd4_simp" : tactic => `(tactic|
  simp only [kd4_00, kd4_01, kd4_02, kd4_03, kd4_10, kd4_11, kd4_12, kd4_13, kd4_20, kd4_21, kd4_22, kd4_23,
    kd4_30, kd4_31, kd4_32, kd4_33, mul_zero, zero_mul, mul_one, add_zero, zero_add, sub_zero])

theorem thzX_jac (P : ThzPar) : Spec.Jac4 (thzX P) (thzDX P) := by
  intro p t V hp
  have h1 := hp 1
  simp only [thzX, div_eq_mul_inv]
  apply HasDerivAt.congr_deriv
  · path_deriv
  · simp only [thzDX, div_eq_mul_inv]; ring

theorem thzY_jac (P : ThzPar) : Spec.Jac4 (thzY P) (thzDY P) := by
  intro p t V hp
  have h0 := hp 0
  have h2 := hp 2
  have h3 := hp 3
  simp only [thzY]
  apply HasDerivAt.congr_deriv
  · path_deriv
  · simp only [thzDY, thzC]; ring

theorem thzZ_jac (P : ThzPar) : Spec.Jac4 (thzZ P) (thzDZ P) := by
  intro p t V hp
  have h2 := hp 2
  simp only [thzZ]
  apply HasDerivAt.congr_deriv
  · path_deriv
  · simp only [thzDZ]; ring

theorem thzDX_jac (P : ThzPar) (i : Fin 4) : Spec.Jac4 (fun q => thzDX P q i) (fun q => thzDDX P q i) := by
  intro p t V hp
  apply HasDerivAt.congr_deriv
  · exact hasDerivAt_const _ (thzDX P (fun _ => 0) i)
  · simp only [thzDDX]; ring

theorem thzDY_jac (P : ThzPar) (i : Fin 4) : Spec.Jac4 (fun q => thzDY P q i) (fun q => thzDDY P q i) := by
  intro p t V hp
  have h0 := hp 0
  have h2 := hp 2
  have h3 := hp 3
  fin_cases i
  · show HasDerivAt (fun s => -(thzC P) * P.Omega * sin (p s 2) * cos (p s 3 - P.Omega * p s 0)) _ t
    apply HasDerivAt.congr_deriv
    · path_deriv
    · simp [thzDDY]; ring
  · apply HasDerivAt.congr_deriv
    · exact hasDerivAt_const t (0 : ℝ)
    · simp [thzDDY]
  · show HasDerivAt (fun s => thzC P * cos (p s 2) * sin (p s 3 - P.Omega * p s 0)) _ t
    apply HasDerivAt.congr_deriv
    · path_deriv
    · simp [thzDDY]; ring
  · show HasDerivAt (fun s => thzC P * sin (p s 2) * cos (p s 3 - P.Omega * p s 0)) _ t
    apply HasDerivAt.congr_deriv
    · path_deriv
    · simp [thzDDY]; ring

theorem thzDZ_jac (P : ThzPar) (i : Fin 4) : Spec.Jac4 (fun q => thzDZ P q i) (fun q => thzDDZ P q i) := by
  intro p t V hp
  have h2 := hp 2
  fin_cases i
  · apply HasDerivAt.congr_deriv
    · exact hasDerivAt_const t (0 : ℝ)
    · simp [thzDDZ]
  · apply HasDerivAt.congr_deriv
    · exact hasDerivAt_const t (0 : ℝ)
    · simp [thzDDZ]
  · show HasDerivAt (fun s => -P.R * sin (p s 2)) _ t
    apply HasDerivAt.congr_deriv
    · path_deriv
    · simp [thzDDZ]; ring
  · apply HasDerivAt.congr_deriv
    · exact hasDerivAt_const t (0 : ℝ)
    · simp [thzDDZ]

theorem thzDDX_symm (P : ThzPar) (q : Fin 4 → ℝ) (i j : Fin 4) : thzDDX P q i j = thzDDX P q j i := rfl

theorem thzDDY_symm (P : ThzPar) (q : Fin 4 → ℝ) (i j : Fin 4) : thzDDY P q i j = thzDDY P q j i := by
  fin_cases i <;> fin_cases j <;> rfl

theorem thzDDZ_symm (P : ThzPar) (q : Fin 4 → ℝ) (i j : Fin 4) : thzDDZ P q i j = thzDDZ P q j i := by
  fin_cases i <;> fin_cases j <;> rfl

theorem thzz_jac (P : ThzPar) : Spec.Jac4 (thzz P) (thzDz P) := by
  intro p t V hp
  have h0 := hp 0
  have h1 := hp 1
  have h2 := hp 2
  have h3 := hp 3
  have hX := thzX_jac P p t V hp
  have hY := thzY_jac P p t V hp
  have hZ := thzZ_jac P p t V hp
  unfold thzz
  apply HasDerivAt.congr_deriv
  · path_deriv
  · simp only [thzDz]; kd4_simp; ring

theorem thzDz_jac (P : ThzPar) (i : Fin 4) : Spec.Jac4 (fun q => thzDz P q i) (fun q => thzDDz P q i) := by
  intro p t V hp
  have h0 := hp 0
  have h1 := hp 1
  have h2 := hp 2
  have h3 := hp 3
  have hX := thzX_jac P p t V hp
  have hY := thzY_jac P p t V hp
  have hZ := thzZ_jac P p t V hp
  have hDX := thzDX_jac P i p t V hp
  have hDY := thzDY_jac P i p t V hp
  have hDZ := thzDZ_jac P i p t V hp
  dsimp only at hDX hDY hDZ ⊢
  unfold thzDz
  apply HasDerivAt.congr_deriv
  · path_deriv
  · simp only [thzDDz]; kd4_simp; ring

theorem thzyt_jac (P : ThzPar) : Spec.Jac4 (thzyt P) (thzDyt P) := by
  intro p t V hp
  have h0 := hp 0
  have h1 := hp 1
  have h2 := hp 2
  have h3 := hp 3
  have hX := thzX_jac P p t V hp
  have hY := thzY_jac P p t V hp
  have hZ := thzZ_jac P p t V hp
  unfold thzyt
  apply HasDerivAt.congr_deriv
  · path_deriv
  · simp only [thzDyt]; kd4_simp; ring

theorem thzDyt_jac (P : ThzPar) (i : Fin 4) : Spec.Jac4 (fun q => thzDyt P q i) (fun q => thzDDyt P q i) := by
  intro p t V hp
  have h0 := hp 0
  have h1 := hp 1
  have h2 := hp 2
  have h3 := hp 3
  have hX := thzX_jac P p t V hp
  have hY := thzY_jac P p t V hp
  have hZ := thzZ_jac P p t V hp
  have hDX := thzDX_jac P i p t V hp
  have hDY := thzDY_jac P i p t V hp
  have hDZ := thzDZ_jac P i p t V hp
  dsimp only at hDX hDY hDZ ⊢
  unfold thzDyt
  apply HasDerivAt.congr_deriv
  · path_deriv
  · simp only [thzDDyt]; kd4_simp; ring

theorem thzxt_jac (P : ThzPar) : Spec.Jac4 (thzxt P) (thzDxt P) := by
  intro p t V hp
  have h0 := hp 0
  have h1 := hp 1
  have h2 := hp 2
  have h3 := hp 3
  have hX := thzX_jac P p t V hp
  have hY := thzY_jac P p t V hp
  have hZ := thzZ_jac P p t V hp
  unfold thzxt
  apply HasDerivAt.congr_deriv
  · path_deriv
  · simp only [thzDxt]; kd4_simp; ring

theorem thzDxt_jac (P : ThzPar) (i : Fin 4) : Spec.Jac4 (fun q => thzDxt P q i) (fun q => thzDDxt P q i) := by
  intro p t V hp
  have h0 := hp 0
  have h1 := hp 1
  have h2 := hp 2
  have h3 := hp 3
  have hX := thzX_jac P p t V hp
  have hY := thzY_jac P p t V hp
  have hZ := thzZ_jac P p t V hp
  have hDX := thzDX_jac P i p t V hp
  have hDY := thzDY_jac P i p t V hp
  have hDZ := thzDZ_jac P i p t V hp
  dsimp only at hDX hDY hDZ ⊢
  unfold thzDxt
  apply HasDerivAt.congr_deriv
  · path_deriv
  · simp only [thzDDxt]; kd4_simp; ring

theorem thzx_jac (P : ThzPar) : Spec.Jac4 (thzx P) (thzDx P) := by
  intro p t V hp
  have h0 := hp 0
  have hx := thzxt_jac P p t V hp
  have hy := thzyt_jac P p t V hp
  unfold thzx
  apply HasDerivAt.congr_deriv
  · path_deriv
  · simp only [thzDx]; kd4_simp; ring

theorem thzDx_jac (P : ThzPar) (i : Fin 4) : Spec.Jac4 (fun q => thzDx P q i) (fun q => thzDDx P q i) := by
  intro p t V hp
  have h0 := hp 0
  have hx := thzxt_jac P p t V hp
  have hy := thzyt_jac P p t V hp
  have hDx := thzDxt_jac P i p t V hp
  have hDy := thzDyt_jac P i p t V hp
  dsimp only at hDx hDy ⊢
  unfold thzDx
  apply HasDerivAt.congr_deriv
  · path_deriv
  · simp only [thzDDx]; kd4_simp; ring

theorem thzy_jac (P : ThzPar) : Spec.Jac4 (thzy P) (thzDy P) := by
  intro p t V hp
  have h0 := hp 0
  have hx := thzxt_jac P p t V hp
  have hy := thzyt_jac P p t V hp
  unfold thzy
  apply HasDerivAt.congr_deriv
  · path_deriv
  · simp only [thzDy]; kd4_simp; ring

theorem thzDy_jac (P : ThzPar) (i : Fin 4) : Spec.Jac4 (fun q => thzDy P q i) (fun q => thzDDy P q i) := by
  intro p t V hp
  have h0 := hp 0
  have hx := thzxt_jac P p t V hp
  have hy := thzyt_jac P p t V hp
  have hDx := thzDxt_jac P i p t V hp
  have hDy := thzDyt_jac P i p t V hp
  dsimp only at hDx hDy ⊢
  unfold thzDy
  apply HasDerivAt.congr_deriv
  · path_deriv
  · simp only [thzDDy]; kd4_simp; ring

theorem thzDDxt_symm (P : ThzPar) (q : Fin 4 → ℝ) (i j : Fin 4) : thzDDxt P q i j = thzDDxt P q j i := by
  simp only [thzDDxt, thzDDX_symm P q j i, thzDDY_symm P q j i, thzDDZ_symm P q j i]; ring

theorem thzDDyt_symm (P : ThzPar) (q : Fin 4 → ℝ) (i j : Fin 4) : thzDDyt P q i j = thzDDyt P q j i := by
  simp only [thzDDyt, thzDDX_symm P q j i, thzDDY_symm P q j i, thzDDZ_symm P q j i]; ring

/-- **C154.**  The tables `Dx` and `DDx` hold the first and the second derivatives of the coordinate x at every point,
for every mass, radius and frequency. -/
theorem C154_x (P : ThzPar) : Spec.Hess4 (thzx P) (thzDx P) (thzDDx P) :=
  ⟨thzx_jac P, thzDx_jac P, fun q i j => by
    simp only [thzDDx, thzDDxt_symm P q j i, thzDDyt_symm P q j i]; ring⟩

/-- **C154.**  The tables `Dy` and `DDy` hold the first and the second derivatives of the coordinate y. -/
theorem C154_y (P : ThzPar) : Spec.Hess4 (thzy P) (thzDy P) (thzDDy P) :=
  ⟨thzy_jac P, thzDy_jac P, fun q i j => by
    simp only [thzDDy, thzDDxt_symm P q j i, thzDDyt_symm P q j i]; ring⟩

/-- **C154.**  The tables `Dz` and `DDz` hold the first and the second derivatives of the coordinate z. -/
theorem C154_z (P : ThzPar) : Spec.Hess4 (thzz P) (thzDz P) (thzDDz P) :=
  ⟨thzz_jac P, thzDz_jac P, fun q i j => by
    simp only [thzDDz, thzDDX_symm P q j i, thzDDY_symm P q j i, thzDDZ_symm P q j i]; ring⟩

/-- **C154.**  The particle is at the origin: at r = R on the equator, at the angle phi = Omega ts, at every time. -/
theorem C154_particle (P : ThzPar) (ts : ℝ) :
    thzx P ![ts, P.R, π / 2, P.Omega * ts] = 0 ∧ thzy P ![ts, P.R, π / 2, P.Omega * ts] = 0 ∧
      thzz P ![ts, P.R, π / 2, P.Omega * ts] = 0 := by
  have hX : thzX P ![ts, P.R, π / 2, P.Omega * ts] = 0 := by simp [thzX]
  have hY : thzY P ![ts, P.R, π / 2, P.Omega * ts] = 0 := by simp [thzY]
  have hZ : thzZ P ![ts, P.R, π / 2, P.Omega * ts] = 0 := by simp [thzZ]
  have hx : thzxt P ![ts, P.R, π / 2, P.Omega * ts] = 0 := by
    simp only [thzxt, hX, hY, hZ]; simp
  have hy : thzyt P ![ts, P.R, π / 2, P.Omega * ts] = 0 := by
    simp only [thzyt, hX, hY, hZ]; simp
  refine ⟨?_, ?_, ?_⟩
  · simp [thzx, hx, hy]
  · simp [thzy, hx, hy]
  · simp only [thzz, hX, hY, hZ]; simp

/-- The inverse of the Schwarzschild metric, which is diagonal, at the point q = (ts, r, theta, phi). -/
noncomputable def Spec.schwInv (M : ℝ) (q : Fin 4 → ℝ) : Fin 4 → ℝ :=
  ![-1 / (1 - 2 * M / q 1), 1 - 2 * M / q 1, 1 / q 1 ^ 2, 1 / (q 1 * sin (q 2)) ^ 2]

/-- The product of two gradients in the Schwarzschild metric. -/
noncomputable def Spec.gradDot (M : ℝ) (df dg : (Fin 4 → ℝ) → Fin 4 → ℝ) (q : Fin 4 → ℝ) : ℝ :=
  ∑ a, Spec.schwInv M q a * df q a * dg q a

/-- The place of the particle at the time ts. -/
noncomputable def Spec.atParticle (P : ThzPar) (ts : ℝ) : Fin 4 → ℝ := ![ts, P.R, π / 2, P.Omega * ts]

section Particle
variable (P : ThzPar) (ts : ℝ)

theorem thzX_at : thzX P (Spec.atParticle P ts) = 0 := by simp [thzX, Spec.atParticle]
theorem thzY_at : thzY P (Spec.atParticle P ts) = 0 := by simp [thzY, Spec.atParticle]
theorem thzZ_at : thzZ P (Spec.atParticle P ts) = 0 := by simp [thzZ, Spec.atParticle]
theorem thzxt_at : thzxt P (Spec.atParticle P ts) = 0 := by
  simp only [thzxt, thzX_at, thzY_at, thzZ_at]; simp [Spec.atParticle]
theorem thzyt_at : thzyt P (Spec.atParticle P ts) = 0 := by
  simp only [thzyt, thzX_at, thzY_at, thzZ_at]; simp [Spec.atParticle]

theorem thzDX_at : thzDX P (Spec.atParticle P ts) = ![0, 1 / √(1 - 2 * P.M / P.R), 0, 0] := by
  funext i; fin_cases i <;> simp [thzDX]
theorem thzDY_at : thzDY P (Spec.atParticle P ts) = ![-(thzC P) * P.Omega, 0, 0, thzC P] := by
  funext i; fin_cases i <;> simp [thzDY, Spec.atParticle]
theorem thzDZ_at : thzDZ P (Spec.atParticle P ts) = ![0, 0, -P.R, 0] := by
  funext i; fin_cases i <;> simp [thzDZ, Spec.atParticle]

theorem thzDxt_at : thzDxt P (Spec.atParticle P ts) = ![0, thzxA1 P, 0, 0] := by
  funext i
  simp only [thzDxt, thzX_at, thzY_at, thzZ_at]
  fin_cases i <;> simp [Spec.atParticle, kd4]
theorem thzDyt_at : thzDyt P (Spec.atParticle P ts) =
    ![-(thzyA1 P * P.Omega * P.R), 0, 0, thzyA1 P * P.R] := by
  funext i
  simp only [thzDyt, thzX_at, thzY_at, thzZ_at]
  fin_cases i <;> simp [Spec.atParticle, kd4]
theorem thzDz_at : thzDz P (Spec.atParticle P ts) = ![0, 0, -P.R, 0] := by
  funext i
  simp only [thzDz, thzX_at, thzY_at, thzZ_at]
  fin_cases i <;> simp [Spec.atParticle, kd4]

theorem thzDDz_at : thzDDz P (Spec.atParticle P ts) =
    ![![0, 0, 0, 0], ![0, 0, -1, 0], ![0, -1, 0, 0], ![0, 0, 0, 0]] := by
  funext i j
  simp only [thzDDz, thzX_at, thzY_at, thzZ_at]
  fin_cases i <;> fin_cases j <;> simp [Spec.atParticle, kd4]
theorem thzDDyt_at : thzDDyt P (Spec.atParticle P ts) =
    ![![0, -(thzyA1 P * P.Omega), 0, 0], ![-(thzyA1 P * P.Omega), 0, 0, thzyA1 P], ![0, 0, 0, 0],
      ![0, thzyA1 P, 0, 0]] := by
  funext i j
  simp only [thzDDyt, thzX_at, thzY_at, thzZ_at, thzDX_at, thzDY_at, thzDZ_at]
  fin_cases i <;> fin_cases j <;> simp [Spec.atParticle, kd4]
theorem thzDDxt_at : thzDDxt P (Spec.atParticle P ts) =
    ![![-(P.Omega * P.Omega * (thzxA1 P * P.R - 2 * thzxB1 P * thzxC1 P * thzC P * thzC P)), 0, 0,
        P.Omega * (thzxA1 P * P.R - 2 * thzxB1 P * thzxC1 P * thzC P * thzC P)],
      ![0, -(thzxB1 P * (1 / √(1 - 2 * P.M / P.R)) * (1 / √(1 - 2 * P.M / P.R))), 0, 0],
      ![0, 0, -(thzxA1 P * P.R - 2 * thzxB1 P * P.R * P.R), 0],
      ![P.Omega * (thzxA1 P * P.R - 2 * thzxB1 P * thzxC1 P * thzC P * thzC P), 0, 0,
        -(thzxA1 P * P.R - 2 * thzxB1 P * thzxC1 P * thzC P * thzC P)]] := by
  funext i j
  simp only [thzDDxt, thzX_at, thzY_at, thzZ_at, thzDX_at, thzDY_at, thzDZ_at]
  fin_cases i <;> fin_cases j <;> simp [Spec.atParticle, kd4] <;> ring
end Particle

/-- The orbit is far enough out, and the two frequencies are those that `set_parameters` computes
(Constants.c:32-33). -/
structure ThzPar.Orbit (P : ThzPar) : Prop where
  hM : 0 < P.M
  hR : 3 * P.M < P.R
  hO : P.Omega = √(P.M / (P.R * P.R * P.R))
  hOd : P.Omegad = P.Omega * √(1 - 3 * P.M / P.R)

theorem orbit_values (P : ThzPar) (h : P.Orbit) : ∃ s w : ℝ, 0 < s ∧ 0 < w ∧ √(1 - 2 * P.M / P.R) = s ∧
    thzyA1 P = w ∧ 2 * P.M = P.R * (1 - s ^ 2) ∧ w ^ 2 * (3 * s ^ 2 - 1) = 2 * s ^ 2 ∧ P.Omegad * w = P.Omega * s ∧
    P.Omega ^ 2 * (2 * P.R ^ 2) = 1 - s ^ 2 ∧ thzxA1 P = 1 / s ∧ thzxB1 P = P.M / (P.R ^ 2 * s) ∧ thzC P = P.R * w ∧
    thzxC1 P * w ^ 2 = 1 := by
  obtain ⟨hM, hR, hO, hOd⟩ := h
  have hR0 : 0 < P.R := by linarith
  have h2 : 0 < P.R - 2 * P.M := by linarith
  have h3 : 0 < P.R - 3 * P.M := by linarith
  have hs : 0 < 1 - 2 * P.M / P.R := by
    have : 1 - 2 * P.M / P.R = (P.R - 2 * P.M) / P.R := by field_simp
    rw [this]; exact div_pos h2 hR0
  have hu : 0 < 1 - 3 * P.M / P.R := by
    have : 1 - 3 * P.M / P.R = (P.R - 3 * P.M) / P.R := by field_simp
    rw [this]; exact div_pos h3 hR0
  have hw : 0 < (P.R - 2 * P.M) / (P.R - 3 * P.M) := div_pos h2 h3
  have s2 : √(1 - 2 * P.M / P.R) ^ 2 = 1 - 2 * P.M / P.R := Real.sq_sqrt hs.le
  have w2 : √((P.R - 2 * P.M) / (P.R - 3 * P.M)) ^ 2 = (P.R - 2 * P.M) / (P.R - 3 * P.M) := Real.sq_sqrt hw.le
  refine ⟨√(1 - 2 * P.M / P.R), √((P.R - 2 * P.M) / (P.R - 3 * P.M)), Real.sqrt_pos.2 hs, Real.sqrt_pos.2 hw, rfl,
    rfl, ?_, ?_, ?_, ?_, rfl, ?_, rfl, ?_⟩
  · rw [s2]; field_simp; ring
  · rw [s2, w2, div_mul_eq_mul_div, div_eq_iff h3.ne']; field_simp; ring
  · rw [hOd, mul_assoc, ← Real.sqrt_mul hu.le]
    congr 2; field_simp
  · rw [s2, hO, Real.sq_sqrt (by positivity)]; field_simp; ring
  · rw [thzxB1]; congr 1; ring
  · rw [w2, thzxC1, div_mul_div_comm, mul_comm, div_self (mul_ne_zero h2.ne' h3.ne')]

theorem gradDot_moves {M R : ℝ} {df dg : (Fin 4 → ℝ) → Fin 4 → ℝ} {ddf ddg : (Fin 4 → ℝ) → Fin 4 → Fin 4 → ℝ}
    (hf : ∀ i, Spec.Jac4 (fun q => df q i) (fun q => ddf q i))
    (hg : ∀ i, Spec.Jac4 (fun q => dg q i) (fun q => ddg q i)) {p : ℝ → Fin 4 → ℝ} {t : ℝ} {V : Fin 4 → ℝ}
    (hp : ∀ i, HasDerivAt (fun s => p s i) (V i) t) (h1 : p t 1 = R) (h2 : p t 2 = π / 2) (hR : R ≠ 0)
    {s : ℝ} (hs : s ≠ 0) (hM : 2 * M = R * (1 - s ^ 2)) :
    HasDerivAt (fun u => Spec.gradDot M df dg (p u))
      (∑ a, (![(1 - s ^ 2) / R / s ^ 4, (1 - s ^ 2) / R, -2 / R ^ 3, -2 / R ^ 3] a * V 1 * df (p t) a * dg (p t) a
        + ![-1 / s ^ 2, s ^ 2, 1 / R ^ 2, 1 / R ^ 2] a *
          ((ddf (p t) a 0 * V 0 + ddf (p t) a 1 * V 1 + ddf (p t) a 2 * V 2 + ddf (p t) a 3 * V 3) * dg (p t) a +
           df (p t) a * (ddg (p t) a 0 * V 0 + ddg (p t) a 1 * V 1 + ddg (p t) a 2 * V 2 + ddg (p t) a 3 * V 3)))) t := by
  have e1 := hp 1
  have e2 := hp 2
  have hsR : 1 - 2 * M / R = s ^ 2 := by rw [hM]; field_simp; ring
  have hq : HasDerivAt (fun u => 1 - 2 * M / p u 1) (2 * M / R ^ 2 * V 1) t := by
    apply HasDerivAt.congr_deriv
    · exact (hasDerivAt_const t (1 : ℝ)).sub ((hasDerivAt_const t (2 * M)).fun_div e1 (by rw [h1]; exact hR))
    · rw [h1]; ring
  have g0 : HasDerivAt (fun u => Spec.schwInv M (p u) 0) ((1 - s ^ 2) / R / s ^ 4 * V 1) t := by
    show HasDerivAt (fun u => -1 / (1 - 2 * M / p u 1)) _ t
    apply HasDerivAt.congr_deriv
    · exact (hasDerivAt_const t (-1 : ℝ)).fun_div hq (by rw [h1, hsR]; exact pow_ne_zero 2 hs)
    · rw [h1, hsR, hM]; field_simp; ring
  have g1 : HasDerivAt (fun u => Spec.schwInv M (p u) 1) ((1 - s ^ 2) / R * V 1) t := by
    show HasDerivAt (fun u => 1 - 2 * M / p u 1) _ t
    refine hq.congr_deriv ?_
    rw [hM]; field_simp
  have g2 : HasDerivAt (fun u => Spec.schwInv M (p u) 2) (-2 / R ^ 3 * V 1) t := by
    show HasDerivAt (fun u => 1 / p u 1 ^ 2) _ t
    apply HasDerivAt.congr_deriv
    · exact (hasDerivAt_const t (1 : ℝ)).fun_div (e1.fun_pow 2) (by rw [h1]; exact pow_ne_zero 2 hR)
    · rw [h1]; field_simp; ring
  have g3 : HasDerivAt (fun u => Spec.schwInv M (p u) 3) (-2 / R ^ 3 * V 1) t := by
    show HasDerivAt (fun u => 1 / (p u 1 * sin (p u 2)) ^ 2) _ t
    apply HasDerivAt.congr_deriv
    · exact (hasDerivAt_const t (1 : ℝ)).fun_div ((e1.fun_mul e2.sin).fun_pow 2)
        (by rw [h1, h2, Real.sin_pi_div_two, mul_one]; exact pow_ne_zero 2 hR)
    · rw [h1, h2, Real.sin_pi_div_two, Real.cos_pi_div_two]; field_simp; ring
  have v0 : Spec.schwInv M (p t) 0 = -1 / s ^ 2 := by show -1 / (1 - 2 * M / p t 1) = _; rw [h1, hsR]
  have v1 : Spec.schwInv M (p t) 1 = s ^ 2 := by show 1 - 2 * M / p t 1 = _; rw [h1, hsR]
  have v2 : Spec.schwInv M (p t) 2 = 1 / R ^ 2 := by show 1 / p t 1 ^ 2 = _; rw [h1]
  have v3 : Spec.schwInv M (p t) 3 = 1 / R ^ 2 := by
    show 1 / (p t 1 * sin (p t 2)) ^ 2 = _; rw [h1, h2, Real.sin_pi_div_two, mul_one]
  have f0 := hf 0 p t V hp
  have f1 := hf 1 p t V hp
  have f2 := hf 2 p t V hp
  have f3 := hf 3 p t V hp
  have k0 := hg 0 p t V hp
  have k1 := hg 1 p t V hp
  have k2 := hg 2 p t V hp
  have k3 := hg 3 p t V hp
  dsimp only at f0 f1 f2 f3 k0 k1 k2 k3
  simp only [Spec.gradDot, Fin.sum_univ_four]
  apply HasDerivAt.congr_deriv
  · exact ((((g0.fun_mul f0).fun_mul k0).fun_add ((g1.fun_mul f1).fun_mul k1)).fun_add
      ((g2.fun_mul f2).fun_mul k2)).fun_add ((g3.fun_mul f3).fun_mul k3)
  · rw [v0, v1, v2, v3]; simp; ring

/-- The first derivatives of the product of two gradients at the particle vanish. -/
def Spec.FlatAt (P : ThzPar) (ts : ℝ) (df dg : (Fin 4 → ℝ) → Fin 4 → ℝ) : Prop :=
  ∀ (p : ℝ → Fin 4 → ℝ) (t : ℝ) (V : Fin 4 → ℝ), (∀ i, HasDerivAt (fun s => p s i) (V i) t) →
    p t = Spec.atParticle P ts → HasDerivAt (fun s => Spec.gradDot P.M df dg (p s)) 0 t

/-- The tables at the particle. -/
theorem tables_at (P : ThzPar) (h : P.Orbit) (ts : ℝ) : ∃ s w : ℝ, 0 < s ∧ 0 < w ∧
    2 * P.M = P.R * (1 - s ^ 2) ∧ w ^ 2 * (3 * s ^ 2 - 1) = 2 * s ^ 2 ∧ P.Omegad * w = P.Omega * s ∧
    P.Omega ^ 2 * (2 * P.R ^ 2) = 1 - s ^ 2 ∧
    thzDxt P (Spec.atParticle P ts) = ![0, 1 / s, 0, 0] ∧
    thzDyt P (Spec.atParticle P ts) = ![-(w * P.Omega * P.R), 0, 0, w * P.R] ∧
    thzDDyt P (Spec.atParticle P ts) = ![![0, -(w * P.Omega), 0, 0], ![-(w * P.Omega), 0, 0, w], ![0, 0, 0, 0],
      ![0, w, 0, 0]] ∧
    thzDDxt P (Spec.atParticle P ts) = ![![-(P.Omega ^ 2 * (P.R * s)), 0, 0, P.Omega * (P.R * s)],
      ![0, -((1 - s ^ 2) / (2 * P.R * s ^ 3)), 0, 0], ![0, 0, -(P.R * s), 0],
      ![P.Omega * (P.R * s), 0, 0, -(P.R * s)]] := by
  obtain ⟨s, w, hs, hw, h1, h2, h3, h4, h5, h6, h7, h8, h9, h10⟩ := orbit_values P h
  have hR : P.R ≠ 0 := by have := h.hM; have := h.hR; intro hz; linarith
  have hM : P.M = P.R * (1 - s ^ 2) / 2 := by linarith
  have hK : thzxA1 P * P.R - 2 * thzxB1 P * thzxC1 P * thzC P * thzC P = P.R * s := by
    rw [h7, h8, h9]
    have : 2 * (P.M / (P.R ^ 2 * s)) * thzxC1 P * (P.R * w) * (P.R * w) =
        2 * (P.M / (P.R ^ 2 * s)) * P.R * P.R * (thzxC1 P * w ^ 2) := by ring
    rw [this, h10, hM]; field_simp; ring
  refine ⟨s, w, hs, hw, h3, h4, h5, h6, ?_, ?_, ?_, ?_⟩
  · rw [thzDxt_at, h7]
  · rw [thzDyt_at, h2]
  · rw [thzDDyt_at, h2]
  · rw [thzDDxt_at, hK, h1, h7, h8, hM]
    have a1 : P.R * (1 - s ^ 2) / 2 / (P.R ^ 2 * s) * (1 / s) * (1 / s) = (1 - s ^ 2) / (2 * P.R * s ^ 3) := by
      field_simp
    have a2 : 1 / s * P.R - 2 * (P.R * (1 - s ^ 2) / 2 / (P.R ^ 2 * s)) * P.R * P.R = P.R * s := by
      field_simp; ring
    rw [a1, a2, pow_two P.Omega]

theorem flat_xy (P : ThzPar) (h : P.Orbit) (ts : ℝ) : Spec.FlatAt P ts (thzDx P) (thzDy P) := by
  intro p t V hp hpt
  obtain ⟨s, w, hs, hw, hM, h4, h5, h6, x1, y1, y2, x2⟩ := tables_at P h ts
  have hR : P.R ≠ 0 := by have := h.hM; have := h.hR; intro hz; linarith
  have hs' := hs.ne'
  refine (gradDot_moves (C154_x P).2.1 (C154_y P).2.1 hp (R := P.R) (by rw [hpt]; rfl) (by rw [hpt]; rfl) hR
    hs.ne' hM).congr_deriv ?_
  rw [hpt]
  have e0 : Spec.atParticle P ts 0 = ts := rfl
  simp only [Fin.sum_univ_four, thzDx, thzDy, thzDDx, thzDDy, thzxt_at, thzyt_at, x1, x2, y1, y2]
  kd4_simp
  simp [e0]
  generalize cos (P.Omegad * ts) = c
  generalize sin (P.Omegad * ts) = d
  field_simp
  linear_combination ((c ^ 2 - d ^ 2) * (-2 * w * s ^ 2 * P.R ^ 3 * P.Omega * V 3 + (-2 * P.R * s ^ 4 * w + 4 * P.R ^ 3 * w * P.Omega ^ 2 * s ^ 2 + P.R * s ^ 2 * w * (3 * s ^ 2 - 1)) * V 0) + (-(c * d)) * (4 * s * P.R ^ 2 * P.Omega * V 1)) * h5 + ((c ^ 2 - d ^ 2) * (-P.R * s ^ 2 * P.Omegad * V 0) + (-(c * d)) * (-2 * P.R ^ 2 * P.Omega ^ 2 * V 1)) * h4 +
    (c ^ 2 - d ^ 2) * (P.Omega * w * s ^ 3 * P.R * V 0) * h6

theorem flat_xx (P : ThzPar) (h : P.Orbit) (ts : ℝ) : Spec.FlatAt P ts (thzDx P) (thzDx P) := by
  intro p t V hp hpt
  obtain ⟨s, w, hs, hw, hM, h4, h5, h6, x1, y1, y2, x2⟩ := tables_at P h ts
  have hR : P.R ≠ 0 := by have := h.hM; have := h.hR; intro hz; linarith
  have hs' := hs.ne'
  refine (gradDot_moves (C154_x P).2.1 (C154_x P).2.1 hp (R := P.R) (by rw [hpt]; rfl) (by rw [hpt]; rfl) hR
    hs.ne' hM).congr_deriv ?_
  rw [hpt]
  have e0 : Spec.atParticle P ts 0 = ts := rfl
  simp only [Fin.sum_univ_four, thzDx, thzDDx, thzxt_at, thzyt_at, x1, x2, y1, y2]
  kd4_simp
  simp [e0]
  generalize cos (P.Omegad * ts) = c
  generalize sin (P.Omegad * ts) = d
  field_simp
  linear_combination ((-2 * c * d) * (-2 * w * s ^ 2 * P.R ^ 3 * P.Omega * V 3 + (-2 * P.R * s ^ 4 * w + 4 * P.R ^ 3 * w * P.Omega ^ 2 * s ^ 2 + P.R * s ^ 2 * w * (3 * s ^ 2 - 1)) * V 0) + d ^ 2 * (4 * s * P.R ^ 2 * P.Omega * V 1)) * h5 + ((-2 * c * d) * (-P.R * s ^ 2 * P.Omegad * V 0) + d ^ 2 * (-2 * P.R ^ 2 * P.Omega ^ 2 * V 1)) * h4 +
    (-2 * c * d) * (P.Omega * w * s ^ 3 * P.R * V 0) * h6

theorem flat_yy (P : ThzPar) (h : P.Orbit) (ts : ℝ) : Spec.FlatAt P ts (thzDy P) (thzDy P) := by
  intro p t V hp hpt
  obtain ⟨s, w, hs, hw, hM, h4, h5, h6, x1, y1, y2, x2⟩ := tables_at P h ts
  have hR : P.R ≠ 0 := by have := h.hM; have := h.hR; intro hz; linarith
  have hs' := hs.ne'
  refine (gradDot_moves (C154_y P).2.1 (C154_y P).2.1 hp (R := P.R) (by rw [hpt]; rfl) (by rw [hpt]; rfl) hR
    hs.ne' hM).congr_deriv ?_
  rw [hpt]
  have e0 : Spec.atParticle P ts 0 = ts := rfl
  simp only [Fin.sum_univ_four, thzDy, thzDDy, thzxt_at, thzyt_at, x1, x2, y1, y2]
  kd4_simp
  simp [e0]
  generalize cos (P.Omegad * ts) = c
  generalize sin (P.Omegad * ts) = d
  field_simp
  linear_combination ((2 * c * d) * (-2 * w * s ^ 2 * P.R ^ 3 * P.Omega * V 3 + (-2 * P.R * s ^ 4 * w + 4 * P.R ^ 3 * w * P.Omega ^ 2 * s ^ 2 + P.R * s ^ 2 * w * (3 * s ^ 2 - 1)) * V 0) + c ^ 2 * (4 * s * P.R ^ 2 * P.Omega * V 1)) * h5 + ((2 * c * d) * (-P.R * s ^ 2 * P.Omegad * V 0) + c ^ 2 * (-2 * P.R ^ 2 * P.Omega ^ 2 * V 1)) * h4 +
    (2 * c * d) * (P.Omega * w * s ^ 3 * P.R * V 0) * h6

theorem flat_xz (P : ThzPar) (h : P.Orbit) (ts : ℝ) : Spec.FlatAt P ts (thzDx P) (thzDz P) := by
  intro p t V hp hpt
  obtain ⟨s, w, hs, hw, hM, h4, h5, h6, x1, y1, y2, x2⟩ := tables_at P h ts
  have hR : P.R ≠ 0 := by have := h.hM; have := h.hR; intro hz; linarith
  have hs' := hs.ne'
  refine (gradDot_moves (C154_x P).2.1 (C154_z P).2.1 hp (R := P.R) (by rw [hpt]; rfl) (by rw [hpt]; rfl) hR
    hs.ne' hM).congr_deriv ?_
  rw [hpt]
  have e0 : Spec.atParticle P ts 0 = ts := rfl
  simp only [Fin.sum_univ_four, thzDx, thzDDx, thzxt_at, thzyt_at, thzDz_at, thzDDz_at, x1, x2, y1, y2]
  kd4_simp
  simp [e0]
  field_simp
  ring

theorem flat_yz (P : ThzPar) (h : P.Orbit) (ts : ℝ) : Spec.FlatAt P ts (thzDy P) (thzDz P) := by
  intro p t V hp hpt
  obtain ⟨s, w, hs, hw, hM, h4, h5, h6, x1, y1, y2, x2⟩ := tables_at P h ts
  have hR : P.R ≠ 0 := by have := h.hM; have := h.hR; intro hz; linarith
  have hs' := hs.ne'
  refine (gradDot_moves (C154_y P).2.1 (C154_z P).2.1 hp (R := P.R) (by rw [hpt]; rfl) (by rw [hpt]; rfl) hR
    hs.ne' hM).congr_deriv ?_
  rw [hpt]
  have e0 : Spec.atParticle P ts 0 = ts := rfl
  simp only [Fin.sum_univ_four, thzDy, thzDDy, thzxt_at, thzyt_at, thzDz_at, thzDDz_at, x1, x2, y1, y2]
  kd4_simp
  simp [e0]
  field_simp
  ring

theorem flat_zz (P : ThzPar) (h : P.Orbit) (ts : ℝ) : Spec.FlatAt P ts (thzDz P) (thzDz P) := by
  intro p t V hp hpt
  obtain ⟨s, w, hs, hw, hM, h4, h5, h6, x1, y1, y2, x2⟩ := tables_at P h ts
  have hR : P.R ≠ 0 := by have := h.hM; have := h.hR; intro hz; linarith
  have hs' := hs.ne'
  refine (gradDot_moves (C154_z P).2.1 (C154_z P).2.1 hp (R := P.R) (by rw [hpt]; rfl) (by rw [hpt]; rfl) hR
    hs.ne' hM).congr_deriv ?_
  rw [hpt]
  simp only [Fin.sum_univ_four, thzDz_at, thzDDz_at]
  simp
  field_simp
  ring


theorem schwInv_at {P : ThzPar} (ts : ℝ) (hR : P.R ≠ 0) {s : ℝ} (hM : 2 * P.M = P.R * (1 - s ^ 2)) :
    Spec.schwInv P.M (Spec.atParticle P ts) = ![-1 / s ^ 2, s ^ 2, 1 / P.R ^ 2, 1 / P.R ^ 2] := by
  have hsR : 1 - 2 * P.M / P.R = s ^ 2 := by rw [hM]; field_simp; ring
  funext i
  fin_cases i
  · show -1 / (1 - 2 * P.M / P.R) = -1 / s ^ 2; rw [hsR]
  · exact hsR
  · rfl
  · show 1 / (P.R * sin (π / 2)) ^ 2 = 1 / P.R ^ 2; rw [Real.sin_pi_div_two, mul_one]

/-- **C154.**  At the particle the three gradients have length one and are perpendicular in the metric of the black
hole, at every time. -/
theorem C154_orthonormal (P : ThzPar) (h : P.Orbit) (ts : ℝ) :
    Spec.gradDot P.M (thzDx P) (thzDx P) (Spec.atParticle P ts) = 1 ∧
    Spec.gradDot P.M (thzDy P) (thzDy P) (Spec.atParticle P ts) = 1 ∧
    Spec.gradDot P.M (thzDz P) (thzDz P) (Spec.atParticle P ts) = 1 ∧
    Spec.gradDot P.M (thzDx P) (thzDy P) (Spec.atParticle P ts) = 0 ∧
    Spec.gradDot P.M (thzDx P) (thzDz P) (Spec.atParticle P ts) = 0 ∧
    Spec.gradDot P.M (thzDy P) (thzDz P) (Spec.atParticle P ts) = 0 := by
  obtain ⟨s, w, hs, hw, hM, h4, h5, h6, x1, y1, y2, x2⟩ := tables_at P h ts
  have hR : P.R ≠ 0 := by have := h.hM; have := h.hR; intro hz; linarith
  have hs' := hs.ne'
  have hy : w ^ 2 * (s ^ 2 - P.Omega ^ 2 * P.R ^ 2) = s ^ 2 := by linear_combination h4 / 2 - w ^ 2 / 2 * h6
  have e0 : Spec.atParticle P ts 0 = ts := rfl
  have hcs := Real.sin_sq_add_cos_sq (P.Omegad * ts)
  simp only [Spec.gradDot, schwInv_at ts hR hM, Fin.sum_univ_four, thzDx, thzDy, thzxt_at, thzyt_at, thzDz_at, x1, y1]
  kd4_simp
  simp only [e0]
  generalize cos (P.Omegad * ts) = c at hcs ⊢
  generalize sin (P.Omegad * ts) = d at hcs ⊢
  refine ⟨?_, ?_, ?_, ?_, ?_, ?_⟩
  · simp; field_simp; linear_combination s ^ 2 * hcs + d ^ 2 * hy
  · simp; field_simp; linear_combination s ^ 2 * hcs + c ^ 2 * hy
  · simp; field_simp
  · simp; field_simp; linear_combination (-c * d) * hy
  · simp
  · simp

/-- **C154.**  The coordinates are inertial at the particle: the first derivatives of the products of their gradients
vanish there, in every direction. -/
theorem C154_inertial (P : ThzPar) (h : P.Orbit) (ts : ℝ) :
    Spec.FlatAt P ts (thzDx P) (thzDx P) ∧ Spec.FlatAt P ts (thzDy P) (thzDy P) ∧
    Spec.FlatAt P ts (thzDz P) (thzDz P) ∧ Spec.FlatAt P ts (thzDx P) (thzDy P) ∧
    Spec.FlatAt P ts (thzDx P) (thzDz P) ∧ Spec.FlatAt P ts (thzDy P) (thzDz P) :=
  ⟨flat_xx P h ts, flat_yy P h ts, flat_zz P h ts, flat_xy P h ts, flat_xz P h ts, flat_yz P h ts⟩

/-- There are such orbits: one at ten times the mass of the hole. -/
example : ∃ P : ThzPar, P.Orbit ∧ P.R = 10 * P.M :=
  ⟨⟨1, 10, √(1 / (10 * 10 * 10)), √(1 / (10 * 10 * 10)) * √(1 - 3 * 1 / 10)⟩,
    ⟨by norm_num, by norm_num, rfl, rfl⟩, by norm_num⟩

end Sgrid
