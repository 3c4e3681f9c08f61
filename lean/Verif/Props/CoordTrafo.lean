import Verif.Model.CoordTrafo
import Verif.Props.DoubleCover
import Mathlib.Analysis.SpecialFunctions.Trigonometric.ArctanDeriv
import Mathlib.Analysis.SpecialFunctions.Trigonometric.InverseDeriv
import Mathlib.Analysis.SpecialFunctions.Trigonometric.DerivHyp
import Mathlib.Analysis.SpecialFunctions.Sqrt
import Mathlib.Algebra.BigOperators.Fin
import Mathlib.LinearAlgebra.Matrix.NonsingularInverse
import Mathlib.Tactic.FieldSimp
import Mathlib.Tactic.LinearCombination
import Mathlib.Tactic.FinCases

/-!
Properties C78 and C79: the functions `dX_dx` and `ddX_dxdx` are the first and second derivatives of the
inverse of the coordinate transformation `x_of_X`.

The statements do not mention an inverse function.  A point moves along an arbitrary differentiable
path `X(t), Y(t), Z(t)` in the box coordinates with velocity `V`.  Its Cartesian image then has a velocity
`v`.  C78: `dX_dx` applied to `v` gives back `V`.  C79: along the path `dX_dx` changes at the rate
`ddX_dxdx` applied to `v`.  Since the path is arbitrary this determines both functions.
-/

namespace Sgrid

open Real Filter Topology

namespace Spec

/-- The symmetric index pair of `j` and `k`. -/
def pair : Fin 3 → Fin 3 → Pair
  | 0, 0 => .xx
  | 0, 1 => .xy
  | 0, 2 => .xz
  | 1, 0 => .xy
  | 1, 1 => .yy
  | 1, 2 => .yz
  | 2, 0 => .xz
  | 2, 1 => .yz
  | 2, 2 => .zz

/-- The path `X, Y, Z` moves with velocity `V` at time `t`. -/
def Moves (X Y Z : ℝ → ℝ) (t : ℝ) (V : Fin 3 → ℝ) : Prop :=
  HasDerivAt X (V 0) t ∧ HasDerivAt Y (V 1) t ∧ HasDerivAt Z (V 2) t

/-- The image of the path under `x` moves with velocity `v` at time `t`. -/
def ImageMoves (x : ℝ → ℝ → ℝ → Fin 3 → ℝ) (X Y Z : ℝ → ℝ) (t : ℝ) (v : Fin 3 → ℝ) : Prop :=
  ∀ i, HasDerivAt (fun s => x (X s) (Y s) (Z s) i) (v i) t

/-- `dX` is the matrix of first derivatives of the inverse of `x` at all points in `P`. -/
def FirstDerivs (x : ℝ → ℝ → ℝ → Fin 3 → ℝ) (dX : ℝ → ℝ → ℝ → Fin 3 → Fin 3 → ℝ)
    (P : ℝ → ℝ → ℝ → Prop) : Prop :=
  ∀ X Y Z t V, Moves X Y Z t V → P (X t) (Y t) (Z t) →
    ∃ v, ImageMoves x X Y Z t v ∧ ∀ a, ∑ i, dX (X t) (Y t) (Z t) a i * v i = V a

/-- `ddX` are the second derivatives of the inverse of `x`, whose first derivatives are `dX`. -/
def SecondDerivs (x : ℝ → ℝ → ℝ → Fin 3 → ℝ) (dX : ℝ → ℝ → ℝ → Fin 3 → Fin 3 → ℝ)
    (ddX : ℝ → ℝ → ℝ → Fin 3 → Pair → ℝ) (P : ℝ → ℝ → ℝ → Prop) : Prop :=
  ∀ X Y Z t V v, Moves X Y Z t V → P (X t) (Y t) (Z t) → ImageMoves x X Y Z t v →
    ∀ a i, HasDerivAt (fun s => dX (X s) (Y s) (Z s) a i)
      (∑ j, ddX (X t) (Y t) (Z t) a (pair i j) * v j) t

end Spec

/-- The Cartesian velocity is unique. -/
theorem ImageMoves_unique {x X Y Z t v w} (h : Spec.ImageMoves x X Y Z t v)
    (h' : Spec.ImageMoves x X Y Z t w) : v = w := by
  funext i
  exact (h i).unique (h' i)

/-- Motion along the coordinate direction `k`. -/
theorem moves_basis (a b c : ℝ) (k : Fin 3) : Spec.Moves (fun s => a + s * (if k = 0 then 1 else 0))
    (fun s => b + s * (if k = 1 then 1 else 0)) (fun s => c + s * (if k = 2 then 1 else 0)) 0
    (fun i => if k = i then 1 else 0) := by
  refine ⟨?_, ?_, ?_⟩
  · exact ((hasDerivAt_id (0 : ℝ)).mul_const _ |>.const_add a).congr_deriv (by simp)
  · exact ((hasDerivAt_id (0 : ℝ)).mul_const _ |>.const_add b).congr_deriv (by simp)
  · exact ((hasDerivAt_id (0 : ℝ)).mul_const _ |>.const_add c).congr_deriv (by simp)

/-- The Jacobian of `x_of_X` exists, and `dX` is its inverse. -/
theorem FirstDerivs_inverse {x dX P} (h : Spec.FirstDerivs x dX P) (a b c : ℝ) (hP : P a b c) :
    ∃ v : Fin 3 → Fin 3 → ℝ, (∀ k, Spec.ImageMoves x (fun s => a + s * (if k = 0 then 1 else 0))
      (fun s => b + s * (if k = 1 then 1 else 0)) (fun s => c + s * (if k = 2 then 1 else 0)) 0 (v k)) ∧
      (Matrix.of (dX a b c)) * (Matrix.of fun i k => v k i) = 1 ∧
      (Matrix.of fun i k => v k i) * (Matrix.of (dX a b c)) = 1 := by
  have h1 := fun k => h _ _ _ _ _ (moves_basis a b c k) (by simpa using hP)
  choose v hv hv' using h1
  have e1 : (Matrix.of (dX a b c)) * (Matrix.of fun i k => v k i) = 1 := by
    ext i k
    simpa [Matrix.mul_apply, Matrix.one_apply, eq_comm] using hv' k i
  exact ⟨v, hv, e1, mul_eq_one_comm.1 e1⟩

/-- The first derivatives are determined by `x_of_X`. -/
theorem FirstDerivs_unique {x dX dX' P} (h : Spec.FirstDerivs x dX P) (h' : Spec.FirstDerivs x dX' P)
    (a b c : ℝ) (hP : P a b c) : dX a b c = dX' a b c := by
  obtain ⟨v, hv, _, e3⟩ := FirstDerivs_inverse h a b c hP
  obtain ⟨w, hw, e2, _⟩ := FirstDerivs_inverse h' a b c hP
  have hvw : v = w := funext fun k => ImageMoves_unique (hv k) (hw k)
  subst hvw
  have : Matrix.of (dX' a b c) = Matrix.of (dX a b c) := by
    calc Matrix.of (dX' a b c) = Matrix.of (dX' a b c) * (Matrix.of (fun i k => v k i) *
            Matrix.of (dX a b c)) := by rw [e3, mul_one]
      _ = Matrix.of (dX a b c) := by rw [← mul_assoc, e2, one_mul]
  exact (Matrix.of.injective this).symm

/-- The second derivatives are determined by `x_of_X` and `dX_dx`. -/
theorem SecondDerivs_unique {x dX ddX ddX' P} (h : Spec.FirstDerivs x dX P)
    (h2 : Spec.SecondDerivs x dX ddX P) (h2' : Spec.SecondDerivs x dX ddX' P)
    (a b c : ℝ) (hP : P a b c) (k i j : Fin 3) :
    ddX a b c k (Spec.pair i j) = ddX' a b c k (Spec.pair i j) := by
  obtain ⟨v, hv, _, e3⟩ := FirstDerivs_inverse h a b c hP
  have e : Matrix.of (fun i j => ddX a b c k (Spec.pair i j)) * (Matrix.of fun i k => v k i) =
      Matrix.of (fun i j => ddX' a b c k (Spec.pair i j)) * (Matrix.of fun i k => v k i) := by
    ext i l
    have h3 := h2 _ _ _ _ _ _ (moves_basis a b c l) (by simpa using hP) (hv l) k i
    have h4 := h2' _ _ _ _ _ _ (moves_basis a b c l) (by simpa using hP) (hv l) k i
    simpa [Matrix.mul_apply] using h3.unique h4
  have e4 := congrArg (· * Matrix.of (dX a b c)) e
  simp only [mul_assoc, e3, mul_one] at e4
  exact congrFun (congrFun (Matrix.of.injective e4) i) j

/-! ### Polar -/

theorem polar_moves {X Y Z : ℝ → ℝ} {t : ℝ} {V : Fin 3 → ℝ} (h : Spec.Moves X Y Z t V) :
    Spec.ImageMoves polarX X Y Z t ![V 0 * cos (Y t) - X t * sin (Y t) * V 1,
      V 0 * sin (Y t) + X t * cos (Y t) * V 1, V 2] := by
  obtain ⟨hX, hY, hZ⟩ := h
  intro i
  fin_cases i
  · exact (hX.mul hY.cos).congr_deriv (by simp; ring)
  · exact (hX.mul hY.sin).congr_deriv (by simp; ring)
  · exact hZ

/-- **C78** for Polar. -/
theorem C78_polar : Spec.FirstDerivs polarX polarDX (fun rho _ _ => 0 < rho) := by
  intro X Y Z t V h hP
  refine ⟨_, polar_moves h, fun a => ?_⟩
  have h1 := sin_sq_add_cos_sq (Y t)
  fin_cases a <;> simp [Fin.sum_univ_three, polarDX, drhoDx, drhoDy, dphiDx, dphiDy, hP]
  · linear_combination V 0 * h1
  · field_simp
    linear_combination X t * V 1 * h1

/-- **C78** on the axis of Polar: the derivatives of the angle are set to zero there, so that nothing is
divided by zero. -/
theorem C78_polar_axis (phi Z : ℝ) (i : Fin 3) : polarDX 0 phi Z 1 i = 0 := by
  fin_cases i <;> simp [polarDX, dphiDx, dphiDy]

/-! ### PolarCE -/

/-- The angle of PolarCE moves with the velocity of `Y` divided by `dY_dphi`. -/
theorem polarCE_phi_moves {n2 : Nat} (hn : 3 ≤ n2) {Y : ℝ → ℝ} {t V : ℝ} (hY : HasDerivAt Y V t)
    (h0 : 0 < Y t) (h2 : Y t < 2 * π) : 0 < polarCEdYdphi n2 (Y t) ∧
    HasDerivAt (fun s => polarCEPhi n2 (Y s)) (V / polarCEdYdphi n2 (Y t)) t := by
  have hn' : (3 : ℝ) ≤ n2 := by exact_mod_cast hn
  have hN : (0 : ℝ) < n2 - 1 := by linarith
  have hN1 : (0 : ℝ) < (n2 - 1) - 1 := by linarith
  have hpi := pi_pos
  have hu1 : -1 < 1 - Y t / π := by
    have : Y t / π < 2 := by rw [div_lt_iff₀ hpi]; linarith
    linarith
  have hu2 : 1 - Y t / π < 1 := by
    have := div_pos h0 hpi
    linarith
  have harg : ((n2 : ℝ) - 1 - 1) / (2 * ((n2 : ℝ) - 1)) * polarCEPhi n2 (Y t) = arccos (1 - Y t / π) := by
    simp only [polarCEPhi]
    field_simp
  have hs : 0 < √(1 - (1 - Y t / π) ^ 2) := by
    apply sqrt_pos.2
    nlinarith
  have hd : polarCEdYdphi n2 (Y t) =
      π * (((n2 : ℝ) - 1 - 1) / (2 * ((n2 : ℝ) - 1))) * √(1 - (1 - Y t / π) ^ 2) := by
    simp only [polarCEdYdphi]
    rw [harg, sin_arccos]
  refine ⟨?_, ?_⟩
  · rw [hd]
    positivity
  · have h1 : HasDerivAt (fun s => 1 - Y s / π) (-(V / π)) t := (hY.div_const π).const_sub 1
    have h3 := ((hasDerivAt_arccos hu1.ne' hu2.ne).comp t h1).const_mul
      (2 * ((n2 : ℝ) - 1) / ((n2 : ℝ) - 1 - 1))
    refine h3.congr_deriv ?_
    rw [hd]
    generalize √(1 - (1 - Y t / π) ^ 2) = w at *
    field_simp

theorem polarCE_moves {n2 : Nat} (hn : 3 ≤ n2) {X Y Z : ℝ → ℝ} {t : ℝ} {V : Fin 3 → ℝ}
    (h : Spec.Moves X Y Z t V) (h0 : 0 < Y t) (h2 : Y t < 2 * π) :
    Spec.ImageMoves (polarCEX n2) X Y Z t
      ![V 0 * cos (polarCEPhi n2 (Y t)) - X t * sin (polarCEPhi n2 (Y t)) * (V 1 / polarCEdYdphi n2 (Y t)),
        V 0 * sin (polarCEPhi n2 (Y t)) + X t * cos (polarCEPhi n2 (Y t)) * (V 1 / polarCEdYdphi n2 (Y t)),
        V 2] := by
  obtain ⟨hX, hY, hZ⟩ := h
  exact polar_moves (V := ![V 0, V 1 / polarCEdYdphi n2 (Y t), V 2])
    ⟨hX, (polarCE_phi_moves hn hY h0 h2).2, hZ⟩

/-- **C78** for PolarCE, what holds: the rows of the angle and of `Z` are right.  The row of the radius is
not (`C78_polarCE_counterexample`). -/
theorem C78_polarCE_partial {n2 : Nat} (hn : 3 ≤ n2) {X Y Z : ℝ → ℝ} {t : ℝ} {V : Fin 3 → ℝ}
    (h : Spec.Moves X Y Z t V) (hr : 0 < X t) (h0 : 0 < Y t) (h2 : Y t < 2 * π) :
    ∃ v, Spec.ImageMoves (polarCEX n2) X Y Z t v ∧
      ∀ a, a ≠ 0 → ∑ i, polarCEDX n2 (X t) (Y t) (Z t) a i * v i = V a := by
  refine ⟨_, polarCE_moves hn h h0 h2, fun a ha => ?_⟩
  have hd := (polarCE_phi_moves hn h.2.1 h0 h2).1
  have h1 := sin_sq_add_cos_sq (polarCEPhi n2 (Y t))
  fin_cases a
  · exact absurd rfl ha
  · simp [Fin.sum_univ_three, polarCEDX, dphiDx, dphiDy, hr]
    field_simp
    linear_combination X t * V 1 * h1
  · simp [Fin.sum_univ_three, polarCEDX]

/-- **C78** is false for PolarCE: the row of the radius uses drho_dx and drho_dy of Polar, which take
their second argument as the angle, while it is the coordinate `Y` here.  With 4 points, at `Y = π`, where
the angle is `3π/2`, a motion along the radius is not seen. -/
theorem C78_polarCE_counterexample : ¬ Spec.FirstDerivs (polarCEX 4) (polarCEDX 4)
    (fun rho Y _ => 0 < rho ∧ 0 < Y ∧ Y < 2 * π) := by
  intro hf
  have hm : Spec.Moves (fun s => 1 + s) (fun _ => π) (fun _ => 0) 0 ![1, 0, 0] :=
    ⟨((hasDerivAt_id (0 : ℝ)).const_add 1).congr_deriv (by simp), hasDerivAt_const _ _,
      hasDerivAt_const _ _⟩
  have hpi := pi_pos
  obtain ⟨v, hv, hv'⟩ := hf _ _ _ _ _ hm ⟨by norm_num, hpi, by linarith⟩
  have hu := ImageMoves_unique hv (polarCE_moves (by norm_num) hm hpi (by linarith))
  have h0 := hv' 0
  have hphi : polarCEPhi 4 π = π / 2 + π := by
    simp only [polarCEPhi]
    rw [div_self hpi.ne', sub_self, arccos_zero]
    push_cast
    ring
  subst hu
  simp [Fin.sum_univ_three, polarCEDX, drhoDx, drhoDy, hphi, cos_add_pi, sin_add_pi] at h0

/-! ### Spherical -/

theorem spherical_moves {X Y Z : ℝ → ℝ} {t : ℝ} {V : Fin 3 → ℝ} (h : Spec.Moves X Y Z t V) :
    Spec.ImageMoves sphericalX X Y Z t
      ![V 0 * cos (Z t) * sin (Y t) - X t * sin (Z t) * V 2 * sin (Y t) + X t * cos (Z t) * cos (Y t) * V 1,
        V 0 * sin (Z t) * sin (Y t) + X t * cos (Z t) * V 2 * sin (Y t) + X t * sin (Z t) * cos (Y t) * V 1,
        V 0 * cos (Y t) - X t * sin (Y t) * V 1] := by
  obtain ⟨hX, hY, hZ⟩ := h
  intro i
  fin_cases i
  · exact ((hX.mul hZ.cos).mul hY.sin).congr_deriv (by simp; ring)
  · exact ((hX.mul hZ.sin).mul hY.sin).congr_deriv (by simp; ring)
  · exact (hX.mul hY.cos).congr_deriv (by simp; ring)

/-- **C78** for Spherical. -/
theorem C78_spherical : Spec.FirstDerivs sphericalX sphericalDX
    (fun r θ _ => 0 < r ∧ sin θ ≠ 0) := by
  intro X Y Z t V h ⟨hr, hs⟩
  refine ⟨_, spherical_moves h, fun a => ?_⟩
  have h1 := sin_sq_add_cos_sq (Y t)
  have h2 := sin_sq_add_cos_sq (Z t)
  fin_cases a <;> simp [Fin.sum_univ_three, sphericalDX, hr]
  · grind
  · field_simp
    grind
  · field_simp
    grind

/-- Where the radius is positive, the guards `if(r>0.0)` do not matter. -/
theorem pos_eventually {X : ℝ → ℝ} {t V : ℝ} (hX : HasDerivAt X V t) (hr : 0 < X t) :
    ∀ᶠ s in 𝓝 t, 0 < X s :=
  hX.continuousAt.eventually (lt_mem_nhds hr)

/-- **C79** for Spherical. -/
theorem C79_spherical : Spec.SecondDerivs sphericalX sphericalDX sphericalDDX
    (fun r θ _ => 0 < r ∧ sin θ ≠ 0) := by
  intro X Y Z t V v h ⟨hr, hs⟩ hv a i
  have hvv := ImageMoves_unique hv (spherical_moves h)
  subst hvv
  obtain ⟨hX, hY, hZ⟩ := h
  have h1 := sin_sq_add_cos_sq (Y t)
  have h2 := sin_sq_add_cos_sq (Z t)
  have hp := pos_eventually hX hr
  have hr' := hr.ne'
  fin_cases a <;> fin_cases i
  · refine (hZ.cos.mul hY.sin).congr_deriv ?_
    simp [Fin.sum_univ_three, sphericalDDX, Spec.pair]
    field_simp
    grind
  · refine (hZ.sin.mul hY.sin).congr_deriv ?_
    simp [Fin.sum_univ_three, sphericalDDX, Spec.pair]
    field_simp
    grind
  · refine hY.cos.congr_deriv ?_
    simp [Fin.sum_univ_three, sphericalDDX, Spec.pair]
    field_simp
    grind
  · refine (((hY.cos.mul hZ.cos).div hX hr').congr_of_eventuallyEq ?_).congr_deriv ?_
    · filter_upwards [hp] with s hs
      simp [sphericalDX, hs]
    simp [Fin.sum_univ_three, sphericalDDX, Spec.pair, tan_eq_sin_div_cos, cos_two_mul, sin_two_mul]
    field_simp
    grind
  · refine (((hY.cos.mul hZ.sin).div hX hr').congr_of_eventuallyEq ?_).congr_deriv ?_
    · filter_upwards [hp] with s hs
      simp [sphericalDX, hs]
    simp [Fin.sum_univ_three, sphericalDDX, Spec.pair, tan_eq_sin_div_cos, cos_two_mul, sin_two_mul]
    field_simp
    grind
  · refine (((hY.sin.neg).div hX hr').congr_of_eventuallyEq ?_).congr_deriv ?_
    · filter_upwards [hp] with s hs
      simp [sphericalDX, hs]
    simp [Fin.sum_univ_three, sphericalDDX, Spec.pair, tan_eq_sin_div_cos, cos_two_mul, sin_two_mul]
    field_simp
    grind
  · refine ((hZ.sin.neg).div (hX.mul hY.sin) (mul_ne_zero hr' hs)).congr_deriv ?_
    simp [Fin.sum_univ_three, sphericalDDX, Spec.pair, tan_eq_sin_div_cos, cos_two_mul, sin_two_mul]
    field_simp
    grind
  · refine (hZ.cos.div (hX.mul hY.sin) (mul_ne_zero hr' hs)).congr_deriv ?_
    simp [Fin.sum_univ_three, sphericalDDX, Spec.pair, tan_eq_sin_div_cos, cos_two_mul, sin_two_mul]
    field_simp
    grind
  · refine (hasDerivAt_const t (0 : ℝ)).congr_deriv ?_
    simp [Fin.sum_univ_three, sphericalDDX, Spec.pair]

/-! ### SphericalDF: the shifted angle -/

theorem thetaDF_moves {n2 : Nat} {X Y Z : ℝ → ℝ} {t : ℝ} {V : Fin 3 → ℝ} (h : Spec.Moves X Y Z t V) :
    Spec.Moves X (fun s => thetaDF n2 (Y s)) Z t V :=
  ⟨h.1, h.2.1.add_const _, h.2.2⟩

theorem sphericalDFX_eq (n2 : Nat) (r thm phi : ℝ) :
    sphericalDFX n2 r thm phi = sphericalX r (thetaDF n2 thm) phi := by
  funext i
  fin_cases i <;> rfl

theorem sphericalDFDX_eq (n2 : Nat) (r thm phi : ℝ) :
    sphericalDFDX n2 r thm phi = sphericalDX r (thetaDF n2 thm) phi := by
  funext i j
  fin_cases i <;> fin_cases j <;> rfl

theorem sphericalDFDDX_eq (n2 : Nat) (r thm phi : ℝ) :
    sphericalDFDDX n2 r thm phi = sphericalDDX r (thetaDF n2 thm) phi := by
  funext i j
  fin_cases i <;> cases j <;> rfl

/-- **C78** for SphericalDF. -/
theorem C78_sphericalDF (n2 : Nat) : Spec.FirstDerivs (sphericalDFX n2) (sphericalDFDX n2)
    (fun r thm _ => 0 < r ∧ sin (thetaDF n2 thm) ≠ 0) := by
  intro X Y Z t V h hP
  obtain ⟨v, h1, h2⟩ := C78_spherical X (fun s => thetaDF n2 (Y s)) Z t V (thetaDF_moves h) hP
  refine ⟨v, fun i => ?_, fun a => ?_⟩
  · simpa only [sphericalDFX_eq] using h1 i
  · simpa only [sphericalDFDX_eq] using h2 a

/-- **C79** for SphericalDF. -/
theorem C79_sphericalDF (n2 : Nat) : Spec.SecondDerivs (sphericalDFX n2) (sphericalDFDX n2)
    (sphericalDFDDX n2) (fun r thm _ => 0 < r ∧ sin (thetaDF n2 thm) ≠ 0) := by
  intro X Y Z t V v h hP hv a i
  have := C79_spherical X (fun s => thetaDF n2 (Y s)) Z t V v (thetaDF_moves h) hP
    (fun i => by simpa only [sphericalDFX_eq] using hv i) a i
  simpa only [sphericalDFDX_eq, sphericalDFDDX_eq] using this

/-! ### compactSphericalDF: the compactified radius -/

theorem half_angle_cos_pos {xi : ℝ} (h0 : -1 < xi) (h1 : xi < 1) : 0 < cos (1 / 2 * π * xi) := by
  have := pi_pos
  exact cos_pos_of_mem_Ioo ⟨by nlinarith, by nlinarith⟩

theorem rOfXi_moves {r0 : ℝ} {X : ℝ → ℝ} {t V : ℝ} (hX : HasDerivAt X V t) (h0 : -1 < X t) (h1 : X t < 1) :
    dxiDr r0 (X t) = 2 / π * cos (1 / 2 * π * X t) ^ 2 ∧
    HasDerivAt (fun s => rOfXi r0 (X s)) (V / dxiDr r0 (X t)) t := by
  have hpi := pi_pos
  have hc := half_angle_cos_pos h0 h1
  have e : X t * π / 2 = 1 / 2 * π * X t := by ring
  have hsc := sin_sq_add_cos_sq (1 / 2 * π * X t)
  have hd : dxiDr r0 (X t) = 2 / π * cos (1 / 2 * π * X t) ^ 2 := by
    simp only [dxiDr, h1.ne, if_false, e, tan_eq_sin_div_cos, add_sub_cancel_right]
    generalize cos (1 / 2 * π * X t) = c at *
    generalize sin (1 / 2 * π * X t) = w at *
    have : 1 + w / c * (w / c) = 1 / c ^ 2 := by
      field_simp
      linarith
    rw [this]
    field_simp
  refine ⟨hd, ?_⟩
  have h2 : HasDerivAt (fun s => X s * π / 2) (V * π / 2) t := (hX.mul_const π).div_const 2
  have h3 : cos (X t * π / 2) ≠ 0 := by rw [e]; exact hc.ne'
  refine (((hasDerivAt_tan h3).comp t h2).add_const r0).congr_deriv ?_
  rw [hd, e]
  field_simp

/-- **C78** for compactSphericalDF. -/
theorem C78_compact (n2 : Nat) (r0 : ℝ) : Spec.FirstDerivs (compactX n2 r0) (compactDX n2 r0)
    (fun xi thm _ => -1 < xi ∧ xi < 1 ∧ 0 < rOfXi r0 xi ∧ sin (thetaDF n2 thm) ≠ 0) := by
  intro X Y Z t V ⟨hX, hY, hZ⟩ ⟨h0, h1, hr, hs⟩
  obtain ⟨hd, hR⟩ := rOfXi_moves (r0 := r0) hX h0 h1
  have hc := half_angle_cos_pos h0 h1
  have hpi := pi_pos
  obtain ⟨v, hv, hv'⟩ := C78_sphericalDF n2 (fun s => rOfXi r0 (X s)) Y Z t
    ![V 0 / dxiDr r0 (X t), V 1, V 2] ⟨hR, hY, hZ⟩ ⟨hr, hs⟩
  refine ⟨v, hv, fun a => ?_⟩
  have hd0 : dxiDr r0 (X t) ≠ 0 := by
    rw [hd]
    positivity
  have h3 := hv' a
  fin_cases a
  · have : V 0 = dxiDr r0 (X t) * (V 0 / dxiDr r0 (X t)) := by field_simp
    simp only [Fin.sum_univ_three, Fin.zero_eta, Matrix.cons_val_zero, compactDX, h1.ne, if_false] at h3 ⊢
    rw [this, ← h3]
    ring
  · simpa [Fin.sum_univ_three, compactDX, h1.ne] using h3
  · simpa [Fin.sum_univ_three, compactDX, h1.ne, sphericalDFDX] using h3

/-- The second derivatives of the angles are those of SphericalDF at the radius `r_of_xi`. -/
theorem compactDDX_angles (n2 : Nat) {r0 xi thm phi : ℝ} (h0 : -1 < xi) (h1 : xi < 1) (p : Pair) :
    compactDDX n2 r0 xi thm phi 1 p = sphericalDFDDX n2 (rOfXi r0 xi) thm phi 1 p ∧
    compactDDX n2 r0 xi thm phi 2 p = sphericalDFDDX n2 (rOfXi r0 xi) thm phi 2 p := by
  have hc := half_angle_cos_pos h0 h1
  have e : xi * π / 2 = 1 / 2 * π * xi := by ring
  simp only [rOfXi, e]
  have h2 : r0 * cos (1 / 2 * π * xi) + sin (1 / 2 * π * xi) =
      (tan (1 / 2 * π * xi) + r0) * cos (1 / 2 * π * xi) := by
    rw [add_mul, tan_mul_cos hc.ne', add_comm]
  have h3 : r0 + tan (1 / 2 * π * xi) = tan (1 / 2 * π * xi) + r0 := add_comm _ _
  cases p <;> simp only [compactDDX, sphericalDFDDX, h2, h3] <;>
    generalize cos (1 / 2 * π * xi) = c at * <;> constructor <;>
    (try simp only [sin_two_mul]) <;> (try field_simp)

/-- The second derivatives of `xi`. -/
theorem compactDDX_xi (n2 : Nat) {r0 xi thm phi : ℝ} (h0 : -1 < xi) (h1 : xi < 1)
    (hr : 0 < rOfXi r0 xi) (i j : Fin 3) :
    compactDDX n2 r0 xi thm phi 0 (Spec.pair i j) =
      2 / π * cos (1 / 2 * π * xi) ^ 2 * (sphericalDFDDX n2 (rOfXi r0 xi) thm phi 0 (Spec.pair i j) -
        2 * cos (1 / 2 * π * xi) * sin (1 / 2 * π * xi) *
          sphericalDFDX n2 (rOfXi r0 xi) thm phi 0 i * sphericalDFDX n2 (rOfXi r0 xi) thm phi 0 j) := by
  have hc := half_angle_cos_pos h0 h1
  have e : xi * π / 2 = 1 / 2 * π * xi := by ring
  have e2 : π * xi = 2 * (1 / 2 * π * xi) := by ring
  have hsc := sin_sq_add_cos_sq (1 / 2 * π * xi)
  have hsc1 := sin_sq_add_cos_sq (thetaDF n2 thm)
  have hsc2 := sin_sq_add_cos_sq phi
  have hpi := pi_pos
  simp only [rOfXi, e] at hr ⊢
  have h3 : r0 + tan (1 / 2 * π * xi) = tan (1 / 2 * π * xi) + r0 := add_comm _ _
  have h4 : sin (1 / 2 * π * xi) = tan (1 / 2 * π * xi) * cos (1 / 2 * π * xi) :=
    (tan_mul_cos hc.ne').symm
  fin_cases i <;> fin_cases j
  all_goals
    simp only [compactDDX, sphericalDFDDX, sphericalDFDX, Spec.pair, h3, e2, sin_two_mul, cos_two_mul]
    rw [h4] at hsc ⊢
    generalize cos (1 / 2 * π * xi) = c at *
    generalize tan (1 / 2 * π * xi) = w at *
    clear h3 h4 e e2 h0 h1
    obtain ⟨r, hr'⟩ : ∃ r, r = w + r0 := ⟨_, rfl⟩
    rw [← hr'] at hr ⊢
    have hr0 : r0 = r - w := by linarith
    subst hr0
    generalize cos (thetaDF n2 thm) = ct at *
    generalize sin (thetaDF n2 thm) = st at *
    generalize cos phi = cp at *
    generalize sin phi = sp at *
    clear hr'
    field_simp
    grind

/-- **C79** for compactSphericalDF. -/
theorem C79_compact (n2 : Nat) (r0 : ℝ) : Spec.SecondDerivs (compactX n2 r0) (compactDX n2 r0)
    (compactDDX n2 r0)
    (fun xi thm _ => -1 < xi ∧ xi < 1 ∧ 0 < rOfXi r0 xi ∧ sin (thetaDF n2 thm) ≠ 0) := by
  intro X Y Z t V v ⟨hX, hY, hZ⟩ ⟨h0, h1, hr, hs⟩ hv a i
  obtain ⟨hd, hR⟩ := rOfXi_moves (r0 := r0) hX h0 h1
  have hc := half_angle_cos_pos h0 h1
  have hpi := pi_pos
  have hm : Spec.Moves (fun s => rOfXi r0 (X s)) Y Z t ![V 0 / dxiDr r0 (X t), V 1, V 2] := ⟨hR, hY, hZ⟩
  have h2 := C79_sphericalDF n2 _ _ _ _ _ v hm ⟨hr, hs⟩ hv a i
  have hlt : ∀ᶠ s in 𝓝 t, X s < 1 := hX.continuousAt.eventually (gt_mem_nhds h1)
  have hgt : ∀ᶠ s in 𝓝 t, -1 < X s := hX.continuousAt.eventually (lt_mem_nhds h0)
  fin_cases a
  · have hdx : HasDerivAt (fun s => dxiDr r0 (X s))
        (-(2 * cos (1 / 2 * π * X t) * sin (1 / 2 * π * X t) * V 0)) t := by
      have h3 : HasDerivAt (fun s => 1 / 2 * π * X s) (1 / 2 * π * V 0) t := hX.const_mul _
      refine (((h3.cos.pow 2).const_mul (2 / π)).congr_of_eventuallyEq ?_).congr_deriv ?_
      · filter_upwards [hlt, hgt] with s hs1 hs2
        exact (rOfXi_moves (r0 := r0) (X := fun _ => X s) (hasDerivAt_const s _) hs2 hs1).1
      · push_cast
        field_simp
    obtain ⟨w, hw, hw'⟩ := C78_compact n2 r0 X Y Z t V ⟨hX, hY, hZ⟩ ⟨h0, h1, hr, hs⟩
    obtain rfl := ImageMoves_unique hv hw
    have hV := hw' 0
    refine ((hdx.mul h2).congr_of_eventuallyEq ?_).congr_deriv ?_
    · filter_upwards [hlt] with s hs1
      simp [compactDX, hs1.ne]
    · simp only [Fin.zero_eta, compactDDX_xi n2 h0 h1 hr, ← hV, hd, compactDX, h1.ne, if_false,
        Fin.sum_univ_three]
      ring
  · refine (h2.congr_of_eventuallyEq ?_).congr_deriv ?_
    · filter_upwards [hlt] with s hs1
      simp [compactDX, hs1.ne]
    · simp only [Fin.mk_one, (compactDDX_angles n2 h0 h1 _).1]
  · refine (h2.congr_of_eventuallyEq ?_).congr_deriv ?_
    · filter_upwards [hlt] with s hs1
      fin_cases i <;> simp [compactDX, hs1.ne, sphericalDFDX]
    · simp only [Fin.reduceFinMk, (compactDDX_angles n2 h0 h1 _).2]

/-! ### Spherical2 -/

theorem spherical2_moves {X Y Z : ℝ → ℝ} {t : ℝ} {V : Fin 3 → ℝ} (h : Spec.Moves X Y Z t V)
    (h1 : Y t ^ 2 < 1) : Spec.ImageMoves spherical2X X Y Z t
      ![V 0 * √(1 - Y t * Y t) * cos (Z t) - X t * (Y t * V 1 / √(1 - Y t * Y t)) * cos (Z t) -
          X t * √(1 - Y t * Y t) * sin (Z t) * V 2,
        V 0 * √(1 - Y t * Y t) * sin (Z t) - X t * (Y t * V 1 / √(1 - Y t * Y t)) * sin (Z t) +
          X t * √(1 - Y t * Y t) * cos (Z t) * V 2,
        V 0 * Y t + X t * V 1] := by
  obtain ⟨hX, hY, hZ⟩ := h
  have hw : HasDerivAt (fun s => √(1 - Y s * Y s)) (-(Y t * V 1 / √(1 - Y t * Y t))) t := by
    refine (((hY.mul hY).const_sub 1).sqrt (by simp; nlinarith)).congr_deriv ?_
    simp
    ring
  intro i
  fin_cases i
  · exact ((hX.mul hw).mul hZ.cos).congr_deriv (by simp; ring)
  · exact ((hX.mul hw).mul hZ.sin).congr_deriv (by simp; ring)
  · exact (hX.mul hY).congr_deriv (by simp)

/-- **C78** for Spherical2. -/
theorem C78_spherical2 : Spec.FirstDerivs spherical2X spherical2DX
    (fun r U _ => r ≠ 0 ∧ U ^ 2 < 1) := by
  intro X Y Z t V h ⟨hr, hs⟩
  refine ⟨_, spherical2_moves h hs, fun a => ?_⟩
  have h2 := sin_sq_add_cos_sq (Z t)
  have hq : 0 < 1 - Y t * Y t := by nlinarith
  have hw := sqrt_pos.2 hq
  have hw2 := sq_sqrt hq.le
  fin_cases a <;> simp [Fin.sum_univ_three, spherical2DX] <;>
    generalize √(1 - Y t * Y t) = w at * <;> field_simp <;> grind

/-- **C79** for Spherical2. -/
theorem C79_spherical2 : Spec.SecondDerivs spherical2X spherical2DX spherical2DDX
    (fun r U _ => r ≠ 0 ∧ U ^ 2 < 1) := by
  intro X Y Z t V v h ⟨hr, hs⟩ hv a i
  have hvv := ImageMoves_unique hv (spherical2_moves h hs)
  subst hvv
  obtain ⟨hX, hY, hZ⟩ := h
  have h2 := sin_sq_add_cos_sq (Z t)
  have hq : 0 < 1 - Y t * Y t := by nlinarith
  have hw := sqrt_pos.2 hq
  have hw2 := sq_sqrt hq.le
  have hW : HasDerivAt (fun s => √(1 - Y s * Y s)) (-(Y t * V 1 / √(1 - Y t * Y t))) t := by
    refine (((hY.mul hY).const_sub 1).sqrt hq.ne').congr_deriv ?_
    simp
    ring
  fin_cases a <;> fin_cases i
  · refine (hW.mul hZ.cos).congr_deriv ?_
    simp [Fin.sum_univ_three, spherical2DDX, Spec.pair, cos_two_mul, sin_two_mul]
    have hq' : -1 + Y t * Y t ≠ 0 := by linarith
    generalize √(1 - Y t * Y t) = w at *
    field_simp
    grind
  · refine (hW.mul hZ.sin).congr_deriv ?_
    simp [Fin.sum_univ_three, spherical2DDX, Spec.pair, cos_two_mul, sin_two_mul]
    have hq' : -1 + Y t * Y t ≠ 0 := by linarith
    generalize √(1 - Y t * Y t) = w at *
    field_simp
    grind
  · refine (hY).congr_deriv ?_
    simp [Fin.sum_univ_three, spherical2DDX, Spec.pair, cos_two_mul, sin_two_mul]
    have hq' : -1 + Y t * Y t ≠ 0 := by linarith
    generalize √(1 - Y t * Y t) = w at *
    field_simp
    grind
  · refine ((((hY.mul hW).mul hZ.cos).div hX hr).neg).congr_deriv ?_
    simp [Fin.sum_univ_three, spherical2DDX, Spec.pair, cos_two_mul, sin_two_mul]
    have hq' : -1 + Y t * Y t ≠ 0 := by linarith
    generalize √(1 - Y t * Y t) = w at *
    field_simp
    grind
  · refine ((((hY.mul hW).mul hZ.sin).div hX hr).neg).congr_deriv ?_
    simp [Fin.sum_univ_three, spherical2DDX, Spec.pair, cos_two_mul, sin_two_mul]
    have hq' : -1 + Y t * Y t ≠ 0 := by linarith
    generalize √(1 - Y t * Y t) = w at *
    field_simp
    grind
  · refine (((hY.mul hY).const_sub 1).div hX hr).congr_deriv ?_
    simp [Fin.sum_univ_three, spherical2DDX, Spec.pair, cos_two_mul, sin_two_mul]
    have hq' : -1 + Y t * Y t ≠ 0 := by linarith
    generalize √(1 - Y t * Y t) = w at *
    field_simp
    grind
  · refine ((hZ.sin.div (hX.mul hW) (mul_ne_zero hr hw.ne')).neg).congr_deriv ?_
    simp [Fin.sum_univ_three, spherical2DDX, Spec.pair, cos_two_mul, sin_two_mul]
    have hq' : -1 + Y t * Y t ≠ 0 := by linarith
    generalize √(1 - Y t * Y t) = w at *
    field_simp
    grind
  · refine (hZ.cos.div (hX.mul hW) (mul_ne_zero hr hw.ne')).congr_deriv ?_
    simp [Fin.sum_univ_three, spherical2DDX, Spec.pair, cos_two_mul, sin_two_mul]
    have hq' : -1 + Y t * Y t ≠ 0 := by linarith
    generalize √(1 - Y t * Y t) = w at *
    field_simp
    grind
  · refine (hasDerivAt_const t (0 : ℝ)).congr_deriv ?_
    simp [Fin.sum_univ_three, spherical2DDX, Spec.pair]

/-! ### Spherical3 -/

/-- The latitude of Spherical3. -/
noncomputable def latitude3 (c U : ℝ) : ℝ := π / 2 * (1 / sinh c) * sinh (c * U)

theorem latitude3_moves (c : ℝ) {Y : ℝ → ℝ} {t V : ℝ} (hY : HasDerivAt Y V t) :
    HasDerivAt (fun s => latitude3 c (Y s)) (π / 2 * (1 / sinh c) * (cosh (c * Y t) * (c * V))) t :=
  ((hY.const_mul c).sinh).const_mul _

theorem spherical3_moves (c : ℝ) {X Y Z : ℝ → ℝ} {t : ℝ} {V : Fin 3 → ℝ} (h : Spec.Moves X Y Z t V) :
    Spec.ImageMoves (spherical3X c) X Y Z t
      ![V 0 * cos (Z t) * cos (latitude3 c (Y t)) - X t * sin (Z t) * V 2 * cos (latitude3 c (Y t)) -
          X t * cos (Z t) * sin (latitude3 c (Y t)) * (π / 2 * (1 / sinh c) * (cosh (c * Y t) * (c * V 1))),
        V 0 * sin (Z t) * cos (latitude3 c (Y t)) + X t * cos (Z t) * V 2 * cos (latitude3 c (Y t)) -
          X t * sin (Z t) * sin (latitude3 c (Y t)) * (π / 2 * (1 / sinh c) * (cosh (c * Y t) * (c * V 1))),
        V 0 * sin (latitude3 c (Y t)) +
          X t * cos (latitude3 c (Y t)) * (π / 2 * (1 / sinh c) * (cosh (c * Y t) * (c * V 1)))] := by
  obtain ⟨hX, hY, hZ⟩ := h
  have hL := latitude3_moves c hY
  have e : ∀ s, π * (1 / sinh c) * sinh (c * Y s) / 2 = latitude3 c (Y s) := by
    intro s
    simp only [latitude3]
    ring
  intro i
  fin_cases i <;> simp only [spherical3X, e]
  · exact ((hX.mul hZ.cos).mul hL.cos).congr_deriv (by simp; ring)
  · exact ((hX.mul hL.cos).mul hZ.sin).congr_deriv (by simp; ring)
  · exact (hX.mul hL.sin).congr_deriv (by simp; ring)

/-- The square root in dU_Spherical3_dz. -/
theorem sqrt_spherical3 {A : ℝ} (h : 0 < cos A) : √(1 + cos A ^ 2 - sin A ^ 2) = √2 * cos A := by
  have : 1 + cos A ^ 2 - sin A ^ 2 = 2 * cos A ^ 2 := by
    have := sin_sq_add_cos_sq A
    linarith
  rw [this, sqrt_mul (by norm_num), sqrt_sq h.le]

/-- **C78** for Spherical3: all points away from the axis, where the latitude is between `-π/2` and `π/2`. -/
theorem C78_spherical3 (c : ℝ) (hc : c ≠ 0) : Spec.FirstDerivs (spherical3X c) (spherical3DX c)
    (fun r U _ => r ≠ 0 ∧ 0 < cos (latitude3 c U)) := by
  intro X Y Z t V h ⟨hr, hs⟩
  refine ⟨_, spherical3_moves c h, fun a => ?_⟩
  have h1 := sin_sq_add_cos_sq (latitude3 c (Y t))
  have h2 := sin_sq_add_cos_sq (Z t)
  have hsq : √(cosh (c * Y t) ^ 2) = cosh (c * Y t) := sqrt_sq (cosh_pos _).le
  have hch := cosh_pos (c * Y t)
  have hsh : sinh c ≠ 0 := by rwa [Ne, sinh_eq_zero]
  have hsr := sqrt_spherical3 hs
  have hpi := pi_pos
  have h22 : √2 * √2 = 2 := mul_self_sqrt (by norm_num)
  rw [latitude3] at *
  fin_cases a <;> simp only [Fin.sum_univ_three, spherical3DX, hsq, hsr, Fin.zero_eta, Fin.mk_one,
    Fin.reduceFinMk, Matrix.cons_val_zero, Matrix.cons_val_one, Matrix.cons_val]
  all_goals
    generalize cos (π / 2 * (1 / sinh c) * sinh (c * Y t)) = ca at *
    generalize sin (π / 2 * (1 / sinh c) * sinh (c * Y t)) = sa at *
    generalize cosh (c * Y t) = ch at *
    generalize sinh c = w at *
    generalize cos (Z t) = cp at *
    generalize sin (Z t) = sp at *
    generalize √2 = q at *
    field_simp
    grind

set_option linter.unusedSimpArgs false in
/-- **C79** for Spherical3.  The formula for `d²φ/dxdy` divides by `cos φ`. -/
theorem C79_spherical3 (c : ℝ) (hc : c ≠ 0) : Spec.SecondDerivs (spherical3X c) (spherical3DX c)
    (spherical3DDX c) (fun r U phi => r ≠ 0 ∧ 0 < cos (latitude3 c U) ∧ cos phi ≠ 0) := by
  intro X Y Z t V v h ⟨hr, hs, hcp⟩ hv a i
  have hvv := ImageMoves_unique hv (spherical3_moves c h)
  subst hvv
  obtain ⟨hX, hY, hZ⟩ := h
  have h1 := sin_sq_add_cos_sq (latitude3 c (Y t))
  have h2 := sin_sq_add_cos_sq (Z t)
  have hsqs : ∀ s, √(cosh (c * Y s) ^ 2) = cosh (c * Y s) := fun s => sqrt_sq (cosh_pos _).le
  have hch := cosh_pos (c * Y t)
  have hrp : (cosh (c * Y t) ^ 2) ^ (3 / 2 : ℝ) = cosh (c * Y t) ^ 3 := by
    rw [← rpow_natCast, ← rpow_mul hch.le, ← rpow_natCast]
    norm_num
  have hsh : sinh c ≠ 0 := by rwa [Ne, sinh_eq_zero]
  have hL := latitude3_moves c hY
  have hCH : HasDerivAt (fun s => cosh (c * Y s)) (sinh (c * Y t) * (c * V 1)) t := (hY.const_mul c).cosh
  have hpi := pi_pos
  have h22 : √2 * √2 = 2 := mul_self_sqrt (by norm_num)
  have hcr : c * X t * cosh (c * Y t) ≠ 0 := mul_ne_zero (mul_ne_zero hc hr) hch.ne'
  have hce : ∀ᶠ s in 𝓝 t, 0 < cos (latitude3 c (Y s)) :=
    hL.cos.continuousAt.eventually (lt_mem_nhds hs)
  fin_cases a <;> fin_cases i
  · refine (hZ.cos.mul hL.cos).congr_deriv ?_
    simp only [Fin.sum_univ_three, spherical3DDX, Spec.pair, hsqs, hrp, tan_eq_sin_div_cos, Pi.mul_apply,
      Pi.div_apply,
      tanh_eq_sinh_div_cosh, latitude3, Fin.zero_eta, Fin.mk_one, Fin.reduceFinMk, Matrix.cons_val_zero,
      Matrix.cons_val_one, Matrix.cons_val] at h1 hs ⊢
    generalize cos (π / 2 * (1 / sinh c) * sinh (c * Y t)) = ca at *
    generalize sin (π / 2 * (1 / sinh c) * sinh (c * Y t)) = sa at *
    generalize cosh (c * Y t) = ch at *
    generalize sinh (c * Y t) = sh at *
    generalize sinh c = w at *
    generalize cos (Z t) = cp at *
    generalize sin (Z t) = sp at *
    generalize √2 = q at *
    clear * - h1 h2 hs hch hsh hpi h22 hc hr hcp
    field_simp
    grind
  · refine (hL.cos.mul hZ.sin).congr_deriv ?_
    simp only [Fin.sum_univ_three, spherical3DDX, Spec.pair, hsqs, hrp, tan_eq_sin_div_cos, Pi.mul_apply,
      Pi.div_apply,
      tanh_eq_sinh_div_cosh, latitude3, Fin.zero_eta, Fin.mk_one, Fin.reduceFinMk, Matrix.cons_val_zero,
      Matrix.cons_val_one, Matrix.cons_val] at h1 hs ⊢
    generalize cos (π / 2 * (1 / sinh c) * sinh (c * Y t)) = ca at *
    generalize sin (π / 2 * (1 / sinh c) * sinh (c * Y t)) = sa at *
    generalize cosh (c * Y t) = ch at *
    generalize sinh (c * Y t) = sh at *
    generalize sinh c = w at *
    generalize cos (Z t) = cp at *
    generalize sin (Z t) = sp at *
    generalize √2 = q at *
    clear * - h1 h2 hs hch hsh hpi h22 hc hr hcp
    field_simp
    grind
  · refine (hL.sin).congr_deriv ?_
    simp only [Fin.sum_univ_three, spherical3DDX, Spec.pair, hsqs, hrp, tan_eq_sin_div_cos, Pi.mul_apply,
      Pi.div_apply,
      tanh_eq_sinh_div_cosh, latitude3, Fin.zero_eta, Fin.mk_one, Fin.reduceFinMk, Matrix.cons_val_zero,
      Matrix.cons_val_one, Matrix.cons_val] at h1 hs ⊢
    generalize cos (π / 2 * (1 / sinh c) * sinh (c * Y t)) = ca at *
    generalize sin (π / 2 * (1 / sinh c) * sinh (c * Y t)) = sa at *
    generalize cosh (c * Y t) = ch at *
    generalize sinh (c * Y t) = sh at *
    generalize sinh c = w at *
    generalize cos (Z t) = cp at *
    generalize sin (Z t) = sp at *
    generalize √2 = q at *
    clear * - h1 h2 hs hch hsh hpi h22 hc hr hcp
    field_simp
    grind
  · refine (((((hZ.cos.const_mul (-(2 / π))).mul hL.sin).mul_const (sinh c)).div ((hX.const_mul c).mul hCH) hcr).congr_of_eventuallyEq ?_).congr_deriv ?_
    · filter_upwards with s
      simp only [spherical3DX, hsqs, Fin.mk_one, Fin.zero_eta, Fin.reduceFinMk]
      rfl
    simp only [Fin.sum_univ_three, spherical3DDX, Spec.pair, hsqs, hrp, tan_eq_sin_div_cos, Pi.mul_apply,
      Pi.div_apply,
      tanh_eq_sinh_div_cosh, latitude3, Fin.zero_eta, Fin.mk_one, Fin.reduceFinMk, Matrix.cons_val_zero,
      Matrix.cons_val_one, Matrix.cons_val] at h1 hs ⊢
    generalize cos (π / 2 * (1 / sinh c) * sinh (c * Y t)) = ca at *
    generalize sin (π / 2 * (1 / sinh c) * sinh (c * Y t)) = sa at *
    generalize cosh (c * Y t) = ch at *
    generalize sinh (c * Y t) = sh at *
    generalize sinh c = w at *
    generalize cos (Z t) = cp at *
    generalize sin (Z t) = sp at *
    generalize √2 = q at *
    clear * - h1 h2 hs hch hsh hpi h22 hc hr hcp
    field_simp
    grind
  · refine (((((hZ.sin.const_mul (-(2 / π))).mul hL.sin).mul_const (sinh c)).div ((hX.const_mul c).mul hCH) hcr).congr_of_eventuallyEq ?_).congr_deriv ?_
    · filter_upwards with s
      simp only [spherical3DX, hsqs, Fin.mk_one, Fin.zero_eta, Fin.reduceFinMk]
      rfl
    simp only [Fin.sum_univ_three, spherical3DDX, Spec.pair, hsqs, hrp, tan_eq_sin_div_cos, Pi.mul_apply,
      Pi.div_apply,
      tanh_eq_sinh_div_cosh, latitude3, Fin.zero_eta, Fin.mk_one, Fin.reduceFinMk, Matrix.cons_val_zero,
      Matrix.cons_val_one, Matrix.cons_val] at h1 hs ⊢
    generalize cos (π / 2 * (1 / sinh c) * sinh (c * Y t)) = ca at *
    generalize sin (π / 2 * (1 / sinh c) * sinh (c * Y t)) = sa at *
    generalize cosh (c * Y t) = ch at *
    generalize sinh (c * Y t) = sh at *
    generalize sinh c = w at *
    generalize cos (Z t) = cp at *
    generalize sin (Z t) = sp at *
    generalize √2 = q at *
    clear * - h1 h2 hs hch hsh hpi h22 hc hr hcp
    field_simp
    grind
  · refine ((((hL.cos.const_mul (√2 / π * √2)).mul_const (sinh c)).div ((hX.const_mul c).mul hCH) hcr).congr_of_eventuallyEq ?_).congr_deriv ?_
    · filter_upwards [hce] with s hs'
      simp only [spherical3DX, hsqs, Fin.mk_one, Fin.zero_eta, Fin.reduceFinMk]
      rw [latitude3] at hs'
      rw [sqrt_spherical3 hs']
      simp only [latitude3, Pi.div_apply, Pi.mul_apply]
      ring
    simp only [Fin.sum_univ_three, spherical3DDX, Spec.pair, hsqs, hrp, tan_eq_sin_div_cos, Pi.mul_apply,
      Pi.div_apply,
      tanh_eq_sinh_div_cosh, latitude3, Fin.zero_eta, Fin.mk_one, Fin.reduceFinMk, Matrix.cons_val_zero,
      Matrix.cons_val_one, Matrix.cons_val] at h1 hs ⊢
    generalize cos (π / 2 * (1 / sinh c) * sinh (c * Y t)) = ca at *
    generalize sin (π / 2 * (1 / sinh c) * sinh (c * Y t)) = sa at *
    generalize cosh (c * Y t) = ch at *
    generalize sinh (c * Y t) = sh at *
    generalize sinh c = w at *
    generalize cos (Z t) = cp at *
    generalize sin (Z t) = sp at *
    generalize √2 = q at *
    clear * - h1 h2 hs hch hsh hpi h22 hc hr hcp
    field_simp
    grind
  · refine (((((hasDerivAt_const t (1 : ℝ)).div hL.cos hs.ne').mul hZ.sin).div hX hr).neg).congr_deriv ?_
    simp only [Fin.sum_univ_three, spherical3DDX, Spec.pair, hsqs, hrp, tan_eq_sin_div_cos, Pi.mul_apply,
      Pi.div_apply,
      tanh_eq_sinh_div_cosh, latitude3, Fin.zero_eta, Fin.mk_one, Fin.reduceFinMk, Matrix.cons_val_zero,
      Matrix.cons_val_one, Matrix.cons_val] at h1 hs ⊢
    generalize cos (π / 2 * (1 / sinh c) * sinh (c * Y t)) = ca at *
    generalize sin (π / 2 * (1 / sinh c) * sinh (c * Y t)) = sa at *
    generalize cosh (c * Y t) = ch at *
    generalize sinh (c * Y t) = sh at *
    generalize sinh c = w at *
    generalize cos (Z t) = cp at *
    generalize sin (Z t) = sp at *
    generalize √2 = q at *
    clear * - h1 h2 hs hch hsh hpi h22 hc hr hcp
    field_simp
    grind
  · refine ((hZ.cos.mul ((hasDerivAt_const t (1 : ℝ)).div hL.cos hs.ne')).div hX hr).congr_deriv ?_
    simp only [Fin.sum_univ_three, spherical3DDX, Spec.pair, hsqs, hrp, tan_eq_sin_div_cos, Pi.mul_apply,
      Pi.div_apply,
      tanh_eq_sinh_div_cosh, latitude3, Fin.zero_eta, Fin.mk_one, Fin.reduceFinMk, Matrix.cons_val_zero,
      Matrix.cons_val_one, Matrix.cons_val] at h1 hs ⊢
    generalize cos (π / 2 * (1 / sinh c) * sinh (c * Y t)) = ca at *
    generalize sin (π / 2 * (1 / sinh c) * sinh (c * Y t)) = sa at *
    generalize cosh (c * Y t) = ch at *
    generalize sinh (c * Y t) = sh at *
    generalize sinh c = w at *
    generalize cos (Z t) = cp at *
    generalize sin (Z t) = sp at *
    generalize √2 = q at *
    clear * - h1 h2 hs hch hsh hpi h22 hc hr hcp
    field_simp
    grind
  · refine (hasDerivAt_const t (0 : ℝ)).congr_deriv ?_
    simp [Fin.sum_univ_three, spherical3DDX, Spec.pair]

/-! ### tan_stretch -/

theorem stretch_cos_pos {y : ℝ} (h : |y| < 1) : 0 < cos (y * π / 2) := by
  have := pi_pos
  obtain ⟨h0, h1⟩ := abs_lt.1 h
  exact cos_pos_of_mem_Ioo ⟨by nlinarith, by nlinarith⟩

theorem dxsDx_eq {s xs : ℝ} (h : |xs * s| < 1) : dxsDx s xs = cos (xs * s * π / 2) ^ 2 := by
  have hc := stretch_cos_pos h
  have hsc := sin_sq_add_cos_sq (xs * s * π / 2)
  simp only [dxsDx, not_le.2 h, if_false, tan_eq_sin_div_cos]
  generalize cos (xs * s * π / 2) = c at *
  generalize sin (xs * s * π / 2) = w at *
  have : 1 + w / c * (w / c) = 1 / c ^ 2 := by
    field_simp
    linarith
  rw [this]
  field_simp

theorem ddxsDxdx_eq {s xs : ℝ} (h : |xs * s| < 1) :
    ddxsDxdx s xs = -π * s * sin (xs * s * π / 2) * cos (xs * s * π / 2) ^ 3 := by
  have hc := stretch_cos_pos h
  have h1 := dxsDx_eq h
  simp only [dxsDx, ddxsDxdx, not_le.2 h, if_false] at h1 ⊢
  rw [h1, tan_eq_sin_div_cos]
  field_simp

/-- The three coordinates of tan_stretch move alike. -/
theorem xOfXs_moves {s : ℝ} {X : ℝ → ℝ} {t V : ℝ} (hX : HasDerivAt X V t) (h : |X t * s| < 1) :
    HasDerivAt (fun u => xOfXs s (X u)) (V / cos (X t * s * π / 2) ^ 2) t := by
  have hc := stretch_cos_pos h
  have hpi := pi_pos
  by_cases hs : s = 0
  · subst hs
    simpa [xOfXs] using hX
  · have h2 : HasDerivAt (fun u => X u * s * π / 2) (V * s * π / 2) t :=
      ((hX.mul_const s).mul_const π).div_const 2
    simp only [xOfXs, hs, if_false]
    refine ((((hasDerivAt_tan hc.ne').comp t h2).mul_const 2).div_const (π * s)).congr_deriv ?_
    field_simp

theorem dxsDx_moves {s : ℝ} {X : ℝ → ℝ} {t V : ℝ} (hX : HasDerivAt X V t) (h : |X t * s| < 1) :
    HasDerivAt (fun u => dxsDx s (X u)) (ddxsDxdx s (X t) * (V / cos (X t * s * π / 2) ^ 2)) t := by
  have hc := stretch_cos_pos h
  have h2 : HasDerivAt (fun u => X u * s * π / 2) (V * s * π / 2) t :=
    ((hX.mul_const s).mul_const π).div_const 2
  have he : ∀ᶠ u in 𝓝 t, |X u * s| < 1 :=
    (hX.mul_const s).continuousAt.abs.eventually (gt_mem_nhds h)
  refine ((h2.cos.pow 2).congr_of_eventuallyEq ?_).congr_deriv ?_
  · filter_upwards [he] with u hu
    exact dxsDx_eq hu
  · rw [ddxsDxdx_eq h]
    push_cast
    field_simp

theorem tanStretch_moves {s : ℝ} {X Y Z : ℝ → ℝ} {t : ℝ} {V : Fin 3 → ℝ} (h : Spec.Moves X Y Z t V)
    (hx : |X t * s| < 1) (hy : |Y t * s| < 1) (hz : |Z t * s| < 1) :
    Spec.ImageMoves (tanStretchX s) X Y Z t ![V 0 / cos (X t * s * π / 2) ^ 2,
      V 1 / cos (Y t * s * π / 2) ^ 2, V 2 / cos (Z t * s * π / 2) ^ 2] := by
  intro i
  fin_cases i
  · exact xOfXs_moves h.1 hx
  · exact xOfXs_moves h.2.1 hy
  · exact xOfXs_moves h.2.2 hz

/-- **C78** for tan_stretch. -/
theorem C78_tan_stretch (s : ℝ) : Spec.FirstDerivs (tanStretchX s) (tanStretchDX s)
    (fun xs ys zs => |xs * s| < 1 ∧ |ys * s| < 1 ∧ |zs * s| < 1) := by
  intro X Y Z t V h ⟨hx, hy, hz⟩
  refine ⟨_, tanStretch_moves h hx hy hz, fun a => ?_⟩
  have h1 := stretch_cos_pos hx
  have h2 := stretch_cos_pos hy
  have h3 := stretch_cos_pos hz
  fin_cases a
  · simp [Fin.sum_univ_three, tanStretchDX, dxsDx_eq hx]
    field_simp
  · simp [Fin.sum_univ_three, tanStretchDX, dxsDx_eq hy]
    field_simp
  · simp [Fin.sum_univ_three, tanStretchDX, dxsDx_eq hz]
    field_simp

/-- **C79** for tan_stretch. -/
theorem C79_tan_stretch (s : ℝ) : Spec.SecondDerivs (tanStretchX s) (tanStretchDX s) (tanStretchDDX s)
    (fun xs ys zs => |xs * s| < 1 ∧ |ys * s| < 1 ∧ |zs * s| < 1) := by
  intro X Y Z t V v h ⟨hx, hy, hz⟩ hv a i
  have hvv := ImageMoves_unique hv (tanStretch_moves h hx hy hz)
  subst hvv
  fin_cases a <;> fin_cases i
  · exact (dxsDx_moves h.1 hx).congr_deriv (by simp [Fin.sum_univ_three, tanStretchDDX, Spec.pair])
  · exact (hasDerivAt_const t (0 : ℝ)).congr_deriv (by simp [Fin.sum_univ_three, tanStretchDDX, Spec.pair])
  · exact (hasDerivAt_const t (0 : ℝ)).congr_deriv (by simp [Fin.sum_univ_three, tanStretchDDX, Spec.pair])
  · exact (hasDerivAt_const t (0 : ℝ)).congr_deriv (by simp [Fin.sum_univ_three, tanStretchDDX, Spec.pair])
  · exact (dxsDx_moves h.2.1 hy).congr_deriv (by simp [Fin.sum_univ_three, tanStretchDDX, Spec.pair])
  · exact (hasDerivAt_const t (0 : ℝ)).congr_deriv (by simp [Fin.sum_univ_three, tanStretchDDX, Spec.pair])
  · exact (hasDerivAt_const t (0 : ℝ)).congr_deriv (by simp [Fin.sum_univ_three, tanStretchDDX, Spec.pair])
  · exact (hasDerivAt_const t (0 : ℝ)).congr_deriv (by simp [Fin.sum_univ_three, tanStretchDDX, Spec.pair])
  · exact (dxsDx_moves h.2.2 hz).congr_deriv (by simp [Fin.sum_univ_three, tanStretchDDX, Spec.pair])

/-! ### Double covering -/

/-- **C53** for the transformation in the code: with an even number of points the two places of
reset_doubleCoveredPoints have the same Cartesian coordinates. -/
theorem C53_same_point_code (n2 n3 j k : Nat) (h2 : n2 % 2 = 0) (h3 : n3 % 2 = 0) (hj : j < n2)
    (hk : k < n3) (r : ℝ) :
    sphericalDFX n2 r (2 * π * (n2 - 1 - j : Nat) / n2) (2 * π * ((k + n3 / 2) % n3 : Nat) / n3) =
      sphericalDFX n2 r (2 * π * j / n2) (2 * π * k / n3) := by
  obtain ⟨h4, h5, h6⟩ := C53_same_point n2 n3 j k h3 hj hk r
  funext i
  fin_cases i
  · simpa only [sphericalDFX, thetaDF, h2, add_zero, one_mul] using h4
  · simpa only [sphericalDFX, thetaDF, h2, add_zero, one_mul] using h5
  · simpa only [sphericalDFX, thetaDF, h2, add_zero, one_mul] using h6

/-- The theorems apply: a point of a spherical box, with the values of the derivatives there. -/
example : sphericalDX 2 (π / 2) 0 = ![![1, 0, 0], ![0, 0, -1 / 2], ![0, 1 / 2, 0]] := by
  funext i j
  fin_cases i <;> fin_cases j <;> simp [sphericalDX]

example : sphericalDDX 2 (π / 2) 0 0 .yy = 1 / 2 ∧ sphericalDDX 2 (π / 2) 0 1 .xz = 1 / 4 := by
  have e : 2 * (π / 2) = π := by ring
  constructor <;> simp [sphericalDDX, e]
  norm_num

end Sgrid
