import Verif.Model.AnsorgXR
import Verif.Props.CoordTrafo

/-!
Property C150: the tables of first and second derivatives in coordtrans_AnsorgXRphi.c and coordtrans_Bfunc.c
are the derivatives of the transformation that stands beside them.
-/

namespace Sgrid

open Real Filter Topology

namespace Spec

/-- `dx` are the first derivatives of the transformation `x` at all points in `P`: along every path the
image moves with the velocity that `dx` gives. -/
def Jacobian (x : ℝ → ℝ → ℝ → Fin 3 → ℝ) (dx : ℝ → ℝ → ℝ → Fin 3 → Fin 3 → ℝ)
    (P : ℝ → ℝ → ℝ → Prop) : Prop :=
  ∀ X Y Z t V, Moves X Y Z t V → P (X t) (Y t) (Z t) →
    ∀ i, HasDerivAt (fun s => x (X s) (Y s) (Z s) i) (∑ k, dx (X t) (Y t) (Z t) i k * V k) t

/-- `ddx` are the first derivatives of the entries of the table `dx` at all points in `P`. -/
def Hessian (dx : ℝ → ℝ → ℝ → Fin 3 → Fin 3 → ℝ) (ddx : ℝ → ℝ → ℝ → Fin 3 → Pair → ℝ)
    (P : ℝ → ℝ → ℝ → Prop) : Prop :=
  ∀ X Y Z t V, Moves X Y Z t V → P (X t) (Y t) (Z t) →
    ∀ i k, HasDerivAt (fun s => dx (X s) (Y s) (Z s) i k)
      (∑ j, ddx (X t) (Y t) (Z t) i (pair k j) * V j) t

end Spec

/-- Differentiates an expression built from paths whose derivatives are among the hypotheses. -/
macro "path_deriv" : tactic => `(tactic|
  repeat' first
    | with_reducible assumption
    | with_reducible exact hasDerivAt_const _ _
    | with_reducible apply HasDerivAt.fun_add
    | with_reducible apply HasDerivAt.fun_sub
    | with_reducible apply HasDerivAt.fun_mul
    | with_reducible apply HasDerivAt.fun_neg
    | with_reducible apply HasDerivAt.cos
    | with_reducible apply HasDerivAt.sin
    | with_reducible apply HasDerivAt.fun_div
    | with_reducible apply HasDerivAt.fun_pow
    | with_reducible apply pow_ne_zero
    | apply mul_ne_zero
    | exact OfNat.ofNat_ne_zero _)

theorem xrQ_moves (e : ℝ) {X R : ℝ → ℝ} {t U W : ℝ} (hX : HasDerivAt X U t) (hR : HasDerivAt R W t)
    (h : X t ≠ 0 ∨ R t ≠ 0) :
    HasDerivAt (fun s => xrQ e (X s) (R s)) (2 * X t * U + 2 * R t * W) t ∧ xrQ e (X t) (R t) ≠ 0 := by
  have h0 : R t * R t + X t * X t ≠ 0 := by
    intro hz
    rcases h with h | h
    · exact h (by nlinarith [mul_self_nonneg (R t), mul_self_nonneg (X t)])
    · exact h (by nlinarith [mul_self_nonneg (R t), mul_self_nonneg (X t)])
  have hd : HasDerivAt (fun s => R s * R s + X s * X s) (2 * X t * U + 2 * R t * W) t :=
    ((hR.mul hR).add (hX.mul hX)).congr_deriv (by ring)
  have hev : ∀ᶠ s in 𝓝 t, R s * R s + X s * X s ≠ 0 := hd.continuousAt.eventually_ne h0
  refine ⟨hd.congr_of_eventuallyEq (hev.mono fun s hs => ?_), ?_⟩
  · simp only [xrQ, if_neg hs]
  · simp only [xrQ, if_neg h0]
    exact h0

/-- **C150.** The first derivatives of the map from (X, R, phi) to (x, y, z). -/
theorem C150_xr_first (b e : ℝ) : Spec.Jacobian (xrX b e) (xrDX b e) (fun X R _ => X ≠ 0 ∨ R ≠ 0) := by
  intro X R p t V ⟨hX, hR, hp⟩ hP i
  obtain ⟨hQ, h0⟩ := xrQ_moves e hX hR hP
  fin_cases i <;> simp only [xrX, Fin.zero_eta, Fin.mk_one, Fin.reduceFinMk]
  all_goals
    apply HasDerivAt.congr_deriv
    · path_deriv
    simp only [Fin.sum_univ_three, xrDX]
    generalize xrQ e (X t) (R t) = q at *
    field_simp
    ring

/-- **C150.** Their second derivatives. -/
theorem C150_xr_second (b e : ℝ) : Spec.Hessian (xrDX b e) (xrDDX b e) (fun X R _ => X ≠ 0 ∨ R ≠ 0) := by
  intro X R p t V ⟨hX, hR, hp⟩ hP i k
  obtain ⟨hQ, h0⟩ := xrQ_moves e hX hR hP
  fin_cases i <;> fin_cases k <;> simp only [xrDX, Fin.zero_eta, Fin.mk_one, Fin.reduceFinMk]
  all_goals
    apply HasDerivAt.congr_deriv
    · path_deriv
    simp only [Fin.sum_univ_three, xrDDX, Spec.pair]
    generalize xrQ e (X t) (R t) = q at *
    field_simp
    ring

/-- **C150.** The map itself, away from the origin: with ζ = X + i R the point has x + i ρ equal to the
conjugate of b/2 (ζ² + ζ⁻²), and (y, z) = ρ (cos phi, sin phi). -/
theorem C150_xr_map (b e X R phi : ℝ) (h : X ≠ 0 ∨ R ≠ 0) : ∃ ρ : ℝ,
    (starRingEnd ℂ) (b / 2 * ((⟨X, R⟩ : ℂ) ^ 2 + ((⟨X, R⟩ : ℂ) ^ 2)⁻¹)) = ⟨xrX b e X R phi 0, ρ⟩ ∧
    xrX b e X R phi 1 = ρ * cos phi ∧ xrX b e X R phi 2 = ρ * sin phi := by
  have h0 : R * R + X * X ≠ 0 := by
    intro hz
    rcases h with h | h
    · exact h (by nlinarith [mul_self_nonneg R, mul_self_nonneg X])
    · exact h (by nlinarith [mul_self_nonneg R, mul_self_nonneg X])
  refine ⟨b * R * X * (-1 + 1 / ((R * R + X * X) * (R * R + X * X))), ?_, ?_, ?_⟩
  · have hn : Complex.normSq ((⟨X, R⟩ : ℂ) ^ 2) = (R * R + X * X) * (R * R + X * X) := by
      simp [Complex.normSq_apply, pow_two]
      ring
    have hb : ((b : ℂ) / 2) = ((b / 2 : ℝ) : ℂ) := by push_cast; rfl
    rw [hb]
    apply Complex.ext
    · rw [Complex.conj_re, Complex.re_ofReal_mul, Complex.add_re, Complex.inv_re, hn]
      simp only [xrX, xrQ, if_neg h0, pow_two, Complex.mul_re]
      field_simp
      ring
    · rw [Complex.conj_im, Complex.im_ofReal_mul, Complex.add_im, Complex.inv_im, hn]
      simp only [pow_two, Complex.mul_im]
      field_simp
      ring
  · simp only [xrX, xrQ, if_neg h0]
    ring
  · simp only [xrX, xrQ, if_neg h0]

/-- The circle X² + R² = 1 is mapped to the axis between the two points x = ± b. -/
example (b e : ℝ) : xrX b e (3 / 5) (4 / 5) 0 0 = -(7 / 25) * b ∧ xrX b e (3 / 5) (4 / 5) 0 1 = 0 := by
  constructor <;> norm_num [xrX, xrQ]
  ring

/-- **C150.** The rescaling of B and its first derivatives. -/
theorem C150_bfunc_first : Spec.Jacobian bfX bfDX (fun _ _ _ => True) := by
  intro X R p t V ⟨hX, hR, hp⟩ hP i
  fin_cases i <;> simp only [bfX, Fin.zero_eta, Fin.mk_one, Fin.reduceFinMk]
  all_goals
    apply HasDerivAt.congr_deriv
    · path_deriv
    simp only [Fin.sum_univ_three, bfDX]
    ring

/-- **C150.** Its second derivatives. -/
theorem C150_bfunc_second : Spec.Hessian bfDX bfDDX (fun _ _ _ => True) := by
  intro X R p t V ⟨hX, hR, hp⟩ hP i k
  fin_cases i <;> fin_cases k <;> simp only [bfDX, Fin.zero_eta, Fin.mk_one, Fin.reduceFinMk]
  all_goals
    apply HasDerivAt.congr_deriv
    · path_deriv
    simp only [Fin.sum_univ_three, bfDDX, Spec.pair]
    ring

/-- **C150.** The rescaling maps the interval [0, 1] onto itself: its ends stay, it grows, and at both ends
its slope is the coefficient `ss`, one half. -/
theorem C150_bfunc_interval (a p : ℝ) : bfX a 0 p 1 = 0 ∧ bfX a 1 p 1 = 1 ∧
    bfDX a 0 p 1 1 = 1 / 2 ∧ bfDX a 1 p 1 1 = 1 / 2 ∧
    ∀ B C, 0 ≤ B → B < C → C ≤ 1 → bfX a B p 1 < bfX a C p 1 := by
  refine ⟨?_, ?_, ?_, ?_, fun B C h0 h h1 => ?_⟩
  · norm_num [bfX]
  · norm_num [bfX, bfA, bfB, bfS]
  · norm_num [bfDX, bfS]
  · norm_num [bfDX, bfA, bfB, bfS]
  · simp only [bfX, bfA, bfB, bfS]
    have hd : 0 < C - B := by linarith
    have hq : 0 < 1 / 2 - (B * B + B * C + C * C) + 3 / 2 * (B + C) := by nlinarith
    nlinarith [mul_pos hd hq]

example : bfX 7 (1 / 2) 3 1 = 1 / 2 ∧ bfX 7 (1 / 4) 3 1 = 13 / 64 := by
  norm_num [bfX, bfA, bfB, bfS]

end Sgrid
