import Verif.Props.BssnGamma
import Verif.Props.BssnDt
import Mathlib.Tactic.IntervalCases

/-!
# C116: the gauge and the linear step of the BSSN equations
-/

namespace Sgrid
open Finset

section
set_option linter.unusedSectionVars false
variable {𝔽 : Type} [Field 𝔽]

/-- The inverse of a metric are the cofactors divided by the determinant. -/
theorem inv_cofactor_det (γ : Spec.Metric 𝔽) (hd : Spec.det3 γ.g ≠ 0) (a b : Fin 3) :
    γ.inv a b = (Spec.det3 γ.g)⁻¹ * (γ.g (b + 1) (a + 1) * γ.g (b + 2) (a + 2) - γ.g (b + 1) (a + 2) * γ.g (b + 2) (a + 1)) := by
  let m := Spec.metricOf γ.g (Spec.det3 γ.g)⁻¹ γ.symm (mul_inv_cancel₀ hd)
  have h1 : γ.inv a b = ∑ k, γ.inv a k * ∑ e, γ.g k e * m.inv e b := by
    have h : ∀ k, ∑ e, γ.g k e * m.inv e b = if k = b then 1 else 0 := fun k => m.mul_inv k b
    simp only [h]
    simp
  have h2 : ∑ k, γ.inv a k * ∑ e, γ.g k e * m.inv e b = ∑ e, (∑ k, γ.inv a k * γ.g k e) * m.inv e b := by
    simp only [Fin.sum_univ_three]
    ring
  rw [h1, h2]
  simp only [inv_mul, ite_mul, one_mul, zero_mul, sum_ite_eq, mem_univ, if_true]
  rfl

/-- The determinant of a metric is not zero. -/
theorem det_ne_zero (γ : Spec.Metric 𝔽) : Spec.det3 γ.g ≠ 0 := by
  intro h
  have e : ∀ c, ∑ b, γ.g 0 b * γ.inv b c = if 0 = c then 1 else 0 := γ.mul_inv 0
  have f : ∀ c, ∑ b, γ.g 1 b * γ.inv b c = if 1 = c then 1 else 0 := γ.mul_inv 1
  have k : ∀ c, ∑ b, γ.g 2 b * γ.inv b c = if 2 = c then 1 else 0 := γ.mul_inv 2
  have hm : Spec.det3 γ.g * Spec.det3 γ.inv = Spec.det3 (fun a c => ∑ b, γ.g a b * γ.inv b c) := by
    unfold Spec.det3
    simp only [Fin.sum_univ_three]
    ring
  simp only [γ.mul_inv] at hm
  rw [h, zero_mul] at hm
  simp [Spec.det3] at hm

/-- The trace with the cofactors. -/
theorem trace_cofactor (γ : Spec.Metric 𝔽) (T : Fin 3 → Fin 3 → 𝔽) : Spec.det3 γ.g * Spec.trace γ T =
    ∑ a, ∑ b, (γ.g (b + 1) (a + 1) * γ.g (b + 2) (a + 2) - γ.g (b + 1) (a + 2) * γ.g (b + 2) (a + 1)) * T a b := by
  have hd := det_ne_zero γ
  have h : ∀ a b, Spec.det3 γ.g * (γ.inv a b * T a b) =
      (γ.g (b + 1) (a + 1) * γ.g (b + 2) (a + 2) - γ.g (b + 1) (a + 2) * γ.g (b + 2) (a + 1)) * T a b := by
    intro a b
    rw [inv_cofactor_det γ hd]
    field_simp
  unfold Spec.trace
  simp only [mul_sum, h]

variable [LinearOrder 𝔽] [IsStrictOrderedRing 𝔽] {c : BssnArgs 𝔽}


/-- **C116.** The linear step (`addlinear`) without the options that change the result: `unew = upre + dt r`, where `r` is what the
function computes without it. With `forceKzero` the result for `K` is 0. -/
theorem C116_step (hdt : c.dt ≠ 0) (hD : c.densitized = false) (h1 : c.recomputegzz = false) (h2 : c.recomputeAzz = false)
    (h3 : c.subtractA = false) (h4 : c.normalizedetg = false) :
    ∃ o r, bssnRhs c = .ok o ∧ bssnRhs { c with dt := 0 } = .ok r ∧
      (∀ n < 24, n ≠ 13 → o.new n = c.pre n + c.dt * r.new n) ∧
      (c.noForceK = true → o.new 13 = c.pre 13 + c.dt * r.new 13) ∧ (c.noForceK = false → o.new 13 = 0 ∧ r.new 13 = 0) := by
  have e1 : bssnRhs { c with dt := 0 } = .ok ⟨fun n =>
    [Bs.ng11_n c, Bs.ng12_n c, Bs.ng13_n c, Bs.ng22_n c, Bs.ng23_n c, Bs.ng33_n c, Bs.nphi_n c, Bs.nA11_n c, Bs.nA12_n c, Bs.nA13_n c,
      Bs.nA22_n c, Bs.nA23_n c, Bs.nA33_n c, Bs.nK_n c, Bs.nG1_n c, Bs.nG2_n c, Bs.nG3_n c, Bs.nalpha_n c, Bs.nbeta1_n c,
      Bs.nbeta2_n c, Bs.nbeta3_n c, Bs.nB1_n c, Bs.nB2_n c, Bs.nB3_n c, c.oldDens].getD n 0, Bs.K c,
      fun a => [Bs.dK1 c, Bs.dK2 c, Bs.dK3 c].getD a 0⟩ := by
    unfold bssnRhs
    dsimp only
    rw [if_neg (by simp), if_neg (by simp [hD])]
    simp only [Bs.ng11_n_dt, Bs.ng12_n_dt, Bs.ng13_n_dt, Bs.ng22_n_dt, Bs.ng23_n_dt, Bs.ng33_n_dt, Bs.nphi_n_dt, Bs.nA11_n_dt, Bs.nA12_n_dt, Bs.nA13_n_dt, Bs.nA22_n_dt, Bs.nA23_n_dt, Bs.nA33_n_dt, Bs.nK_n_dt, Bs.nG1_n_dt, Bs.nG2_n_dt, Bs.nG3_n_dt, Bs.nalpha_n_dt, Bs.nbeta1_n_dt, Bs.nbeta2_n_dt, Bs.nbeta3_n_dt, Bs.nB1_n_dt, Bs.nB2_n_dt, Bs.nB3_n_dt, Bs.K_dt, Bs.dK1_dt, Bs.dK2_dt, Bs.dK3_dt]
  have e2 : bssnRhs c = .ok ⟨fun n =>
    [Bs.ng11_4 c, Bs.ng12_4 c, Bs.ng13_4 c, Bs.ng22_4 c, Bs.ng23_4 c, Bs.ng33_4 c, Bs.nphi_0 c, Bs.nA11_4 c, Bs.nA12_4 c, Bs.nA13_4 c,
      Bs.nA22_4 c, Bs.nA23_4 c, Bs.nA33_4 c, Bs.nK_0 c, Bs.nG1_0 c, Bs.nG2_0 c, Bs.nG3_0 c,
      (if c.densitized then Bs.nalpha_0 c else Bs.nalpha_1 c), Bs.nbeta1_0 c, Bs.nbeta2_0 c, Bs.nbeta3_0 c, Bs.nB1_0 c, Bs.nB2_0 c,
      Bs.nB3_0 c, if c.densitized then Bs.nalphaDensity_0 c else c.oldDens].getD n 0, Bs.K c,
      fun a => [Bs.dK1 c, Bs.dK2 c, Bs.dK3 c].getD a 0⟩ := by
    unfold bssnRhs
    rw [if_pos hdt]
  refine ⟨_, _, e2, e1, ?_, ?_, ?_⟩
  · intro n hn h13
    dsimp only
    have hg : Bs.ng33_2 c = Bs.ng33_0 c := by unfold Bs.ng33_2; rw [h1]; rfl
    have hA : Bs.nA33_2 c = Bs.nA33_0 c := by unfold Bs.nA33_2; rw [h2]; rfl
    interval_cases n
    · show Bs.ng11_4 c = _ + _ * Bs.rg11 c
      unfold Bs.ng11_4
      rw [h4, if_neg (by simp)]
      exact add_comm _ _
    · show Bs.ng12_4 c = _ + _ * Bs.rg12 c
      unfold Bs.ng12_4
      rw [h4, if_neg (by simp)]
      exact add_comm _ _
    · show Bs.ng13_4 c = _ + _ * Bs.rg13 c
      unfold Bs.ng13_4
      rw [h4, if_neg (by simp)]
      exact add_comm _ _
    · show Bs.ng22_4 c = _ + _ * Bs.rg22 c
      unfold Bs.ng22_4
      rw [h4, if_neg (by simp)]
      exact add_comm _ _
    · show Bs.ng23_4 c = _ + _ * Bs.rg23 c
      unfold Bs.ng23_4
      rw [h4, if_neg (by simp)]
      exact add_comm _ _
    · show Bs.ng33_4 c = _ + _ * Bs.rg33 c
      unfold Bs.ng33_4
      rw [h4, if_neg (by simp), hg]
      exact add_comm _ _
    · exact add_comm (c.dt * Bs.rphi c) (c.pre 6)
    · show Bs.nA11_4 c = _ + _ * Bs.rA11 c
      unfold Bs.nA11_4
      rw [h3, if_neg (by simp)]
      exact add_comm _ _
    · show Bs.nA12_4 c = _ + _ * Bs.rA12 c
      unfold Bs.nA12_4
      rw [h3, if_neg (by simp)]
      exact add_comm _ _
    · show Bs.nA13_4 c = _ + _ * Bs.rA13 c
      unfold Bs.nA13_4
      rw [h3, if_neg (by simp)]
      exact add_comm _ _
    · show Bs.nA22_4 c = _ + _ * Bs.rA22 c
      unfold Bs.nA22_4
      rw [h3, if_neg (by simp)]
      exact add_comm _ _
    · show Bs.nA23_4 c = _ + _ * Bs.rA23 c
      unfold Bs.nA23_4
      rw [h3, if_neg (by simp)]
      exact add_comm _ _
    · show Bs.nA33_4 c = _ + _ * Bs.rA33 c
      unfold Bs.nA33_4
      rw [h3, if_neg (by simp), hA]
      exact add_comm _ _
    · exact absurd rfl h13
    · exact add_comm (c.dt * Bs.rG1 c) (c.pre 14)
    · exact add_comm (c.dt * Bs.rG2 c) (c.pre 15)
    · exact add_comm (c.dt * Bs.rG3 c) (c.pre 16)
    · show (if c.densitized then Bs.nalpha_0 c else Bs.nalpha_1 c) = _
      rw [hD]
      exact add_comm (c.dt * Bs.ralpha c) (c.pre 17)
    · exact add_comm (c.dt * Bs.rbeta1 c) (c.pre 18)
    · exact add_comm (c.dt * Bs.rbeta2 c) (c.pre 19)
    · exact add_comm (c.dt * Bs.rbeta3 c) (c.pre 20)
    · exact add_comm (c.dt * Bs.rB1 c) (c.pre 21)
    · exact add_comm (c.dt * Bs.rB2 c) (c.pre 22)
    · exact add_comm (c.dt * Bs.rB3 c) (c.pre 23)
  · intro hk
    show Bs.b2 c.noForceK * (c.dt * Bs.rK c + c.pre 13) = c.pre 13 + c.dt * (Bs.b2 c.noForceK * Bs.rK c)
    rw [hk]
    unfold Bs.b2
    rw [if_pos rfl]
    ring
  · intro hk
    refine ⟨?_, ?_⟩
    · show Bs.b2 c.noForceK * _ = 0
      rw [hk]
      simp [Bs.b2]
    · show Bs.b2 c.noForceK * _ = 0
      rw [hk]
      simp [Bs.b2]

/-- The new metric and the new extrinsic curvature before the options. -/
theorem Bs.new_g4 : ∀ a b : Fin 3, [Bs.ng11_4 c, Bs.ng12_4 c, Bs.ng13_4 c, Bs.ng22_4 c, Bs.ng23_4 c, Bs.ng33_4 c, Bs.nphi_0 c,
    Bs.nA11_4 c, Bs.nA12_4 c, Bs.nA13_4 c, Bs.nA22_4 c, Bs.nA23_4 c, Bs.nA33_4 c, Bs.nK_0 c, Bs.nG1_0 c, Bs.nG2_0 c, Bs.nG3_0 c,
    (if c.densitized then Bs.nalpha_0 c else Bs.nalpha_1 c), Bs.nbeta1_0 c, Bs.nbeta2_0 c, Bs.nbeta3_0 c, Bs.nB1_0 c, Bs.nB2_0 c,
    Bs.nB3_0 c, if c.densitized then Bs.nalphaDensity_0 c else c.oldDens].getD (Spec.sym2 a b) 0 =
      [Bs.ng11_4 c, Bs.ng12_4 c, Bs.ng13_4 c, Bs.ng22_4 c, Bs.ng23_4 c, Bs.ng33_4 c].getD (Spec.sym2 a b) 0 := by
  refine fin3₂ ⟨?_, ?_, ?_, ?_, ?_, ?_, ?_, ?_, ?_⟩ <;> rfl

theorem Bs.new_A4 : ∀ a b : Fin 3, [Bs.ng11_4 c, Bs.ng12_4 c, Bs.ng13_4 c, Bs.ng22_4 c, Bs.ng23_4 c, Bs.ng33_4 c, Bs.nphi_0 c,
    Bs.nA11_4 c, Bs.nA12_4 c, Bs.nA13_4 c, Bs.nA22_4 c, Bs.nA23_4 c, Bs.nA33_4 c, Bs.nK_0 c, Bs.nG1_0 c, Bs.nG2_0 c, Bs.nG3_0 c,
    (if c.densitized then Bs.nalpha_0 c else Bs.nalpha_1 c), Bs.nbeta1_0 c, Bs.nbeta2_0 c, Bs.nbeta3_0 c, Bs.nB1_0 c, Bs.nB2_0 c,
    Bs.nB3_0 c, if c.densitized then Bs.nalphaDensity_0 c else c.oldDens].getD (7 + Spec.sym2 a b) 0 =
      [Bs.nA11_4 c, Bs.nA12_4 c, Bs.nA13_4 c, Bs.nA22_4 c, Bs.nA23_4 c, Bs.nA33_4 c].getD (Spec.sym2 a b) 0 := by
  refine fin3₂ ⟨?_, ?_, ?_, ?_, ?_, ?_, ?_, ?_, ?_⟩ <;> rfl

/-- The determinant of the new metric before it is normalised. -/
theorem Bs.det_before : Bs.detnginv c * Spec.det3 (fun a b => [Bs.ng11_0 c, Bs.ng12_0 c, Bs.ng13_0 c, Bs.ng22_0 c, Bs.ng23_0 c,
    Bs.ng33_2 c].getD (Spec.sym2 a b) 0) = 1 ∨ Bs.detnginv c = 0 := by
  have e : Bs.detnginv c = 1 / Spec.det3 (fun a b => [Bs.ng11_0 c, Bs.ng12_0 c, Bs.ng13_0 c, Bs.ng22_0 c, Bs.ng23_0 c,
    Bs.ng33_2 c].getD (Spec.sym2 a b) 0) := by
    unfold Bs.detnginv Spec.det3
    congr 1
    show _ = Bs.ng11_0 c * (Bs.ng22_0 c * Bs.ng33_2 c - Bs.ng23_0 c * Bs.ng23_0 c) -
      Bs.ng12_0 c * (Bs.ng12_0 c * Bs.ng33_2 c - Bs.ng23_0 c * Bs.ng13_0 c) + Bs.ng13_0 c * (Bs.ng12_0 c * Bs.ng23_0 c - Bs.ng22_0 c * Bs.ng13_0 c)
    ring
  by_cases h : Spec.det3 (fun a b => [Bs.ng11_0 c, Bs.ng12_0 c, Bs.ng13_0 c, Bs.ng22_0 c, Bs.ng23_0 c,
    Bs.ng33_2 c].getD (Spec.sym2 a b) 0) = 0
  · right
    rw [e, h, div_zero]
  · left
    rw [e, one_div, inv_mul_cancel₀ h]

/-- **C116.** With `normalizedetg` the determinant of the new metric is 1, if it was not 0 and `pow` gives the third root. -/
theorem C116_det (hdt : c.dt ≠ 0) (h : c.normalizedetg = true) (hz : Bs.detnginv c ≠ 0)
    (hp : ∀ x, x ≠ 0 → c.pow x (1 / 3) ^ 3 = x) :
    ∃ o, bssnRhs c = .ok o ∧ Spec.det3 (fun a b => o.new (Spec.sym2 a b)) = 1 := by
  unfold bssnRhs
  rw [if_pos hdt]
  refine ⟨_, rfl, ?_⟩
  dsimp only
  simp only [Bs.new_g4]
  have h1 := (Bs.det_before (c := c)).resolve_right hz
  have h2 := hp _ hz
  have e : Spec.det3 (fun a b => [Bs.ng11_4 c, Bs.ng12_4 c, Bs.ng13_4 c, Bs.ng22_4 c, Bs.ng23_4 c, Bs.ng33_4 c].getD (Spec.sym2 a b) 0) =
      c.pow (Bs.detnginv c) (1 / 3) ^ 3 * Spec.det3 (fun a b => [Bs.ng11_0 c, Bs.ng12_0 c, Bs.ng13_0 c, Bs.ng22_0 c, Bs.ng23_0 c,
        Bs.ng33_2 c].getD (Spec.sym2 a b) 0) := by
    unfold Bs.ng11_4 Bs.ng12_4 Bs.ng13_4 Bs.ng22_4 Bs.ng23_4 Bs.ng33_4
    simp only [h, if_true]
    unfold Bs.ng11_3 Bs.ng12_3 Bs.ng13_3 Bs.ng22_3 Bs.ng23_3 Bs.ng33_3 Bs.aux_1 Spec.det3
    generalize c.pow (Bs.detnginv c) (1 / 3) = p
    show p * Bs.ng11_0 c * (p * Bs.ng22_0 c * (p * Bs.ng33_2 c) - p * Bs.ng23_0 c * (p * Bs.ng23_0 c)) -
      p * Bs.ng12_0 c * (p * Bs.ng12_0 c * (p * Bs.ng33_2 c) - p * Bs.ng23_0 c * (p * Bs.ng13_0 c)) +
      p * Bs.ng13_0 c * (p * Bs.ng12_0 c * (p * Bs.ng23_0 c) - p * Bs.ng22_0 c * (p * Bs.ng13_0 c)) =
      p ^ 3 * (Bs.ng11_0 c * (Bs.ng22_0 c * Bs.ng33_2 c - Bs.ng23_0 c * Bs.ng23_0 c) -
      Bs.ng12_0 c * (Bs.ng12_0 c * Bs.ng33_2 c - Bs.ng23_0 c * Bs.ng13_0 c) +
      Bs.ng13_0 c * (Bs.ng12_0 c * Bs.ng23_0 c - Bs.ng22_0 c * Bs.ng13_0 c))
    ring
  rw [e, h2, h1]

/-- The trace of the new `A` before the options, with the cofactors of the new metric. -/
theorem trace_six (γ : Spec.Metric 𝔽) (x : Fin 6 → 𝔽) (y : Fin 6 → 𝔽)
    (hx : ∀ a b, γ.g a b = [x 0, x 1, x 2, x 3, x 4, x 5].getD (Spec.sym2 a b) 0) :
    Spec.det3 γ.g * Spec.trace γ (fun a b => [y 0, y 1, y 2, y 3, y 4, y 5].getD (Spec.sym2 a b) 0) =
      (x 3 * x 5 - x 4 ^ 2) * y 0 + (x 0 * x 5 - x 2 ^ 2) * y 3 + (x 0 * x 3 - x 1 ^ 2) * y 5 +
        2 * ((x 2 * x 4 - x 1 * x 5) * y 1 + (x 1 * x 4 - x 2 * x 3) * y 2 + (x 1 * x 2 - x 0 * x 4) * y 4) ∧
    Spec.det3 γ.g = x 0 * x 3 * x 5 + 2 * x 1 * x 2 * x 4 - x 5 * x 1 ^ 2 - x 3 * x 2 ^ 2 - x 0 * x 4 ^ 2 := by
  have g00 : γ.g 0 0 = x 0 := hx 0 0
  have g01 : γ.g 0 1 = x 1 := hx 0 1
  have g02 : γ.g 0 2 = x 2 := hx 0 2
  have g10 : γ.g 1 0 = x 1 := hx 1 0
  have g11 : γ.g 1 1 = x 3 := hx 1 1
  have g12 : γ.g 1 2 = x 4 := hx 1 2
  have g20 : γ.g 2 0 = x 2 := hx 2 0
  have g21 : γ.g 2 1 = x 4 := hx 2 1
  have g22 : γ.g 2 2 = x 5 := hx 2 2
  refine ⟨?_, ?_⟩
  · rw [trace_cofactor]
    simp only [Fin.sum_univ_three, Fin.isValue, zero_add, show (1 : Fin 3) + 1 = 2 from rfl,
      show (2 : Fin 3) + 1 = 0 from rfl, show (1 : Fin 3) + 2 = 0 from rfl, show (2 : Fin 3) + 2 = 1 from rfl,
      g00, g01, g02, g10, g11, g12, g20, g21, g22]
    show (x 3 * x 5 - x 4 * x 4) * y 0 + (x 4 * x 2 - x 5 * x 1) * y 1 + (x 1 * x 4 - x 2 * x 3) * y 2 +
      ((x 4 * x 2 - x 1 * x 5) * y 1 + (x 5 * x 0 - x 2 * x 2) * y 3 + (x 2 * x 1 - x 0 * x 4) * y 4) +
      ((x 1 * x 4 - x 3 * x 2) * y 2 + (x 2 * x 1 - x 4 * x 0) * y 4 + (x 0 * x 3 - x 1 * x 1) * y 5) = _
    ring
  · unfold Spec.det3
    simp only [g00, g01, g02, g10, g11, g12, g20, g21, g22]
    ring

/-- **C116.** With `subtractA` or `recomputeAzz` the new `A` has no trace with the new metric. -/
theorem C116_tracefree (hdt : c.dt ≠ 0) (h : c.subtractA = true ∨ c.recomputeAzz = true ∧ Bs.nginv33 c ≠ 0) (hz : Bs.detnginv c ≠ 0) :
    ∃ o, bssnRhs c = .ok o ∧ ∀ γ : Spec.Metric 𝔽, (∀ a b, γ.g a b = o.new (Spec.sym2 a b)) →
      Spec.trace γ (fun a b => o.new (7 + Spec.sym2 a b)) = 0 := by
  unfold bssnRhs
  rw [if_pos hdt]
  refine ⟨_, rfl, fun γ hγ => ?_⟩
  dsimp only at hγ ⊢
  simp only [Bs.new_g4] at hγ
  simp only [Bs.new_A4]
  have hd := det_ne_zero γ
  obtain ⟨h1, h2⟩ := trace_six γ ![Bs.ng11_4 c, Bs.ng12_4 c, Bs.ng13_4 c, Bs.ng22_4 c, Bs.ng23_4 c, Bs.ng33_4 c]
    ![Bs.nA11_4 c, Bs.nA12_4 c, Bs.nA13_4 c, Bs.nA22_4 c, Bs.nA23_4 c, Bs.nA33_4 c] hγ
  refine (mul_eq_zero.1 (h1.trans ?_)).resolve_left hd
  clear h1 h2 hγ hd
  -- the metric is the one before the options times a factor
  obtain ⟨p, hp⟩ : ∃ p, Bs.ng11_4 c = p * Bs.ng11_0 c ∧ Bs.ng12_4 c = p * Bs.ng12_0 c ∧ Bs.ng13_4 c = p * Bs.ng13_0 c ∧
      Bs.ng22_4 c = p * Bs.ng22_0 c ∧ Bs.ng23_4 c = p * Bs.ng23_0 c ∧ Bs.ng33_4 c = p * Bs.ng33_2 c := by
    unfold Bs.ng11_4 Bs.ng12_4 Bs.ng13_4 Bs.ng22_4 Bs.ng23_4 Bs.ng33_4
    cases c.normalizedetg
    · exact ⟨1, by simp⟩
    · exact ⟨Bs.aux_1 c, rfl, rfl, rfl, rfl, rfl, rfl⟩
  obtain ⟨p1, p2, p3, p4, p5, p6⟩ := hp
  have hD : Bs.detnginv c * (Bs.ng11_0 c * Bs.ng22_0 c * Bs.ng33_2 c + 2 * Bs.ng12_0 c * Bs.ng13_0 c * Bs.ng23_0 c -
      Bs.ng33_2 c * Bs.ng12_0 c ^ 2 - Bs.ng22_0 c * Bs.ng13_0 c ^ 2 - Bs.ng11_0 c * Bs.ng23_0 c ^ 2) = 1 := by
    have h1 := (Bs.det_before (c := c)).resolve_right hz
    rw [← h1]
    congr 1
    unfold Spec.det3
    show _ = Bs.ng11_0 c * (Bs.ng22_0 c * Bs.ng33_2 c - Bs.ng23_0 c * Bs.ng23_0 c) -
      Bs.ng12_0 c * (Bs.ng12_0 c * Bs.ng33_2 c - Bs.ng23_0 c * Bs.ng13_0 c) + Bs.ng13_0 c * (Bs.ng12_0 c * Bs.ng23_0 c - Bs.ng22_0 c * Bs.ng13_0 c)
    ring
  change (Bs.ng22_4 c * Bs.ng33_4 c - Bs.ng23_4 c ^ 2) * Bs.nA11_4 c + (Bs.ng11_4 c * Bs.ng33_4 c - Bs.ng13_4 c ^ 2) * Bs.nA22_4 c +
    (Bs.ng11_4 c * Bs.ng22_4 c - Bs.ng12_4 c ^ 2) * Bs.nA33_4 c + 2 * ((Bs.ng13_4 c * Bs.ng23_4 c - Bs.ng12_4 c * Bs.ng33_4 c) * Bs.nA12_4 c +
    (Bs.ng12_4 c * Bs.ng23_4 c - Bs.ng13_4 c * Bs.ng22_4 c) * Bs.nA13_4 c +
    (Bs.ng12_4 c * Bs.ng13_4 c - Bs.ng11_4 c * Bs.ng23_4 c) * Bs.nA23_4 c) = 0
  rw [p1, p2, p3, p4, p5, p6]
  have hT : Bs.traceA c = Bs.detnginv c * ((Bs.ng22_0 c * Bs.ng33_2 c - Bs.ng23_0 c ^ 2) * Bs.nA11_0 c +
      (Bs.ng11_0 c * Bs.ng33_2 c - Bs.ng13_0 c ^ 2) * Bs.nA22_0 c + (Bs.ng11_0 c * Bs.ng22_0 c - Bs.ng12_0 c ^ 2) * Bs.nA33_2 c +
      2 * ((Bs.ng13_0 c * Bs.ng23_0 c - Bs.ng12_0 c * Bs.ng33_2 c) * Bs.nA12_0 c +
      (Bs.ng12_0 c * Bs.ng23_0 c - Bs.ng13_0 c * Bs.ng22_0 c) * Bs.nA13_0 c +
      (Bs.ng12_0 c * Bs.ng13_0 c - Bs.ng11_0 c * Bs.ng23_0 c) * Bs.nA23_0 c)) := by
    unfold Bs.traceA
    ring
  cases hs : c.subtractA
  · rw [hs] at h
    obtain ⟨hr, h33⟩ := h.resolve_left (by simp)
    unfold Bs.nA11_4 Bs.nA12_4 Bs.nA13_4 Bs.nA22_4 Bs.nA23_4 Bs.nA33_4 Bs.nA33_2
    simp only [hs, hr, if_true, Bool.false_eq_true, if_false]
    have e : Bs.nginv33 c * Bs.nA33_1 c = -(Bs.nAdu11 c + Bs.nAdu22 c + Bs.nginv13 c * Bs.nA13_0 c + Bs.nginv23 c * Bs.nA23_0 c) := by
      unfold Bs.nA33_1
      field_simp
    unfold Bs.nAdu11 Bs.nAdu22 Bs.nginv33 Bs.nginv13 Bs.nginv23 Bs.nginv11 Bs.nginv12 Bs.nginv22 at e
    have e2 : Bs.detnginv c * ((Bs.ng22_0 c * Bs.ng33_2 c - Bs.ng23_0 c ^ 2) * Bs.nA11_0 c +
      (Bs.ng11_0 c * Bs.ng33_2 c - Bs.ng13_0 c ^ 2) * Bs.nA22_0 c + (Bs.ng11_0 c * Bs.ng22_0 c - Bs.ng12_0 c ^ 2) * Bs.nA33_1 c +
      2 * ((Bs.ng13_0 c * Bs.ng23_0 c - Bs.ng12_0 c * Bs.ng33_2 c) * Bs.nA12_0 c +
      (Bs.ng12_0 c * Bs.ng23_0 c - Bs.ng13_0 c * Bs.ng22_0 c) * Bs.nA13_0 c +
      (Bs.ng12_0 c * Bs.ng13_0 c - Bs.ng11_0 c * Bs.ng23_0 c) * Bs.nA23_0 c)) = 0 := by
      linear_combination e
    have e3 := (mul_eq_zero.1 e2).resolve_left hz
    linear_combination p ^ 2 * e3
  · unfold Bs.nA11_4 Bs.nA12_4 Bs.nA13_4 Bs.nA22_4 Bs.nA23_4 Bs.nA33_4
    simp only [hs, if_true]
    unfold Bs.nA11_3 Bs.nA12_3 Bs.nA13_3 Bs.nA22_3 Bs.nA23_3 Bs.nA33_3 Bs.aux_0
    rw [hT]
    generalize Bs.detnginv c = D at hD
    generalize Bs.ng11_0 c = g11 at hD ⊢
    generalize Bs.ng12_0 c = g12 at hD ⊢
    generalize Bs.ng13_0 c = g13 at hD ⊢
    generalize Bs.ng22_0 c = g22 at hD ⊢
    generalize Bs.ng23_0 c = g23 at hD ⊢
    generalize Bs.ng33_2 c = g33 at hD ⊢
    linear_combination (-p ^ 2 * ((g22 * g33 - g23 ^ 2) * Bs.nA11_0 c + (g11 * g33 - g13 ^ 2) * Bs.nA22_0 c + (g11 * g22 - g12 ^ 2) * Bs.nA33_2 c +
      2 * ((g13 * g23 - g12 * g33) * Bs.nA12_0 c + (g12 * g23 - g13 * g22) * Bs.nA13_0 c + (g12 * g13 - g11 * g23) * Bs.nA23_0 c))) * hD

/-- **C116.** With `recomputegzz` alone the determinant of the new metric is not 1 but `g_{11} g_{22} - g_{12}²`: the code adds 1 to
the quotient instead of to its numerator (BSSN_rhs.c:3090-3094). -/
theorem C116_gzz (hdt : c.dt ≠ 0) (h : c.recomputegzz = true) (hn : c.normalizedetg = false) (hD : Bs.ng11_0 c * Bs.ng22_0 c - Bs.ng12_0 c ^ 2 ≠ 0) :
    ∃ o, bssnRhs c = .ok o ∧ Spec.det3 (fun a b => o.new (Spec.sym2 a b)) = o.new 0 * o.new 3 - o.new 1 ^ 2 := by
  unfold bssnRhs
  rw [if_pos hdt]
  refine ⟨_, rfl, ?_⟩
  have e : ∀ f : Fin 3 → Fin 3 → 𝔽, f = (fun a b => [Bs.ng11_0 c, Bs.ng12_0 c, Bs.ng13_0 c, Bs.ng22_0 c, Bs.ng23_0 c,
      Bs.ng33_1 c].getD (Spec.sym2 a b) 0) → Spec.det3 f = Bs.ng11_0 c * Bs.ng22_0 c - Bs.ng12_0 c ^ 2 := by
    intro f hf
    rw [hf]
    unfold Spec.det3
    show Bs.ng11_0 c * (Bs.ng22_0 c * Bs.ng33_1 c - Bs.ng23_0 c * Bs.ng23_0 c) -
      Bs.ng12_0 c * (Bs.ng12_0 c * Bs.ng33_1 c - Bs.ng23_0 c * Bs.ng13_0 c) + Bs.ng13_0 c * (Bs.ng12_0 c * Bs.ng23_0 c - Bs.ng22_0 c * Bs.ng13_0 c) = _
    unfold Bs.ng33_1
    field_simp
    ring
  dsimp only
  simp only [Bs.new_g4]
  have h4 : Bs.ng11_4 c = Bs.ng11_0 c ∧ Bs.ng12_4 c = Bs.ng12_0 c ∧ Bs.ng13_4 c = Bs.ng13_0 c ∧ Bs.ng22_4 c = Bs.ng22_0 c ∧
      Bs.ng23_4 c = Bs.ng23_0 c ∧ Bs.ng33_4 c = Bs.ng33_1 c := by
    unfold Bs.ng11_4 Bs.ng12_4 Bs.ng13_4 Bs.ng22_4 Bs.ng23_4 Bs.ng33_4 Bs.ng33_2
    rw [hn, h]
    exact ⟨rfl, rfl, rfl, rfl, rfl, rfl⟩
  obtain ⟨q1, q2, q3, q4, q5, q6⟩ := h4
  rw [q1, q2, q3, q4, q5, q6]
  exact e _ rfl

/-- **C116.** The lapse: `1+log` slicing, harmonic slicing and the constant lapse, with `β^a ∂_a α` if it is wanted. -/
theorem C116_lapse (hdt : c.dt = 0) (hD : c.densitized = false) (h2 : c.oploglapse2 = false) (hs : c.oplogwithshift = false)
    (hr : c.addalphaRHSterm = false) (hk : c.noForceK = true) :
    ∃ o, bssnRhs c = .ok o ∧ o.new 17 = (if c.addliealpha then ∑ a : Fin 3, c.cur (18 + a) * c.dalp a else 0) -
      (if c.nonconstantlapse then ((if c.oploglapse then c.lapseharmonicf * c.cur 17 else 0) +
        (if c.harmoniclapse then c.cur 17 ^ 2 else 0)) * (c.cur 13 - if c.subtractK0 then c.K0 else 0) * c.pow (c.ps 0) c.lapsepsipower else 0) := by
  unfold bssnRhs
  rw [hdt, hD, if_neg (by simp), if_neg (by simp)]
  refine ⟨_, rfl, ?_⟩
  show Bs.ralpha c = _
  unfold Bs.ralpha Bs.ralpha0 Bs.K Bs.K_0 Bs.alpha Bs.K0 Bs.psi
  rw [h2, hs, hr, hk]
  have hb : Bs.betadalp c = ∑ a : Fin 3, c.cur (18 + a) * c.dalp a := by
    simp only [Fin.sum_univ_three]
    show _ = c.cur 18 * c.dalp 0 + c.cur 19 * c.dalp 1 + c.cur 20 * c.dalp 2
    unfold Bs.betadalp Bs.beta1 Bs.beta2 Bs.beta3 Bs.dalp1 Bs.dalp2 Bs.dalp3
    ring
  rw [hb]
  unfold Bs.b2
  cases c.addliealpha <;> cases c.nonconstantlapse <;> cases c.oploglapse <;> cases c.harmoniclapse <;> cases c.subtractK0 <;>
    simp <;> ring

/-- **C116.** The shift: the Gamma driver `∂_t β^a = F B^a`, `∂_t B^a = ∂_t Γ^a - η B^a` (or with the factor in the second equation),
until the time `shiftStop`. -/
theorem C116_shift (hdt : c.dt = 0) (hD : c.densitized = false) :
    ∃ o, bssnRhs c = .ok o ∧ ∀ a : Fin 3,
      (0 ≤ c.shiftStop → c.shiftStop ≤ c.time → o.new (18 + a) = 0 ∧ o.new (21 + a) = 0) ∧
      (c.shiftStop < 0 ∨ c.time < c.shiftStop →
        (c.gamma0 = true → c.gamma2 = false →
          o.new (18 + a) = c.shiftgammacoeff * c.pow (c.cur 17) c.shiftalphapower / c.pow (c.ps 0) c.shiftpsipower * c.cur (21 + a) ∧
          o.new (21 + a) = o.new (14 + a) - c.shiftdriver * c.cur (21 + a)) ∧
        (c.gamma0 = false → c.gamma2 = true → o.new (18 + a) = c.cur (21 + a) ∧
          o.new (21 + a) = c.shiftgammacoeff * c.pow (c.cur 17) c.shiftalphapower / c.pow (c.ps 0) c.shiftpsipower * o.new (14 + a) -
            c.shiftdriver * c.cur (21 + a)) ∧
        (c.gamma0 = false → c.gamma2 = false → o.new (18 + a) = 0)) := by
  unfold bssnRhs
  rw [hdt, hD, if_neg (by simp), if_neg (by simp)]
  refine ⟨_, rfl, ?_⟩
  have key : ∀ (rb rB B rG : 𝔽), rb = Bs.evolveshift c * (Bs.betaF c * (Bs.b2 c.gamma0) + (Bs.b2 c.gamma2)) * B →
      rB = Bs.evolveshift c * (((Bs.b2 c.gamma0) + Bs.betaF c * (Bs.b2 c.gamma2)) * rG - c.shiftdriver * B) →
      (0 ≤ c.shiftStop → c.shiftStop ≤ c.time → rb = 0 ∧ rB = 0) ∧
      (c.shiftStop < 0 ∨ c.time < c.shiftStop →
        (c.gamma0 = true → c.gamma2 = false →
          rb = c.shiftgammacoeff * c.pow (c.cur 17) c.shiftalphapower / c.pow (c.ps 0) c.shiftpsipower * B ∧
          rB = rG - c.shiftdriver * B) ∧
        (c.gamma0 = false → c.gamma2 = true → rb = B ∧
          rB = c.shiftgammacoeff * c.pow (c.cur 17) c.shiftalphapower / c.pow (c.ps 0) c.shiftpsipower * rG - c.shiftdriver * B) ∧
        (c.gamma0 = false → c.gamma2 = false → rb = 0)) := by
    intro rb rB B rG hb hB
    rw [hb, hB]
    refine ⟨fun h1 h2 => ?_, fun h1 => ?_⟩
    · unfold Bs.evolveshift
      rw [if_pos ⟨h2, h1⟩]
      simp
    · have he : Bs.evolveshift c = 1 := by
        unfold Bs.evolveshift
        rw [if_neg]
        rintro ⟨h2, h3⟩
        rcases h1 with h1 | h1
        · exact absurd h3 (not_le.2 h1)
        · exact absurd h2 (not_le.2 h1)
      rw [he]
      refine ⟨fun h2 h3 => ?_, fun h2 h3 => ?_, fun h2 h3 => ?_⟩
      all_goals
        rw [h2, h3]
        simp [Bs.b2, Bs.betaF, Bs.alpha, Bs.psi]
  refine fin3 ?_ ?_ ?_
  · exact key (Bs.rbeta1 c) (Bs.rB1 c) (c.cur 21) (Bs.rG1 c) rfl rfl
  · exact key (Bs.rbeta2 c) (Bs.rB2 c) (c.cur 22) (Bs.rG2 c) rfl rfl
  · exact key (Bs.rbeta3 c) (Bs.rB3 c) (c.cur 23) (Bs.rG3 c) rfl rfl

/-- **C116.** The densitised lapse: the new lapse is `e^{6nf} D` with the new `D` and the new `f = φ + ln ψ`, and `D` is stepped with the
derivative of `e^{-6nf} α`, where `α` and `φ` change as they do without `densitizedLapse`. Without the linear step the code stops. -/
theorem C116_density (hD : c.densitized = true) (hw : c.densWithoutShift = false) (hl : c.nonconstantlapse = true)
    (he : c.exp (6 * c.alphaDensityWeight * (c.cur 6 + c.log (c.ps 0))) ≠ 0)
    (hα : c.cur 17 = c.exp (6 * c.alphaDensityWeight * (c.cur 6 + c.log (c.ps 0))) * c.cur 24) :
    (c.dt = 0 → bssnRhs c = .abort) ∧
    (c.dt ≠ 0 → ∃ o r, bssnRhs c = .ok o ∧ bssnRhs { c with dt := 0, densitized := false } = .ok r ∧
      o.new 17 = c.exp (6 * c.alphaDensityWeight * (c.log (c.ps 0) + o.new 6)) * o.new 24 ∧
      c.exp (6 * c.alphaDensityWeight * (c.cur 6 + c.log (c.ps 0))) * (o.new 24 - c.pre 24) =
        c.dt * (r.new 17 - 6 * c.alphaDensityWeight * r.new 6 * c.cur 17)) := by
  refine ⟨fun h => ?_, fun hdt => ?_⟩
  · unfold bssnRhs
    rw [h, hD]
    simp
  · have e1 : bssnRhs { c with dt := 0, densitized := false } = .ok ⟨fun n =>
      [Bs.ng11_n c, Bs.ng12_n c, Bs.ng13_n c, Bs.ng22_n c, Bs.ng23_n c, Bs.ng33_n c, Bs.nphi_n c, Bs.nA11_n c, Bs.nA12_n c, Bs.nA13_n c,
        Bs.nA22_n c, Bs.nA23_n c, Bs.nA33_n c, Bs.nK_n c, Bs.nG1_n c, Bs.nG2_n c, Bs.nG3_n c, Bs.nalpha_n c, Bs.nbeta1_n c,
        Bs.nbeta2_n c, Bs.nbeta3_n c, Bs.nB1_n c, Bs.nB2_n c, Bs.nB3_n c, c.oldDens].getD n 0, Bs.K c,
        fun a => [Bs.dK1 c, Bs.dK2 c, Bs.dK3 c].getD a 0⟩ := by
      unfold bssnRhs
      dsimp only
      rw [if_neg (by simp), if_neg (by simp)]
      simp only [Bs.ng11_n_dt, Bs.ng12_n_dt, Bs.ng13_n_dt, Bs.ng22_n_dt, Bs.ng23_n_dt, Bs.ng33_n_dt, Bs.nphi_n_dt, Bs.nA11_n_dt, Bs.nA12_n_dt,
        Bs.nA13_n_dt, Bs.nA22_n_dt, Bs.nA23_n_dt, Bs.nA33_n_dt, Bs.nK_n_dt, Bs.nG1_n_dt, Bs.nG2_n_dt, Bs.nG3_n_dt, Bs.nalpha_n_dt,
        Bs.nbeta1_n_dt, Bs.nbeta2_n_dt, Bs.nbeta3_n_dt, Bs.nB1_n_dt, Bs.nB2_n_dt, Bs.nB3_n_dt, Bs.K_dt, Bs.dK1_dt, Bs.dK2_dt, Bs.dK3_dt]
    have e2 : bssnRhs c = .ok ⟨fun n =>
      [Bs.ng11_4 c, Bs.ng12_4 c, Bs.ng13_4 c, Bs.ng22_4 c, Bs.ng23_4 c, Bs.ng33_4 c, Bs.nphi_0 c, Bs.nA11_4 c, Bs.nA12_4 c, Bs.nA13_4 c,
        Bs.nA22_4 c, Bs.nA23_4 c, Bs.nA33_4 c, Bs.nK_0 c, Bs.nG1_0 c, Bs.nG2_0 c, Bs.nG3_0 c,
        (if c.densitized then Bs.nalpha_0 c else Bs.nalpha_1 c), Bs.nbeta1_0 c, Bs.nbeta2_0 c, Bs.nbeta3_0 c, Bs.nB1_0 c, Bs.nB2_0 c,
        Bs.nB3_0 c, if c.densitized then Bs.nalphaDensity_0 c else c.oldDens].getD n 0, Bs.K c,
        fun a => [Bs.dK1 c, Bs.dK2 c, Bs.dK3 c].getD a 0⟩ := by
      unfold bssnRhs
      rw [if_pos hdt]
    refine ⟨_, _, e2, e1, ?_, ?_⟩
    · show (if c.densitized then Bs.nalpha_0 c else Bs.nalpha_1 c) =
        c.exp (6 * c.alphaDensityWeight * (c.log (c.ps 0) + Bs.nphi_0 c)) * (if c.densitized then Bs.nalphaDensity_0 c else c.oldDens)
      rw [hD]
      rfl
    · show c.exp (6 * c.alphaDensityWeight * (c.cur 6 + c.log (c.ps 0))) *
        ((if c.densitized then Bs.nalphaDensity_0 c else c.oldDens) - c.pre 24) =
        c.dt * (Bs.ralpha c - 6 * c.alphaDensityWeight * Bs.rphi c * c.cur 17)
      rw [hD, if_pos rfl]
      have hf : Bs.f c = c.cur 6 + c.log (c.ps 0) := by
        unfold Bs.f Bs.f_0 Bs.logpsi Bs.phi Bs.psi
        ring
      unfold Bs.nalphaDensity_0 Bs.ralphaDensity Bs.ralphaDensity_2 Bs.ralphaDensity_0 Bs.ooE6alphaDensityWeightf Bs.E6alphaDensityWeightf
        Bs.palphaDensity Bs.alphaDensity Bs.b2
      rw [hw, hl, hf, hα]
      simp only [Bool.false_eq_true, if_false, if_true]
      field_simp
      ring

end

end Sgrid
