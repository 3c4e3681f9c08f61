import Mathlib.LinearAlgebra.Matrix.NonsingularInverse
import Mathlib.Tactic.LinearCombination
import Verif.Model.Bssn

/-! C54: the algebraic constraints of the BSSN system. -/

namespace Sgrid

namespace Spec

/-- The metric at a point. -/
def gMat (u : Nat → Nat → ℝ) (i : Nat) : Matrix (Fin 3) (Fin 3) ℝ :=
  !![u 0 i, u 1 i, u 2 i; u 1 i, u 3 i, u 4 i; u 2 i, u 4 i, u 5 i]

/-- The extrinsic curvature at a point. -/
def aMat (u : Nat → Nat → ℝ) (i : Nat) : Matrix (Fin 3) (Fin 3) ℝ :=
  !![u 6 i, u 7 i, u 8 i; u 7 i, u 9 i, u 10 i; u 8 i, u 10 i, u 11 i]

/-- The trace of `A` with respect to the metric `g`. -/
noncomputable def symTrace (g A : Matrix (Fin 3) (Fin 3) ℝ) : ℝ := (g⁻¹ * A).trace

end Spec

theorem bssnDetg_eq (u : Nat → Nat → ℝ) (i : Nat) : bssnDetg u i = (Spec.gMat u i).det := by
  rw [Matrix.det_fin_three]
  simp [Spec.gMat, bssnDetg]
  ring

theorem bssnTrA_eq (u : Nat → Nat → ℝ) (i : Nat) :
    bssnTrA u i (1 / bssnDetg u i) = Spec.symTrace (Spec.gMat u i) (Spec.aMat u i) := by
  unfold Spec.symTrace
  rw [Matrix.inv_def, Ring.inverse_eq_inv, ← bssnDetg_eq, Matrix.smul_mul, Matrix.trace_smul,
    Matrix.adjugate_fin_three, one_div]
  unfold bssnTrA
  rw [smul_eq_mul]
  congr 1
  simp [Matrix.trace, Fin.sum_univ_three, Spec.gMat, Spec.aMat]
  ring

theorem trace_sub_smul (g A : Matrix (Fin 3) (Fin 3) ℝ) (h : g.det ≠ 0) (c : ℝ) :
    Spec.symTrace g (A + c • g) = Spec.symTrace g A + 3 * c := by
  unfold Spec.symTrace
  rw [Matrix.mul_add, Matrix.mul_smul, Matrix.trace_add, Matrix.nonsing_inv_mul g (isUnit_iff_ne_zero.2 h),
    Matrix.trace_smul, Matrix.trace_one]
  simp
  ring

/-- What one pass does to metric and curvature at its point. -/
theorem bssnPoint_eq (sA nd : Bool) (i : Nat) (u : Nat → Nat → ℝ) :
    let c : ℝ := if nd then (Spec.gMat u i).det ^ (-(1 / 3) : ℝ) else 1
    let u' := bssnPoint sA nd i u
    Spec.gMat u' i = c • Spec.gMat u i ∧
    Spec.aMat u' i = (if sA then Spec.aMat u i +
        (-(1 / 3 * Spec.symTrace (c • Spec.gMat u i) (Spec.aMat u i))) • (c • Spec.gMat u i) else Spec.aMat u i) ∧
    ∀ c' i', (12 ≤ c' ∨ i' ≠ i) → u' c' i' = u c' i' := by
  intro c u'
  -- the metric part
  obtain ⟨w, hw, hg, hA, hoff, hsame⟩ : ∃ w : Nat → Nat → ℝ,
      u' = (if sA then
        let aux := -(1 / 3 * bssnTrA w i (1 / bssnDetg w i))
        let u := aset2 w 6 i (w 6 i + aux * w 0 i)
        let u := aset2 u 7 i (u 7 i + aux * u 1 i)
        let u := aset2 u 8 i (u 8 i + aux * u 2 i)
        let u := aset2 u 9 i (u 9 i + aux * u 3 i)
        let u := aset2 u 10 i (u 10 i + aux * u 4 i)
        aset2 u 11 i (u 11 i + aux * u 5 i)
      else w) ∧ Spec.gMat w i = c • Spec.gMat u i ∧ Spec.aMat w i = Spec.aMat u i ∧
      (∀ c' i', (6 ≤ c' ∨ i' ≠ i) → w c' i' = u c' i') ∧ True := by
    cases nd with
    | false =>
      refine ⟨u, rfl, ?_, rfl, fun _ _ _ => rfl, trivial⟩
      simp [c]
    | true =>
      refine ⟨_, rfl, ?_, ?_, ?_, trivial⟩
      · have : c = bssnDetg u i ^ (-(1 / 3) : ℝ) := by rw [bssnDetg_eq]; rfl
        rw [this]
        ext a b
        fin_cases a <;> fin_cases b <;> simp [Spec.gMat, aset2]
      · ext a b
        fin_cases a <;> fin_cases b <;> simp [Spec.aMat, aset2]
      · intro c' i' h
        simp only [if_true]
        rcases h with h | h
        · simp [aset2, show c' ≠ 0 by omega, show c' ≠ 1 by omega, show c' ≠ 2 by omega,
            show c' ≠ 3 by omega, show c' ≠ 4 by omega, show c' ≠ 5 by omega]
        · simp [aset2, h]
  clear hsame
  rw [hw]
  cases sA with
  | false =>
    refine ⟨hg, hA, fun c' i' h => hoff c' i' ?_⟩
    rcases h with h | h
    · exact .inl (by omega)
    · exact .inr h
  | true =>
    refine ⟨?_, ?_, ?_⟩
    · rw [← hg]
      ext a b
      fin_cases a <;> fin_cases b <;> simp [Spec.gMat, aset2]
    · rw [← hg, ← hA, bssnTrA_eq]
      ext a b
      fin_cases a <;> fin_cases b <;> simp [Spec.aMat, Spec.gMat, aset2]
    · intro c' i' h
      simp only [if_true]
      rcases h with h | h
      · rw [← hoff c' i' (.inl (by omega))]
        simp [aset2, show c' ≠ 6 by omega, show c' ≠ 7 by omega, show c' ≠ 8 by omega,
            show c' ≠ 9 by omega, show c' ≠ 10 by omega, show c' ≠ 11 by omega]
      · rw [← hoff c' i' (.inr h)]
        simp [aset2, h]

/-- A pass uses the values at its point only. -/
theorem bssnPoint_congr (sA nd : Bool) (i : Nat) (u v : Nat → Nat → ℝ) (h : ∀ c, u c i = v c i) (c : Nat)
    (hc : c < 12) : bssnPoint sA nd i u c i = bssnPoint sA nd i v c i := by
  have hg : Spec.gMat u i = Spec.gMat v i := by simp only [Spec.gMat, h]
  have hA : Spec.aMat u i = Spec.aMat v i := by simp only [Spec.aMat, h]
  obtain ⟨u1, u2, -⟩ := bssnPoint_eq sA nd i u
  obtain ⟨v1, v2, -⟩ := bssnPoint_eq sA nd i v
  rw [hg] at u1 u2
  rw [hA] at u2
  have e1 := u1.trans v1.symm
  have e2 := u2.trans v2.symm
  have g00 := congrFun (congrFun e1 0) 0
  have g01 := congrFun (congrFun e1 0) 1
  have g02 := congrFun (congrFun e1 0) 2
  have g11 := congrFun (congrFun e1 1) 1
  have g12 := congrFun (congrFun e1 1) 2
  have g22 := congrFun (congrFun e1 2) 2
  have a00 := congrFun (congrFun e2 0) 0
  have a01 := congrFun (congrFun e2 0) 1
  have a02 := congrFun (congrFun e2 0) 2
  have a11 := congrFun (congrFun e2 1) 1
  have a12 := congrFun (congrFun e2 1) 2
  have a22 := congrFun (congrFun e2 2) 2
  match c, hc with
  | 0, _ => exact g00
  | 1, _ => exact g01
  | 2, _ => exact g02
  | 3, _ => exact g11
  | 4, _ => exact g12
  | 5, _ => exact g22
  | 6, _ => exact a00
  | 7, _ => exact a01
  | 8, _ => exact a02
  | 9, _ => exact a11
  | 10, _ => exact a12
  | 11, _ => exact a22

/-- The loop changes each point by itself. -/
theorem bssnAlgConstr_eq (sA nd : Bool) (n : Nat) (u : Nat → Nat → ℝ) (c i : Nat) :
    bssnAlgConstr sA nd n u c i = if i < n ∧ c < 12 then bssnPoint sA nd i u c i else u c i := by
  have h := upLoop_inv (Nat.zero_le n) (body := bssnPoint sA nd) (s := u)
    (fun k t => ∀ c i, t c i = if i < k ∧ c < 12 then bssnPoint sA nd i u c i else u c i)
    (fun c i => by simp) ?_
  · exact h c i
  · intro k t _ hk ht c i
    by_cases hi : i = k
    · subst hi
      by_cases hc : c < 12
      · rw [if_pos ⟨by omega, hc⟩]
        exact bssnPoint_congr sA nd i t u (fun c' => by rw [ht]; simp) c hc
      · rw [if_neg (by omega), (bssnPoint_eq sA nd i t).2.2 c i (.inl (by omega)), ht, if_neg (by omega)]
    · rw [(bssnPoint_eq sA nd k t).2.2 c i (.inr hi), ht]
      exact if_congr (by omega) rfl rfl

theorem rpow_det_cube {x : ℝ} (hx : 0 < x) : (x ^ (-(1 / 3) : ℝ)) ^ 3 * x = 1 := by
  rw [← Real.rpow_natCast, ← Real.rpow_mul hx.le]
  norm_num
  rw [Real.rpow_neg_one]
  exact inv_mul_cancel₀ hx.ne'

/-- **C54.** With both options on, at every point with positive determinant: the new metric is a positive
multiple of the old one and has determinant 1, the new curvature has no trace with respect to the new metric
and differs from the old one by a multiple of the metric. -/
theorem C54_constraints (n : Nat) (u : Nat → Nat → ℝ) (i : Nat) (hi : i < n)
    (hdet : 0 < (Spec.gMat u i).det) :
    let u' := bssnAlgConstr true true n u
    (Spec.gMat u' i).det = 1 ∧ Spec.symTrace (Spec.gMat u' i) (Spec.aMat u' i) = 0 ∧
      (∃ c : ℝ, 0 < c ∧ Spec.gMat u' i = c • Spec.gMat u i) ∧
      ∃ c : ℝ, Spec.aMat u' i = Spec.aMat u i + c • Spec.gMat u' i := by
  intro u'
  have e : ∀ c, c < 12 → u' c i = bssnPoint true true i u c i := fun c hc => by
    rw [show u' c i = bssnAlgConstr true true n u c i from rfl, bssnAlgConstr_eq, if_pos ⟨hi, hc⟩]
  have eg : Spec.gMat u' i = Spec.gMat (bssnPoint true true i u) i := by
    simp only [Spec.gMat, e 0 (by omega), e 1 (by omega), e 2 (by omega), e 3 (by omega), e 4 (by omega),
      e 5 (by omega)]
  have eA : Spec.aMat u' i = Spec.aMat (bssnPoint true true i u) i := by
    simp only [Spec.aMat, e 6 (by omega), e 7 (by omega), e 8 (by omega), e 9 (by omega), e 10 (by omega),
      e 11 (by omega)]
  obtain ⟨h1, h2, -⟩ := bssnPoint_eq true true i u
  rw [if_pos rfl] at h1 h2
  rw [if_pos rfl] at h2
  have hdet1 : (Spec.gMat u' i).det = 1 := by
    rw [eg, h1, Matrix.det_smul]
    simpa using rpow_det_cube hdet
  refine ⟨hdet1, ?_, ⟨_, Real.rpow_pos_of_pos hdet _, by rw [eg, h1]⟩, ⟨_, by rw [eA, h2, ← h1, ← eg]⟩⟩
  rw [eA, h2, ← h1, ← eg, trace_sub_smul _ _ (by rw [hdet1]; exact one_ne_zero)]
  ring

/-- **C54.** Nothing else changes: other points and other variables keep their values. -/
theorem C54_frame (sA nd : Bool) (n : Nat) (u : Nat → Nat → ℝ) (c i : Nat) (h : n ≤ i ∨ 12 ≤ c) :
    bssnAlgConstr sA nd n u c i = u c i := by
  rw [bssnAlgConstr_eq, if_neg (by omega)]

/-- **C54.** Enforcing the constraints on data that fulfil them changes nothing. -/
theorem C54_idempotent (n : Nat) (u : Nat → Nat → ℝ)
    (hdet : ∀ i, i < n → (Spec.gMat u i).det = 1)
    (htr : ∀ i, i < n → Spec.symTrace (Spec.gMat u i) (Spec.aMat u i) = 0) :
    bssnAlgConstr true true n u = u := by
  funext c i
  rw [bssnAlgConstr_eq]
  split
  · rename_i h
    obtain ⟨h1, h2, -⟩ := bssnPoint_eq true true i u
    simp only [if_true, hdet i h.1, Real.one_rpow, one_smul, htr i h.1, mul_zero, neg_zero, zero_smul,
      add_zero] at h1 h2
    match c, h.2 with
    | 0, _ => exact congrFun (congrFun h1 0) 0
    | 1, _ => exact congrFun (congrFun h1 0) 1
    | 2, _ => exact congrFun (congrFun h1 0) 2
    | 3, _ => exact congrFun (congrFun h1 1) 1
    | 4, _ => exact congrFun (congrFun h1 1) 2
    | 5, _ => exact congrFun (congrFun h1 2) 2
    | 6, _ => exact congrFun (congrFun h2 0) 0
    | 7, _ => exact congrFun (congrFun h2 0) 1
    | 8, _ => exact congrFun (congrFun h2 0) 2
    | 9, _ => exact congrFun (congrFun h2 1) 1
    | 10, _ => exact congrFun (congrFun h2 1) 2
    | 11, _ => exact congrFun (congrFun h2 2) 2
  · rfl

/-- Example: the metric 4 times the unit matrix becomes the unit matrix. -/
example : Spec.gMat (bssnAlgConstr true true 1 fun c _ => if c = 0 ∨ c = 3 ∨ c = 5 then 4 else 0) 0 = 1 := by
  have hm : Spec.gMat (fun c _ => if c = 0 ∨ c = 3 ∨ c = 5 then 4 else 0) 0 =
      (4 : ℝ) • (1 : Matrix (Fin 3) (Fin 3) ℝ) := by
    ext a b
    fin_cases a <;> fin_cases b <;> simp [Spec.gMat]
  have hd : ((4 : ℝ) • (1 : Matrix (Fin 3) (Fin 3) ℝ)).det = 64 := by
    rw [Matrix.det_smul, Matrix.det_one]; norm_num
  obtain ⟨h1, -, ⟨c, hc, h3⟩, -⟩ := C54_constraints 1
    (fun c _ => if c = 0 ∨ c = 3 ∨ c = 5 then (4 : ℝ) else 0) 0 (by omega) (by rw [hm, hd]; norm_num)
  rw [hm, smul_smul] at h3
  rw [h3, Matrix.det_smul, Matrix.det_one, mul_one] at h1
  have : (c * 4 : ℝ) = 1 := by
    have h1' : (c * 4) ^ 3 = 1 := h1
    exact (pow_eq_one_iff_of_nonneg (by linarith) (by omega)).1 h1'
  rw [h3, this, one_smul]

end Sgrid
