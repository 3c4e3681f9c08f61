import Mathlib.LinearAlgebra.Matrix.NonsingularInverse
import Mathlib.Tactic.LinearCombination
import Mathlib.Analysis.Calculus.Deriv.Mul
import Mathlib.Analysis.Calculus.Deriv.Add
import Verif.Model.BssnInit

/-! # C106: ADM and BSSN variables -/

namespace Sgrid
open Finset Matrix

/-- The matrix of a symmetric tensor. -/
def Spec.symMat (g : Sym3) : Matrix (Fin 3) (Fin 3) ℝ :=
  !![g.c11, g.c12, g.c13; g.c12, g.c22, g.c23; g.c13, g.c23, g.c33]

/-- The trace of `A` with respect to the metric `g`. -/
noncomputable def Spec.mtrace (g A : Matrix (Fin 3) (Fin 3) ℝ) : ℝ := ∑ i, ∑ j, g⁻¹ i j * A i j

theorem mat_inj {a b : Sym3} (h : Spec.symMat a = Spec.symMat b) : a = b := by
  have e : ∀ i j, Spec.symMat a i j = Spec.symMat b i j := fun i j => by rw [h]
  have h11 := e 0 0
  have h12 := e 0 1
  have h13 := e 0 2
  have h22 := e 1 1
  have h23 := e 1 2
  have h33 := e 2 2
  simp [Spec.symMat] at h11 h12 h13 h22 h23 h33
  ext <;> assumption

theorem sdet_eq (g : Sym3) : sdet g = (Spec.symMat g).det := by
  rw [Matrix.det_fin_three]
  simp [Spec.symMat, sdet]
  ring

theorem mat_scale (c : ℝ) (g : Sym3) : Spec.symMat (sscale c g) = c • Spec.symMat g := by
  ext i j
  fin_cases i <;> fin_cases j <;> simp [Spec.symMat, sscale]

theorem sinv_eq (g : Sym3) : Spec.symMat (sinv g) = (Spec.symMat g)⁻¹ := by
  rw [Matrix.inv_def, Ring.inverse_eq_inv, ← sdet_eq, Matrix.adjugate_fin_three]
  ext i j
  fin_cases i <;> fin_cases j <;> simp [Spec.symMat, sinv] <;> ring_nf <;> simp

theorem mtrace_self (g : Sym3) (h : (Spec.symMat g).det ≠ 0) : Spec.mtrace (Spec.symMat g) (Spec.symMat g) = 3 := by
  have e := Matrix.nonsing_inv_mul (Spec.symMat g) (isUnit_iff_ne_zero.2 h)
  have hs : ∀ i j, Spec.symMat g i j = Spec.symMat g j i := by
    intro i j
    fin_cases i <;> fin_cases j <;> simp [Spec.symMat]
  unfold Spec.mtrace
  have : ∀ i, ∑ j, (Spec.symMat g)⁻¹ i j * Spec.symMat g i j = 1 := by
    intro i
    have := congrFun (congrFun e i) i
    rw [Matrix.mul_apply, Matrix.one_apply_eq] at this
    rw [← this]
    exact sum_congr rfl fun j _ => by rw [hs i j]
  rw [sum_congr rfl fun i _ => this i]
  simp

theorem mtrace_add (g A B : Matrix (Fin 3) (Fin 3) ℝ) (c : ℝ) :
    Spec.mtrace g (A + c • B) = Spec.mtrace g A + c * Spec.mtrace g B := by
  unfold Spec.mtrace
  simp only [Matrix.add_apply, Matrix.smul_apply, smul_eq_mul, mul_add, sum_add_distrib, mul_sum]
  congr 1
  exact sum_congr rfl fun i _ => sum_congr rfl fun j _ => by ring

theorem inv_smul3 (c : ℝ) (hc : c ≠ 0) (A : Matrix (Fin 3) (Fin 3) ℝ) (hA : A.det ≠ 0) : (c • A)⁻¹ = c⁻¹ • A⁻¹ := by
  refine Matrix.inv_eq_right_inv ?_
  rw [Matrix.smul_mul, Matrix.mul_smul, smul_smul, mul_inv_cancel₀ hc, one_smul,
    Matrix.mul_nonsing_inv _ (isUnit_iff_ne_zero.2 hA)]

theorem mtrace_scale (c d : ℝ) (hc : c ≠ 0) (A B : Matrix (Fin 3) (Fin 3) ℝ) (hA : A.det ≠ 0) :
    Spec.mtrace (c • A) (d • B) = c⁻¹ * d * Spec.mtrace A B := by
  unfold Spec.mtrace
  rw [inv_smul3 c hc A hA]
  simp only [Matrix.smul_apply, smul_eq_mul, mul_sum]
  exact sum_congr rfl fun i _ => sum_congr rfl fun j _ => by ring

/-- The pieces of the first loop as matrices. -/
theorem bssnInit_eq (w : ℝ) (a : AdmPt) :
    let p := (Spec.symMat a.gb).det ^ (-(1 / 3) : ℝ)
    let b := bssnInit w a
    Spec.symMat b.gt = p • Spec.symMat a.gb ∧
    b.trK = Spec.mtrace (p • Spec.symMat a.gb) ((p * a.psi ^ (-4 : ℤ)) • Spec.symMat a.K) ∧
    Spec.symMat b.At = (p * a.psi ^ (-4 : ℤ)) • Spec.symMat a.K + (-(1 / 3) * b.trK) • Spec.symMat b.gt ∧
    b.phi = -0.25 * Real.log p ∧ b.alphaD = (p * a.psi ^ (-4 : ℤ)) ^ (1.5 * w) * a.alpha := by
  intro p b
  have hp : sdet a.gb ^ (-(1 / 3) : ℝ) = p := by rw [sdet_eq]
  refine ⟨?_, ?_, ?_, ?_, ?_⟩
  · change Spec.symMat (sscale (sdet a.gb ^ (-(1 / 3) : ℝ)) a.gb) = _
    rw [mat_scale, hp]
  · unfold Spec.mtrace
    rw [← mat_scale, ← mat_scale, ← sinv_eq]
    simp only [b, bssnInit, hp, Fin.sum_univ_three]
    simp [Spec.symMat]
    ring
  · rw [← mat_scale]
    ext i j
    simp only [b, bssnInit, hp]
    fin_cases i <;> fin_cases j <;> simp [Spec.symMat] <;> ring
  · simp only [b, bssnInit, hp]
  · simp only [b, bssnInit, hp]

section init
variable (w : ℝ) (a : AdmPt) (hdet : 0 < (Spec.symMat a.gb).det)
include hdet

/-- `p` is `exp(-4 phi)`. -/
theorem exp_phi : Real.exp (4 * (bssnInit w a).phi) = ((Spec.symMat a.gb).det ^ (-(1 / 3) : ℝ))⁻¹ := by
  rw [(bssnInit_eq w a).2.2.2.1]
  set p := (Spec.symMat a.gb).det ^ (-(1 / 3) : ℝ)
  have hp : 0 < p := Real.rpow_pos_of_pos hdet _
  rw [show 4 * (-0.25 * Real.log p) = -Real.log p by ring, Real.exp_neg, Real.exp_log hp]

/-- **C106.** The conformal metric has determinant 1. -/
theorem C106_det : (Spec.symMat (bssnInit w a).gt).det = 1 := by
  rw [(bssnInit_eq w a).1, Matrix.det_smul, Fintype.card_fin, ← Real.rpow_natCast, ← Real.rpow_mul hdet.le]
  norm_num
  rw [Real.rpow_neg_one, inv_mul_cancel₀ hdet.ne']

/-- **C106.** `g_ij = exp(4 phi) gtilde_ij`, and `phi` is `log(det g)/12`. -/
theorem C106_metric : Spec.symMat a.gb = Real.exp (4 * (bssnInit w a).phi) • Spec.symMat (bssnInit w a).gt ∧
    (bssnInit w a).phi = Real.log (Spec.symMat a.gb).det / 12 := by
  constructor
  · rw [exp_phi w a hdet, (bssnInit_eq w a).1, smul_smul, inv_mul_cancel₀ (Real.rpow_pos_of_pos hdet _).ne', one_smul]
  · rw [(bssnInit_eq w a).2.2.2.1, Real.log_rpow hdet]
    ring

/-- **C106.** `K` is the trace of the extrinsic curvature with respect to the physical metric `psi^4 gb`. -/
theorem C106_trace (hpsi : a.psi ≠ 0) :
    (bssnInit w a).trK = Spec.mtrace (a.psi ^ 4 • Spec.symMat a.gb) (Spec.symMat a.K) := by
  have hp : (0 : ℝ) < (Spec.symMat a.gb).det ^ (-(1 / 3) : ℝ) := Real.rpow_pos_of_pos hdet _
  rw [(bssnInit_eq w a).2.1, mtrace_scale _ _ hp.ne' _ _ hdet.ne']
  have h := mtrace_scale (a.psi ^ 4) 1 (pow_ne_zero _ hpsi) (Spec.symMat a.gb) (Spec.symMat a.K) hdet.ne'
  rw [one_smul] at h
  rw [h, ← mul_assoc, inv_mul_cancel₀ hp.ne', zpow_neg]
  simp

/-- **C106.** The conformal curvature has no trace. -/
theorem C106_traceless : Spec.mtrace (Spec.symMat (bssnInit w a).gt) (Spec.symMat (bssnInit w a).At) = 0 := by
  have hd : (Spec.symMat (bssnInit w a).gt).det ≠ 0 := by rw [C106_det w a hdet]; norm_num
  obtain ⟨h1, h2, h3, -⟩ := bssnInit_eq w a
  rw [h3, mtrace_add, mtrace_self _ hd]
  nth_rewrite 1 [h1]
  rw [← h2]
  ring

/-- **C106.** `K_ij = psi^4 exp(4 phi) (Atilde_ij + K gtilde_ij / 3)`. -/
theorem C106_curvature (hpsi : a.psi ≠ 0) : Spec.symMat a.K = (a.psi ^ 4 * Real.exp (4 * (bssnInit w a).phi)) •
    (Spec.symMat (bssnInit w a).At + ((bssnInit w a).trK / 3) • Spec.symMat (bssnInit w a).gt) := by
  obtain ⟨h1, h2, h3, -⟩ := bssnInit_eq w a
  have hp : (0 : ℝ) < (Spec.symMat a.gb).det ^ (-(1 / 3) : ℝ) := Real.rpow_pos_of_pos hdet _
  rw [h3, exp_phi w a hdet, add_assoc, ← add_smul, show -(1 / 3) * (bssnInit w a).trK + (bssnInit w a).trK / 3 = 0 by ring,
    zero_smul, add_zero, smul_smul]
  have : a.psi ^ 4 * ((Spec.symMat a.gb).det ^ (-(1 / 3) : ℝ))⁻¹ *
      ((Spec.symMat a.gb).det ^ (-(1 / 3) : ℝ) * a.psi ^ (-4 : ℤ)) = 1 := by
    rw [zpow_neg]
    field_simp
  rw [this, one_smul]

/-- **C106.** The density of weight `w` that belongs to the lapse: `alpha (det g)^(-w/2)` with the physical metric. -/
theorem C106_density (hpsi : a.psi ≠ 0) :
    (bssnInit w a).alphaD = (a.psi ^ 4 • Spec.symMat a.gb).det ^ (-w / 2) * a.alpha := by
  rw [(bssnInit_eq w a).2.2.2.2, Matrix.det_smul, Fintype.card_fin]
  congr 1
  have h4 : 0 < a.psi ^ 4 := by positivity
  have hp : (Spec.symMat a.gb).det ^ (-(1 / 3) : ℝ) * a.psi ^ (-4 : ℤ) =
      ((a.psi ^ 4) ^ 3 * (Spec.symMat a.gb).det) ^ (-(1 / 3) : ℝ) := by
    rw [Real.mul_rpow (by positivity) hdet.le, mul_comm]
    congr 1
    rw [← Real.rpow_natCast (a.psi ^ 4) 3, ← Real.rpow_mul h4.le]
    norm_num
    rw [Real.rpow_neg_one]
  rw [hp, ← Real.rpow_mul (by positivity)]
  congr 1
  ring

/-- **C106.** `BSSNtoADM` after `ADMtoBSSN` gives back metric and extrinsic curvature. -/
theorem C106_roundtrip (hpsi : a.psi ≠ 0) : bssnToAdm a.psi (bssnInit w a) = (a.gb, a.K) := by
  have hm := (C106_metric w a hdet).1
  have hk := C106_curvature w a hdet hpsi
  have key : ∀ b : BssnPt, Spec.symMat (bssnToAdm a.psi b).1 = Real.exp (4 * b.phi) • Spec.symMat b.gt ∧
      Spec.symMat (bssnToAdm a.psi b).2 = (a.psi ^ 4 * Real.exp (4 * b.phi)) •
        (Spec.symMat b.At + (b.trK / 3) • Spec.symMat b.gt) := by
    intro b
    constructor <;> ext i j <;> fin_cases i <;> fin_cases j <;> simp [Spec.symMat, bssnToAdm, admComp] <;> ring
  obtain ⟨k1, k2⟩ := key (bssnInit w a)
  rw [← hm] at k1
  rw [← hk] at k2
  exact Prod.ext (mat_inj k1) (mat_inj k2)

end init

/-- **C106.** `ADMtoBSSN` after `BSSNtoADM` gives back the BSSN variables if these satisfy the algebraic constraints. -/
theorem C106_roundtrip_back (w : ℝ) (b : BssnPt) (psi alpha : ℝ) (hpsi : psi ≠ 0) (hdet : (Spec.symMat b.gt).det = 1)
    (htr : Spec.mtrace (Spec.symMat b.gt) (Spec.symMat b.At) = 0) :
    let b' := bssnInit w ⟨(bssnToAdm psi b).1, (bssnToAdm psi b).2, psi, alpha⟩
    b'.gt = b.gt ∧ b'.At = b.At ∧ b'.trK = b.trK ∧ b'.phi = b.phi := by
  intro b'
  have k1 : Spec.symMat (bssnToAdm psi b).1 = Real.exp (4 * b.phi) • Spec.symMat b.gt := by
    ext i j
    fin_cases i <;> fin_cases j <;> simp [Spec.symMat, bssnToAdm, admComp]
  have k2 : Spec.symMat (bssnToAdm psi b).2 = (psi ^ 4 * Real.exp (4 * b.phi)) •
      (Spec.symMat b.At + (b.trK / 3) • Spec.symMat b.gt) := by
    ext i j
    fin_cases i <;> fin_cases j <;> simp [Spec.symMat, bssnToAdm, admComp] <;> ring
  have hE := Real.exp_pos (4 * b.phi)
  have hd : (Spec.symMat (bssnToAdm psi b).1).det = Real.exp (4 * b.phi) ^ 3 := by
    rw [k1, Matrix.det_smul, Fintype.card_fin, hdet, mul_one]
  have hp : (Spec.symMat (bssnToAdm psi b).1).det ^ (-(1 / 3) : ℝ) = (Real.exp (4 * b.phi))⁻¹ := by
    rw [hd, ← Real.rpow_natCast, ← Real.rpow_mul hE.le]
    norm_num
    rw [Real.rpow_neg_one]
  obtain ⟨h1, h2, h3, h4, -⟩ := bssnInit_eq w ⟨(bssnToAdm psi b).1, (bssnToAdm psi b).2, psi, alpha⟩
  simp only at h1 h2 h3 h4
  rw [hp] at h1 h2 h3 h4
  have g1 : Spec.symMat b'.gt = Spec.symMat b.gt := by
    rw [h1, k1, smul_smul, inv_mul_cancel₀ hE.ne', one_smul]
  have hc : (Real.exp (4 * b.phi))⁻¹ * psi ^ (-4 : ℤ) * (psi ^ 4 * Real.exp (4 * b.phi)) = 1 := by
    rw [zpow_neg]
    field_simp
  have g2 : b'.trK = b.trK := by
    rw [h2, k1, k2, smul_smul, inv_mul_cancel₀ hE.ne', one_smul, smul_smul, hc, one_smul, mtrace_add,
      mtrace_self _ (by rw [hdet]; norm_num), htr]
    ring
  refine ⟨mat_inj g1, mat_inj ?_, g2, ?_⟩
  · rw [h3, k2, smul_smul, hc, one_smul]
    change Spec.symMat b.At + (b.trK / 3) • Spec.symMat b.gt + (-(1 / 3) * b'.trK) • Spec.symMat b'.gt = _
    rw [g1, g2, add_assoc, ← add_smul, show b.trK / 3 + -(1 / 3) * b.trK = 0 by ring, zero_smul, add_zero]
  · change b'.phi = b.phi
    rw [h4, Real.log_inv, Real.log_exp]
    ring

/-! ## The connection functions -/

/-- `G^i` in terms of matrices: `gt^{ij} gt^{kl} d_k gt_{jl}`. -/
theorem gamma_eq (gt : Sym3) (d : DSym3) (i : Fin 3) :
    bssnGamma gt d i = ∑ j, ∑ k, ∑ l, (Spec.symMat gt)⁻¹ i j * (Spec.symMat gt)⁻¹ k l * Spec.symMat (d k) j l := by
  rw [← sinv_eq]
  simp only [Fin.sum_univ_three]
  fin_cases i <;> simp [bssnGamma, Spec.symMat] <;> ring

/-- **C106.** `G^i = - d_j gt^{ij}`: `M k t` is the metric along coordinate line `k`, `d k` its derivative, `N k t`
its inverse and `E k` the derivative of the inverse. -/
theorem C106_gamma (gt : Sym3) (d : DSym3) (M N : Fin 3 → ℝ → Matrix (Fin 3) (Fin 3) ℝ)
    (E : Fin 3 → Matrix (Fin 3) (Fin 3) ℝ) (hM0 : ∀ k, M k 0 = Spec.symMat gt) (hinv : ∀ k t, M k t * N k t = 1)
    (hM : ∀ k i j, HasDerivAt (fun t => M k t i j) (Spec.symMat (d k) i j) 0)
    (hN : ∀ k i j, HasDerivAt (fun t => N k t i j) (E k i j) 0) (i : Fin 3) :
    bssnGamma gt d i = -∑ j, E j i j := by
  have hN0 : ∀ k, N k 0 = (Spec.symMat gt)⁻¹ := fun k => by
    rw [← hM0 k]
    exact (Matrix.inv_eq_right_inv (hinv k 0)).symm
  have hunit : IsUnit (Spec.symMat gt).det := by
    have h := congrArg Matrix.det (hinv 0 0)
    rw [Matrix.det_mul, Matrix.det_one, hM0] at h
    exact IsUnit.of_mul_eq_one _ h
  have hprod : ∀ k, Spec.symMat (d k) * (Spec.symMat gt)⁻¹ + Spec.symMat gt * E k = 0 := by
    intro k
    ext a b
    have h1 : HasDerivAt (fun t => ∑ c, M k t a c * N k t c b)
        (∑ c, (Spec.symMat (d k) a c * N k 0 c b + M k 0 a c * E k c b)) 0 :=
      HasDerivAt.fun_sum fun c _ => (hM k a c).mul (hN k c b)
    have h2 : (fun t => ∑ c, M k t a c * N k t c b) = fun _ => (1 : Matrix (Fin 3) (Fin 3) ℝ) a b := by
      funext t
      rw [← Matrix.mul_apply, hinv]
    rw [h2] at h1
    have h3 := h1.unique (hasDerivAt_const (0 : ℝ) _)
    rw [hM0, hN0, sum_add_distrib, ← Matrix.mul_apply, ← Matrix.mul_apply] at h3
    rw [Matrix.add_apply, h3]
    rfl
  have hE : ∀ k, E k = -((Spec.symMat gt)⁻¹ * Spec.symMat (d k) * (Spec.symMat gt)⁻¹) := by
    intro k
    have h := congrArg (fun X => (Spec.symMat gt)⁻¹ * X) (hprod k)
    simp only [Matrix.mul_add, Matrix.mul_zero, ← Matrix.mul_assoc, Matrix.nonsing_inv_mul _ hunit, Matrix.one_mul] at h
    exact eq_neg_of_add_eq_zero_right h
  have hsym : ∀ k l, (Spec.symMat gt)⁻¹ k l = (Spec.symMat gt)⁻¹ l k := by
    intro k l
    rw [← sinv_eq]
    fin_cases k <;> fin_cases l <;> simp [Spec.symMat]
  rw [gamma_eq]
  simp only [hE, Matrix.neg_apply, sum_neg_distrib, neg_neg, Matrix.mul_apply, Fin.sum_univ_three]
  rw [hsym 1 0, hsym 2 0, hsym 2 1]
  fin_cases i <;> simp [hsym 1 0, hsym 2 0, hsym 2 1] <;> ring

/-- The Christoffel symbols. -/
noncomputable def Spec.christoffelMat (g : Matrix (Fin 3) (Fin 3) ℝ) (d : Fin 3 → Matrix (Fin 3) (Fin 3) ℝ)
    (i j k : Fin 3) : ℝ := 1 / 2 * ∑ l, g⁻¹ i l * (d j l k + d k l j - d l j k)

/-- **C106.** `G^i = gt^{jk} Gamma^i_{jk}` if the derivatives are compatible with the constant determinant. -/
theorem C106_gamma_christoffel (gt : Sym3) (d : DSym3)
    (hdet : ∀ k, Spec.mtrace (Spec.symMat gt) (Spec.symMat (d k)) = 0) (i : Fin 3) :
    bssnGamma gt d i = ∑ j, ∑ k, (Spec.symMat gt)⁻¹ j k * Spec.christoffelMat (Spec.symMat gt) (fun k => Spec.symMat (d k)) i j k := by
  have h0 := hdet 0
  have h1 := hdet 1
  have h2 := hdet 2
  unfold Spec.mtrace at h0 h1 h2
  rw [gamma_eq]
  unfold Spec.christoffelMat
  rw [← sinv_eq] at h0 h1 h2 ⊢
  simp only [Fin.sum_univ_three] at h0 h1 h2 ⊢
  generalize sinv gt = n at h0 h1 h2 ⊢
  simp [Spec.symMat] at h0 h1 h2
  fin_cases i
  · simp [Spec.symMat]
    linear_combination (1 / 2) * n.c11 * h0 + (1 / 2) * n.c12 * h1 + (1 / 2) * n.c13 * h2
  · simp [Spec.symMat]
    linear_combination (1 / 2) * n.c12 * h0 + (1 / 2) * n.c22 * h1 + (1 / 2) * n.c23 * h2
  · simp [Spec.symMat]
    linear_combination (1 / 2) * n.c13 * h0 + (1 / 2) * n.c23 * h1 + (1 / 2) * n.c33 * h2

/-- **C106.** `BSSN_alphaRHSterm` makes the time derivative of the lapse in `d_t alpha = beta^i d_i alpha - alpha^2 K +
term` vanish. -/
theorem C106_alpha_rhs (alpha K : ℝ) (beta dalpha : Fin 3 → ℝ) :
    (∑ i, beta i * dalpha i) - alpha ^ 2 * K + alphaRhsTerm alpha K beta dalpha = 0 := by
  unfold alphaRhsTerm
  rw [Fin.sum_univ_three]
  ring

/-- **C106.** On the grid: all points of all boxes, and `G` from the derivatives of the new metric. -/
theorem C106_grid (w : ℝ) (dSab : Nat → (Nat → Sym3) → Nat → DSym3) (a : Nat → Nat → AdmPt) (b ijk : Nat) :
    (bssnInitGrid w dSab a b ijk).1 = bssnInit w (a b ijk) ∧
    ∀ i, (bssnInitGrid w dSab a b ijk).2 i = ∑ j, ∑ k, ∑ l, (Spec.symMat (bssnInit w (a b ijk)).gt)⁻¹ i j *
      (Spec.symMat (bssnInit w (a b ijk)).gt)⁻¹ k l *
      Spec.symMat (dSab b (fun p => (bssnInit w (a b p)).gt) ijk k) j l :=
  ⟨rfl, fun i => gamma_eq _ _ i⟩

/-! ## Example -/

/-- The metric `diag(4, 4, 4)` with `K_ij = diag(1, 0, 0)` and `psi = 1`: `det = 64`, `K = 1/4`,
`Atilde = diag(1/6, -1/12, -1/12)`, and back. -/
example : let b := bssnInit 0 ⟨⟨4, 0, 0, 4, 0, 4⟩, ⟨1, 0, 0, 0, 0, 0⟩, 1, 1⟩
    b.gt = ⟨1, 0, 0, 1, 0, 1⟩ ∧ b.trK = 1 / 4 ∧ b.At = ⟨1 / 6, 0, 0, -(1 / 12), 0, -(1 / 12)⟩ ∧
    bssnToAdm 1 b = (⟨4, 0, 0, 4, 0, 4⟩, ⟨1, 0, 0, 0, 0, 0⟩) := by
  have h : (64 : ℝ) ^ (-(1 / 3) : ℝ) = 1 / 4 := by
    rw [show (64 : ℝ) = 4 ^ (3 : ℝ) by norm_num, ← Real.rpow_mul (by norm_num)]
    norm_num
  have hd : sdet ⟨4, 0, 0, 4, 0, 4⟩ = 64 := by norm_num [sdet]
  refine ⟨?_, ?_, ?_, ?_⟩
  · simp only [bssnInit, hd, h, sscale]
    norm_num
  · simp only [bssnInit, hd, h, sscale, sinv, sdet]
    norm_num
  · simp only [bssnInit, hd, h, sscale, sinv, sdet]
    norm_num
  · exact C106_roundtrip 0 ⟨⟨4, 0, 0, 4, 0, 4⟩, ⟨1, 0, 0, 0, 0, 0⟩, 1, 1⟩ (by rw [← sdet_eq, hd]; norm_num) (by norm_num)

/-- Connection functions: a metric whose `g_12` grows with `y`. -/
example : bssnGamma ⟨1, 0, 0, 1, 0, 1⟩ ![⟨0, 0, 0, 0, 0, 0⟩, ⟨0, 3, 0, 0, 0, 0⟩, ⟨0, 0, 0, 0, 0, 0⟩] =
    ![3, 0, 0] := by
  funext i
  fin_cases i <;> simp [bssnGamma, sinv, sdet]

end Sgrid
