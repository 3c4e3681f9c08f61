import Mathlib.LinearAlgebra.Lagrange
import Mathlib.Analysis.SpecialFunctions.Trigonometric.Bounds
import Mathlib.Analysis.SpecialFunctions.Trigonometric.Chebyshev.Basic
import Verif.Lemmas.LineLinear
import Verif.Model.GridPoints
import Verif.Props.FiniteDiff

/-!
# C71: differentiation matrices of the bases, C39: filters, C38 on one line
-/

namespace Sgrid
open Finset Real Polynomial

/-! ## Chebyshev series as polynomials -/

/-- The Chebyshev series as a polynomial in `X`. -/
noncomputable def chebPoly (a b : ℝ) (c : Nat → ℝ) (n : Nat) : ℝ[X] :=
  C (c 0 / 2) + ∑ k ∈ Ico 1 (n + 1),
    C (c k) * (Chebyshev.T ℝ (k : ℤ)).comp (C (2 / (a - b)) * X + C (-(a + b) / (a - b)))

theorem chebPoly_eval (a b : ℝ) (c : Nat → ℝ) (n : Nat) (x : ℝ) :
    (chebPoly a b c n).eval x = Spec.chebSeries a b c n x := by
  unfold chebPoly Spec.chebSeries
  rw [eval_add, eval_C, eval_finsetSum]
  congr 1
  refine sum_congr rfl fun k _ => ?_
  rw [eval_mul, eval_C, eval_comp, eval_add, eval_mul, eval_C, eval_C, eval_X]
  congr 2
  ring

theorem chebPoly_degree (a b : ℝ) (c : Nat → ℝ) (n : Nat) : (chebPoly a b c n).natDegree ≤ n := by
  unfold chebPoly
  refine (natDegree_add_le _ _).trans (max_le (by simp) ?_)
  refine natDegree_sum_le_of_forall_le _ _ fun k hk => ?_
  refine (natDegree_C_mul_le _ _).trans ?_
  rw [natDegree_comp, Chebyshev.natDegree_T]
  have h1 : (C (2 / (a - b)) * X + C (-(a + b) / (a - b)) : ℝ[X]).natDegree ≤ 1 :=
    natDegree_linear_le
  have := mem_Ico.1 hk
  calc ((k : ℤ).natAbs) * _ ≤ k * 1 := Nat.mul_le_mul (by simp) h1
    _ ≤ n := by omega

/-- A polynomial of degree less than `n` is determined by `n` values. -/
theorem poly_unique (n : Nat) (x : Nat → ℝ) (hx : ∀ i j, i < n → j < n → x i = x j → i = j)
    (p q : ℝ[X]) (hp : p.degree < n) (hq : q.degree < n)
    (h : ∀ j, j < n → p.eval (x j) = q.eval (x j)) : p = q := by
  refine eq_of_degrees_lt_of_eval_index_eq (s := range n) (v := x) ?_ ?_ ?_ ?_
  · intro i hi j hj hij
    exact hx i j (by simpa using hi) (by simpa using hj) hij
  · rwa [card_range]
  · rwa [card_range]
  · intro i hi; exact h i (mem_range.1 hi)

theorem pointExtrema_eq (a b : ℝ) (n m : Nat) (_hn : 2 ≤ n) (hm : m < n) :
    pointExtrema a b n m = 1 / 2 * ((a - b) * cos (m * π / (n - 1 : Nat)) + (a + b)) := by
  unfold pointExtrema
  split
  · subst m; simp; ring
  · split
    · subst m
      have : ((n - 1 : Nat) : ℝ) ≠ 0 := by
        have : 0 < n - 1 := by omega
        positivity
      rw [mul_div_assoc, mul_div_cancel₀ _ this, cos_pi]; ring
    · rfl

theorem cos_grid_inj {s t : ℝ} (hs : 0 ≤ s ∧ s ≤ π) (ht : 0 ≤ t ∧ t ≤ π) (h : cos s = cos t) :
    s = t := injOn_cos (Set.mem_Icc.2 hs) (Set.mem_Icc.2 ht) h

theorem pointExtrema_inj (a b : ℝ) (hab : a ≠ b) (n i j : Nat) (hn : 2 ≤ n) (hi : i < n) (hj : j < n)
    (h : pointExtrema a b n i = pointExtrema a b n j) : i = j := by
  rw [pointExtrema_eq a b n i hn hi, pointExtrema_eq a b n j hn hj] at h
  have hN : (0 : ℝ) < (n - 1 : Nat) := by
    have : 0 < n - 1 := by omega
    positivity
  have hab' : a - b ≠ 0 := sub_ne_zero.2 hab
  have hc : cos (i * π / (n - 1 : Nat)) = cos (j * π / (n - 1 : Nat)) := by
    have : (a - b) * cos (i * π / (n - 1 : Nat)) = (a - b) * cos (j * π / (n - 1 : Nat)) := by linarith
    exact mul_left_cancel₀ hab' this
  have hb : ∀ k : Nat, k < n → 0 ≤ k * π / (n - 1 : Nat) ∧ k * π / (n - 1 : Nat) ≤ π := by
    intro k hk
    refine ⟨by positivity, ?_⟩
    rw [div_le_iff₀ hN, mul_comm]
    have : (k : ℝ) ≤ (n - 1 : Nat) := by exact_mod_cast (by omega : k ≤ n - 1)
    nlinarith [pi_pos]
  have := cos_grid_inj (hb i hi) (hb j hj) hc
  have h2 : (i : ℝ) = j := by
    field_simp at this
    exact this
  exact_mod_cast h2

theorem pointZeros_inj (a b : ℝ) (hab : a ≠ b) (n i j : Nat) (hi : i < n) (hj : j < n)
    (h : pointZeros a b n i = pointZeros a b n j) : i = j := by
  unfold pointZeros at h
  have hN : (0 : ℝ) < n := by
    have : 0 < n := by omega
    positivity
  have hab' : a - b ≠ 0 := sub_ne_zero.2 hab
  have hc : cos ((i + 1 / 2) * π / n) = cos ((j + 1 / 2) * π / n) := by
    have : (a - b) * cos ((i + 1 / 2) * π / n) = (a - b) * cos ((j + 1 / 2) * π / n) := by linarith
    exact mul_left_cancel₀ hab' this
  have hb : ∀ k : Nat, k < n → 0 ≤ (k + 1 / 2) * π / n ∧ (k + 1 / 2) * π / n ≤ π := by
    intro k hk
    refine ⟨by positivity, ?_⟩
    rw [div_le_iff₀ hN, mul_comm]
    have : (k : ℝ) + 1 ≤ n := by exact_mod_cast hk
    nlinarith [pi_pos]
  have := cos_grid_inj (hb i hi) (hb j hj) hc
  have h2 : (i : ℝ) = j := by
    field_simp at this
    linarith
  exact_mod_cast h2

/-- On the extrema the series has the values that `cheb_eval_onExtrema` computes. -/
theorem onExtrema_series (a b : ℝ) (hab : a ≠ b) (c w : Nat → ℝ) (n j : Nat) (hn : 2 ≤ n) (hj : j < n) :
    chebOnExtrema c w (n - 1) j = Spec.chebSeries a b c (n - 1) (pointExtrema a b n j) := by
  have hab' : a - b ≠ 0 := sub_ne_zero.2 hab
  rw [onExtrema_eq, if_neg (by omega), pointExtrema_eq a b n j hn hj]
  unfold Spec.chebSeries
  have hy : (2 * (1 / 2 * ((a - b) * cos (j * π / (n - 1 : Nat)) + (a + b))) - a - b) / (a - b) =
      cos (j * π / (n - 1 : Nat)) := by field_simp; ring
  rw [hy]
  congr 1
  · ring
  · refine sum_congr rfl fun k _ => ?_
    rw [Chebyshev.T_real_cos]
    congr 2
    push_cast; ring

theorem onZeros_series (a b : ℝ) (hab : a ≠ b) (c w : Nat → ℝ) (n j : Nat) (hj : j < n) :
    chebOnZeros c w (n - 1) j = Spec.chebSeries a b c (n - 1) (pointZeros a b n j) := by
  have hab' : a - b ≠ 0 := sub_ne_zero.2 hab
  have hn : n - 1 + 1 = n := by omega
  rw [onZeros_eq, if_neg (by omega), hn]
  unfold Spec.chebSeries pointZeros
  have hy : (2 * (1 / 2 * ((a - b) * cos ((j + 1 / 2) * π / n) + (a + b))) - a - b) / (a - b) =
      cos ((j + 1 / 2) * π / n) := by field_simp; ring
  rw [hy, hn]
  congr 1
  · ring
  · refine sum_congr rfl fun k _ => ?_
    rw [Chebyshev.T_real_cos]
    congr 2
    push_cast; ring

/-- `cheb_deriv` gives the series of the derivative of the polynomial. -/
theorem chebDeriv_poly (a b : ℝ) (c w : Nat → ℝ) (n : Nat) :
    chebPoly a b (chebDeriv a b c w n) n = derivative (chebPoly a b c n) := by
  refine Polynomial.funext fun x => ?_
  rw [chebPoly_eval]
  have h1 := (C34_deriv a b c w n x).1
  have h2 := (chebPoly a b c n).hasDerivAt x
  have e : (fun x => Spec.chebSeries a b c n x) = fun x => (chebPoly a b c n).eval x := by
    funext x; rw [chebPoly_eval]
  rw [e] at h1
  exact h1.unique h2

theorem degree_lt_of_natDegree_le {p : ℝ[X]} {n : Nat} (hn : 0 < n) (h : p.natDegree ≤ n - 1) :
    p.degree < n := by
  by_cases hp : p = 0
  · rw [hp, degree_zero]; exact WithBot.bot_lt_coe n
  · rw [degree_eq_natDegree hp]
    exact_mod_cast (by omega : p.natDegree < n)

/-- The coefficients computed from the values of a polynomial on the extrema are those of the
polynomial. -/
theorem extrema_poly (a b : ℝ) (hab : a ≠ b) (n : Nat) (hn : 2 ≤ n) (p : ℝ[X]) (hp : p.degree < n)
    (u w : Nat → ℝ) (hu : ∀ j, j < n → u j = p.eval (pointExtrema a b n j)) :
    chebPoly a b (chebFromExtrema w u (n - 1)) (n - 1) = p := by
  refine poly_unique n (pointExtrema a b n) (fun i j => pointExtrema_inj a b hab n i j hn) _ _
    (degree_lt_of_natDegree_le (by omega) (chebPoly_degree _ _ _ _)) hp fun j hj => ?_
  rw [chebPoly_eval, ← onExtrema_series a b hab _ (fun _ => 0) n j hn hj,
    C31_extrema (n - 1) (by omega) u w _ j (by omega), hu j hj]

theorem zeros_poly (a b : ℝ) (hab : a ≠ b) (n : Nat) (hn : 0 < n) (p : ℝ[X]) (hp : p.degree < n)
    (u w : Nat → ℝ) (hu : ∀ j, j < n → u j = p.eval (pointZeros a b n j)) :
    chebPoly a b (chebFromZeros w u (n - 1)) (n - 1) = p := by
  refine poly_unique n (pointZeros a b n) (fun i j => pointZeros_inj a b hab n i j) _ _
    (degree_lt_of_natDegree_le hn (chebPoly_degree _ _ _ _)) hp fun j hj => ?_
  rw [chebPoly_eval, ← onZeros_series a b hab _ (fun _ => 0) n j hj,
    C32_zeros (n - 1) u w _ j (by omega), hu j hj]

/-! ## Differentiation matrices -/

/-- **C71.** The matrices for the basis `ChebExtrema` give the exact first and second derivatives of
all polynomials of degree less than the number of points, at every grid point. -/
theorem C71_extrema (a b : ℝ) (hab : a ≠ b) (n : Nat) (hn : 2 ≤ n) (p : ℝ[X]) (hp : p.degree < n)
    (u w D0 DD0 : Nat → ℝ) (hu : ∀ j, j < n → u j = p.eval (pointExtrema a b n j)) (j : Nat)
    (hj : j < n) :
    let M := initDiff D0 DD0 n chebFromExtrema (fun out c m => chebDeriv a b c out m)
      (fun out c m => chebOnExtrema c out m)
    matTimesVec M.1 u w n j = (derivative p).eval (pointExtrema a b n j) ∧
    matTimesVec M.2 u w n j = (derivative (derivative p)).eval (pointExtrema a b n j) := by
  have h := C70_diffmatrix chebFromExtrema (fun out c m => chebDeriv a b c out m)
    (fun out c m => chebOnExtrema c out m) n (fromExtrema_linear n) (chebDeriv_linear a b n)
    (onExtrema_linear n) D0 DD0 u w w w w w j hj
  refine ⟨h.1.trans ?_, h.2.trans ?_⟩
  · rw [onExtrema_series a b hab _ _ n j hn hj, ← chebPoly_eval, chebDeriv_poly,
      extrema_poly a b hab n hn p hp u w hu]
  · rw [onExtrema_series a b hab _ _ n j hn hj, ← chebPoly_eval, chebDeriv_poly, chebDeriv_poly,
      extrema_poly a b hab n hn p hp u w hu]

/-- **C71.** The same for the basis `ChebZeros`. -/
theorem C71_zeros (a b : ℝ) (hab : a ≠ b) (n : Nat) (p : ℝ[X]) (hp : p.degree < n)
    (u w D0 DD0 : Nat → ℝ) (hu : ∀ j, j < n → u j = p.eval (pointZeros a b n j)) (j : Nat)
    (hj : j < n) :
    let M := initDiff D0 DD0 n chebFromZeros (fun out c m => chebDeriv a b c out m)
      (fun out c m => chebOnZeros c out m)
    matTimesVec M.1 u w n j = (derivative p).eval (pointZeros a b n j) ∧
    matTimesVec M.2 u w n j = (derivative (derivative p)).eval (pointZeros a b n j) := by
  have h := C70_diffmatrix chebFromZeros (fun out c m => chebDeriv a b c out m)
    (fun out c m => chebOnZeros c out m) n (fromZeros_linear n) (chebDeriv_linear a b n)
    (onZeros_linear n) D0 DD0 u w w w w w j hj
  refine ⟨h.1.trans ?_, h.2.trans ?_⟩
  · rw [onZeros_series a b hab _ _ n j hj, ← chebPoly_eval, chebDeriv_poly,
      zeros_poly a b hab n (by omega) p hp u w hu]
  · rw [onZeros_series a b hab _ _ n j hj, ← chebPoly_eval, chebDeriv_poly, chebDeriv_poly,
      zeros_poly a b hab n (by omega) p hp u w hu]

/-- **C71.** The matrix `D` for the basis `Fourier` gives the exact derivative of every trigonometric
series with as many coefficients as points, at every grid point. The matrix `DD` differentiates twice
the part of the series that `four_deriv` keeps; for an odd number of points that is the whole
series. -/
theorem C71_fourier (a b : ℝ) (hab : a ≠ b) (n : Nat) (c u w D0 DD0 : Nat → ℝ)
    (hu : ∀ j, j < n → u j = Spec.fourSeries a b c n (pointPeriodic a b n j)) (j : Nat)
    (hj : j < n) :
    let M := initDiff D0 DD0 n fourCoeffs (fun out c m => fourDeriv a b c out m)
      (fun out c m => fourEval c out m)
    HasDerivAt (fun X => Spec.fourSeries a b c n X) (matTimesVec M.1 u w n j) (pointPeriodic a b n j) ∧
    HasDerivAt (fun X => Spec.fourSeries a b (fourDeriv a b c w (n - 1)) n X)
      (matTimesVec M.2 u w n j) (pointPeriodic a b n j) ∧
    (n % 2 = 1 → ∀ X, HasDerivAt (fun X => Spec.fourSeries a b c n X)
      (Spec.fourSeries a b (fourDeriv a b c w (n - 1)) n X) X) := by
  have hn1 : n - 1 + 1 = n := by omega
  have hpt : ∀ j : Nat, a + j * (b - a) / n = pointPeriodic a b n j := by
    intro j; unfold pointPeriodic; ring
  have hs : ∀ (c w : Nat → ℝ) j, j < n →
      fourEval c w (n - 1) j = Spec.fourSeries a b c n (pointPeriodic a b n j) := by
    intro c w j hj
    have := C33_eval a b hab c w (n - 1) j (by omega)
    rwa [hn1, hpt] at this
  have hg : ∀ (c w : Nat → ℝ) (j : Nat), HasDerivAt (fun X => Spec.fourSeries a b c n X)
      (Spec.fourSeries a b (fourDeriv a b c w (n - 1)) n (pointPeriodic a b n j))
      (pointPeriodic a b n j) := by
    intro c w j
    have := C37_grid a b hab c w (n - 1) j
    rwa [hn1, hpt] at this
  -- coefficients of `u`
  have hc : ∀ k, k < n → fourCoeffs w u (n - 1) k = c k := by
    intro k hk
    have h1 := (fourCoeffs_linear n).loc w w u (fourEval c w (n - 1))
      (fun j hj => by rw [hu j hj, hs c w j hj]) k hk
    rw [h1, C33_coeffs n c w w k hk]
  have hcongr := fun (c d : Nat → ℝ) (h : ∀ m, m < n → c m = d m) X =>
    fourSeries_congr a b c d n (by omega) X h
  have hd : ∀ k, k < n → fourDeriv a b (fourCoeffs w u (n - 1)) w (n - 1) k =
      fourDeriv a b c w (n - 1) k := fun k hk => (fourDeriv_linear a b n).loc w w _ _ hc k hk
  have h := C70_diffmatrix fourCoeffs (fun out c m => fourDeriv a b c out m)
    (fun out c m => fourEval c out m) n (fourCoeffs_linear n) (fourDeriv_linear a b n)
    (fourEval_linear n) D0 DD0 u w w w w w j hj
  intro M
  refine ⟨?_, ?_, ?_⟩
  · rw [show matTimesVec M.1 u w n j = _ from h.1]
    rw [hs _ _ j hj, hcongr _ _ hd]
    exact hg c w j
  · rw [show matTimesVec M.2 u w n j = _ from h.2]
    rw [hs _ _ j hj]
    have hd2 : ∀ k, k < n → fourDeriv a b (fourDeriv a b (fourCoeffs w u (n - 1)) w (n - 1)) w (n - 1) k
        = fourDeriv a b (fourDeriv a b c w (n - 1)) w (n - 1) k :=
      fun k hk => (fourDeriv_linear a b n).loc w w _ _ hd k hk
    rw [hcongr _ _ hd2]
    exact hg _ w j
  · intro ho X
    have := C37_odd a b c w (n - 1) (by omega) X
    rwa [hn1] at this

/-! ## C39: filters -/

/-- **C39.** The filter matrix for `1 ≤ filt ≤ n`, from transforms that are inverse to each other. After
the filter the coefficients `0 ≤ k < n - filt` are unchanged and the others are zero, and filtering twice
is the same as filtering once. The initial contents of the matrix do not matter. -/
theorem filter_generic (coeffs eval : LineFun ℝ) (filter : (Nat → ℝ) → Nat → Nat → (Nat → ℝ)) (n : Nat)
    (hc : Spec.LineLinear coeffs n) (he : Spec.LineLinear eval n)
    (hce : ∀ c w w' k, k < n → coeffs w (eval w' c (n - 1)) (n - 1) k = c k)
    (hf : ∀ c k j, filter c k (n - 1) j = if k ≤ j ∧ j ≤ n - 1 then 0 else c j)
    (filt : Nat) (h1 : 1 ≤ filt) (h2 : filt ≤ n) (F0 : Nat → ℝ) :
    ∃ F, initFilter F0 ((n : Int) + 1 - filt) n coeffs filter eval = .ok F ∧
      (∀ u w w' k, k < n → coeffs w (matTimesVec F u w' n) (n - 1) k =
        if k < n - filt then coeffs w u (n - 1) k else 0) ∧
      (∀ u w w' i, i < n → matTimesVec F (matTimesVec F u w n) w' n i = matTimesVec F u w n i) := by
  have hk : (((n : Int) + 1 - filt - 1).toNat) = n - filt := by omega
  let f : LineFun ℝ := fun out u m => eval out (filter (coeffs out u m) (n - filt) m) m
  have hfl : Spec.LineLinear f n := by
    refine ⟨?_, ?_, ?_⟩
    · intro out out' u v huv i hi
      refine he.loc _ _ _ _ (fun j hj => ?_) i hi
      rw [hf, hf, hc.loc out out' u v huv j hj]
    · intro out u v i hi
      change eval out _ _ i = eval out _ _ i + eval out _ _ i
      rw [← he.add out _ _ i hi]
      refine he.loc _ _ _ _ (fun j hj => ?_) i hi
      rw [hf, hf, hf, hc.add out u v j hj]
      split <;> ring
    · intro out s u i hi
      change eval out _ _ i = s * eval out _ _ i
      rw [← he.smul out _ _ i hi]
      refine he.loc _ _ _ _ (fun j hj => ?_) i hi
      rw [hf, hf, hc.smul out s u j hj]
      split <;> ring
  obtain ⟨A, hA⟩ := (lineLinear_iff f n).1 hfl
  have hF : ∃ F, initFilter F0 ((n : Int) + 1 - filt) n coeffs filter eval = .ok F ∧
      ∀ u w w' i, i < n → matTimesVec F u w n i = f w' u (n - 1) i := by
    unfold initFilter
    rw [if_pos (by omega), if_neg (by omega)]
    refine ⟨_, rfl, ?_⟩
    intro u w w' i hi
    rw [matTimesVec_eq, if_pos hi, hA _ _ _ hi]
    refine sum_congr rfl fun j hj => ?_
    congr 1
    refine (probe n (fun s : (Nat → ℝ) × (Nat → ℝ) × (Nat → ℝ) × (Nat → ℝ) => s.1) (fun s => s.2.1)
      _ (F0, fun _ => 0, fun _ => 0, fun _ => 0) A rfl ?_).1 i j hi (mem_range.1 hj)
    intro j s hj hu
    simp only at hu ⊢
    rw [hu]
    refine ⟨unitVec_reset j, _, rfl, ?_⟩
    intro i hi
    have e : A i j = f (fun _ => 0) (unitVec ℝ j) (n - 1) i := by
      rw [hA _ _ _ hi]; exact (sum_unitVec (A i) n j hj).symm
    rw [e]
    refine he.loc _ _ _ _ (fun l hl => ?_) i hi
    rw [hf, hf, hk, hc.loc s.2.2.1 (fun _ => 0) _ _ (fun _ _ => rfl) l hl]
    rfl
  obtain ⟨F, hF1, hF2⟩ := hF
  have hco : ∀ u w w' k, k < n → coeffs w (matTimesVec F u w' n) (n - 1) k =
      if k < n - filt then coeffs w u (n - 1) k else 0 := by
    intro u w w' k hk
    rw [hc.loc w w _ (f w u (n - 1)) (fun j hj => hF2 u w' w j hj) k hk]
    change coeffs w (eval w _ (n - 1)) (n - 1) k = _
    rw [hce _ _ _ k hk, hf]
    by_cases h : k < n - filt
    · rw [if_neg (by omega), if_pos h]
    · rw [if_pos (by omega), if_neg h]
  refine ⟨F, hF1, hco, ?_⟩
  intro u w w' i hi
  rw [hF2 _ w' w i hi, hF2 u w w i hi]
  refine he.loc _ _ _ _ (fun j hj => ?_) i hi
  rw [hf, hf]
  split
  · rfl
  · next h =>
    rw [hco u w w j hj, if_pos (by omega)]

/-- **C39.** Filter matrices of the three spectral bases: for `1 ≤ filt ≤ n` a projection that keeps the
first `n - filt` coefficients and removes the others. -/
theorem C39_filter (n filt : Nat) (h1 : 1 ≤ filt) (h2 : filt ≤ n) (F0 : Nat → ℝ) :
    (2 ≤ n → ∃ F, initFilter F0 ((n : Int) + 1 - filt) n chebFromExtrema chebFilter
        (fun out c m => chebOnExtrema c out m) = .ok F ∧
      (∀ u w w' k, k < n → chebFromExtrema w (matTimesVec F u w' n) (n - 1) k =
        if k < n - filt then chebFromExtrema w u (n - 1) k else 0) ∧
      ∀ u w w' i, i < n → matTimesVec F (matTimesVec F u w n) w' n i = matTimesVec F u w n i) ∧
    (∃ F, initFilter F0 ((n : Int) + 1 - filt) n chebFromZeros chebFilter
        (fun out c m => chebOnZeros c out m) = .ok F ∧
      (∀ u w w' k, k < n → chebFromZeros w (matTimesVec F u w' n) (n - 1) k =
        if k < n - filt then chebFromZeros w u (n - 1) k else 0) ∧
      ∀ u w w' i, i < n → matTimesVec F (matTimesVec F u w n) w' n i = matTimesVec F u w n i) ∧
    ∃ F, initFilter F0 ((n : Int) + 1 - filt) n fourCoeffs fourFilter
        (fun out c m => fourEval c out m) = .ok F ∧
      (∀ u w w' k, k < n → fourCoeffs w (matTimesVec F u w' n) (n - 1) k =
        if k < n - filt then fourCoeffs w u (n - 1) k else 0) ∧
      ∀ u w w' i, i < n → matTimesVec F (matTimesVec F u w n) w' n i = matTimesVec F u w n i :=
  ⟨fun hn => filter_generic _ _ _ n (fromExtrema_linear n) (onExtrema_linear n)
      (fun c w w' k hk => C31_extrema_coeffs n hn c w w' k hk) (fun c k j => zeroTail_eq c k (n - 1) j)
      filt h1 h2 F0,
    filter_generic _ _ _ n (fromZeros_linear n) (onZeros_linear n)
      (fun c w w' k hk => C32_zeros_coeffs n c w w' k hk) (fun c k j => zeroTail_eq c k (n - 1) j)
      filt h1 h2 F0,
    filter_generic _ _ _ n (fourCoeffs_linear n) (fourEval_linear n)
      (fun c w w' k hk => C33_coeffs n c w w' k hk) (fun c k j => zeroTail_eq c k (n - 1) j)
      filt h1 h2 F0⟩

/-- **C39.** Without a filter (`filt ≤ 0`) a matrix that was zero before becomes the identity; for
`filt > n` the code writes in front of the coefficient array. -/
theorem C39_edges (n : Nat) (filt : Int) (coeffs eval : LineFun ℝ)
    (filter : (Nat → ℝ) → Nat → Nat → (Nat → ℝ)) :
    (filt ≤ 0 → ∃ F, initFilter (fun _ => 0) ((n : Int) + 1 - filt) n coeffs filter eval = .ok F ∧
      ∀ u w i, i < n → matTimesVec F u w n i = u i) ∧
    ∀ F0, filt > n → initFilter F0 ((n : Int) + 1 - filt) n coeffs filter eval = .ub := by
  refine ⟨fun h => ?_, fun F0 h => ?_⟩
  · unfold initFilter
    rw [if_neg (by omega)]
    refine ⟨_, rfl, ?_⟩
    intro u w i hi
    have hd : ∀ p, upLoop 0 n (fun i F => aset F (n * i + i) (1 : ℝ)) (fun _ => 0) p =
        if ∃ i, i < n ∧ p = n * i + i then 1 else 0 := by
      intro p
      refine upLoop_inv (Nat.zero_le n) (body := fun i F => aset F (n * i + i) (1 : ℝ))
        (s := fun _ => 0) (fun m F => F p = if ∃ i, i < m ∧ p = n * i + i then 1 else 0)
        (by simp) ?_
      intro m F _ _ ih
      by_cases hp : p = n * m + m
      · subst hp
        rw [aset_self, if_pos ⟨m, by omega, rfl⟩]
      · rw [aset_ne _ _ hp, ih]
        refine if_congr ⟨fun ⟨i, h1, h2⟩ => ⟨i, by omega, h2⟩, fun ⟨i, h1, h2⟩ => ⟨i, ?_, h2⟩⟩ rfl rfl
        rcases Nat.lt_succ_iff_lt_or_eq.1 h1 with h | h
        · exact h
        · subst h; exact absurd h2 hp
    rw [matTimesVec_eq, if_pos hi, sum_eq_single i]
    · rw [hd, if_pos ⟨i, hi, rfl⟩, one_mul]
    · intro j hj hji
      rw [hd, if_neg, zero_mul]
      rintro ⟨l, hl, he⟩
      have hj' := mem_range.1 hj
      have : i = l ∧ j = l := pos_inj hj' hl he
      omega
    · intro h; exact absurd (mem_range.2 hi) h
  · unfold initFilter
    rw [if_pos (by omega), if_pos (by omega)]

/-- **C39 for stale matrices.** `initfiltermatrix` does not clear the matrix when there is nothing to
filter: what was off the diagonal before stays. -/
theorem C39_stale_counterexample (coeffs eval : LineFun ℝ)
    (filter : (Nat → ℝ) → Nat → Nat → (Nat → ℝ)) :
    ∃ F, initFilter (fun _ => 1 / 2) ((2 : Nat) + 1 - 0) 2 coeffs filter eval = .ok F ∧
      matTimesVec F (fun _ => 1) (fun _ => 0) 2 0 = 3 / 2 := by
  unfold initFilter
  rw [if_neg (by decide)]
  refine ⟨_, rfl, ?_⟩
  rw [matTimesVec_eq, if_pos (by decide)]
  simp only [sum_range_succ, range_zero, sum_empty]
  rw [upLoop_succ (lo := 0) (hi := 1) (by decide), upLoop_succ (lo := 0) (hi := 0) (by decide),
    upLoop_nil (le_refl 0)]
  simp only [aset, Function.update_apply]
  norm_num

/-- **C39 for finite differences.** The filter of the finite-difference bases does nothing. -/
theorem C39_fd2 (n filt : Nat) (h1 : 1 ≤ filt) (h2 : filt ≤ n) (F0 : Nat → ℝ) :
    ∃ F, initFilter F0 ((n : Int) + 1 - filt) n fd2Coeffs fd2Filter
        (fun out c m => fd2Eval c out m) = .ok F ∧
      ∀ u w i, i < n → matTimesVec F u w n i = u i := by
  unfold initFilter
  rw [if_pos (by omega), if_neg (by omega)]
  refine ⟨_, rfl, ?_⟩
  intro u w i hi
  rw [matTimesVec_eq, if_pos hi]
  refine (sum_congr rfl fun j hj => ?_).trans (sum_unitVec u n i hi)
  rw [mul_comm]
  congr 1
  refine (probe n (fun s : (Nat → ℝ) × (Nat → ℝ) × (Nat → ℝ) × (Nat → ℝ) => s.1) (fun s => s.2.1)
    _ (F0, fun _ => 0, fun _ => 0, fun _ => 0) (fun i j => unitVec ℝ i j) rfl ?_).1
      i j hi (mem_range.1 hj)
  intro j s hj hu
  simp only at hu ⊢
  rw [hu]
  refine ⟨unitVec_reset j, _, rfl, ?_⟩
  intro i hi
  rw [fd2Eval_eq, if_pos (by omega)]
  unfold fd2Filter
  rw [fd2Coeffs_eq, if_pos (by omega)]
  unfold unitVec aset
  by_cases h : i = j
  · subst h; rfl
  · rw [Function.update_of_ne h, Function.update_of_ne (Ne.symm h)]

/-! ## C38 on one line: interpolation weights -/

/-- `cheb_basisfunc` is exact at the ends of the interval and away from them. -/
theorem chebBasis_exact (a b : ℝ) (hab : a < b) (k : Nat) (X : ℝ)
    (hX : X = a ∨ X = b ∨ ((X - a) / (b - a) > 1 / 10 ^ 10 ∧ (b - X) / (b - a) > 1 / 10 ^ 10)) :
    chebBasis a b k X = if k = 0 then 1 / 2
      else (Chebyshev.T ℝ (k : ℤ)).eval ((2 * X - a - b) / (a - b)) := by
  have hab' : a - b ≠ 0 := by linarith
  have hba : 0 < b - a := by linarith
  rcases hX with h | h | ⟨h1, h2⟩
  · subst h
    rw [(C36_basis X b hab k X ⟨le_refl _, hab.le⟩).2.2.1]
    have : (2 * X - X - b) / (X - b) = 1 := by
      rw [div_eq_one_iff_eq hab']; ring
    rw [this, Chebyshev.T_eval_one]
  · subst h
    rw [(C36_basis a X hab k X ⟨hab.le, le_refl _⟩).2.2.2]
    have : (2 * X - a - X) / (a - X) = -1 := by
      rw [div_eq_iff hab']; ring
    rw [this, Chebyshev.T_eval_neg_one, Int.coe_negOnePow_natCast]
    push_cast; rfl
  · have h0 : (0 : ℝ) < 1 / 10 ^ 10 := by positivity
    have g1 : 0 ≤ X - a := by
      by_contra h
      have := div_neg_of_neg_of_pos (not_le.1 h) hba
      linarith
    have g2 : 0 ≤ b - X := by
      by_contra h
      have := div_neg_of_neg_of_pos (not_le.1 h) hba
      linarith
    exact (C36_basis a b hab k X ⟨by linarith, by linarith⟩).2.1 h1 h2

/-- The sum over basis functions is the Chebyshev series. -/
theorem chebBasis_sum (a b : ℝ) (hab : a < b) (c : Nat → ℝ) (n : Nat) (hn : 0 < n) (X : ℝ)
    (hX : X = a ∨ X = b ∨ ((X - a) / (b - a) > 1 / 10 ^ 10 ∧ (b - X) / (b - a) > 1 / 10 ^ 10)) :
    ∑ k ∈ range n, c k * chebBasis a b k X = Spec.chebSeries a b c (n - 1) X := by
  obtain ⟨m, rfl⟩ : ∃ m, n = m + 1 := ⟨n - 1, by omega⟩
  unfold Spec.chebSeries
  rw [range_eq_Ico, sum_eq_sum_Ico_succ_bot (by omega), chebBasis_exact a b hab 0 X hX, if_pos rfl,
    Nat.add_sub_cancel]
  congr 1
  · ring
  · refine sum_congr rfl fun k hk => ?_
    have := mem_Ico.1 hk
    rw [chebBasis_exact a b hab k X hX, if_neg (by omega)]

/-- Weights from basis functions and the matrix of the transform. -/
theorem weights_generic (coeffs : LineFun ℝ) (n : Nat) (hc : Spec.LineLinear coeffs n)
    (B M0 BM u w w' : Nat → ℝ) :
    scalarProd (basisTimesCoeffMatrix B (initMatrix M0 n coeffs) BM n) u n =
      ∑ k ∈ range n, coeffs w u (n - 1) k * B k := by
  have h1 : scalarProd (basisTimesCoeffMatrix B (initMatrix M0 n coeffs) BM n) u n =
      ∑ j ∈ range n, (∑ k ∈ range n, B k * initMatrix M0 n coeffs (n * k + j)) * u j := by
    rw [scalarProd_eq]
    refine sum_congr rfl fun j hj => ?_
    unfold basisTimesCoeffMatrix
    rw [vecTimesMat_eq, if_pos (mem_range.1 hj)]
  rw [h1]
  simp only [sum_mul]
  rw [sum_comm]
  refine sum_congr rfl fun k hk => ?_
  have := C70_matrix coeffs n hc M0 u w' w k (mem_range.1 hk)
  rw [← this, matTimesVec_eq, if_pos (mem_range.1 hk), sum_mul]
  exact sum_congr rfl fun j _ => by ring

/-- **C38 on one line.** The interpolation weights of a point in direction with basis `ChebExtrema` give
the exact value of every polynomial of degree less than the number of points. -/
theorem C38_weights_extrema (a b : ℝ) (hab : a < b) (n : Nat) (hn : 2 ≤ n) (p : ℝ[X])
    (hp : p.degree < n) (X : ℝ)
    (hX : X = a ∨ X = b ∨ ((X - a) / (b - a) > 1 / 10 ^ 10 ∧ (b - X) / (b - a) > 1 / 10 ^ 10))
    (u M0 BM : Nat → ℝ) (hu : ∀ j, j < n → u j = p.eval (pointExtrema a b n j)) :
    scalarProd (basisTimesCoeffMatrix (fun k => chebBasis a b k X) (initMatrix M0 n chebFromExtrema)
      BM n) u n = p.eval X := by
  rw [weights_generic _ n (fromExtrema_linear n) _ _ _ _ (fun _ => 0) (fun _ => 0),
    chebBasis_sum a b hab _ n (by omega) X hX, ← chebPoly_eval,
    extrema_poly a b hab.ne n hn p hp u _ hu]

/-- **C38 on one line.** The same for the basis `ChebZeros`. -/
theorem C38_weights_zeros (a b : ℝ) (hab : a < b) (n : Nat) (hn : 0 < n) (p : ℝ[X])
    (hp : p.degree < n) (X : ℝ)
    (hX : X = a ∨ X = b ∨ ((X - a) / (b - a) > 1 / 10 ^ 10 ∧ (b - X) / (b - a) > 1 / 10 ^ 10))
    (u M0 BM : Nat → ℝ) (hu : ∀ j, j < n → u j = p.eval (pointZeros a b n j)) :
    scalarProd (basisTimesCoeffMatrix (fun k => chebBasis a b k X) (initMatrix M0 n chebFromZeros)
      BM n) u n = p.eval X := by
  rw [weights_generic _ n (fromZeros_linear n) _ _ _ _ (fun _ => 0) (fun _ => 0),
    chebBasis_sum a b hab _ n hn X hX, ← chebPoly_eval, zeros_poly a b hab.ne n hn p hp u _ hu]

/-- A sum over an odd number of terms in pairs. -/
theorem sum_pairs (f : Nat → ℝ) (m : Nat) :
    ∑ k ∈ range (2 * m + 1), f k = f 0 + ∑ k ∈ Ico 1 (m + 1), (f (2 * k - 1) + f (2 * k)) := by
  induction m with
  | zero => simp
  | succ m ih =>
    rw [show 2 * (m + 1) + 1 = 2 * m + 1 + 1 + 1 by ring, sum_range_succ, sum_range_succ, ih,
      sum_Ico_succ_top (b := m + 1) (by omega), show 2 * (m + 1) - 1 = 2 * m + 1 by omega,
      show 2 * (m + 1) = 2 * m + 1 + 1 by ring]
    ring

/-- The sum over the Fourier basis functions is the series at the point `X + a`: the basis functions
count the angle from 0, the transform counts it from `a`. -/
theorem fourBasis_sum (a b : ℝ) (c : Nat → ℝ) (N : Nat) (hN : 0 < N) (X : ℝ) :
    ∑ k ∈ range N, c k * fourBasis a b k N X = Spec.fourSeries a b c N (X + a) := by
  have hang : ∀ j : ℝ, j * (2 * π / (b - a)) * X = j * (2 * π * (X + a - a) / (b - a)) := by
    intro j; ring
  have hb : ∀ k, fourBasis a b k N X = if k = 0 then 1 / (N : ℝ)
      else if k = N - 1 ∧ N % 2 = 0 then
        cos ((k / 2 + k % 2 : Nat) * (2 * π * (X + a - a) / (b - a))) / N
      else if k % 2 ≠ 0 then cos ((k / 2 + k % 2 : Nat) * (2 * π * (X + a - a) / (b - a))) * 2 / N
      else sin ((k / 2 + k % 2 : Nat) * (2 * π * (X + a - a) / (b - a))) * 2 / N := by
    intro k
    unfold fourBasis
    simp only [hang, mul_one]
  simp only [hb]
  generalize hφ : 2 * π * (X + a - a) / (b - a) = φ
  unfold Spec.fourSeries
  rw [hφ]
  have hpair : ∀ m, 2 * m + 1 ≤ N → (N % 2 = 0 → 2 * m + 2 = N) →
      ∑ k ∈ range (2 * m + 1), c k * (if k = 0 then 1 / (N : ℝ)
        else if k = N - 1 ∧ N % 2 = 0 then cos ((k / 2 + k % 2 : Nat) * φ) / N
        else if k % 2 ≠ 0 then cos ((k / 2 + k % 2 : Nat) * φ) * 2 / N
        else sin ((k / 2 + k % 2 : Nat) * φ) * 2 / N) =
      (c 0 + 2 * ∑ k ∈ Ico 1 (m + 1), (c (2 * k - 1) * cos (k * φ) + c (2 * k) * sin (k * φ))) / N := by
    intro m hm he
    rw [sum_pairs, if_pos rfl, mul_sum, add_div, sum_div]
    congr 1
    · ring
    · refine sum_congr rfl fun k hk => ?_
      have hk' := mem_Ico.1 hk
      rw [if_neg (by omega), if_neg (by omega), if_pos (by omega), if_neg (by omega), if_neg (by omega),
        if_neg (by omega), show (2 * k - 1) / 2 + (2 * k - 1) % 2 = k by omega,
        show 2 * k / 2 + 2 * k % 2 = k by omega]
      ring
  rcases Nat.mod_two_eq_zero_or_one N with h | h
  · obtain ⟨m, rfl⟩ : ∃ m, N = 2 * m + 1 + 1 := ⟨N / 2 - 1, by omega⟩
    rw [sum_range_succ, hpair m (by omega) (by omega), if_pos h, if_neg (by omega),
      if_pos ⟨by omega, h⟩, show (2 * m + 1 + 1 + 1) / 2 = m + 1 by omega,
      show 2 * m + 1 + 1 - 1 = 2 * m + 1 by omega,
      show (2 * m + 1) / 2 + (2 * m + 1) % 2 = m + 1 by omega,
      show (2 * m + 1 + 1) / 2 = m + 1 by omega]
    ring
  · obtain ⟨m, rfl⟩ : ∃ m, N = 2 * m + 1 := ⟨N / 2, by omega⟩
    rw [hpair m (by omega) (by omega), if_neg (by omega), show (2 * m + 1 + 1) / 2 = m + 1 by omega,
      add_zero]

/-- The coefficients computed from the values of a trigonometric series are those of the series. -/
theorem fourier_series (a b : ℝ) (hab : a ≠ b) (n : Nat) (hn : 0 < n) (c u w : Nat → ℝ)
    (hu : ∀ j, j < n → u j = Spec.fourSeries a b c n (pointPeriodic a b n j)) (k : Nat) (hk : k < n) :
    fourCoeffs w u (n - 1) k = c k := by
  have hn1 : n - 1 + 1 = n := by omega
  have h1 := (fourCoeffs_linear n).loc w w u (fourEval c w (n - 1)) (fun j hj => by
    have := C33_eval a b hab c w (n - 1) j (by omega)
    rw [hn1] at this
    rw [hu j hj, this]
    unfold pointPeriodic
    congr 1; ring) k hk
  rw [h1, C33_coeffs n c w w k hk]

/-- **C38 on one line, partial.** In a direction with basis `Fourier` the interpolation weights give the
value of every trigonometric series at `X + a` instead of `X`. The full statement is that they give
`Spec.fourSeries a b c n X`; this holds when the interval starts at `a = 0`. -/
theorem C38_weights_fourier_partial (a b : ℝ) (hab : a ≠ b) (n : Nat) (hn : 0 < n)
    (c u M0 BM : Nat → ℝ) (X : ℝ)
    (hu : ∀ j, j < n → u j = Spec.fourSeries a b c n (pointPeriodic a b n j)) :
    scalarProd (basisTimesCoeffMatrix (fun k => fourBasis a b k n X) (initMatrix M0 n fourCoeffs)
      BM n) u n = Spec.fourSeries a b c n (X + a) ∧
    (a = 0 → scalarProd (basisTimesCoeffMatrix (fun k => fourBasis a b k n X)
      (initMatrix M0 n fourCoeffs) BM n) u n = Spec.fourSeries a b c n X) := by
  have h : scalarProd (basisTimesCoeffMatrix (fun k => fourBasis a b k n X) (initMatrix M0 n fourCoeffs)
      BM n) u n = Spec.fourSeries a b c n (X + a) := by
    rw [weights_generic _ n (fourCoeffs_linear n) _ _ _ _ (fun _ => 0) (fun _ => 0),
      fourBasis_sum a b _ n hn X]
    exact fourSeries_congr a b _ _ n hn _ fun k hk => fourier_series a b hab n hn c u _ hu k hk
  exact ⟨h, fun h0 => by rw [h, h0, add_zero]⟩

/-- **C38 fails for Fourier directions that do not start at 0.** Two points 1 and 2 of the interval from
1 to 3 with values 1 and 0: at the first point the interpolation gives the value of the second. -/
theorem C38_fourier_counterexample (M0 BM : Nat → ℝ) :
    pointPeriodic 1 3 2 0 = 1 ∧
    scalarProd (basisTimesCoeffMatrix (fun k => fourBasis 1 3 k 2 1) (initMatrix M0 2 fourCoeffs) BM 2)
      (fun j => if j = 0 then 1 else 0) 2 = 0 := by
  refine ⟨by norm_num [pointPeriodic], ?_⟩
  have key : ∀ X : ℝ, Spec.fourSeries 1 3 (fun _ => 1) 2 X = (1 + cos (π * (X - 1))) / 2 := by
    intro X
    have hpi : 2 * π * (X - 1) / (3 - 1) = π * (X - 1) := by ring
    unfold Spec.fourSeries
    rw [hpi]
    norm_num
  rw [(C38_weights_fourier_partial 1 3 (by norm_num) 2 (by norm_num) (fun _ => 1) _ M0 BM 1 ?_).1, key]
  · norm_num
  · intro j hj
    have : j = 0 ∨ j = 1 := by omega
    rcases this with h | h <;> subst h <;> rw [key] <;> norm_num [pointPeriodic]

/-- The cell search finds the grid point itself on increasing grid points. -/
theorem fdCell_point {K : Type} [Field K] [LinearOrder K] [IsStrictOrderedRing K] (x : Nat → K)
    (N i : Nat) (hx : ∀ i, i + 1 < N → x i < x (i + 1)) (hi : i < N) : fdCell x N (x i) = i := by
  have hmono : ∀ d i, i + d + 1 < N + 0 → x i < x (i + d + 1) := by
    intro d
    induction d with
    | zero => intro i h; exact hx i (by omega)
    | succ d ih => intro i h; exact (ih i (by omega)).trans (hx (i + d + 1) (by omega))
  have hlt : ∀ i j, i < j → j < N → x i < x j := by
    intro i j h1 h2
    obtain ⟨d, rfl⟩ : ∃ d, j = i + d + 1 := ⟨j - i - 1, by omega⟩
    exact hmono d i (by omega)
  have hno : ∀ l, l < i → ¬ x i < (x l + x (l + 1)) * (1 / 2) := by
    intro l hl h
    have h1 := hlt l i hl hi
    have h2 : x (l + 1) ≤ x i := by
      rcases Nat.lt_or_eq_of_le (Nat.succ_le_of_lt hl) with h | h
      · exact (hlt (l + 1) i h hi).le
      · exact (congrArg x h).le
    linarith
  unfold fdCell
  by_cases hl : i = N - 1
  · rw [List.find?_eq_none.2]
    · simp [hl]
    · intro l hl'
      have := List.mem_range.1 hl'
      simpa using hno l (by omega)
  · rw [List.find?_range_eq_some.2]
    · rfl
    · refine ⟨?_, by simpa using (by omega : i < N - 1), ?_⟩
      · have := hx i (by omega)
        simp only [decide_eq_true_eq]
        linarith
      · intro l hl
        simpa using hno l hl

/-- **C38 on one line.** In a finite-difference direction (with increasing grid points and the basis
functions `fd_basis1`, `fd_basis2`, `fd_basis3`) the sum over basis functions at a grid point is the
value at this point. -/
theorem C38_fd {K : Type} [Field K] [LinearOrder K] [IsStrictOrderedRing K] (x : Nat → K)
    (N i : Nat) (hx : ∀ i, i + 1 < N → x i < x (i + 1)) (hi : i < N) (u : Nat → K) :
    ∑ k ∈ range N, u k * fdBasis x k N (x i) = u i := by
  rw [sum_eq_single_of_mem i (mem_range.2 hi)]
  · rw [fdBasis, fdCell_point x N i hx hi, if_pos rfl, mul_one]
  · intro k _ hk
    rw [fdBasis, fdCell_point x N i hx hi, if_neg hk, mul_zero]

/-- An upper bound for the cosine between 0 and π. -/
theorem cos_upper {x : ℝ} (h0 : 0 ≤ x) (h1 : x ≤ π) : cos x ≤ 1 - 2 / π ^ 2 * x ^ 2 := by
  have h := mul_le_sin (x := x / 2) (by linarith) (by linarith)
  have hx : cos x = 1 - 2 * sin (x / 2) ^ 2 := by
    have h1 := cos_two_mul (x / 2)
    have h2 := sin_sq_add_cos_sq (x / 2)
    rw [mul_div_cancel₀ x two_ne_zero] at h1
    linarith
  have hp : 0 ≤ 2 / π * (x / 2) := by positivity
  have : (2 / π * (x / 2)) ^ 2 ≤ sin (x / 2) ^ 2 := pow_le_pow_left₀ hp h 2
  have e : (2 / π * (x / 2)) ^ 2 = 1 / π ^ 2 * x ^ 2 := by field_simp
  rw [hx, show 2 / π ^ 2 * x ^ 2 = 2 * (1 / π ^ 2 * x ^ 2) by ring]
  linarith

/-- Interior points of a Chebyshev grid with at most 10000 points are not so close to the ends that
`cheb_basisfunc` takes them for the ends. -/
theorem extrema_away (a b : ℝ) (hab : a < b) (n j : Nat) (hn : 2 ≤ n) (hn2 : n ≤ 10000) (hj : j < n) :
    let X := pointExtrema a b n j
    X = a ∨ X = b ∨ ((X - a) / (b - a) > 1 / 10 ^ 10 ∧ (b - X) / (b - a) > 1 / 10 ^ 10) := by
  intro X
  have hba : 0 < b - a := by linarith
  by_cases h0 : j = 0
  · left; simp [X, pointExtrema, h0]
  by_cases h1 : j = n - 1
  · right; left; simp [X, pointExtrema, h1]; omega
  right; right
  have hN : (0 : ℝ) < (n - 1 : Nat) := by
    have : 0 < n - 1 := by omega
    positivity
  have hNle : ((n - 1 : Nat) : ℝ) ≤ 10000 := by exact_mod_cast (by omega : n - 1 ≤ 10000)
  have hcos : ∀ i : Nat, 1 ≤ i → i ≤ n - 1 → cos (i * π / (n - 1 : Nat)) ≤ 1 - 2 / 10 ^ 8 := by
    intro i hi1 hi2
    have hle : (i : ℝ) ≤ (n - 1 : Nat) := by exact_mod_cast hi2
    have hge : (1 : ℝ) ≤ i := by exact_mod_cast hi1
    have hb1 : 0 ≤ i * π / (n - 1 : Nat) := by positivity
    have hb2 : i * π / (n - 1 : Nat) ≤ π := by
      rw [div_le_iff₀ hN]; nlinarith [pi_pos]
    have := cos_upper hb1 hb2
    have hsq : (2 / π ^ 2) * (i * π / (n - 1 : Nat)) ^ 2 = 2 * (i / (n - 1 : Nat)) ^ 2 := by
      field_simp
    rw [hsq] at this
    have hr : (1 / 10000 : ℝ) ≤ i / (n - 1 : Nat) := by
      rw [div_le_div_iff₀ (by norm_num) hN]; nlinarith
    nlinarith
  have hX : X = 1 / 2 * ((a - b) * cos (j * π / (n - 1 : Nat)) + (a + b)) := pointExtrema_eq a b n j hn hj
  have hc1 := hcos j (by omega) (by omega)
  have hc2 := hcos (n - 1 - j) (by omega) (by omega)
  have hrefl : cos ((n - 1 - j : Nat) * π / (n - 1 : Nat)) = -cos (j * π / (n - 1 : Nat)) := by
    rw [← cos_pi_sub]
    congr 1
    rw [Nat.cast_sub (by omega)]
    field_simp
  rw [hrefl] at hc2
  generalize cos (j * π / (n - 1 : Nat)) = y at hX hc1 hc2
  constructor
  · rw [gt_iff_lt, lt_div_iff₀ hba, hX]; nlinarith
  · rw [gt_iff_lt, lt_div_iff₀ hba, hX]; nlinarith

/-- **C38 on one line.** At the grid points of a `ChebExtrema` direction with at most 10000 points the
sum of coefficients times basis functions is the value at the grid point, for all values. -/
theorem C38_extrema_grid (a b : ℝ) (hab : a < b) (n j : Nat) (hn : 2 ≤ n) (hn2 : n ≤ 10000) (hj : j < n)
    (u w : Nat → ℝ) :
    ∑ k ∈ range n, chebFromExtrema w u (n - 1) k * chebBasis a b k (pointExtrema a b n j) = u j := by
  rw [chebBasis_sum a b hab _ n (by omega) _ (extrema_away a b hab n j hn hn2 hj),
    ← onExtrema_series a b hab.ne _ (fun _ => 0) n j hn hj, C31_extrema (n - 1) (by omega) u w _ j (by omega)]

/-- **C38 on one line.** The same for `ChebZeros` directions. -/
theorem C38_zeros_grid (a b : ℝ) (hab : a < b) (n j : Nat) (hn2 : n ≤ 10000) (hj : j < n)
    (u w : Nat → ℝ) :
    ∑ k ∈ range n, chebFromZeros w u (n - 1) k * chebBasis a b k (pointZeros a b n j) = u j := by
  have hba : 0 < b - a := by linarith
  have hN : (0 : ℝ) < n := by
    have : 0 < n := by omega
    positivity
  have hNle : (n : ℝ) ≤ 10000 := by exact_mod_cast hn2
  have hcos : ∀ i : Nat, i < n → cos ((i + 1 / 2) * π / n) ≤ 1 - 1 / 10 ^ 9 := by
    intro i hi
    have hle : (i : ℝ) + 1 ≤ n := by exact_mod_cast hi
    have hb1 : 0 ≤ (i + 1 / 2) * π / n := by positivity
    have hb2 : (i + 1 / 2) * π / n ≤ π := by
      rw [div_le_iff₀ hN]; nlinarith [pi_pos]
    have := cos_upper hb1 hb2
    have hsq : (2 / π ^ 2) * ((i + 1 / 2) * π / n) ^ 2 = 2 * ((i + 1 / 2) / n) ^ 2 := by
      field_simp
    rw [hsq] at this
    have hr : (1 / 20000 : ℝ) ≤ (i + 1 / 2) / n := by
      rw [div_le_div_iff₀ (by norm_num) hN]; nlinarith [Nat.cast_nonneg (α := ℝ) i]
    nlinarith
  have hc1 := hcos j hj
  have hc2 := hcos (n - 1 - j) (by omega)
  have hrefl : cos (((n - 1 - j : Nat) + 1 / 2) * π / n) = -cos ((j + 1 / 2) * π / n) := by
    rw [← cos_pi_sub]
    congr 1
    have : ((n - 1 - j : Nat) : ℝ) = n - 1 - j := by
      rw [Nat.cast_sub (by omega), Nat.cast_sub (by omega)]; norm_num
    rw [this]
    field_simp
    ring
  rw [hrefl] at hc2
  have hX : pointZeros a b n j = 1 / 2 * ((a - b) * cos ((j + 1 / 2) * π / n) + (a + b)) := rfl
  rw [chebBasis_sum a b hab _ n (by omega) _ (Or.inr (Or.inr ⟨?_, ?_⟩)),
    ← onZeros_series a b hab.ne _ (fun _ => 0) n j hj, C32_zeros (n - 1) u w _ j (by omega)]
  · rw [gt_iff_lt, lt_div_iff₀ hba, hX]
    generalize cos ((j + 1 / 2) * π / n) = y at hc1 hc2 ⊢
    nlinarith
  · rw [gt_iff_lt, lt_div_iff₀ hba, hX]
    generalize cos ((j + 1 / 2) * π / n) = y at hc1 hc2 ⊢
    nlinarith

/-- The second derivative of `X²` on three points between 0 and 1. -/
example (D0 DD0 w : Nat → ℝ) (j : Nat) (hj : j < 3) :
    matTimesVec (initDiff D0 DD0 3 chebFromExtrema (fun out c m => chebDeriv 0 1 c out m)
      (fun out c m => chebOnExtrema c out m)).2 (fun j => pointExtrema 0 1 3 j ^ 2) w 3 j = 2 := by
  have h := (C71_extrema 0 1 (by norm_num) 3 (by norm_num) (X ^ 2)
    (by rw [degree_X_pow]; exact_mod_cast (by norm_num : 2 < 3)) (fun j => pointExtrema 0 1 3 j ^ 2) w D0 DD0
    (by intro j _; simp) j hj).2
  rw [h]
  simp only [derivative_X_pow, derivative_mul, map_natCast, derivative_natCast]
  norm_num

/-- Filtering the two highest of three Chebyshev coefficients leaves a constant: the first
coefficient is unchanged. -/
example (F0 u w w' : Nat → ℝ) : ∃ F, initFilter F0 2 3 chebFromExtrema chebFilter
    (fun out c m => chebOnExtrema c out m) = .ok F ∧
    chebFromExtrema w (matTimesVec F u w' 3) 2 0 = chebFromExtrema w u 2 0 ∧
    chebFromExtrema w (matTimesVec F u w' 3) 2 1 = 0 ∧
    chebFromExtrema w (matTimesVec F u w' 3) 2 2 = 0 := by
  obtain ⟨F, h1, h2, -⟩ := (C39_filter 3 2 (by norm_num) (by norm_num) F0).1 (by norm_num)
  exact ⟨F, h1, h2 u w w' 0 (by norm_num), h2 u w w' 1 (by norm_num), h2 u w w' 2 (by norm_num)⟩

/-- The value of `X²` at 1/2 from its values on three points between 0 and 1. -/
example (M0 BM : Nat → ℝ) :
    scalarProd (basisTimesCoeffMatrix (fun k => chebBasis 0 1 k (1 / 2)) (initMatrix M0 3 chebFromExtrema)
      BM 3) (fun j => pointExtrema 0 1 3 j ^ 2) 3 = 1 / 4 := by
  rw [C38_weights_extrema 0 1 (by norm_num) 3 (by norm_num) (X ^ 2)
    (by rw [degree_X_pow]; exact_mod_cast (by norm_num : 2 < 3)) (1 / 2) (by norm_num) _ _ _ (by intro j _; simp)]
  norm_num

/-- The second of three points. -/
example : fdCell (fun i => (i : ℚ) ^ 2) 3 1 = 1 := by decide +kernel

end Sgrid
