import Verif.Model.SphHarm
import Verif.Props.Ylm
import Verif.Props.Wigner
import Mathlib.Analysis.Complex.Trigonometric

/-!
# C139: tables of spherical harmonics
-/

namespace Sgrid
open Real Finset Polynomial

/-! ## Specification -/

/-- Spherical harmonics, for `m ≥ 0` with the normalised Legendre functions `P_l^m = (-1)^m sin^m q_l(cos)`,
for negative `m` with `Y_l^{-m} = (-1)^m conj(Y_l^m)`. -/
noncomputable def Spec.sphY (q : Nat → Nat → ℝ[X]) (l : Nat) (m : ℤ) (th ph : ℝ) : ℂ :=
  (((if m < 0 then (-1) ^ m.natAbs else 1) * (Spec.legP m.natAbs (q m.natAbs) l th / √(2 * π)) : ℝ) : ℂ) *
    Complex.exp (((m * ph : ℝ) : ℂ) * Complex.I)

/-! ## Positions in the tables -/

theorem indLm_succ (l : Nat) : indLm (l + 1) 0 = indLm l 0 + l + 1 := by
  unfold indLm
  have : (l + 1) * (l + 1 + 1) = l * (l + 1) + 2 * (l + 1) := by ring
  omega

theorem indLm_add (l m : Nat) : indLm l m = indLm l 0 + m := by simp [indLm]

theorem indLm_mono {l l' : Nat} (h : l ≤ l') : indLm l 0 ≤ indLm l' 0 := by
  induction l', h using Nat.le_induction with
  | base => exact le_refl _
  | succ k _ ih => have := indLm_succ k; omega

theorem indLm_lt {l l' m m' : Nat} (h : l < l') (hm : m ≤ l) : indLm l m < indLm l' m' := by
  have h1 := indLm_mono (show l + 1 ≤ l' by omega)
  have h2 := indLm_succ l
  rw [indLm_add l m, indLm_add l' m']
  omega

theorem indLm_inj {l l' m m' : Nat} (hm : m ≤ l) (hm' : m' ≤ l') (h : indLm l m = indLm l' m') :
    l = l' ∧ m = m' := by
  rcases Nat.lt_trichotomy l l' with hl | hl | hl
  · have := indLm_lt (m' := m') hl hm; omega
  · subst hl
    rw [indLm_add l m, indLm_add l m'] at h
    omega
  · have := indLm_lt (m' := m) hl hm'; omega

/-! ## Legendre functions -/

/-- `P_{m+n}^m`. -/
noncomputable def plegV (m : Nat) (x : ℝ) : Nat → ℝ
  | 0 => plegMM m x
  | 1 => x * (2 * m + 1) * plegMM m x
  | n + 2 => (x * (2 * (m + n + 2 : ℕ) - 1) * plegV m x (n + 1) - ((m + n + 2 : ℕ) + m - 1) * plegV m x n) /
      ((m + n + 2 : ℕ) - m)

theorem plegLoop (m : Nat) (x : ℝ) (n : Nat) :
    upLoop (m + 2) (m + 2 + n) (plegStep m x) (plegV m x 0, plegV m x 1) = (plegV m x n, plegV m x (n + 1)) := by
  induction n with
  | zero => rw [upLoop_nil (by omega)]
  | succ n ih =>
    rw [← Nat.add_assoc, upLoop_succ (by omega), ih]
    unfold plegStep
    rw [plegV, show m + 2 + n = m + n + 2 by omega]

theorem plegMM_eq (m : Nat) (x : ℝ) :
    plegMM m x = (-1) ^ m * (∏ i ∈ range m, (2 * (i : ℝ) + 1)) * √((1 - x) * (1 + x)) ^ m := by
  have h : ∀ k, upLoop 1 (k + 1) (fun _ (s : ℝ × ℝ) => (s.1 * (-s.2 * √((1 - x) * (1 + x))), s.2 + 2)) (1, 1) =
      ((-1) ^ k * (∏ i ∈ range k, (2 * (i : ℝ) + 1)) * √((1 - x) * (1 + x)) ^ k, 2 * (k : ℝ) + 1) := by
    intro k
    induction k with
    | zero => rw [upLoop_nil (by omega)]; simp
    | succ k ih =>
      rw [upLoop_succ (by omega), ih, prod_range_succ]
      refine Prod.ext ?_ ?_
      · simp only; ring
      · push_cast; ring
  unfold plegMM
  by_cases h0 : 0 < m
  · rw [if_pos h0]
    simp only
    rw [h m]
  · have : m = 0 := by omega
    subst this
    simp

theorem pLegendre_ok {l m : Nat} (hm : m ≤ l) {x : ℝ} (hx : |x| ≤ 1) : pLegendre l m x = .ok (plegV m x (l - m)) := by
  obtain ⟨n, rfl⟩ := Nat.exists_eq_add_of_le hm
  unfold pLegendre
  rw [if_neg (by push Not; exact ⟨by omega, by omega, hx⟩)]
  simp only [Int.toNat_natCast, Nat.add_sub_cancel_left]
  rcases n with _ | _ | n
  · rw [if_pos (by omega), plegV]
  · rw [if_neg (by omega), if_pos (by omega), plegV]
  · rw [if_neg (by omega), if_neg (by omega)]
    have := plegLoop m x (n + 1)
    rw [show m + 2 + (n + 1) = m + (n + 1 + 1) + 1 by omega, plegV, plegV] at this
    rw [this]

theorem prod_odd (m : Nat) : (∏ i ∈ range m, (2 * (i : ℝ) + 1)) * (2 ^ m * m.factorial) = (2 * m).factorial := by
  induction m with
  | zero => simp
  | succ m ih =>
    rw [prod_range_succ, show 2 * (m + 1) = 2 * m + 1 + 1 by ring, Nat.factorial_succ, Nat.factorial_succ,
      Nat.factorial_succ]
    push_cast
    rw [← ih]
    ring

/-- What `fac` has been divided by. -/
noncomputable def ylmDen (l m : Nat) : ℝ := ∏ j ∈ range m, (((l : ℝ) + j + 1) * (l - j))

theorem ylmDen_eq {l m : Nat} (h : m ≤ l) : ylmDen l m * (l - m).factorial = (l + m).factorial := by
  induction m with
  | zero => simp [ylmDen]
  | succ m ih =>
    have ih := ih (by omega)
    unfold ylmDen at ih ⊢
    rw [prod_range_succ]
    rw [show l - m = (l - (m + 1)) + 1 by omega, Nat.factorial_succ] at ih
    rw [← Nat.add_assoc, Nat.factorial_succ]
    have e : ((l - (m + 1) + 1 : ℕ) : ℝ) = l - m := by
      rw [show l - (m + 1) + 1 = l - m by omega, Nat.cast_sub (by omega)]
    push_cast at ih e ⊢
    rw [← ih, e]
    ring

/-- The factor of `P_l^m`. -/
noncomputable def ylmN (l m : Nat) : ℝ := √((2 * l + 1) * (1 / (4 * π)) / ylmDen l m)

theorem ylmDen_pos {l m : Nat} (h : m ≤ l) : 0 < ylmDen l m := by
  have := ylmDen_eq h
  have h1 : (0 : ℝ) < (l - m).factorial := by positivity
  have h2 : (0 : ℝ) < (l + m).factorial := by positivity
  by_contra hc
  push Not at hc
  nlinarith

theorem ylmN_sq {l m : Nat} (h : m ≤ l) : ylmN l m ^ 2 * (4 * π * (l + m).factorial) = (2 * l + 1) * (l - m).factorial := by
  have hp := ylmDen_pos h
  unfold ylmN
  rw [sq_sqrt (by positivity), ← ylmDen_eq h]
  have := pi_pos
  field_simp

theorem ylmN_pos {l m : Nat} (h : m ≤ l) : 0 < ylmN l m := by
  have hp := ylmDen_pos h
  unfold ylmN
  positivity

theorem ylmN_step (m n : Nat) : legA m (m + n + 1) * ylmN (m + n + 1) m = ylmN (m + n) m * ((n + 1) / (2 * (m + n) + 1)) := by
  have h1 := ylmN_sq (l := m + n + 1) (m := m) (by omega)
  have h2 := ylmN_sq (l := m + n) (m := m) (by omega)
  have hp1 := ylmN_pos (l := m + n + 1) (m := m) (by omega)
  have hp2 := ylmN_pos (l := m + n) (m := m) (by omega)
  have ha := legA_pos (m := m) (l := m + n + 1) (by omega)
  refine sq_eq_of_pos (by positivity) (by positivity) ?_
  rw [mul_pow, mul_pow, legA_sq (by omega) (by omega)]
  rw [show m + n + 1 + m = (m + n + m) + 1 by omega, show m + n + 1 - m = (m + n - m) + 1 by omega,
    Nat.factorial_succ, Nat.factorial_succ] at h1
  have hf1 : (0 : ℝ) < (m + n + m).factorial := by positivity
  have hf2 : (0 : ℝ) < (m + n - m).factorial := by positivity
  have e0 : ((m + n - m : ℕ) : ℝ) = n := by rw [Nat.add_sub_cancel_left]
  push_cast at h1 h2 e0 ⊢
  rw [e0] at h1
  have hpi := pi_pos
  generalize ((m + n + m).factorial : ℝ) = f1 at *
  generalize ((m + n - m).factorial : ℝ) = f2 at *
  generalize ylmN (m + n + 1) m ^ 2 = N1 at *
  generalize ylmN (m + n) m ^ 2 = N2 at *
  have k1 : N1 = (2 * (m + n + 1) + 1) * ((n + 1) * f2) / (4 * π * ((m + n + m + 1) * f1)) := by
    rw [eq_div_iff (by positivity)]; linarith
  have k2 : N2 = (2 * (m + n) + 1) * f2 / (4 * π * f1) := by
    rw [eq_div_iff (by positivity)]; linarith
  rw [k1, k2, show (4 : ℝ) * (m + n + 1) ^ 2 - 1 = (2 * (m + n) + 1) * (2 * (m + n) + 3) by ring,
    show ((m : ℝ) + n + 1) ^ 2 - m ^ 2 = (n + 1) * (m + n + m + 1) by ring]
  field_simp
  ring

theorem ylmN_back (m n : Nat) : ylmN (m + n + 1) m * ((m + n + 1 + m) / (2 * (m + n + 1) + 1)) =
    legA m (m + n + 1) * ylmN (m + n) m := by
  have h := ylmN_step m n
  have ha := legA_pos (m := m) (l := m + n + 1) (by omega)
  have hq := legA_sq (m := m) (l := m + n + 1) (by omega) (by omega)
  have e : ylmN (m + n) m = legA m (m + n + 1) * ylmN (m + n + 1) m * ((2 * (m + n) + 1) / (n + 1)) := by
    rw [h]; field_simp
  rw [e]
  push_cast at hq
  rw [show legA m (m + n + 1) * (legA m (m + n + 1) * ylmN (m + n + 1) m * ((2 * ((m : ℝ) + n) + 1) / (n + 1))) =
    legA m (m + n + 1) ^ 2 * ylmN (m + n + 1) m * ((2 * (m + n) + 1) / (n + 1)) by ring, hq,
    show (4 : ℝ) * (m + n + 1) ^ 2 - 1 = (2 * (m + n) + 1) * (2 * (m + n) + 3) by ring,
    show ((m : ℝ) + n + 1) ^ 2 - m ^ 2 = (n + 1) * (m + n + m + 1) by ring]
  have : (2 : ℝ) * (m + n + 1) + 1 = 2 * (m + n) + 3 := by ring
  rw [this]
  field_simp
  ring

theorem ylmN_start (m : Nat) {s : ℝ} : ylmN m m * ((-1) ^ m * (∏ i ∈ range m, (2 * (i : ℝ) + 1)) * s ^ m) =
    1 / √(2 * π) * (s ^ m * pmmCons m) := by
  obtain ⟨c, hc0, hc, hn⟩ := pmmCons_abs m
  have hi := intP_legW m
  have ho := prod_odd m
  have hN := ylmN_sq (l := m) (m := m) (le_refl _)
  have hp := ylmN_pos (l := m) (m := m) (le_refl _)
  have hO : 0 < ∏ i ∈ range m, (2 * (i : ℝ) + 1) := prod_pos fun i _ => by positivity
  rw [hc]
  have key : ylmN m m * (∏ i ∈ range m, (2 * (i : ℝ) + 1)) = 1 / √(2 * π) * c := by
    refine sq_eq_of_pos (by positivity) (by positivity) ?_
    rw [mul_pow, mul_pow, div_pow, sq_sqrt (by positivity)]
    have hW : 0 < intP (legW m) := by
      by_contra h; push Not at h; nlinarith [sq_nonneg c]
    have e1 : c ^ 2 = 1 / intP (legW m) := by rw [eq_div_iff hW.ne']; exact hn
    rw [Nat.factorial_succ] at hi
    rw [← two_mul, Nat.sub_self] at hN
    push_cast at hi
    have hf : (0 : ℝ) < m.factorial := by positivity
    have hf2 : (0 : ℝ) < (2 * m).factorial := by positivity
    have e2 : intP (legW m) = 2 * 4 ^ m * (m.factorial : ℝ) ^ 2 / ((2 * m + 1) * (2 * m).factorial) := by
      rw [eq_div_iff (by positivity)]; linarith
    have e3 : ylmN m m ^ 2 = (2 * m + 1) / (4 * π * (2 * m).factorial) := by
      rw [eq_div_iff (by positivity)]; simp at hN; linarith
    have e4 : ∏ i ∈ range m, (2 * (i : ℝ) + 1) = (2 * m).factorial / (2 ^ m * m.factorial) := by
      rw [eq_div_iff (by positivity)]; exact ho
    have e5 : (4 : ℝ) ^ m = 2 ^ m * 2 ^ m := by rw [← mul_pow]; norm_num
    rw [e1, e2, e3, e4, e5]
    have := pi_pos
    field_simp
    ring
  linear_combination ((-1) ^ m * s ^ m) * key

/-- The functions in the table are the normalised ones. -/
theorem plegV_norm (m n : Nat) {th : ℝ} (h : 0 ≤ sin th) :
    ylmN (m + n) m * plegV m (cos th) n = 1 / √(2 * π) * Spec.legP m (legF m) (m + n) th := by
  have hs : √((1 - cos th) * (1 + cos th)) = sin th := by
    rw [show (1 - cos th) * (1 + cos th) = sin th ^ 2 by rw [sin_sq]; ring, sqrt_sq h]
  have hl : ∀ k, Spec.legP m (legF m) (m + k) th = sin th ^ m * (legQ m k).eval (cos th) := by
    intro k
    unfold Spec.legP legF
    rw [eval_mul, eval_C, Nat.add_sub_cancel_left]
    have : ((-1 : ℝ) ^ m) * (-1) ^ m = 1 := by rw [← mul_pow]; norm_num
    linear_combination (sin th ^ m * eval (cos th) (legQ m k)) * this
  have hrec := (legQ_rec m).rec'
  induction n using Nat.strong_induction_on with
  | _ n ih =>
    rw [hl]
    rcases n with _ | n
    · rw [plegV, plegMM_eq, hs, legQ_zero, eval_C]
      exact ylmN_start m
    · have ha := legA_pos (m := m) (l := m + n + 1) (by omega)
      apply mul_left_cancel₀ ha.ne'
      have hr := congrArg (eval (cos th)) (hrec n)
      simp only [eval_mul, eval_C, eval_sub, eval_X] at hr
      have i1 := ih n (by omega)
      rw [hl] at i1
      have st := ylmN_step m n
      rw [show m + (n + 1) = m + n + 1 by omega] at hr ⊢
      rcases n with _ | n
      · rw [plegV]
        rw [plegV] at i1
        rw [Nat.add_zero] at i1 st
        push_cast at st
        have e : ylmN m m * ((0 + 1) / (2 * (m + 0) + 1)) * (2 * m + 1) = ylmN m m := by
          rw [zero_add, add_zero]; field_simp
        simp only [Nat.add_zero, Nat.zero_add, legA_self] at st hr ⊢
        linear_combination (cos th * (2 * m + 1) * plegMM m (cos th)) * st + (cos th * plegMM m (cos th)) * e + cos th * i1 -
          1 / √(2 * π) * sin th ^ m * hr
      · have i2 := ih n (by omega)
        rw [hl] at i2
        have bk := ylmN_back m n
        rw [show n + 1 - 1 = n by omega] at hr
        rw [plegV]
        rw [show m + (n + 1) = m + n + 1 by omega] at hr i1 st ⊢
        push_cast at st ⊢
        generalize legA m (m + n + 1 + 1) = a2 at *
        generalize legA m (m + n + 1) = a1 at *
        generalize plegV m (cos th) n = v0 at *
        generalize plegV m (cos th) (n + 1) = v1 at *
        generalize ylmN (m + n + 1 + 1) m = N2 at *
        generalize ylmN (m + n + 1) m = N1 at *
        generalize ylmN (m + n) m = N0 at *
        have e1 : (m + n + 2 : ℝ) - m = n + 2 := by ring
        rw [e1]
        have p1 : (n : ℝ) + 2 ≠ 0 := by positivity
        have p2 : (2 : ℝ) * (m + n + 1) + 1 ≠ 0 := by positivity
        have e2 : a2 * (N2 * ((cos th * (2 * (m + n + 2) - 1) * v1 - (m + n + 2 + m - 1) * v0) / (n + 2))) =
            cos th * (N1 * v1) - a1 * (N0 * v0) := by
          have : a2 * (N2 * ((cos th * (2 * ((m : ℝ) + n + 2) - 1) * v1 - (m + n + 2 + m - 1) * v0) / (n + 2))) =
            (a2 * N2) * ((cos th * (2 * (m + n + 2) - 1) * v1 - (m + n + 2 + m - 1) * v0) / (n + 2)) := by ring
          rw [this, st, ← mul_assoc a1, ← bk]
          have e3 : (2 : ℝ) * (m + (n + 1)) + 1 = 2 * (m + n + 1) + 1 := by ring
          have e4 : (n : ℝ) + 1 + 1 = n + 2 := by ring
          rw [e3, e4]
          field_simp
          ring
        rw [e2, i1, i2]
        linear_combination -(1 / √(2 * π) * sin th ^ m) * hr

/-! ## The tables -/

theorem setPlmFor_at {lmax m : Nat} (h : m ≤ lmax) {x : ℝ} (hx : |x| ≤ 1) (P : Nat → ℝ) :
    ∃ P', setPlmFor lmax m x P = .ok P' ∧ (∀ l, m ≤ l → l ≤ lmax → P' (indLm l m) = plegV m x (l - m)) ∧
      ∀ i, (∀ l, m ≤ l → l ≤ lmax → i ≠ indLm l m) → P' i = P i := by
  unfold setPlmFor
  rw [if_neg (by omega), pLegendre_ok (le_refl m) hx, Nat.sub_self, Res.bind_ok]
  simp only
  by_cases he : m = lmax
  · rw [if_pos he]
    refine ⟨_, rfl, fun l h1 h2 => ?_, fun i hi => ?_⟩
    · have : l = m := by omega
      subst this
      rw [aset_self, Nat.sub_self]
    · exact aset_ne _ _ (hi m (le_refl _) h)
  · rw [if_neg he]
    refine ⟨_, rfl, ?_⟩
    have e1 : x * (2 * m + 1) * plegV m x 0 = plegV m x 1 := by rw [plegV, plegV]
    rw [e1]
    have inv := upLoop_inv (lo := m + 2) (hi := lmax + 1) (by omega)
      (body := fun k (s : (Nat → ℝ) × ℝ × ℝ) =>
        let q := plegStep m x k s.2
        (aset s.1 (indLm k m) q.2, q))
      (s := (aset (aset P (indLm m m) (plegV m x 0)) (indLm (m + 1) m) (plegV m x 1), plegV m x 0, plegV m x 1))
      (fun k s => s.2 = (plegV m x (k - m - 2), plegV m x (k - m - 1)) ∧
        (∀ l, m ≤ l → l < k → s.1 (indLm l m) = plegV m x (l - m)) ∧
        ∀ i, (∀ l, m ≤ l → l < k → i ≠ indLm l m) → s.1 i = P i) ?_ ?_
    · obtain ⟨-, h2, h3⟩ := inv
      exact ⟨fun l k1 k2 => h2 l k1 (by omega), fun i hi => h3 i fun l k1 k2 => hi l k1 (by omega)⟩
    · refine ⟨?_, fun l k1 k2 => ?_, fun i hi => ?_⟩
      · rw [show m + 2 - m - 2 = 0 by omega, show m + 2 - m - 1 = 1 by omega]
      · simp only
        by_cases hl : l = m + 1
        · subst hl
          rw [aset_self, Nat.add_sub_cancel_left]
        · have : l = m := by omega
          subst this
          rw [aset_ne _ _ (by have := indLm_lt (l := l) (l' := l + 1) (m := l) (m' := l) (by omega) (le_refl _); omega),
            aset_self, Nat.sub_self]
      · simp only
        rw [aset_ne _ _ (hi _ (by omega) (by omega)), aset_ne _ _ (hi _ (by omega) (by omega))]
    · rintro k ⟨T, s⟩ k1 k2 ⟨i1, i2, i3⟩
      simp only at i1 i2 i3
      have hst : plegStep m x k s = (plegV m x (k - m - 1), plegV m x (k - m)) := by
        obtain ⟨n, rfl⟩ := Nat.exists_eq_add_of_le k1
        rw [i1]
        unfold plegStep
        rw [show m + 2 + n - m - 2 = n by omega, show m + 2 + n - m - 1 = n + 1 by omega,
          show m + 2 + n - m = n + 2 by omega, plegV, show m + 2 + n = m + n + 2 by omega]
      simp only [hst]
      refine ⟨by rw [show k + 1 - m - 2 = k - m - 1 by omega, show k + 1 - m - 1 = k - m by omega], fun l l1 l2 => ?_,
        fun i hi => ?_⟩
      · by_cases hl : l = k
        · rw [hl, aset_self]
        · rw [aset_ne _ _ (by have := indLm_lt (l := l) (l' := k) (m := m) (m' := m) (by omega) l1; omega),
            i2 l l1 (by omega)]
      · rw [aset_ne _ _ (hi k (by omega) (by omega)), i3 i fun l l1 l2 => hi l l1 (by omega)]

/-- **C139.** `set_PlmTab` sets the entries `ind_lm(l,m)`, `m ≤ l ≤ lmax`, to what `PLegendre` returns and
no other. -/
theorem C139_plm (lmax : Nat) {x : ℝ} (hx : |x| ≤ 1) (P : Nat → ℝ) :
    ∃ P', setPlmTab lmax x P = .ok P' ∧
      (∀ l m, m ≤ l → l ≤ lmax → pLegendre l m x = .ok (plmFromTab P' l m)) ∧
      ∀ i, lmax * (lmax + 1) / 2 + lmax + 1 ≤ i → P' i = P i := by
  unfold setPlmTab
  obtain ⟨P', h, h1, h2⟩ := forN_inv (n := lmax + 1) (body := fun m P => setPlmFor lmax m x P) (s := P)
    (fun k P' => (∀ l m, m < k → m ≤ l → l ≤ lmax → P' (indLm l m) = plegV m x (l - m)) ∧
      ∀ i, lmax * (lmax + 1) / 2 + lmax + 1 ≤ i → P' i = P i) ⟨fun l m h => by omega, fun i _ => rfl⟩ (by
    rintro k hk T ⟨i1, i2⟩
    obtain ⟨T', e, e1, e2⟩ := setPlmFor_at (show k ≤ lmax by omega) hx T
    refine ⟨T', e, fun l m hm hl hL => ?_, fun i hi => ?_⟩
    · by_cases hmk : m = k
      · subst hmk; exact e1 l hl hL
      · rw [e2 _ fun l' a b hc => hmk (indLm_inj hl a hc).2, i1 l m (by omega) hl hL]
    · rw [e2 i fun l a b hc => ?_, i2 i hi]
      have := indLm_mono b
      rw [hc, indLm_add] at hi
      change indLm lmax 0 + lmax + 1 ≤ _ at hi
      omega)
  exact ⟨P', h, fun l m hm hl => by rw [pLegendre_ok hm hx, plmFromTab, h1 l m (by omega) hm hl], h2⟩

/-- **C139.** Bad arguments of `PLegendre` are refused. -/
theorem C139_refused (l m : ℤ) (x : ℝ) : pLegendre l m x = .abort ↔ m < 0 ∨ l < m ∨ 1 < |x| := by
  unfold pLegendre
  simp only
  constructor
  · intro h
    by_contra hc
    rw [if_neg hc] at h
    split_ifs at h
  · intro h
    rw [if_pos h]

/-- The inner loop of `set_YlmTabs`. -/
theorem setYlmInner (l : Nat) (ph : ℝ) (Re Im : Nat → ℝ) :
    let s := upLoop 0 (l + 1) (fun m (s : (Nat → ℝ) × (Nat → ℝ) × ℝ) =>
      let i := indLm l m
      let sfac := s.1 i * √s.2.2
      (aset s.1 i (sfac * cos (m * ph)), aset s.2.1 i (sfac * sin (m * ph)),
        s.2.2 / ((l + m + 1) * (l - m)))) (Re, Im, (2 * l + 1) * (1 / (4 * π)))
    (∀ m ≤ l, s.1 (indLm l m) = Re (indLm l m) * ylmN l m * cos (m * ph) ∧
      s.2.1 (indLm l m) = Re (indLm l m) * ylmN l m * sin (m * ph)) ∧
    ∀ i, (∀ m ≤ l, i ≠ indLm l m) → s.1 i = Re i ∧ s.2.1 i = Im i := by
  simp only
  have inv := upLoop_inv (lo := 0) (hi := l + 1) (by omega)
    (body := fun m (s : (Nat → ℝ) × (Nat → ℝ) × ℝ) =>
      (aset s.1 (indLm l m) (s.1 (indLm l m) * √s.2.2 * cos (m * ph)),
        aset s.2.1 (indLm l m) (s.1 (indLm l m) * √s.2.2 * sin (m * ph)),
        s.2.2 / ((l + m + 1) * (l - m)))) (s := (Re, Im, (2 * l + 1) * (1 / (4 * π))))
    (fun k s => s.2.2 = (2 * l + 1) * (1 / (4 * π)) / ylmDen l k ∧
      (∀ m < k, s.1 (indLm l m) = Re (indLm l m) * ylmN l m * cos (m * ph) ∧
        s.2.1 (indLm l m) = Re (indLm l m) * ylmN l m * sin (m * ph)) ∧
      ∀ i, (∀ m < k, i ≠ indLm l m) → s.1 i = Re i ∧ s.2.1 i = Im i) ?_ ?_
  · obtain ⟨-, h2, h3⟩ := inv
    exact ⟨fun m hm => h2 m (by omega), fun i hi => h3 i fun m hm => hi m (by omega)⟩
  · exact ⟨by simp [ylmDen], fun m hm => by omega, fun i _ => ⟨rfl, rfl⟩⟩
  · rintro k ⟨R, I, f⟩ - hk ⟨i1, i2, i3⟩
    simp only at i1 i2 i3 ⊢
    have hN : √f = ylmN l k := by rw [i1, ylmN]
    have hR : R (indLm l k) = Re (indLm l k) := (i3 _ fun m hm hc => by
      rw [indLm_add, indLm_add l m] at hc; omega).1
    refine ⟨?_, fun m hm => ?_, fun i hi => ?_⟩
    · rw [i1, ylmDen, ylmDen, prod_range_succ, div_div]
    · by_cases h : m = k
      · subst h
        rw [aset_self, aset_self, hN, hR]
        exact ⟨rfl, rfl⟩
      · have : indLm l m ≠ indLm l k := by rw [indLm_add, indLm_add l k]; omega
        rw [aset_ne _ _ this, aset_ne _ _ this]
        exact i2 m (by omega)
    · rw [aset_ne _ _ (hi k (by omega)), aset_ne _ _ (hi k (by omega))]
      exact i3 i fun m hm => hi m (by omega)

theorem setYlmLoops_at (lmax : Nat) (ph : ℝ) (Re Im : Nat → ℝ) :
    (∀ l ≤ lmax, ∀ m ≤ l,
      (setYlmLoops lmax ph (Re, Im)).1 (indLm l m) = Re (indLm l m) * ylmN l m * cos (m * ph) ∧
      (setYlmLoops lmax ph (Re, Im)).2 (indLm l m) = Re (indLm l m) * ylmN l m * sin (m * ph)) ∧
    ∀ i, indLm lmax lmax < i → (setYlmLoops lmax ph (Re, Im)).1 i = Re i ∧ (setYlmLoops lmax ph (Re, Im)).2 i = Im i := by
  unfold setYlmLoops
  have inv := upLoop_inv (lo := 0) (hi := lmax + 1) (by omega)
    (body := fun l (t : (Nat → ℝ) × (Nat → ℝ)) =>
      let s := upLoop 0 (l + 1) (fun m (s : (Nat → ℝ) × (Nat → ℝ) × ℝ) =>
        let i := indLm l m
        let sfac := s.1 i * √s.2.2
        (aset s.1 i (sfac * cos (m * ph)), aset s.2.1 i (sfac * sin (m * ph)),
          s.2.2 / ((l + m + 1) * (l - m)))) (t.1, t.2, (2 * l + 1) * (1 / (4 * π)))
      (s.1, s.2.1)) (s := (Re, Im))
    (fun k t => (∀ l < k, ∀ m ≤ l, t.1 (indLm l m) = Re (indLm l m) * ylmN l m * cos (m * ph) ∧
        t.2 (indLm l m) = Re (indLm l m) * ylmN l m * sin (m * ph)) ∧
      ∀ i, indLm k 0 ≤ i → t.1 i = Re i ∧ t.2 i = Im i) ?_ ?_
  · obtain ⟨h1, h2⟩ := inv
    refine ⟨fun l hl => h1 l (by omega), fun i hi => h2 i ?_⟩
    rw [indLm_succ]
    rw [indLm_add] at hi
    omega
  · exact ⟨fun l hl => by omega, fun i _ => ⟨rfl, rfl⟩⟩
  · rintro k ⟨R, I⟩ - hk ⟨i1, i2⟩
    obtain ⟨e1, e2⟩ := setYlmInner k ph R I
    simp only at i1 i2 e1 e2 ⊢
    refine ⟨fun l hl m hm => ?_, fun i hi => ?_⟩
    · by_cases h : l = k
      · subst h
        have := (i2 (indLm l m) (by rw [indLm_add l m]; omega)).1
        rw [← this]
        exact e1 m hm
      · obtain ⟨a1, a2⟩ := e2 (indLm l m) fun m' hm' hc => h (indLm_inj hm hm' hc).1
        rw [a1, a2]
        exact i1 l (by omega) m hm
    · rw [indLm_succ] at hi
      obtain ⟨a1, a2⟩ := e2 i fun m' hm' hc => by rw [indLm_add] at hc; omega
      rw [a1, a2]
      exact i2 i (by omega)

theorem sphY_re (q : Nat → Nat → ℝ[X]) (l : Nat) (m : ℤ) (th ph : ℝ) : (Spec.sphY q l m th ph).re =
    (if m < 0 then (-1) ^ m.natAbs else 1) * (Spec.legP m.natAbs (q m.natAbs) l th / √(2 * π)) * cos (m * ph) := by
  unfold Spec.sphY
  rw [Complex.re_ofReal_mul, Complex.exp_ofReal_mul_I_re]

theorem sphY_im (q : Nat → Nat → ℝ[X]) (l : Nat) (m : ℤ) (th ph : ℝ) : (Spec.sphY q l m th ph).im =
    (if m < 0 then (-1) ^ m.natAbs else 1) * (Spec.legP m.natAbs (q m.natAbs) l th / √(2 * π)) * sin (m * ph) := by
  unfold Spec.sphY
  rw [Complex.im_ofReal_mul, Complex.exp_ofReal_mul_I_im]

/-- **C139.** After `set_YlmTabs` the functions `Ylm_from_Tabs` gives are the spherical harmonics for all
`l ≤ lmax` and all `m` from `-l` to `l`; nothing outside the allocated tables is set. -/
theorem C139_table {q : Nat → Nat → ℝ[X]} (hq : ∀ m, Spec.LegendreFns m (q m)) (lmax : Nat) {th : ℝ} (ph : ℝ)
    (hth : 0 ≤ sin th) (Re Im : Nat → ℝ) :
    ∃ t, setYlmTabs lmax th ph Re Im = .ok t ∧
      (∀ l ≤ lmax, ∀ m : ℤ, |m| ≤ l →
        ylmFromTabs t.1 t.2 l m = ((Spec.sphY q l m th ph).re, (Spec.sphY q l m th ph).im)) ∧
      ∀ i, lmax * (lmax + 1) / 2 + lmax + 1 ≤ i → t.1 i = Re i ∧ t.2 i = Im i := by
  have hx : |cos th| ≤ 1 := abs_cos_le_one th
  obtain ⟨P, hP, h1, h2⟩ := C139_plm lmax hx Re
  unfold setYlmTabs
  rw [hP, Res.bind_ok]
  refine ⟨_, rfl, ?_, ?_⟩
  · intro l hl m hm
    have hm' : m.natAbs ≤ l := by rw [Int.abs_eq_natAbs] at hm; omega
    obtain ⟨k1, k2⟩ := (setYlmLoops_at lmax ph P Im).1 l hl m.natAbs hm'
    have hv : P (indLm l m.natAbs) * ylmN l m.natAbs = Spec.legP m.natAbs (q m.natAbs) l th / √(2 * π) := by
      have e := h1 l m.natAbs hm' hl
      rw [pLegendre_ok hm' hx, plmFromTab] at e
      obtain ⟨n, hn⟩ := Nat.exists_eq_add_of_le hm'
      have e' := plegV_norm m.natAbs n hth
      rw [← hn] at e'
      have e3 : plegV m.natAbs (cos th) (l - m.natAbs) = P (indLm l m.natAbs) := Res.ok.inj e
      rw [show l - m.natAbs = n by omega] at e3
      rw [mul_comm, ← e3, e']
      unfold Spec.legP
      rw [C108_unique (hq m.natAbs) (legQ_spec m.natAbs) hm']
      ring
    rw [hv] at k1 k2
    rw [sphY_re, sphY_im]
    unfold ylmFromTabs
    simp only
    by_cases h : m < 0
    · rw [if_pos h, k1, k2]
      have hma : (m.natAbs : ℝ) = -m := by
        have : (m.natAbs : ℤ) = -m := by omega
        rw [← Int.cast_natCast m.natAbs, this, Int.cast_neg]
      have hs : ((1 - 2 * (m.natAbs % 2 : ℕ) : ℤ) : ℝ) = (-1) ^ m.natAbs := by
        rcases Nat.mod_two_eq_zero_or_one m.natAbs with e | e
        · rw [e, (Nat.even_iff.2 e).neg_one_pow]; norm_num
        · rw [e, (Nat.odd_iff.2 e).neg_one_pow]; norm_num
      rw [hs, hma, neg_mul, cos_neg, sin_neg, if_pos h]
      refine Prod.ext ?_ ?_ <;> simp only <;> ring
    · rw [if_neg h, k1, k2]
      have hma : (m.natAbs : ℝ) = m := by
        have : (m.natAbs : ℤ) = m := by omega
        rw [← Int.cast_natCast m.natAbs, this]
      rw [hma, if_neg h]
      refine Prod.ext ?_ ?_ <;> simp only <;> ring
  · intro i hi
    obtain ⟨k1, k2⟩ := (setYlmLoops_at lmax ph P Im).2 i (by rw [indLm]; omega)
    exact ⟨k1.trans (h2 i hi), k2⟩

/-- **C139.** The usual formula: the harmonic is `√((2l+1)/(4π) (l-m)!/(l+m)!) P_l^m(cos θ) exp(i m φ)` with
the value of `PLegendre`. -/
theorem C139_formula {q : Nat → Nat → ℝ[X]} (hq : ∀ m, Spec.LegendreFns m (q m)) {l m : Nat} (hm : m ≤ l) {th : ℝ}
    (ph : ℝ) (hth : 0 ≤ sin th) :
    ∃ P, pLegendre l m (cos th) = .ok P ∧ Spec.sphY q l m th ph =
      ((√((2 * l + 1) / (4 * π) * ((l - m).factorial / (l + m).factorial)) * P : ℝ) : ℂ) *
        Complex.exp (((m * ph : ℝ) : ℂ) * Complex.I) := by
  refine ⟨_, pLegendre_ok hm (abs_cos_le_one th), ?_⟩
  unfold Spec.sphY
  rw [if_neg (by omega), one_mul, Int.natAbs_natCast, Int.cast_natCast]
  congr 2
  have hN : √((2 * l + 1) / (4 * π) * ((l - m).factorial / (l + m).factorial : ℝ)) = ylmN l m := by
    unfold ylmN
    congr 1
    rw [← ylmDen_eq hm]
    have := ylmDen_pos hm
    have := pi_pos
    field_simp
  obtain ⟨n, rfl⟩ := Nat.exists_eq_add_of_le hm
  rw [hN, Nat.add_sub_cancel_left, plegV_norm m n hth]
  unfold Spec.legP
  rw [C108_unique (hq m) (legQ_spec m) hm]
  ring

theorem legP_int {m : Nat} {q : Nat → ℝ[X]} (hq : Spec.LegendreFns m q) {l l' : Nat} (hl : m ≤ l) (hl' : m ≤ l') :
    ∫ th in (0 : ℝ)..π, Spec.legP m q l th * Spec.legP m q l' th * sin th = if l = l' then 1 else 0 := by
  rw [← hq.ortho l l' hl hl']
  have hd : ∀ x ∈ Set.uIcc (0 : ℝ) π, HasDerivAt cos (-sin x) x := fun x _ => hasDerivAt_cos x
  have h := intervalIntegral.integral_comp_mul_deriv (a := 0) (b := π) (f := cos) (f' := fun x => -sin x)
    (g := fun x => (1 - x ^ 2) ^ m * ((q l).eval x * (q l').eval x)) hd (by fun_prop)
    ((by fun_prop : Continuous fun x : ℝ => (1 - x ^ 2) ^ m).mul ((q l).differentiable.continuous.mul (q l').differentiable.continuous))
  rw [cos_zero, cos_pi, intervalIntegral.integral_symm (-1) 1] at h
  have h' := neg_eq_iff_eq_neg.2 h
  rw [← h', ← intervalIntegral.integral_neg]
  congr 1
  funext th
  unfold Spec.legP
  simp only [Function.comp]
  rw [show 1 - cos th ^ 2 = sin th ^ 2 by rw [sin_sq], ← pow_mul]
  have : ((-1 : ℝ) ^ m) * (-1) ^ m = 1 := by rw [← mul_pow]; norm_num
  rw [mul_comm 2 m, pow_mul]
  linear_combination (sin th ^ m * sin th ^ m * (eval (cos th) (q l) * eval (cos th) (q l')) * sin th) * this

/-- **C139.** The harmonics are orthonormal on the sphere (real and imaginary part of `∫ conj(Y) Y' dΩ`). -/
theorem C139_orthonormal {q : Nat → Nat → ℝ[X]} (hq : ∀ m, Spec.LegendreFns m (q m)) {l l' : Nat} {m m' : ℤ}
    (hm : |m| ≤ l) (hm' : |m'| ≤ l') :
    (∫ ph in (0 : ℝ)..(2 * π), ∫ th in (0 : ℝ)..π, ((Spec.sphY q l m th ph).re * (Spec.sphY q l' m' th ph).re +
        (Spec.sphY q l m th ph).im * (Spec.sphY q l' m' th ph).im) * sin th) = (if l = l' ∧ m = m' then 1 else 0) ∧
    (∫ ph in (0 : ℝ)..(2 * π), ∫ th in (0 : ℝ)..π, ((Spec.sphY q l m th ph).re * (Spec.sphY q l' m' th ph).im -
        (Spec.sphY q l m th ph).im * (Spec.sphY q l' m' th ph).re) * sin th) = 0 := by
  set s : ℝ := if m < 0 then (-1) ^ m.natAbs else 1 with hs
  set s' : ℝ := if m' < 0 then (-1) ^ m'.natAbs else 1 with hs'
  have e1 : ∀ ph th : ℝ, ((Spec.sphY q l m th ph).re * (Spec.sphY q l' m' th ph).re +
        (Spec.sphY q l m th ph).im * (Spec.sphY q l' m' th ph).im) * sin th =
      (s * s' / (2 * π) * cos (((m - m' : ℤ) : ℝ) * ph)) *
        (Spec.legP m.natAbs (q m.natAbs) l th * Spec.legP m'.natAbs (q m'.natAbs) l' th * sin th) := by
    intro ph th
    rw [sphY_re, sphY_re, sphY_im, sphY_im]
    push_cast
    rw [sub_mul (m : ℝ), cos_sub, ← hs, ← hs']
    have h2 : √(2 * π) ^ 2 = 2 * π := sq_sqrt (by positivity)
    have h3 : √(2 * π) ≠ 0 := by positivity
    generalize √(2 * π) = r at h2 h3 ⊢
    rw [← h2]
    field_simp
  have e2 : ∀ ph th : ℝ, ((Spec.sphY q l m th ph).re * (Spec.sphY q l' m' th ph).im -
        (Spec.sphY q l m th ph).im * (Spec.sphY q l' m' th ph).re) * sin th =
      (-(s * s' / (2 * π)) * sin (((m - m' : ℤ) : ℝ) * ph)) *
        (Spec.legP m.natAbs (q m.natAbs) l th * Spec.legP m'.natAbs (q m'.natAbs) l' th * sin th) := by
    intro ph th
    rw [sphY_re, sphY_re, sphY_im, sphY_im]
    push_cast
    rw [sub_mul (m : ℝ), sin_sub, ← hs, ← hs']
    have h2 : √(2 * π) ^ 2 = 2 * π := sq_sqrt (by positivity)
    have h3 : √(2 * π) ≠ 0 := by positivity
    generalize √(2 * π) = r at h2 h3 ⊢
    rw [← h2]
    field_simp
    ring
  simp only [e1, e2, intervalIntegral.integral_const_mul, intervalIntegral.integral_mul_const, int_cos_int, int_sin_int]
  refine ⟨?_, by ring⟩
  by_cases hmm : m = m'
  · subst hmm
    rw [sub_self, if_pos rfl, legP_int (hq m.natAbs) (by rw [Int.abs_eq_natAbs] at hm; omega)
      (by rw [Int.abs_eq_natAbs] at hm'; omega)]
    have hss : s * s = 1 := by
      rw [hs]
      split_ifs
      · rw [← mul_pow]; norm_num
      · norm_num
    have : s = s' := by rw [hs, hs']
    rw [← this, hss]
    have := pi_pos.ne'
    by_cases hl : l = l'
    · rw [if_pos hl, if_pos ⟨hl, rfl⟩]
      field_simp
    · rw [if_neg hl, if_neg fun h => hl h.1, mul_zero]
  · rw [if_neg (show m - m' ≠ 0 by omega), if_neg fun h => hmm h.2]
    ring

/-- Example: `P_2^1(1/2) = -3/2 √(3/4)`. -/
example : pLegendre 2 1 (1 / 2) = .ok (-(3 / 2) * √(3 / 4)) := by
  have h := pLegendre_ok (l := 2) (m := 1) (by omega) (x := 1 / 2) (by rw [abs_of_pos] <;> norm_num)
  refine h.trans ?_
  rw [show 2 - 1 = 1 by rfl, plegV, plegMM_eq]
  congr 1
  rw [show (1 - 1 / 2 : ℝ) * (1 + 1 / 2) = 3 / 4 by norm_num]
  simp
  ring

end Sgrid
