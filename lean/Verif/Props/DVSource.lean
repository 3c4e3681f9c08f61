import Mathlib.Analysis.SpecialFunctions.ExpDeriv
import Mathlib.Analysis.SpecialFunctions.Sqrt
import Mathlib.Tactic.Positivity
import Verif.Model.DVSource
import Verif.Props.Thz

/-!
The singular field, the window and the effective source of a particle on a circular orbit (C155).
-/

namespace Sgrid
open Real

/-- As `Spec.Jac4`, but only at the points where `S` holds. -/
def Spec.Jac4On (S : (Fin 4 → ℝ) → Prop) (f : (Fin 4 → ℝ) → ℝ) (df : (Fin 4 → ℝ) → Fin 4 → ℝ) : Prop :=
  ∀ (p : ℝ → Fin 4 → ℝ) (t : ℝ) (V : Fin 4 → ℝ), S (p t) → (∀ i, HasDerivAt (fun s => p s i) (V i) t) →
    HasDerivAt (fun s => f (p s)) (df (p t) 0 * V 0 + df (p t) 1 * V 1 + df (p t) 2 * V 2 + df (p t) 3 * V 3) t

theorem rho_moves (P : ThzPar) (p : ℝ → Fin 4 → ℝ) (t : ℝ) (V : Fin 4 → ℝ) (h : singRho P (p t) ≠ 0)
    (hp : ∀ i, HasDerivAt (fun s => p s i) (V i) t) :
    HasDerivAt (fun s => singRho P (p s))
      ((thzx P (p t) * (thzDx P (p t) 0 * V 0 + thzDx P (p t) 1 * V 1 + thzDx P (p t) 2 * V 2 + thzDx P (p t) 3 * V 3) +
        thzy P (p t) * (thzDy P (p t) 0 * V 0 + thzDy P (p t) 1 * V 1 + thzDy P (p t) 2 * V 2 + thzDy P (p t) 3 * V 3) +
        thzz P (p t) * (thzDz P (p t) 0 * V 0 + thzDz P (p t) 1 * V 1 + thzDz P (p t) 2 * V 2 + thzDz P (p t) 3 * V 3))
        / singRho P (p t)) t := by
  have hx := (C154_x P).1 p t V hp
  have hy := (C154_y P).1 p t V hp
  have hz := (C154_z P).1 p t V hp
  have hne : thzx P (p t) * thzx P (p t) + thzy P (p t) * thzy P (p t) + thzz P (p t) * thzz P (p t) ≠ 0 := by
    intro h0; exact h (by rw [singRho, h0, Real.sqrt_zero])
  have := (((hx.fun_mul hx).fun_add (hy.fun_mul hy)).fun_add (hz.fun_mul hz)).sqrt hne
  refine this.congr_deriv ?_
  change _ / (2 * singRho P (p t)) = _
  field_simp
  ring

/-- **C155.**  `DPsi` holds the first derivatives of the singular field Q/rho away from the particle. -/
theorem C155_DPsi (Q : ℝ) (P : ThzPar) :
    Spec.Jac4On (fun q => singRho P q ≠ 0) (singPsi Q P) (singDPsi Q P) := by
  intro p t V h hp
  have hr := rho_moves P p t V h hp
  apply HasDerivAt.congr_deriv
  · exact (hasDerivAt_const t Q).fun_div hr h
  · simp only [singDPsi]; field_simp; ring

/-- **C155.**  `DDPsi` holds the second derivatives of the singular field away from the particle, and is symmetric. -/
theorem C155_DDPsi (Q : ℝ) (P : ThzPar) :
    (∀ i, Spec.Jac4On (fun q => singRho P q ≠ 0) (fun q => singDPsi Q P q i) (fun q => singDDPsi Q P q i)) ∧
    ∀ q i j, singDDPsi Q P q i j = singDDPsi Q P q j i := by
  refine ⟨fun i p t V h hp => ?_, fun q i j => ?_⟩
  · have hr := rho_moves P p t V h hp
    have hx := (C154_x P).1 p t V hp
    have hy := (C154_y P).1 p t V hp
    have hz := (C154_z P).1 p t V hp
    have dx := (C154_x P).2.1 i p t V hp
    have dy := (C154_y P).2.1 i p t V hp
    have dz := (C154_z P).2.1 i p t V hp
    dsimp only at dx dy dz ⊢
    simp only [singDPsi]
    apply HasDerivAt.congr_deriv
    · exact (((hasDerivAt_const t Q).fun_div ((hr.fun_mul hr).fun_mul hr) (mul_ne_zero (mul_ne_zero h h) h)).fun_neg).fun_mul
        (((hx.fun_mul dx).fun_add (hy.fun_mul dy)).fun_add (hz.fun_mul dz))
    · simp only [singDDPsi]; field_simp; ring
  · simp only [singDDPsi, (C154_x P).2.2 q j i, (C154_y P).2.2 q j i, (C154_z P).2.2 q j i]; ring

theorem powr_nat (x : ℝ) (n : ℕ) : powr x n = x ^ n := by
  have : ∀ (m : ℕ) (a : ℝ), (fun temp => temp * x)^[m] a = a * x ^ m := by
    intro m
    induction m with
    | zero => intro a; simp
    | succ m ih => intro a; rw [Function.iterate_succ_apply, ih]; ring
  simp [powr, this]

theorem powr_moves {p : ℝ → ℝ} {t V : ℝ} (n : ℕ) (h : HasDerivAt p V t) :
    HasDerivAt (fun s => powr (p s) n) (n * powr (p t) ((n : ℤ) - 1) * V) t := by
  simp only [powr_nat]
  rcases n with _ | m
  · simpa using hasDerivAt_const t (1 : ℝ)
  · have e : ((m + 1 : ℕ) : ℤ) - 1 = (m : ℤ) := by push_cast; ring
    rw [e, powr_nat]
    exact (h.fun_pow (m + 1)).congr_deriv (by simp)

theorem powr_moves2 {p : ℝ → ℝ} {t V : ℝ} (n : ℕ) (h : HasDerivAt p V t) :
    HasDerivAt (fun s => n * powr (p s) ((n : ℤ) - 1)) (n * ((n : ℝ) - 1) * powr (p t) ((n : ℤ) - 2) * V) t := by
  rcases n with _ | m
  · simpa using hasDerivAt_const t (0 : ℝ)
  · have e : ((m + 1 : ℕ) : ℤ) - 1 = (m : ℤ) := by push_cast; ring
    have e2 : ((m + 1 : ℕ) : ℤ) - 2 = (m : ℤ) - 1 := by push_cast; ring
    simp only [e, e2]
    refine ((powr_moves m h).const_mul _).congr_deriv ?_
    push_cast; ring

/-- **C155.**  `DW` and `DDW` hold the first and the second derivatives of the window, for every power that is not
negative and every width that is not zero, and also if the window is switched off. -/
theorem C155_window (w : WinPar) (P : ThzPar) (hn : 0 ≤ w.n) (hw : w.width ≠ 0) :
    Spec.Hess4 (winW w P) (winDW w P) (winDDW w P) := by
  obtain ⟨n, width, use⟩ := w
  dsimp only at hn hw
  obtain ⟨n, rfl⟩ := Int.eq_ofNat_of_zero_le hn
  cases use
  · refine ⟨fun p t V hp => ?_, fun i p t V hp => ?_, fun q i j => rfl⟩
    · simpa [winW, winDW] using hasDerivAt_const t (1 : ℝ)
    · simpa [winDW, winDDW] using hasDerivAt_const t (0 : ℝ)
  · have hrl : ∀ (p : ℝ → Fin 4 → ℝ) (t : ℝ) (V : Fin 4 → ℝ), (∀ i, HasDerivAt (fun s => p s i) (V i) t) →
        HasDerivAt (fun s => (p s 1 - P.R) / width) (V 1 / width) t := by
      intro p t V hp
      exact ((hp 1).sub_const _).div_const _
    have hW : Spec.Jac4 (winW ⟨n, width, true⟩ P) (winDW ⟨n, width, true⟩ P) := by
      intro p t V hp
      simp only [winW, winDW, if_true]
      refine ((powr_moves n (hrl p t V hp)).fun_neg.exp).congr_deriv ?_
      kd4_simp
      push_cast
      ring
    refine ⟨hW, fun i p t V hp => ?_, fun q i j => ?_⟩
    · have h1 := hW p t V hp
      have h2 := powr_moves2 n (hrl p t V hp)
      simp only [winDW, winDDW, if_true] at h1 ⊢
      push_cast
      apply HasDerivAt.congr_deriv
      · exact h1.fun_neg.fun_mul ((h2.mul_const (kd4 1 i)).div_const width)
      · kd4_simp
        push_cast
        field_simp
        ring
    · simp only [winDW, winDDW, if_true]; ring

/-- `box` is the wave operator of the Schwarzschild metric applied to F, where S holds: the divergence
(1/√-g) ∂ᵢ(√-g gⁱʲ ∂ⱼF) with √-g = r² sin θ.  The tables of derivatives are required to exist; they are unique. -/
def Spec.IsBox (M : ℝ) (S : (Fin 4 → ℝ) → Prop) (F box : (Fin 4 → ℝ) → ℝ) : Prop :=
  ∃ (dF : (Fin 4 → ℝ) → Fin 4 → ℝ) (J : Fin 4 → (Fin 4 → ℝ) → Fin 4 → ℝ), Spec.Jac4On S F dF ∧
    (∀ i, Spec.Jac4On S (fun q => q 1 ^ 2 * sin (q 2) * Spec.schwInv M q i * dF q i) (J i)) ∧
    ∀ q, S q → box q = 1 / (q 1 ^ 2 * sin (q 2)) * (J 0 q 0 + J 1 q 1 + J 2 q 2 + J 3 q 3)

/-- Away from the particle, the axis, the horizon and the singularity. -/
def Spec.RegularPoint (P : ThzPar) (q : Fin 4 → ℝ) : Prop :=
  singRho P q ≠ 0 ∧ q 1 ≠ 0 ∧ q 1 ≠ 2 * P.M ∧ sin (q 2) ≠ 0

/-- The derivatives of √-g gⁱⁱ. -/
noncomputable def schwDCoef (M : ℝ) (q : Fin 4 → ℝ) : Fin 4 → Fin 4 → ℝ :=
  ![![0, sin (q 2) * (-2 * q 1 / (1 - 2 * M / q 1) + 2 * M / (1 - 2 * M / q 1) ^ 2), -(q 1 ^ 2 * cos (q 2)) / (1 - 2 * M / q 1), 0],
    ![0, sin (q 2) * (2 * q 1 * (1 - 2 * M / q 1) + 2 * M), q 1 ^ 2 * cos (q 2) * (1 - 2 * M / q 1), 0],
    ![0, 0, cos (q 2), 0],
    ![0, 0, -cos (q 2) / sin (q 2) ^ 2, 0]]

theorem schwCoef_moves (M : ℝ) (i : Fin 4) {p : ℝ → Fin 4 → ℝ} {t : ℝ} {V : Fin 4 → ℝ}
    (hp : ∀ i, HasDerivAt (fun s => p s i) (V i) t) (h1 : p t 1 ≠ 0) (h2 : p t 1 ≠ 2 * M) (h3 : sin (p t 2) ≠ 0) :
    HasDerivAt (fun s => p s 1 ^ 2 * sin (p s 2) * Spec.schwInv M (p s) i)
      (schwDCoef M (p t) i 0 * V 0 + schwDCoef M (p t) i 1 * V 1 + schwDCoef M (p t) i 2 * V 2 +
        schwDCoef M (p t) i 3 * V 3) t := by
  have e1 := hp 1
  have e2 := hp 2
  have hf : 1 - 2 * M / p t 1 ≠ 0 := by
    intro h
    apply h2
    field_simp at h
    linarith
  have hq : HasDerivAt (fun u => 1 - 2 * M / p u 1) (2 * M / p t 1 ^ 2 * V 1) t := by
    apply HasDerivAt.congr_deriv
    · exact (hasDerivAt_const t (1 : ℝ)).sub ((hasDerivAt_const t (2 * M)).fun_div e1 h1)
    · ring
  have hd := (e1.fun_pow 2).fun_mul e2.sin
  fin_cases i
  · show HasDerivAt (fun s => p s 1 ^ 2 * sin (p s 2) * (-1 / (1 - 2 * M / p s 1))) _ t
    apply HasDerivAt.congr_deriv
    · exact hd.fun_mul ((hasDerivAt_const t (-1 : ℝ)).fun_div hq hf)
    · simp [schwDCoef]
      generalize 1 - 2 * M / p t 1 = f at *
      field_simp
      ring
  · show HasDerivAt (fun s => p s 1 ^ 2 * sin (p s 2) * (1 - 2 * M / p s 1)) _ t
    apply HasDerivAt.congr_deriv
    · exact hd.fun_mul hq
    · simp [schwDCoef]
      generalize 1 - 2 * M / p t 1 = f at *
      field_simp
      ring
  · show HasDerivAt (fun s => p s 1 ^ 2 * sin (p s 2) * (1 / p s 1 ^ 2)) _ t
    apply HasDerivAt.congr_deriv
    · exact hd.fun_mul ((hasDerivAt_const t (1 : ℝ)).fun_div (e1.fun_pow 2) (pow_ne_zero 2 h1))
    · simp [schwDCoef]
      field_simp
      ring
  · show HasDerivAt (fun s => p s 1 ^ 2 * sin (p s 2) * (1 / (p s 1 * sin (p s 2)) ^ 2)) _ t
    apply HasDerivAt.congr_deriv
    · exact hd.fun_mul ((hasDerivAt_const t (1 : ℝ)).fun_div ((e1.fun_mul e2.sin).fun_pow 2)
        (pow_ne_zero 2 (mul_ne_zero h1 h3)))
    · simp [schwDCoef]
      field_simp
      ring

/-- **C155.**  The sums of eval_source are the wave operator of the black hole applied to the product of the window and
the singular field. -/
theorem C155_source (Q : ℝ) (w : WinPar) (P : ThzPar) (hn : 0 ≤ w.n) (hw : w.width ≠ 0) :
    Spec.IsBox P.M (Spec.RegularPoint P) (fun q => winW w P q * singPsi Q P q) (srcSum Q w P) := by
  obtain ⟨w1, w2, w3⟩ := C155_window w P hn hw
  have p1 := C155_DPsi Q P
  obtain ⟨p2, p3⟩ := C155_DDPsi Q P
  have d1 : Spec.Jac4On (Spec.RegularPoint P) (fun q => winW w P q * singPsi Q P q)
      (fun q i => winDW w P q i * singPsi Q P q + winW w P q * singDPsi Q P q i) := by
    intro p t V h hp
    refine ((w1 p t V hp).fun_mul (p1 p t V h.1 hp)).congr_deriv ?_
    ring
  have d2 : ∀ i, Spec.Jac4On (Spec.RegularPoint P) (fun q => winDW w P q i * singPsi Q P q + winW w P q * singDPsi Q P q i)
      (fun q j => winDDW w P q i j * singPsi Q P q + winDW w P q i * singDPsi Q P q j +
        winDW w P q j * singDPsi Q P q i + winW w P q * singDDPsi Q P q i j) := by
    intro i p t V h hp
    have := ((w2 i p t V hp).fun_mul (p1 p t V h.1 hp)).fun_add ((w1 p t V hp).fun_mul (p2 i p t V h.1 hp))
    refine this.congr_deriv ?_
    ring
  refine ⟨_, fun i q j => schwDCoef P.M q i j * (winDW w P q i * singPsi Q P q + winW w P q * singDPsi Q P q i) +
    q 1 ^ 2 * sin (q 2) * Spec.schwInv P.M q i * (winDDW w P q i j * singPsi Q P q + winDW w P q i * singDPsi Q P q j +
        winDW w P q j * singDPsi Q P q i + winW w P q * singDDPsi Q P q i j), d1, ?_, ?_⟩
  · intro i p t V h hp
    have := (schwCoef_moves P.M i hp h.2.1 h.2.2.1 h.2.2.2).fun_mul (d2 i p t V h hp)
    refine this.congr_deriv ?_
    ring
  · rintro q ⟨-, h1, h2, h3⟩
    have hf : 1 - 2 * P.M / q 1 ≠ 0 := by
      intro h
      apply h2
      field_simp at h
      linarith
    simp only [srcSum, Fin.sum_univ_four, schwGInv, schwDDet, schwDiv, schwG, schwDet, schwDCoef, Spec.schwInv]
    generalize 1 - 2 * P.M / q 1 = f at *
    simp
    field_simp
    ring

/-- **C155.**  eval_source takes the sums at a point off the axis, for every theta between 0 and π. -/
theorem C155_off_axis (P : ThzPar) (q : Fin 4 → ℝ) (h0 : 0 ≤ q 2) (h1 : q 2 ≤ π) :
    0 < srcPoint P q 2 ∧ srcPoint P q 2 < π := by
  have hpi := Real.two_le_pi
  show 0 < (if |(if q 2 = 0 then q 2 + 1 / 10 ^ 12 else q 2) - π| < 1 / 10 ^ 12 then
      (if q 2 = 0 then q 2 + 1 / 10 ^ 12 else q 2) - 1 / 10 ^ 12 else (if q 2 = 0 then q 2 + 1 / 10 ^ 12 else q 2)) ∧
    (if |(if q 2 = 0 then q 2 + 1 / 10 ^ 12 else q 2) - π| < 1 / 10 ^ 12 then
      (if q 2 = 0 then q 2 + 1 / 10 ^ 12 else q 2) - 1 / 10 ^ 12 else (if q 2 = 0 then q 2 + 1 / 10 ^ 12 else q 2)) < π
  generalize q 2 = th at *
  by_cases hz : th = 0
  · subst hz
    simp only [if_true, zero_add]
    have : ¬ |(1 / 10 ^ 12 : ℝ) - π| < 1 / 10 ^ 12 := by
      rw [abs_lt]; intro ⟨h, _⟩; norm_num at h; linarith
    rw [if_neg this]
    constructor
    · norm_num
    · norm_num; linarith
  · simp only [if_neg hz]
    have hp : 0 < th := lt_of_le_of_ne h0 (Ne.symm hz)
    split_ifs with hc
    · rw [abs_lt] at hc
      constructor
      · norm_num at hc ⊢; linarith [hc.1]
      · norm_num; linarith
    · refine ⟨hp, lt_of_le_of_ne h1 fun he => hc ?_⟩
      rw [he, sub_self, abs_zero]; norm_num

/-- **C155.**  Away from the particle and the axis the sums are taken at the point that was asked for. -/
theorem C155_same_point (P : ThzPar) (q : Fin 4 → ℝ) (hr : 5 / 1000 * P.M ≤ singRho P q) (h0 : 0 < q 2)
    (h1 : q 2 ≤ π - 1 / 10 ^ 12) : srcPoint P q = q := by
  have hc : ¬ |q 2 - π| < 1 / 10 ^ 12 := by
    rw [abs_lt]; intro ⟨h, _⟩; linarith
  funext i
  simp only [srcPoint, if_neg (not_lt.2 hr), if_neg h0.ne', if_neg hc]
  fin_cases i <;> rfl

/-- **C155.**  Close to the particle the radius is R + 0.006 M instead. -/
theorem C155_near (P : ThzPar) (q : Fin 4 → ℝ) (hr : singRho P q < 5 / 1000 * P.M) :
    srcPoint P q 1 = P.R + 6 / 1000 * P.M := by
  simp [srcPoint, if_pos hr]

theorem arctan_polar (a : ℝ) {b : ℝ} (hb : 0 < b) : √(a * a + b * b) * cos (arctan (a / b)) = b ∧
    √(a * a + b * b) * sin (arctan (a / b)) = a := by
  have h : √(a * a + b * b) = b * √(1 + (a / b) ^ 2) := by
    rw [show a * a + b * b = b ^ 2 * (1 + (a / b) ^ 2) by field_simp; ring, Real.sqrt_mul (by positivity),
      Real.sqrt_sq hb.le]
  have hp : √(1 + (a / b) ^ 2) ≠ 0 := (Real.sqrt_pos.2 (by positivity)).ne'
  rw [Real.cos_arctan, Real.sin_arctan, h]
  constructor <;> field_simp

theorem ks_phi (x y : ℝ) : √(x * x + y * y) * cos (ksPhi x y) = x ∧ √(x * x + y * y) * sin (ksPhi x y) = y := by
  unfold ksPhi
  by_cases hx : x = 0
  · subst hx
    simp only [if_true, mul_zero, zero_add]
    split_ifs with hy
    · rw [Real.sqrt_mul_self hy, Real.cos_pi_div_two, Real.sin_pi_div_two]; simp
    · rw [Real.sqrt_mul_self_eq_abs, abs_of_neg (not_le.1 hy), neg_div, Real.cos_neg, Real.sin_neg,
        Real.cos_pi_div_two, Real.sin_pi_div_two]; simp
  · rw [if_neg hx]
    by_cases h0 : 0 < x
    · rw [if_pos h0]
      split_ifs with hy
      · rw [add_comm (x * x)]; exact arctan_polar y h0
      · have hn := abs_of_neg (not_le.1 hy)
        obtain ⟨h1, h2⟩ := arctan_polar |y| h0
        rw [abs_mul_abs_self, add_comm] at h1 h2
        rw [Real.cos_two_pi_sub, Real.sin_two_pi_sub, mul_neg, h1, h2, hn]
        simp
    · have hx' : x < 0 := lt_of_le_of_ne (not_lt.1 h0) hx
      have ha : 0 < |x| := abs_pos.2 hx
      rw [if_neg h0]
      split_ifs with hy
      · obtain ⟨h1, h2⟩ := arctan_polar y ha
        rw [abs_mul_abs_self, add_comm] at h1 h2
        rw [Real.cos_pi_sub, Real.sin_pi_sub, mul_neg, h1, h2, abs_of_neg hx']
        simp
      · obtain ⟨h1, h2⟩ := arctan_polar |y| ha
        rw [abs_mul_abs_self, abs_mul_abs_self, add_comm] at h1 h2
        rw [abs_div, add_comm π, Real.cos_add_pi, Real.sin_add_pi, mul_neg, mul_neg, h1, h2, abs_of_neg hx',
          abs_of_neg (not_le.1 hy)]
        simp

theorem ks_theta (x y z : ℝ) : ksR x y z * cos (ksTheta x y z) = z ∧
    ksR x y z * sin (ksTheta x y z) = √(x * x + y * y) := by
  have hr : ksR x y z = √(√(x * x + y * y) * √(x * x + y * y) + |z| * |z|) := by
    rw [Real.mul_self_sqrt (add_nonneg (mul_self_nonneg x) (mul_self_nonneg y)), abs_mul_abs_self]; rfl
  unfold ksTheta
  by_cases hz : z = 0
  · subst hz
    rw [if_neg (by simp), Real.cos_pi_div_two, Real.sin_pi_div_two]
    simp [ksR]
  · have ha : 0 < |z| := abs_pos.2 hz
    obtain ⟨h1, h2⟩ := arctan_polar √(x * x + y * y) ha
    rw [if_pos hz, hr]
    split_ifs with h0
    · rw [abs_of_pos h0] at h1 h2 ⊢
      exact ⟨h1, h2⟩
    · have hn : |z| = -z := abs_of_nonpos (not_lt.1 h0)
      rw [Real.cos_pi_sub, Real.sin_pi_sub, mul_neg, h1, h2, hn]
      simp

/-- **C155.**  SourceInKerrSchild and SingularInKerrSchild go to spherical coordinates correctly at every point, so that
their asserts hold. -/
theorem C155_angles (M t x y z : ℝ) :
    let q := ksPoint M t x y z
    x = q 1 * sin (q 2) * cos (q 3) ∧ y = q 1 * sin (q 2) * sin (q 3) ∧ z = q 1 * cos (q 2) ∧ 0 ≤ q 1 ∧ 0 ≤ q 2 ∧
      q 2 ≤ π := by
  show x = ksR x y z * sin (ksTheta x y z) * cos (ksPhi x y) ∧ y = ksR x y z * sin (ksTheta x y z) * sin (ksPhi x y) ∧
    z = ksR x y z * cos (ksTheta x y z) ∧ 0 ≤ ksR x y z ∧ 0 ≤ ksTheta x y z ∧ ksTheta x y z ≤ π
  obtain ⟨h1, h2⟩ := ks_theta x y z
  obtain ⟨h3, h4⟩ := ks_phi x y
  rw [h1, h2, h3, h4]
  have hpi := Real.pi_pos
  refine ⟨rfl, rfl, rfl, Real.sqrt_nonneg _, ?_, ?_⟩
  · unfold ksTheta
    split_ifs with hz h0
    · exact Real.arctan_nonneg.2 (div_nonneg (Real.sqrt_nonneg _) h0.le)
    · have := Real.arctan_lt_pi_div_two (√(x * x + y * y) / |z|); linarith
    · linarith
  · unfold ksTheta
    split_ifs with hz h0
    · have := Real.arctan_lt_pi_div_two (√(x * x + y * y) / z); linarith
    · have := Real.arctan_nonneg.2 (div_nonneg (Real.sqrt_nonneg (x * x + y * y)) (abs_nonneg z)); linarith
    · linarith

/-- **C155.**  current_x, current_y and current_z give the particle: there the coordinates that move with the particle
vanish, at every time. -/
theorem C155_current (P : ThzPar) (hR : 0 < P.R) (t : ℝ) :
    let q := ksPoint P.M t (currentX P t) (currentY P t) (currentZ P t)
    thzx P q = 0 ∧ thzy P q = 0 ∧ thzz P q = 0 := by
  intro q
  obtain ⟨h1, h2, h3, -, -, -⟩ := C155_angles P.M t (currentX P t) (currentY P t) (currentZ P t)
  change currentX P t = q 1 * sin (q 2) * cos (q 3) at h1
  change currentY P t = q 1 * sin (q 2) * sin (q 3) at h2
  have hr : q 1 = P.R := by
    show √(currentX P t * currentX P t + currentY P t * currentY P t + currentZ P t * currentZ P t) = P.R
    have := Real.sin_sq_add_cos_sq (P.Omega * currentTs P t)
    rw [show currentX P t * currentX P t + currentY P t * currentY P t + currentZ P t * currentZ P t = P.R ^ 2 by
      simp only [currentX, currentY, currentZ, Real.sin_pi_div_two]
      linear_combination P.R ^ 2 * this, Real.sqrt_sq hR.le]
  have hth : q 2 = π / 2 := by
    show ksTheta _ _ (currentZ P t) = π / 2
    simp [ksTheta, currentZ]
  have hts : q 0 = currentTs P t := by
    show t - 2 * P.M * log (q 1 / (2 * P.M) - 1) = _
    rw [hr]; rfl
  rw [hr, hth, Real.sin_pi_div_two, mul_one] at h1 h2
  simp only [currentX, currentY, Real.sin_pi_div_two, mul_one] at h1 h2
  have hc : cos (P.Omega * currentTs P t) = cos (q 3) := mul_left_cancel₀ hR.ne' h1
  have hs : sin (P.Omega * currentTs P t) = sin (q 3) := mul_left_cancel₀ hR.ne' h2
  have hS : sin (q 3 - P.Omega * q 0) = 0 := by
    rw [hts, Real.sin_sub, hc, hs]; ring
  have hC : cos (q 3 - P.Omega * q 0) = 1 := by
    rw [hts, Real.cos_sub, hc, hs, ← Real.sin_sq_add_cos_sq (q 3)]; ring
  have hX : thzX P q = 0 := by rw [thzX, hr]; simp
  have hY : thzY P q = 0 := by rw [thzY, hS]; simp
  have hZ : thzZ P q = 0 := by rw [thzZ, hth]; simp
  have hx : thzxt P q = 0 := by
    simp only [thzxt, hX, hY, hZ, hr, hth, hC]; simp
  have hy : thzyt P q = 0 := by
    simp only [thzyt, hX, hY, hZ, hS]; simp
  refine ⟨?_, ?_, ?_⟩
  · simp [thzx, hx, hy]
  · simp [thzy, hx, hy]
  · simp only [thzz, hX, hY, hZ, hth]; simp

/-- An example: the point (0, 0, -3) is on the axis below the hole, at theta = π. -/
example (M t : ℝ) : ksPoint M t 0 0 (-3) 2 = π := by
  show ksTheta 0 0 (-3) = π
  simp [ksTheta]

/-- An example: with the power 0 the window is the constant 1/e. -/
example (P : ThzPar) (q : Fin 4 → ℝ) : winW ⟨0, 1, true⟩ P q = exp (-1) := by simp [winW, powr]

end Sgrid
