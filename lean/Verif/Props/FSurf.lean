import Verif.Props.SphHarm
import Verif.Props.CubedAngles

/-!
# C140: surfaces of cubed spheres given by spherical harmonics
-/

namespace Sgrid
open Real Finset Polynomial

/-! ## Specification -/

/-- The coefficients of a real function: for `m ≥ 0` real and imaginary part are stored after each other, in
the order `l`, `m`; the others are `c_l^{-m} = (-1)^m conj(c_l^m)`. The imaginary part of `c_l^0` is zero. -/
noncomputable def Spec.realCoeff (co : Nat → ℝ) (off l : Nat) (m : ℤ) : ℂ :=
  let p := off + 2 * (l * (l + 1) / 2 + m.natAbs)
  if m = 0 then (co p : ℂ)
  else if 0 < m then ⟨co p, co (p + 1)⟩
  else (((-1) ^ m.natAbs : ℝ) : ℂ) * ⟨co p, -co (p + 1)⟩

/-- The sum `∑_{l≤lmax} ∑_{|m|≤l} c_l^m Y_l^m`. -/
noncomputable def Spec.sphSeries (q : Nat → Nat → ℝ[X]) (c : Nat → ℤ → ℂ) (lmax : Nat) (th ph : ℝ) : ℂ :=
  ∑ l ∈ range (lmax + 1), ∑ m ∈ Finset.Icc (-(l : ℤ)) l, c l m * Spec.sphY q l m th ph

/-- `e_l^m` of the comment at SphericalHarmonics.c:285-292. -/
noncomputable def Spec.epsLm (l m : Nat) : ℝ := √(((l : ℝ) ^ 2 - m ^ 2) / ((2 * l + 1) * (2 * l - 1)))

/-! ## Sums -/

theorem sum_symm {M : Type} [AddCommMonoid M] (f : ℤ → M) (l : Nat) :
    ∑ m ∈ Finset.Icc (-(l : ℤ)) l, f m = f 0 + ∑ m ∈ range l, (f (m + 1) + f (-(m + 1))) := by
  induction l with
  | zero => simp
  | succ l ih =>
    have e : Finset.Icc (-((l + 1 : ℕ) : ℤ)) ((l + 1 : ℕ) : ℤ) =
        insert ((l : ℤ) + 1) (insert (-((l : ℤ) + 1)) (Finset.Icc (-(l : ℤ)) l)) := by
      ext x
      simp only [Finset.mem_Icc, Finset.mem_insert]
      omega
    rw [e, sum_insert (by simp only [Finset.mem_Icc, Finset.mem_insert]; omega),
      sum_insert (by simp only [Finset.mem_Icc]; omega), ih, sum_range_succ]
    abel

/-- Real part of a term for `m ≥ 0`, without the factor from `-m`. -/
noncomputable def lmTerm (q : Nat → Nat → ℝ[X]) (R I : ℝ) (l m : Nat) (th ph : ℝ) : ℝ :=
  if m = 0 then R * (Spec.legP 0 (q 0) l th / √(2 * π))
  else 2 * (Spec.legP m (q m) l th / √(2 * π)) * (R * cos (m * ph) - I * sin (m * ph))

theorem series_eq (q : Nat → Nat → ℝ[X]) (co : Nat → ℝ) (off lmax : Nat) (th ph : ℝ) :
    Spec.sphSeries q (Spec.realCoeff co off) lmax th ph =
      ((∑ l ∈ range (lmax + 1), ∑ m ∈ range (l + 1),
        lmTerm q (co (off + 2 * indLm l m)) (co (off + 2 * indLm l m + 1)) l m th ph : ℝ) : ℂ) := by
  unfold Spec.sphSeries
  rw [Complex.ofReal_sum]
  refine sum_congr rfl fun l _ => ?_
  rw [sum_symm, sum_range_succ', Complex.ofReal_add, Complex.ofReal_sum, add_comm]
  congr 1
  · refine sum_congr rfl fun m _ => ?_
    apply Complex.ext
    · rw [Complex.add_re, Complex.mul_re, Complex.mul_re, sphY_re, sphY_re, sphY_im, sphY_im, Complex.ofReal_re]
      unfold Spec.realCoeff lmTerm
      simp only
      rw [if_neg (by omega), if_pos (by omega), if_neg (by omega), if_neg (by omega), if_neg (by omega), if_pos (by omega),
        if_neg (by omega)]
      rw [show ((m : ℤ) + 1).natAbs = m + 1 by omega, show (-((m : ℤ) + 1)).natAbs = m + 1 by omega,
        Complex.re_ofReal_mul, Complex.im_ofReal_mul]
      push_cast
      rw [show -((m : ℝ) + 1) * ph = -((m + 1) * ph) by ring, cos_neg, sin_neg]
      have : ((-1 : ℝ) ^ (m + 1)) * (-1) ^ (m + 1) = 1 := by rw [← mul_pow]; norm_num
      unfold indLm
      generalize co _ = R
      generalize co _ = I
      generalize Spec.legP _ _ _ _ / √(2 * π) = P
      linear_combination (P * (R * cos ((m + 1) * ph) - I * sin ((m + 1) * ph))) * this
    · rw [Complex.add_im, Complex.mul_im, Complex.mul_im, sphY_re, sphY_re, sphY_im, sphY_im, Complex.ofReal_im]
      unfold Spec.realCoeff
      simp only
      rw [if_neg (by omega), if_pos (by omega), if_neg (by omega), if_neg (by omega), if_neg (by omega), if_pos (by omega)]
      rw [show ((m : ℤ) + 1).natAbs = m + 1 by omega, show (-((m : ℤ) + 1)).natAbs = m + 1 by omega,
        Complex.re_ofReal_mul, Complex.im_ofReal_mul]
      push_cast
      rw [show -((m : ℝ) + 1) * ph = -((m + 1) * ph) by ring, cos_neg, sin_neg]
      have : ((-1 : ℝ) ^ (m + 1)) * (-1) ^ (m + 1) = 1 := by rw [← mul_pow]; norm_num
      generalize co _ = R
      generalize co _ = I
      generalize Spec.legP _ _ _ _ / √(2 * π) = P
      linear_combination -(P * (R * sin ((m + 1) * ph) + I * cos ((m + 1) * ph))) * this
  · apply Complex.ext
    · rw [Complex.mul_re, sphY_re, sphY_im, Complex.ofReal_re]
      unfold Spec.realCoeff lmTerm indLm
      simp
    · rw [Complex.mul_im, sphY_re, sphY_im, Complex.ofReal_im]
      unfold Spec.realCoeff
      simp

theorem surfSum_eq {q : Nat → Nat → ℝ[X]} (lmax : Nat) {th ph : ℝ} {Re Im : Nat → ℝ}
    (ht : ∀ l ≤ lmax, ∀ m : ℤ, |m| ≤ l →
      ylmFromTabs Re Im l m = ((Spec.sphY q l m th ph).re, (Spec.sphY q l m th ph).im)) (co : Nat → ℝ) (off : Nat) :
    surfSum lmax co Re Im off = ∑ l ∈ range (lmax + 1), ∑ m ∈ range (l + 1),
        lmTerm q (co (off + 2 * indLm l m)) (co (off + 2 * indLm l m + 1)) l m th ph := by
  unfold surfSum
  have inner : ∀ l ≤ lmax, ∀ (i : Nat) (v : ℝ), upLoop 0 (l + 1) (fun m (s : ℝ × Nat × ℝ) =>
      let sm := s.1
      let Rclm := co s.2.1
      let Iclm := co (s.2.1 + 1)
      let Y := ylmFromTabs Re Im l m
      let Re_Ylm := Y.1
      let Im_Ylm := Y.2
      let Re_Ylmm := sm * Re_Ylm
      let Im_Ylmm := -sm * Im_Ylm
      let Rclmm := sm * Rclm
      let Iclmm := -sm * Iclm
      (-sm, s.2.1 + 2, if m = 0 then s.2.2 + Rclm * Re_Ylm
        else s.2.2 + (Rclm * Re_Ylm - Iclm * Im_Ylm + Rclmm * Re_Ylmm - Iclmm * Im_Ylmm))) (1, i, v) =
      ((-1) ^ (l + 1), i + 2 * (l + 1), v + ∑ m ∈ range (l + 1), lmTerm q (co (i + 2 * m)) (co (i + 2 * m + 1)) l m th ph) := by
    intro l hl i v
    refine upLoop_inv (lo := 0) (hi := l + 1) (by omega) (fun k s => s = ((-1) ^ k, i + 2 * k,
      v + ∑ m ∈ range k, lmTerm q (co (i + 2 * m)) (co (i + 2 * m + 1)) l m th ph)) (by simp) ?_
    rintro k s - hk rfl
    have hy := ht l hl k (by rw [Int.abs_eq_natAbs]; omega)
    simp only
    rw [hy, sphY_re, sphY_im, if_neg (show ¬((k : ℤ) < 0) by omega), Int.natAbs_natCast, Int.cast_natCast, sum_range_succ]
    refine Prod.ext (by simp only; ring) (Prod.ext (by simp only; ring) ?_)
    simp only
    generalize ∑ m ∈ range k, lmTerm q (co (i + 2 * m)) (co (i + 2 * m + 1)) l m th ph = S
    unfold lmTerm
    by_cases h : k = 0
    · subst h
      simp only [if_true, Nat.cast_zero, zero_mul, cos_zero]
      ring
    · rw [if_neg h, if_neg h]
      have : ((-1 : ℝ) ^ k) * (-1) ^ k = 1 := by rw [← mul_pow]; norm_num
      generalize co _ = R
      generalize co _ = I
      generalize Spec.legP _ _ _ _ / √(2 * π) = P
      linear_combination (P * (R * cos (k * ph) - I * sin (k * ph))) * this
  have outer := upLoop_inv (lo := 0) (hi := lmax + 1) (by omega)
    (body := fun l (q : Nat × ℝ) => (upLoop 0 (l + 1) (fun m (s : ℝ × Nat × ℝ) =>
      let sm := s.1
      let Rclm := co s.2.1
      let Iclm := co (s.2.1 + 1)
      let Y := ylmFromTabs Re Im l m
      let Re_Ylm := Y.1
      let Im_Ylm := Y.2
      let Re_Ylmm := sm * Re_Ylm
      let Im_Ylmm := -sm * Im_Ylm
      let Rclmm := sm * Rclm
      let Iclmm := -sm * Iclm
      (-sm, s.2.1 + 2, if m = 0 then s.2.2 + Rclm * Re_Ylm
        else s.2.2 + (Rclm * Re_Ylm - Iclm * Im_Ylm + Rclmm * Re_Ylmm - Iclmm * Im_Ylmm))) (1, q)).2)
    (s := (off, 0))
    (fun k s => s = (off + 2 * indLm k 0, ∑ l ∈ range k, ∑ m ∈ range (l + 1),
        lmTerm q (co (off + 2 * indLm l m)) (co (off + 2 * indLm l m + 1)) l m th ph)) (by simp [indLm]) (by
      rintro k s - hk rfl
      simp only
      rw [inner k (by omega)]
      simp only
      rw [indLm_succ]
      refine Prod.ext (by simp only; ring) ?_
      simp only
      rw [sum_range_succ (fun l => ∑ m ∈ range (l + 1),
        lmTerm q (co (off + 2 * indLm l m)) (co (off + 2 * indLm l m + 1)) l m th ph) k]
      refine congrArg₂ (· + ·) rfl (sum_congr rfl fun m _ => ?_)
      rw [indLm_add k m, show off + 2 * indLm k 0 + 2 * m = off + 2 * (indLm k 0 + m) by ring])
  exact congrArg Prod.snd outer

/-! ## Angles -/

theorem theta_sin (b : CubBox) (A B : ℝ) : 0 ≤ sin (thetaPhiOfAB b A B).1 ∧
    ((b.dir ≠ 1 → b.dir ≠ 2 → ¬(A = 0 ∧ B = 0)) → 0 < sin (thetaPhiOfAB b A B).1) := by
  have h1 : ∀ x : ℝ, 0 < sin (ArgPlus x 1) := fun x => by
    rw [(cos_sin_argPlus x 1 (by simp)).2]
    positivity
  by_cases d1 : b.dir = 1
  · simp only [thetaPhiOfAB, d1, if_true]
    exact ⟨(h1 _).le, fun _ => h1 _⟩
  · by_cases d2 : b.dir = 2
    · simp only [thetaPhiOfAB, d2, if_true, show ¬(2 = 1) from by decide, if_false]
      exact ⟨(h1 _).le, fun _ => h1 _⟩
    · simp only [thetaPhiOfAB, d1, d2, if_false]
      rw [(cos_sin_argPlus b.pm _ (fun h => pm_ne b h.1)).2]
      have hp : 0 < b.pm ^ 2 := by rw [sq_pm]; norm_num
      refine ⟨by positivity, fun h => ?_⟩
      have h3 := sq_pos2 (h d1 d2)
      rw [sq, sq] at h3
      have h4 := Real.sqrt_pos.2 h3
      positivity

theorem legendre_exists : ∃ q : Nat → Nat → ℝ[X], ∀ m, Spec.LegendreFns m (q m) := ⟨legF, legQ_spec⟩

/-- **C140.** The surface is the sum over all `l ≤ lmax` and all `m` from `-l` to `l` of coefficient times
spherical harmonic at the angles of the point `A`, `B`, and this sum is real. The coefficients of the outer
surface start at `nnodes/2`. -/
theorem C140_surface {q : Nat → Nat → ℝ[X]} (hq : ∀ m, Spec.LegendreFns m (q m)) (b : CubBox) {N lmax : Nat}
    (hN : lmax * (lmax + 1) / 2 + lmax + 1 < N / 4) (co : Nat → ℝ) (si : Nat) (A B : ℝ) :
    ∃ v : ℝ, fsurfSigma b N lmax co si A B = .ok v ∧
      (v : ℂ) = Spec.sphSeries q (Spec.realCoeff co (if si = 0 then 0 else N / 2)) lmax
        (thetaPhiOfAB b A B).1 (thetaPhiOfAB b A B).2 := by
  obtain ⟨t, h1, h2, -⟩ := C139_table hq lmax (thetaPhiOfAB b A B).2 (theta_sin b A B).1 (fun _ => 0) (fun _ => 0)
  unfold fsurfSigma
  simp only
  rw [h1, Res.bind_ok, if_neg (by omega)]
  refine ⟨_, rfl, ?_⟩
  rw [surfSum_eq lmax h2, series_eq]
  by_cases h : si = 0 <;> simp [h]

/-- **C140.** Too large an `lmax` is refused. -/
theorem C140_refused (b : CubBox) {N lmax : Nat} (hN : N / 4 ≤ lmax * (lmax + 1) / 2 + lmax + 1) (co : Nat → ℝ)
    (si : Nat) (A B : ℝ) : fsurfSigma b N lmax co si A B = .abort := by
  obtain ⟨q, hq⟩ := legendre_exists
  obtain ⟨t, h1, -⟩ := C139_table hq lmax (thetaPhiOfAB b A B).2 (theta_sin b A B).1 (fun _ => 0) (fun _ => 0)
  unfold fsurfSigma
  simp only
  rw [h1, Res.bind_ok, if_pos (by omega)]

/-! ## Coefficients of the derivatives -/

theorem lmLoop_at (lmax : Nat) (F G : Nat → Nat → Nat → ℝ) (cd : Nat → ℝ) :
    let r := (lmLoop lmax (fun l m i cd => aset (aset cd i (F l m i)) (i + 1) (G l m i)) 0 cd).2
    (∀ l ≤ lmax, ∀ m ≤ l, r (2 * indLm l m) = F l m (2 * indLm l m) ∧ r (2 * indLm l m + 1) = G l m (2 * indLm l m)) ∧
      ∀ i, 2 * indLm (lmax + 1) 0 ≤ i → r i = cd i := by
  simp only
  unfold lmLoop
  let Inv : Nat → Nat × (Nat → ℝ) → Prop := fun p q => q.1 = 2 * p ∧
    (∀ l m, m ≤ l → indLm l m < p → q.2 (2 * indLm l m) = F l m (2 * indLm l m) ∧
      q.2 (2 * indLm l m + 1) = G l m (2 * indLm l m)) ∧ ∀ i, 2 * p ≤ i → q.2 i = cd i
  have inner : ∀ k, ∀ q, Inv (indLm k 0) q → Inv (indLm (k + 1) 0) (upLoop 0 (k + 1) (fun m (q : Nat × (Nat → ℝ)) =>
      (q.1 + 2, aset (aset q.2 q.1 (F k m q.1)) (q.1 + 1) (G k m q.1))) q) := by
    intro k q hq
    have := upLoop_inv (lo := 0) (hi := k + 1) (by omega) (body := fun m (q : Nat × (Nat → ℝ)) =>
      (q.1 + 2, aset (aset q.2 q.1 (F k m q.1)) (q.1 + 1) (G k m q.1))) (s := q)
      (fun j q => Inv (indLm k j) q) hq (by
        rintro j ⟨n, r⟩ - hj ⟨h1, h2, h3⟩
        simp only at h1 h2 h3 ⊢
        subst h1
        refine ⟨by simp only [indLm]; ring, fun l m hm hlt => ?_, fun i hi => ?_⟩
        · simp only
          by_cases he : indLm l m = indLm k j
          · obtain ⟨rfl, rfl⟩ := indLm_inj hm (show j ≤ k by omega) he
            rw [aset_ne _ _ (by omega), aset_self, aset_self]
            exact ⟨rfl, rfl⟩
          · have hlt' : indLm l m < indLm k j := by
              have : indLm k (j + 1) = indLm k j + 1 := by simp only [indLm]; ring
              omega
            rw [aset_ne _ _ (by omega), aset_ne _ _ (by omega), aset_ne _ _ (by omega), aset_ne _ _ (by omega)]
            exact h2 l m hm hlt'
        · have : indLm k (j + 1) = indLm k j + 1 := by simp only [indLm]; ring
          simp only
          rw [aset_ne _ _ (by omega), aset_ne _ _ (by omega)]
          exact h3 i (by omega))
    rw [indLm_succ, Nat.add_assoc, ← indLm_add]
    exact this
  have outer := upLoop_inv (lo := 0) (hi := lmax + 1) (by omega) (body := fun l (q : Nat × (Nat → ℝ)) =>
    upLoop 0 (l + 1) (fun m (q : Nat × (Nat → ℝ)) =>
      (q.1 + 2, aset (aset q.2 q.1 (F l m q.1)) (q.1 + 1) (G l m q.1))) q) (s := (0, cd))
    (fun k q => Inv (indLm k 0) q) ⟨by simp [indLm], fun l m _ h => by simp [indLm] at h, fun i _ => rfl⟩
    (fun k q _ _ h => inner k q h)
  obtain ⟨-, h2, h3⟩ := outer
  exact ⟨fun l hl m hm => h2 l m hm (indLm_lt (by omega) hm), h3⟩

theorem sphDphi_at (c cd : Nat → ℝ) (lmax : Nat) :
    (∀ l ≤ lmax, ∀ m ≤ l, sphDphi c cd lmax (2 * indLm l m) = -m * c (2 * indLm l m + 1) ∧
      sphDphi c cd lmax (2 * indLm l m + 1) = m * c (2 * indLm l m)) ∧
      ∀ i, 2 * indLm (lmax + 1) 0 ≤ i → sphDphi c cd lmax i = cd i :=
  lmLoop_at lmax (fun _ m i => -m * c (i + 1)) (fun _ m i => m * c i) cd

theorem epsLm_eq {l m : Nat} (h : m ≤ l) : √|((l : ℝ) * l - m * m) / ((2 * l + 1) * (2 * l - 1))| = Spec.epsLm l m := by
  unfold Spec.epsLm
  rw [abs_of_nonneg, sq, sq]
  rcases Nat.eq_zero_or_pos l with h0 | h0
  · have : m = 0 := by omega
    subst h0 this
    simp
  · have h1 : (m : ℝ) ≤ l := by exact_mod_cast h
    have h2 : (1 : ℝ) ≤ l := by exact_mod_cast h0
    have h3 : (0 : ℝ) ≤ m := Nat.cast_nonneg m
    have h4 : (0 : ℝ) < 2 * l - 1 := by linarith
    apply div_nonneg
    · nlinarith
    · positivity

theorem epsLm_legA (l m : Nat) : Spec.epsLm l m = legA m l := by
  unfold Spec.epsLm legA
  congr 2
  ring

theorem sphSinDtheta_at (c cs : Nat → ℝ) (lmax : Nat) :
    (∀ l ≤ lmax, ∀ m ≤ l, sphSinDtheta c cs lmax (2 * indLm l m) =
        ((l : ℝ) - 1) * Spec.epsLm l m * c (2 * indLm (l - 1) m) - (l + 2) * Spec.epsLm (l + 1) m * c (2 * indLm (l + 1) m) ∧
      sphSinDtheta c cs lmax (2 * indLm l m + 1) =
        ((l : ℝ) - 1) * Spec.epsLm l m * c (2 * indLm (l - 1) m + 1) - (l + 2) * Spec.epsLm (l + 1) m * c (2 * indLm (l + 1) m + 1)) ∧
      ∀ i, 2 * indLm (lmax + 1) 0 ≤ i → sphSinDtheta c cs lmax i = cs i := by
  obtain ⟨h1, h2⟩ := lmLoop_at lmax
    (fun l m i => ((l : ℝ) - 1) * √|((l : ℝ) * l - m * m) / ((2 * l + 1) * (2 * l - 1))| * c (i - 2 * l) -
      (((l + 1 : ℕ) : ℝ) + 1) * √((((l + 1 : ℕ) : ℝ) * (l + 1 : ℕ) - m * m) / ((2 * (l + 1 : ℕ) + 1) * (2 * (l + 1 : ℕ) - 1))) *
        c (i + 2 * (l + 1)))
    (fun l m i => ((l : ℝ) - 1) * √|((l : ℝ) * l - m * m) / ((2 * l + 1) * (2 * l - 1))| * c (i - 2 * l + 1) -
      (((l + 1 : ℕ) : ℝ) + 1) * √((((l + 1 : ℕ) : ℝ) * (l + 1 : ℕ) - m * m) / ((2 * (l + 1 : ℕ) + 1) * (2 * (l + 1 : ℕ) - 1))) *
        c (i + 2 * (l + 1) + 1)) cs
  refine ⟨fun l hl m hm => ?_, h2⟩
  obtain ⟨k1, k2⟩ := h1 l hl m hm
  have e1 := epsLm_eq hm
  have e2 : √((((l + 1 : ℕ) : ℝ) * (l + 1 : ℕ) - m * m) / ((2 * (l + 1 : ℕ) + 1) * (2 * (l + 1 : ℕ) - 1))) =
      Spec.epsLm (l + 1) m := by unfold Spec.epsLm; rw [sq, sq]
  have p1 : 2 * indLm l m + 2 * (l + 1) = 2 * indLm (l + 1) m := by
    rw [indLm_add l m, indLm_add (l + 1) m, indLm_succ]; ring
  have p2 : 2 * indLm l m - 2 * l = 2 * indLm (l - 1) m := by
    rcases l with _ | l
    · simp
    · rw [indLm_add (l + 1) m, indLm_succ, Nat.add_sub_cancel, indLm_add l m]; omega
  rw [e1, e2, p1, p2] at k1 k2
  have e3 : ((l + 1 : ℕ) : ℝ) + 1 = l + 2 := by push_cast; ring
  rw [e3] at k1 k2
  exact ⟨k1, k2⟩

/-! ## Derivatives -/

theorem legP_deriv {m : Nat} {q : Nat → ℝ[X]} (hq : Spec.LegendreFns m q) {l : Nat} (hl : m ≤ l) (th : ℝ) :
    ∃ D, HasDerivAt (Spec.legP m q l) D th ∧ sin th * D =
      l * Spec.epsLm (l + 1) m * Spec.legP m q (l + 1) th - (l + 1) * Spec.epsLm l m * Spec.legP m q (l - 1) th := by
  have hpoly := ((q l).hasDerivAt (cos th)).comp th (hasDerivAt_cos th)
  have hs := ((hasDerivAt_sin th).pow m).const_mul ((-1 : ℝ) ^ m)
  have hD := hs.mul hpoly
  refine ⟨_, hD, ?_⟩
  obtain ⟨n, rfl⟩ := Nat.exists_eq_add_of_le hl
  have hrec := congrArg (eval (cos th)) ((legQ_rec m).rec' n)
  have hlad := congrArg (eval (cos th)) ((legQ_rec m).ladder n)
  have hF : ∀ k, q (m + k) = C ((-1) ^ m) * legQ m k := fun k => by
    rw [C108_unique hq (legQ_spec m) (by omega), legF, Nat.add_sub_cancel_left]
  have hlow : legA m (m + n) * Spec.legP m q (m + n - 1) th = legA m (m + n) * ((-1) ^ m * sin th ^ m *
      ((-1) ^ m * (legQ m (n - 1)).eval (cos th))) := by
    rcases n with _ | n
    · rw [Nat.add_zero, legA_self]; ring
    · unfold Spec.legP
      rw [show m + (n + 1) - 1 = m + n by omega, hF, eval_mul, eval_C, Nat.add_sub_cancel]
  rw [epsLm_legA, epsLm_legA, mul_assoc ((m + n : ℕ) + 1 : ℝ), hlow]
  unfold Spec.legP
  rw [show m + n + 1 = m + (n + 1) by omega, hF, hF, eval_mul, eval_C]
  simp only [derivative_C_mul, eval_mul, eval_C, eval_sub, eval_X, eval_add, eval_neg, eval_pow, eval_one, eval_natCast,
    Function.comp, Pi.pow_apply] at hrec hlad ⊢
  have hsm : sin th * ((m : ℝ) * sin th ^ (m - 1)) = m * sin th ^ m := by
    rcases m with _ | m
    · simp
    · rw [Nat.add_sub_cancel]; ring
  have h2 : sin th ^ 2 = 1 - cos th ^ 2 := sin_sq th
  have h1 : ((-1 : ℝ) ^ m) ^ 2 = 1 := by rw [← pow_mul, mul_comm, pow_mul]; norm_num
  push_cast at hlad ⊢
  generalize legA m (m + n) = a0 at *
  generalize legA m (m + (n + 1)) = a1 at *
  generalize eval (cos th) (derivative (legQ m n)) = d at *
  generalize eval (cos th) (legQ m n) = v at *
  generalize eval (cos th) (legQ m (n - 1)) = v0 at *
  generalize eval (cos th) (legQ m (n + 1)) = v1 at *
  generalize sin th ^ (m - 1) = t at *
  generalize sin th ^ m = u at *
  generalize (-1 : ℝ) ^ m = g at *
  generalize cos th = x at *
  generalize sin th = s at *
  linear_combination (g ^ 2 * x * v) * hsm - (g ^ 2 * u * d) * h2 - (g ^ 2 * u) * hlad - (g ^ 2 * u * (m + n)) * hrec

/-- The part of a term that does not depend on `θ`. -/
noncomputable def lmK (R I : ℝ) (m : Nat) (ph : ℝ) : ℝ :=
  if m = 0 then R / √(2 * π) else 2 / √(2 * π) * (R * cos (m * ph) - I * sin (m * ph))

theorem lmTerm_eq (q : Nat → Nat → ℝ[X]) (R I : ℝ) (l m : Nat) (th ph : ℝ) :
    lmTerm q R I l m th ph = lmK R I m ph * Spec.legP m (q m) l th := by
  unfold lmTerm lmK
  by_cases h : m = 0
  · subst h; rw [if_pos rfl, if_pos rfl]; ring
  · rw [if_neg h, if_neg h]; ring

theorem lmK_linear (a b R I R' I' : ℝ) (m : Nat) (ph : ℝ) :
    lmK (a * R - b * R') (a * I - b * I') m ph = a * lmK R I m ph - b * lmK R' I' m ph := by
  unfold lmK
  split_ifs <;> ring

/-- `cos(mΦ)` along a curve. -/
theorem cos_sin_mul_deriv {P : ℝ → ℝ} {t V : ℝ} (hc : HasDerivAt (fun s => cos (P s)) (-sin (P t) * V) t)
    (hs : HasDerivAt (fun s => sin (P s)) (cos (P t) * V) t) (m : Nat) :
    HasDerivAt (fun s => cos (m * P s)) (-sin (m * P t) * (m * V)) t ∧
      HasDerivAt (fun s => sin (m * P s)) (cos (m * P t) * (m * V)) t := by
  induction m with
  | zero => simpa using ⟨hasDerivAt_const t (1 : ℝ), hasDerivAt_const t (0 : ℝ)⟩
  | succ m ih =>
    obtain ⟨i1, i2⟩ := ih
    constructor
    · refine ((i1.mul hc).sub (i2.mul hs)).congr_deriv ?_ |>.congr_of_eventuallyEq (.of_forall fun s => ?_)
      · push_cast
        rw [show ((m : ℝ) + 1) * P t = m * P t + P t by ring, sin_add]
        ring
      · push_cast
        rw [show ((m : ℝ) + 1) * P s = m * P s + P s by ring, cos_add]
        rfl
    · refine ((i2.mul hc).add (i1.mul hs)).congr_deriv ?_ |>.congr_of_eventuallyEq (.of_forall fun s => ?_)
      · push_cast
        rw [show ((m : ℝ) + 1) * P t = m * P t + P t by ring, cos_add]
        ring
      · push_cast
        rw [show ((m : ℝ) + 1) * P s = m * P s + P s by ring, sin_add]
        rfl

theorem lmK_deriv {P : ℝ → ℝ} {t V : ℝ} (hc : HasDerivAt (fun s => cos (P s)) (-sin (P t) * V) t)
    (hs : HasDerivAt (fun s => sin (P s)) (cos (P t) * V) t) (R I : ℝ) (m : Nat) :
    HasDerivAt (fun s => lmK R I m (P s)) (lmK (-m * I) (m * R) m (P t) * V) t := by
  unfold lmK
  by_cases h : m = 0
  · subst h
    simp only [if_true]
    refine (hasDerivAt_const t _).congr_deriv ?_
    simp
  · simp only [if_neg h]
    obtain ⟨i1, i2⟩ := cos_sin_mul_deriv hc hs m
    refine (((i1.const_mul R).sub (i2.const_mul I)).const_mul (2 / √(2 * π))).congr_deriv ?_
    ring

theorem telescope (k P e : Nat → Nat → ℝ) (he : ∀ m, e m m = 0) (L : Nat) :
    ∑ l ∈ range (L + 1), ∑ m ∈ range (l + 1), k l m * (l * e (l + 1) m * P (l + 1) m - (l + 1) * e l m * P (l - 1) m) =
      ∑ l ∈ range (L + 1), ∑ m ∈ range (l + 1),
        (((l : ℝ) - 1) * e l m * k (l - 1) m - (l + 2) * e (l + 1) m * k (l + 1) m) * P l m +
      ∑ m ∈ range (L + 1), e (L + 1) m * (L * k L m * P (L + 1) m + (L + 2) * k (L + 1) m * P L m) := by
  induction L with
  | zero => simp [he]; ring
  | succ L ih =>
    rw [sum_range_succ, ih, sum_range_succ (fun l => ∑ m ∈ range (l + 1),
      (((l : ℝ) - 1) * e l m * k (l - 1) m - (l + 2) * e (l + 1) m * k (l + 1) m) * P l m) (L + 1)]
    have h1 : ∑ m ∈ range (L + 1), e (L + 1) m * (L * k L m * P (L + 1) m + (L + 2) * k (L + 1) m * P L m) =
        ∑ m ∈ range (L + 1 + 1), e (L + 1) m * (L * k L m * P (L + 1) m + (L + 2) * k (L + 1) m * P L m) := by
      rw [sum_range_succ _ (L + 1), he]; ring
    have h2 : (∑ m ∈ range (L + 1 + 1), e (L + 1) m * (L * k L m * P (L + 1) m + (L + 2) * k (L + 1) m * P L m)) +
        ∑ m ∈ range (L + 1 + 1), k (L + 1) m * ((L + 1 : ℕ) * e (L + 1 + 1) m * P (L + 1 + 1) m -
          ((L + 1 : ℕ) + 1) * e (L + 1) m * P (L + 1 - 1) m) =
        (∑ m ∈ range (L + 1 + 1), ((((L + 1 : ℕ) : ℝ) - 1) * e (L + 1) m * k (L + 1 - 1) m -
          ((L + 1 : ℕ) + 2) * e (L + 1 + 1) m * k (L + 1 + 1) m) * P (L + 1) m) +
        ∑ m ∈ range (L + 1 + 1), e (L + 1 + 1) m * ((L + 1 : ℕ) * k (L + 1) m * P (L + 1 + 1) m +
          ((L + 1 : ℕ) + 2) * k (L + 1 + 1) m * P (L + 1) m) := by
      rw [← sum_add_distrib, ← sum_add_distrib]
      refine sum_congr rfl fun m _ => ?_
      rw [Nat.add_sub_cancel]
      push_cast
      ring
    linarith

/-- The derivative of the sum along a curve. -/
theorem sum_deriv {q : Nat → Nat → ℝ[X]} (hq : ∀ m, Spec.LegendreFns m (q m)) (c cs cd : Nat → ℝ) (lmax : Nat)
    {T P : ℝ → ℝ} {t VT V : ℝ} (hT : HasDerivAt T VT t) (hc : HasDerivAt (fun s => cos (P s)) (-sin (P t) * V) t)
    (hs : HasDerivAt (fun s => sin (P s)) (cos (P t) * V) t) :
    ∃ D, HasDerivAt (fun s => ∑ l ∈ range (lmax + 1), ∑ m ∈ range (l + 1),
        lmTerm q (c (2 * indLm l m)) (c (2 * indLm l m + 1)) l m (T s) (P s))
      (D * VT + (∑ l ∈ range (lmax + 1), ∑ m ∈ range (l + 1),
        lmTerm q (sphDphi c cd lmax (2 * indLm l m)) (sphDphi c cd lmax (2 * indLm l m + 1)) l m (T t) (P t)) * V) t ∧
      sin (T t) * D = (∑ l ∈ range (lmax + 1), ∑ m ∈ range (l + 1),
        lmTerm q (sphSinDtheta c cs lmax (2 * indLm l m)) (sphSinDtheta c cs lmax (2 * indLm l m + 1)) l m (T t) (P t)) +
        ∑ m ∈ range (lmax + 1), Spec.epsLm (lmax + 1) m *
          (lmax * lmTerm q (c (2 * indLm lmax m)) (c (2 * indLm lmax m + 1)) (lmax + 1) m (T t) (P t) +
            (lmax + 2) * lmTerm q (c (2 * indLm (lmax + 1) m)) (c (2 * indLm (lmax + 1) m + 1)) lmax m (T t) (P t)) := by
  have hex : ∀ l m, ∃ D, m ≤ l → HasDerivAt (Spec.legP m (q m) l) D (T t) ∧ sin (T t) * D =
      l * Spec.epsLm (l + 1) m * Spec.legP m (q m) (l + 1) (T t) -
        (l + 1) * Spec.epsLm l m * Spec.legP m (q m) (l - 1) (T t) := by
    intro l m
    by_cases h : m ≤ l
    · obtain ⟨D, h1, h2⟩ := legP_deriv (hq m) h (T t)
      exact ⟨D, fun _ => ⟨h1, h2⟩⟩
    · exact ⟨0, fun h' => absurd h' h⟩
  choose D hD using hex
  refine ⟨∑ l ∈ range (lmax + 1), ∑ m ∈ range (l + 1), lmK (c (2 * indLm l m)) (c (2 * indLm l m + 1)) m (P t) * D l m, ?_, ?_⟩
  · rw [sum_mul, sum_mul, ← sum_add_distrib]
    refine HasDerivAt.fun_sum fun l hl => ?_
    rw [sum_mul, sum_mul, ← sum_add_distrib]
    refine HasDerivAt.fun_sum fun m hm => ?_
    have hl' : l ≤ lmax := by have := mem_range.1 hl; omega
    have hm' : m ≤ l := by have := mem_range.1 hm; omega
    obtain ⟨e1, e2⟩ := (sphDphi_at c cd lmax).1 l hl' m hm'
    simp only [lmTerm_eq]
    refine ((lmK_deriv hc hs _ _ m).mul ((hD l m hm').1.comp t hT)).congr_deriv ?_
    rw [e1, e2]
    simp only [Function.comp]
    ring
  · rw [mul_sum]
    simp only [mul_sum]
    have h1 : ∑ l ∈ range (lmax + 1), ∑ m ∈ range (l + 1),
        sin (T t) * (lmK (c (2 * indLm l m)) (c (2 * indLm l m + 1)) m (P t) * D l m) =
      ∑ l ∈ range (lmax + 1), ∑ m ∈ range (l + 1), lmK (c (2 * indLm l m)) (c (2 * indLm l m + 1)) m (P t) *
        (l * Spec.epsLm (l + 1) m * Spec.legP m (q m) (l + 1) (T t) -
          (l + 1) * Spec.epsLm l m * Spec.legP m (q m) (l - 1) (T t)) := by
      refine sum_congr rfl fun l hl => sum_congr rfl fun m hm => ?_
      rw [← (hD l m (by have := mem_range.1 hm; omega)).2]
      ring
    rw [h1, telescope (fun l m => lmK (c (2 * indLm l m)) (c (2 * indLm l m + 1)) m (P t))
      (fun l m => Spec.legP m (q m) l (T t)) Spec.epsLm (fun m => by rw [epsLm_legA, legA_self])]
    congr 1
    · refine sum_congr rfl fun l hl => sum_congr rfl fun m hm => ?_
      obtain ⟨e1, e2⟩ := (sphSinDtheta_at c cs lmax).1 l (by have := mem_range.1 hl; omega) m
        (by have := mem_range.1 hm; omega)
      rw [e1, e2, lmTerm_eq, lmK_linear]
    · refine sum_congr rfl fun m _ => ?_
      rw [lmTerm_eq, lmTerm_eq]
      ring

theorem row_eq (q : Nat → Nat → ℝ[X]) (co : Nat → ℝ) (off n l' l : Nat) (w : Nat → ℝ) (th ph : ℝ) :
    (∑ m ∈ Finset.Icc (-(n : ℤ)) n, (w m.natAbs : ℂ) * (Spec.realCoeff co off l' m * Spec.sphY q l m th ph)).re =
      ∑ m ∈ range (n + 1), w m * lmTerm q (co (off + 2 * indLm l' m)) (co (off + 2 * indLm l' m + 1)) l m th ph := by
  rw [sum_symm, sum_range_succ', Complex.add_re, Complex.re_sum, add_comm]
  congr 1
  · refine sum_congr rfl fun m _ => ?_
    rw [show ((m : ℤ) + 1).natAbs = m + 1 by omega, show (-((m : ℤ) + 1)).natAbs = m + 1 by omega, ← mul_add,
      Complex.re_ofReal_mul]
    congr 1
    rw [Complex.add_re, Complex.mul_re, Complex.mul_re, sphY_re, sphY_re, sphY_im, sphY_im]
    unfold Spec.realCoeff lmTerm
    simp only
    rw [if_neg (by omega), if_pos (by omega), if_neg (by omega), if_neg (by omega), if_neg (by omega), if_pos (by omega),
      if_neg (by omega)]
    rw [show ((m : ℤ) + 1).natAbs = m + 1 by omega, show (-((m : ℤ) + 1)).natAbs = m + 1 by omega,
      Complex.re_ofReal_mul, Complex.im_ofReal_mul]
    push_cast
    rw [show -((m : ℝ) + 1) * ph = -((m + 1) * ph) by ring, cos_neg, sin_neg]
    have : ((-1 : ℝ) ^ (m + 1)) * (-1) ^ (m + 1) = 1 := by rw [← mul_pow]; norm_num
    unfold indLm
    generalize co _ = R
    generalize co _ = I
    generalize Spec.legP _ _ _ _ / √(2 * π) = P
    linear_combination (P * (R * cos ((m + 1) * ph) - I * sin ((m + 1) * ph))) * this
  · rw [Complex.re_ofReal_mul, Complex.mul_re, sphY_re, sphY_im]
    unfold Spec.realCoeff lmTerm indLm
    simp

/-- **C140.** `SphHarm_dphi_forRealFunc` gives the coefficients of the derivative by `φ`. -/
theorem C140_dphi {q : Nat → Nat → ℝ[X]} (hq : ∀ m, Spec.LegendreFns m (q m)) (c cd : Nat → ℝ) (lmax : Nat) (th ph : ℝ) :
    HasDerivAt (fun p => (Spec.sphSeries q (Spec.realCoeff c 0) lmax th p).re)
      (Spec.sphSeries q (Spec.realCoeff (sphDphi c cd lmax) 0) lmax th ph).re ph := by
  obtain ⟨D, h, -⟩ := sum_deriv hq c cd cd lmax (T := fun _ => th) (P := fun p => p) (t := ph) (VT := 0) (V := 1)
    (hasDerivAt_const ph th) (by simpa using hasDerivAt_cos ph) (by simpa using hasDerivAt_sin ph)
  simp only [series_eq, Complex.ofReal_re, Nat.zero_add]
  exact h.congr_deriv (by ring)

/-- **C140.** `SphHarm_sin_theta_dtheta_forRealFunc`: the sum with the coefficients it computes differs from
`sin θ` times the derivative by `θ` by two sums: the part of the derivative with `l = lmax+1`, and what the
entries of the array after the coefficients give, which are read as if they were coefficients with
`l = lmax+1`. -/
theorem C140_dtheta {q : Nat → Nat → ℝ[X]} (hq : ∀ m, Spec.LegendreFns m (q m)) (c cs : Nat → ℝ) (lmax : Nat) (th ph : ℝ) :
    ∃ D, HasDerivAt (fun t => (Spec.sphSeries q (Spec.realCoeff c 0) lmax t ph).re) D th ∧
      sin th * D = (Spec.sphSeries q (Spec.realCoeff (sphSinDtheta c cs lmax) 0) lmax th ph).re +
        lmax * (∑ m ∈ Finset.Icc (-(lmax : ℤ)) lmax, (Spec.epsLm (lmax + 1) m.natAbs : ℂ) *
          (Spec.realCoeff c 0 lmax m * Spec.sphY q (lmax + 1) m th ph)).re +
        (lmax + 2) * (∑ m ∈ Finset.Icc (-(lmax : ℤ)) lmax, (Spec.epsLm (lmax + 1) m.natAbs : ℂ) *
          (Spec.realCoeff c 0 (lmax + 1) m * Spec.sphY q lmax m th ph)).re := by
  obtain ⟨D, h, h2⟩ := sum_deriv hq c cs cs lmax (T := fun t => t) (P := fun _ => ph) (t := th) (VT := 1) (V := 0)
    (hasDerivAt_id th) (by simpa using hasDerivAt_const th (cos ph)) (by simpa using hasDerivAt_const th (sin ph))
  refine ⟨D, ?_, ?_⟩
  · simp only [series_eq, Complex.ofReal_re, Nat.zero_add]
    exact h.congr_deriv (by ring)
  · rw [h2, row_eq, row_eq, series_eq, Complex.ofReal_re]
    simp only [Nat.zero_add]
    have : ∀ x y : Nat → ℝ, ∑ m ∈ range (lmax + 1), Spec.epsLm (lmax + 1) m * (lmax * x m + (lmax + 2) * y m) =
        lmax * ∑ m ∈ range (lmax + 1), Spec.epsLm (lmax + 1) m * x m +
          (lmax + 2) * ∑ m ∈ range (lmax + 1), Spec.epsLm (lmax + 1) m * y m := by
      intro x y
      rw [mul_sum, mul_sum, ← sum_add_distrib]
      exact sum_congr rfl fun m _ => by ring
    rw [this, ← add_assoc]

/-- **C140.** If the coefficients with `l = lmax` and the entries after the coefficients are zero the result is
`sin θ ∂f/∂θ`. In general it is not, see `C140_derivs_counterexample`. -/
theorem C140_dtheta_partial {q : Nat → Nat → ℝ[X]} (hq : ∀ m, Spec.LegendreFns m (q m)) (c cs : Nat → ℝ) (lmax : Nat)
    (th ph : ℝ) (h0 : ∀ i, lmax * (lmax + 1) ≤ i → i < (lmax + 1) * (lmax + 2) + 2 * (lmax + 1) → c i = 0) :
    ∃ D, HasDerivAt (fun t => (Spec.sphSeries q (Spec.realCoeff c 0) lmax t ph).re) D th ∧
      (Spec.sphSeries q (Spec.realCoeff (sphSinDtheta c cs lmax) 0) lmax th ph).re = sin th * D := by
  obtain ⟨D, h1, h2⟩ := C140_dtheta hq c cs lmax th ph
  refine ⟨D, h1, ?_⟩
  have e1 : 2 * indLm lmax 0 = lmax * (lmax + 1) := by
    have : 2 ∣ lmax * (lmax + 1) := (Nat.even_mul_succ_self lmax).two_dvd
    simp only [indLm]; omega
  have e2 := indLm_succ lmax
  have e3 : (lmax + 1) * (lmax + 2) = lmax * (lmax + 1) + 2 * (lmax + 1) := by ring
  rw [h2, row_eq, row_eq, sum_eq_zero, sum_eq_zero]
  · ring
  · intro m hm
    have := mem_range.1 hm
    rw [indLm_add (lmax + 1) m, h0 _ (by omega) (by omega), h0 _ (by omega) (by omega)]
    simp [lmTerm]
  · intro m hm
    have := mem_range.1 hm
    rw [indLm_add lmax m, h0 _ (by omega) (by omega), h0 _ (by omega) (by omega)]
    simp [lmTerm]

/-- Value and derivatives as sums. -/
theorem fsurf_both {q : Nat → Nat → ℝ[X]} (hq : ∀ m, Spec.LegendreFns m (q m)) (b : CubBox) {N lmax : Nat}
    (hN : lmax * (lmax + 1) / 2 + lmax + 1 < N / 4) (co : Nat → ℝ) (si : Nat) {A B : ℝ} (h0 : ¬(A = 0 ∧ B = 0)) :
    ∃ D fp, fsurfDerivs b N lmax co si A B = .ok
        (((sin (thetaPhiOfAB b A B).1 * D - ∑ m ∈ range (lmax + 1), Spec.epsLm (lmax + 1) m *
          (lmax * lmTerm q (co ((if si = 0 then 0 else N / 2) + 2 * indLm lmax m))
            (co ((if si = 0 then 0 else N / 2) + (2 * indLm lmax m + 1))) (lmax + 1) m (thetaPhiOfAB b A B).1 (thetaPhiOfAB b A B).2 +
          (lmax + 2) * lmTerm q (co ((if si = 0 then 0 else N / 2) + 2 * indLm (lmax + 1) m))
            (co ((if si = 0 then 0 else N / 2) + (2 * indLm (lmax + 1) m + 1))) lmax m (thetaPhiOfAB b A B).1 (thetaPhiOfAB b A B).2)) /
            sin (thetaPhiOfAB b A B).1) * dThetaPhiOfAB b A B 0 + fp * dThetaPhiOfAB b A B 2,
          ((sin (thetaPhiOfAB b A B).1 * D - ∑ m ∈ range (lmax + 1), Spec.epsLm (lmax + 1) m *
          (lmax * lmTerm q (co ((if si = 0 then 0 else N / 2) + 2 * indLm lmax m))
            (co ((if si = 0 then 0 else N / 2) + (2 * indLm lmax m + 1))) (lmax + 1) m (thetaPhiOfAB b A B).1 (thetaPhiOfAB b A B).2 +
          (lmax + 2) * lmTerm q (co ((if si = 0 then 0 else N / 2) + 2 * indLm (lmax + 1) m))
            (co ((if si = 0 then 0 else N / 2) + (2 * indLm (lmax + 1) m + 1))) lmax m (thetaPhiOfAB b A B).1 (thetaPhiOfAB b A B).2)) /
            sin (thetaPhiOfAB b A B).1) * dThetaPhiOfAB b A B 1 + fp * dThetaPhiOfAB b A B 3) ∧
      ∀ v : ℝ → ℝ → ℝ, (∀ A B, fsurfSigma b N lmax co si A B = .ok (v A B)) →
        Spec.SurfaceDeriv v (D * dThetaPhiOfAB b A B 0 + fp * dThetaPhiOfAB b A B 2)
          (D * dThetaPhiOfAB b A B 1 + fp * dThetaPhiOfAB b A B 3) A B := by
  set off := if si = 0 then 0 else N / 2 with hoff
  have hoff' : (if si ≠ 0 then N / 2 else 0) = off := by rw [hoff]; by_cases h : si = 0 <;> simp [h]
  set T := (thetaPhiOfAB b A B).1 with hT
  set P := (thetaPhiOfAB b A B).2 with hP
  -- the number D
  obtain ⟨D, -, hD⟩ := sum_deriv hq (fun i => co (off + i)) (fun _ => 0) (fun _ => 0) lmax (T := fun t => t) (P := fun _ => P)
    (t := T) (VT := 1) (V := 0) (hasDerivAt_id T) (by simpa using hasDerivAt_const T (cos P))
    (by simpa using hasDerivAt_const T (sin P))
  have hsT : 0 < sin T := (theta_sin b A B).2 fun _ _ => h0
  refine ⟨D, ∑ l ∈ range (lmax + 1), ∑ m ∈ range (l + 1),
        lmTerm q (sphDphi (fun i => co (off + i)) (fun _ => 0) lmax (2 * indLm l m))
          (sphDphi (fun i => co (off + i)) (fun _ => 0) lmax (2 * indLm l m + 1)) l m T P, ?_, ?_⟩
  · obtain ⟨t, h1, h2, -⟩ := C139_table hq lmax P hsT.le (fun _ => 0) (fun _ => 0)
    unfold fsurfDerivs
    simp only
    rw [if_neg h0, ← hT, ← hP, h1, Res.bind_ok, hoff', surfSum_eq lmax h2, surfSum_eq lmax h2]
    simp only [Nat.zero_add]
    rw [hD, add_sub_cancel_right]
  · intro v hv Y Z t VY VZ hYt hZt hY hZ
    have hdT := C81_dtheta b A B (fun _ _ => h0) Y Z t VY VZ hYt hZt hY hZ
    obtain ⟨e1, e2⟩ := C81_dphi_cos_sin b A B (fun _ _ => h0)
    have k1 := e1 Y Z t VY VZ hYt hZt hY hZ
    have k2 := e2 Y Z t VY VZ hYt hZt hY hZ
    subst hYt hZt
    obtain ⟨D', hd, hD'⟩ := sum_deriv hq (fun i => co (off + i)) (fun _ => 0) (fun _ => 0) lmax
      (T := fun s => (thetaPhiOfAB b (Y s) (Z s)).1) (P := fun s => (thetaPhiOfAB b (Y s) (Z s)).2) (t := t)
      (VT := dThetaPhiOfAB b (Y t) (Z t) 0 * VY + dThetaPhiOfAB b (Y t) (Z t) 1 * VZ)
      (V := dThetaPhiOfAB b (Y t) (Z t) 2 * VY + dThetaPhiOfAB b (Y t) (Z t) 3 * VZ) hdT
      (k1.congr_deriv (by ring)) (k2.congr_deriv (by ring))
    have hDD : D' = D := by
      apply mul_left_cancel₀ hsT.ne'
      rw [hD]
      exact hD'
    refine (hd.congr_deriv ?_).congr_of_eventuallyEq (.of_forall fun s => ?_)
    · rw [hDD]
      simp only [← hT, ← hP]
      ring
    · have h := hv (Y s) (Z s)
      obtain ⟨w, hw, hw'⟩ := C140_surface hq b hN co si (Y s) (Z s)
      rw [h] at hw
      have : v (Y s) (Z s) = w := Res.ok.inj hw
      rw [series_eq, ← hoff] at hw'
      change v (Y s) (Z s) = _
      rw [this]
      exact Complex.ofReal_injective (hw'.trans (by rfl))

/-- **C140.** If the coefficients with `l = lmax` and the entries after the coefficients are zero, then
`FSurf_CubSph_sigma01_derivs` gives the derivatives of the surface by `A` and `B` (except at `A = B = 0`, where
another point is used). In general it does not, see `C140_derivs_counterexample`. -/
theorem C140_derivs_partial (b : CubBox) {N lmax : Nat} (hN : lmax * (lmax + 1) / 2 + lmax + 1 < N / 4) (co : Nat → ℝ)
    (si : Nat) {A B : ℝ} (h0 : ¬(A = 0 ∧ B = 0))
    (hz : ∀ i, lmax * (lmax + 1) ≤ i → i < (lmax + 1) * (lmax + 2) + 2 * (lmax + 1) →
      co ((if si = 0 then 0 else N / 2) + i) = 0) :
    ∃ dA dB, fsurfDerivs b N lmax co si A B = .ok (dA, dB) ∧
      ∀ v : ℝ → ℝ → ℝ, (∀ A B, fsurfSigma b N lmax co si A B = .ok (v A B)) → Spec.SurfaceDeriv v dA dB A B := by
  obtain ⟨q, hq⟩ := legendre_exists
  obtain ⟨D, fp, h1, h2⟩ := fsurf_both hq b hN co si h0
  have hs : 0 < sin (thetaPhiOfAB b A B).1 := (theta_sin b A B).2 fun _ _ => h0
  have e1 : 2 * indLm lmax 0 = lmax * (lmax + 1) := by
    have : 2 ∣ lmax * (lmax + 1) := (Nat.even_mul_succ_self lmax).two_dvd
    simp only [indLm]; omega
  have e2 := indLm_succ lmax
  have e3 : (lmax + 1) * (lmax + 2) = lmax * (lmax + 1) + 2 * (lmax + 1) := by ring
  rw [sum_eq_zero (fun m hm => by
    have := mem_range.1 hm
    rw [indLm_add (lmax + 1) m, indLm_add lmax m, hz _ (by omega) (by omega), hz _ (by omega) (by omega),
      hz _ (by omega) (by omega), hz _ (by omega) (by omega)]
    simp [lmTerm]), sub_zero, mul_div_cancel_left₀ _ hs.ne'] at h1
  exact ⟨_, _, h1, h2⟩

theorem legP_two_zero {q : Nat → ℝ[X]} (hq : Spec.LegendreFns 0 q) : (q 2).eval 0 ≠ 0 := by
  rw [C108_unique hq (legQ_spec 0) (Nat.zero_le 2)]
  have h := legQ_rec 0
  have h1 := congrArg (Polynomial.eval 0) (h.rec' 1)
  obtain ⟨c, hc0, hc, -⟩ := pmmCons_abs 0
  simp only [eval_mul, eval_sub, eval_C, eval_X, zero_mul, zero_sub, Nat.sub_self, legQ_zero] at h1
  intro e
  simp only [legF, pow_zero, map_one, one_mul, Nat.sub_zero] at e
  rw [show 1 + 1 = 2 from rfl, e, mul_zero, hc, pow_zero, one_mul] at h1
  have := h.apos 0
  rw [zero_add] at this
  nlinarith [mul_pos this hc0]

/-- **C140.** The derivatives of the surface `σ = Y_1^0` (with `lmax = 1`, 16 points, all other entries of the
array 0) at `A = 1`, `B = 0` in domain 1 (direction +x) are wrong. -/
theorem C140_derivs_counterexample (b : CubBox) (hb : b.dom = 1) :
    ∃ (v : ℝ → ℝ → ℝ) (dA dB : ℝ), (∀ A B, fsurfSigma b 16 1 (fun i => if i = 2 then 1 else 0) 0 A B = .ok (v A B)) ∧
      fsurfDerivs b 16 1 (fun i => if i = 2 then 1 else 0) 0 1 0 = .ok (dA, dB) ∧ ¬Spec.SurfaceDeriv v dA dB 1 0 := by
  obtain ⟨q, hq⟩ := legendre_exists
  have hd : b.dir = 1 := by rw [CubBox.dir, hb]
  have hp : b.pm = 1 := by rw [CubBox.pm, hb]; norm_num
  have hN : 1 * (1 + 1) / 2 + 1 + 1 < 16 / 4 := by norm_num
  have h0 : ¬((1 : ℝ) = 0 ∧ (0 : ℝ) = 0) := by norm_num
  obtain ⟨D, fp, h1, h2⟩ := fsurf_both hq b hN (fun i => if i = 2 then 1 else 0) 0 h0
  have hv : ∀ A B, ∃ v, fsurfSigma b 16 1 (fun i => if i = 2 then 1 else 0) 0 A B = .ok v := fun A B =>
    let ⟨v, hv, _⟩ := C140_surface hq b hN (fun i => if i = 2 then 1 else 0) 0 A B
    ⟨v, hv⟩
  choose v hv using hv
  refine ⟨v, _, _, hv, h1, fun hS => ?_⟩
  have k1 := hS (fun _ => 1) (fun s => s) 0 0 1 rfl rfl (hasDerivAt_const _ _) (hasDerivAt_id _)
  have k2 := h2 v hv (fun _ => 1) (fun s => s) 0 0 1 rfl rfl (hasDerivAt_const _ _) (hasDerivAt_id _)
  have e := k1.unique k2
  have hT : (thetaPhiOfAB b 1 0).1 = π / 2 := by
    have : ¬π / 2 < 0 := by linarith [Real.pi_pos]
    simp only [thetaPhiOfAB, hd, if_true, zero_mul, ArgPlus, one_ne_zero, if_false, gt_iff_lt, zero_lt_one, this]
  have hcos : cos (thetaPhiOfAB b 1 0).2 ≠ 0 := by
    rw [(phi_cos_sin b 1 0).1 hd |>.1, hp]
    positivity
  have hdB : dThetaPhiOfAB b 1 0 1 ≠ 0 := by
    have hc : cos (ArgPlus b.pm (b.pm * 1)) ≠ 0 := by simpa [thetaPhiOfAB, hd] using hcos
    simpa [dThetaPhiOfAB, hd, dArgdx] using hc
  have hl := legP_two_zero (hq 0)
  have he : Spec.epsLm 2 0 ≠ 0 := by
    rw [epsLm_legA]
    exact (legA_pos (by norm_num)).ne'
  rw [sum_range_succ, sum_range_succ, sum_range_zero, hT, sin_pi_div_two] at e
  simp [indLm, lmTerm, Spec.legP, he, hl, hdB, sub_mul] at e
  exact absurd e (by positivity)

end Sgrid
