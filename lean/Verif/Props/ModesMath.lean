import Verif.Props.Wigner
import Verif.Props.SphInt

/-!
# Products of spin weighted spherical harmonics on the grid
-/

namespace Sgrid
open Real Finset

/-! ## Trigonometric polynomials -/

/-- Sums of `cos(kt)` and `sin(kt)` with `k ≤ n`. -/
def trigSpace (n : Nat) : Submodule ℝ (ℝ → ℝ) :=
  Submodule.span ℝ {f | ∃ k : Nat, k ≤ n ∧ ((f = fun t => cos (k * t)) ∨ f = fun t => sin (k * t))}

/-- Homogeneous polynomials in `cos(t/2)` and `sin(t/2)` of degree `n`. -/
def homSpace (n : Nat) : Submodule ℝ (ℝ → ℝ) :=
  Submodule.span ℝ {f | ∃ p q : Nat, p + q = n ∧ f = fun t => cos (t / 2) ^ p * sin (t / 2) ^ q}

theorem trig_cos {n k : Nat} (h : k ≤ n) : (fun t : ℝ => cos (k * t)) ∈ trigSpace n :=
  Submodule.subset_span ⟨k, h, Or.inl rfl⟩

theorem trig_sin {n k : Nat} (h : k ≤ n) : (fun t : ℝ => sin (k * t)) ∈ trigSpace n :=
  Submodule.subset_span ⟨k, h, Or.inr rfl⟩

theorem trig_mono {n n' : Nat} (h : n ≤ n') : trigSpace n ≤ trigSpace n' :=
  Submodule.span_mono fun _ ⟨k, hk, hf⟩ => ⟨k, hk.trans h, hf⟩

theorem trig_mul_cos {n : Nat} {f : ℝ → ℝ} (hf : f ∈ trigSpace n) : (fun t => cos t * f t) ∈ trigSpace (n + 1) := by
  induction hf using Submodule.span_induction with
  | mem f hf =>
    obtain ⟨k, hk, rfl | rfl⟩ := hf
    · rcases k with _ | k
      · simpa using trig_cos (n := n + 1) (k := 1) (by omega)
      · have e : (fun t : ℝ => cos t * cos ((k + 1 : Nat) * t)) =
            (1 / 2 : ℝ) • (fun t : ℝ => cos ((k + 2 : Nat) * t)) + (1 / 2 : ℝ) • fun t : ℝ => cos (k * t) := by
          funext t
          simp only [Pi.add_apply, Pi.smul_apply, smul_eq_mul]
          rw [show ((k + 2 : Nat) : ℝ) * t = (k + 1 : Nat) * t + t by push_cast; ring,
            show (k : ℝ) * t = (k + 1 : Nat) * t - t by push_cast; ring, cos_add, cos_sub]
          ring
        rw [e]
        exact add_mem (Submodule.smul_mem _ _ (trig_cos (by omega))) (Submodule.smul_mem _ _ (trig_cos (by omega)))
    · rcases k with _ | k
      · simp only [Nat.cast_zero, zero_mul, sin_zero, mul_zero]
        exact zero_mem _
      · have e : (fun t : ℝ => cos t * sin ((k + 1 : Nat) * t)) =
            (1 / 2 : ℝ) • (fun t : ℝ => sin ((k + 2 : Nat) * t)) + (1 / 2 : ℝ) • fun t : ℝ => sin (k * t) := by
          funext t
          simp only [Pi.add_apply, Pi.smul_apply, smul_eq_mul]
          rw [show ((k + 2 : Nat) : ℝ) * t = (k + 1 : Nat) * t + t by push_cast; ring,
            show (k : ℝ) * t = (k + 1 : Nat) * t - t by push_cast; ring, sin_add, sin_sub ((k + 1 : Nat) * t)]
          ring
        rw [e]
        exact add_mem (Submodule.smul_mem _ _ (trig_sin (by omega))) (Submodule.smul_mem _ _ (trig_sin (by omega)))
  | zero => simp only [Pi.zero_apply, mul_zero]; exact zero_mem _
  | add f g _ _ hf hg =>
    have e : (fun t => cos t * (f + g) t) = (fun t => cos t * f t) + fun t => cos t * g t := by
      funext t; simp only [Pi.add_apply]; ring
    rw [e]; exact add_mem hf hg
  | smul a f _ hf =>
    have e : (fun t => cos t * (a • f) t) = a • fun t => cos t * f t := by
      funext t; simp only [Pi.smul_apply, smul_eq_mul]; ring
    rw [e]; exact Submodule.smul_mem _ _ hf

theorem half_cos_sq (t : ℝ) : cos (t / 2) ^ 2 = 1 / 2 + 1 / 2 * cos t := by
  have := cos_two_mul (t / 2)
  rw [show 2 * (t / 2) = t by ring] at this
  linarith

theorem half_sin_sq (t : ℝ) : sin (t / 2) ^ 2 = 1 / 2 - 1 / 2 * cos t := by
  have := cos_sq_add_sin_sq (t / 2)
  have := half_cos_sq t
  linarith

theorem trig_monomial (n p q : Nat) (h : p + q = 2 * n) : (fun t => cos (t / 2) ^ p * sin (t / 2) ^ q) ∈ trigSpace n := by
  induction n generalizing p q with
  | zero =>
    obtain ⟨rfl, rfl⟩ : p = 0 ∧ q = 0 := by omega
    simpa using trig_cos (n := 0) (k := 0) le_rfl
  | succ n ih =>
    rcases Nat.lt_or_ge p 2 with hp | hp
    · rcases Nat.lt_or_ge q 2 with hq | hq
      · obtain ⟨rfl, rfl⟩ : p = 1 ∧ q = 1 := by omega
        have e : (fun t : ℝ => cos (t / 2) ^ 1 * sin (t / 2) ^ 1) = (1 / 2 : ℝ) • fun t : ℝ => sin ((1 : Nat) * t) := by
          funext t
          simp only [Pi.smul_apply, smul_eq_mul, Nat.cast_one, one_mul, pow_one]
          rw [show sin t = sin (2 * (t / 2)) by congr 1; ring, sin_two_mul]
          ring
        rw [e]
        exact Submodule.smul_mem _ _ (trig_sin (by omega))
      · have hm := ih p (q - 2) (by omega)
        have e : (fun t : ℝ => cos (t / 2) ^ p * sin (t / 2) ^ q) =
            (1 / 2 : ℝ) • (fun t => cos (t / 2) ^ p * sin (t / 2) ^ (q - 2)) -
              (1 / 2 : ℝ) • fun t => cos t * (cos (t / 2) ^ p * sin (t / 2) ^ (q - 2)) := by
          funext t
          simp only [Pi.sub_apply, Pi.smul_apply, smul_eq_mul]
          rw [show sin (t / 2) ^ q = sin (t / 2) ^ (q - 2) * sin (t / 2) ^ 2 by rw [← pow_add]; congr 1; omega, half_sin_sq]
          ring
        rw [e]
        exact sub_mem (Submodule.smul_mem _ _ (trig_mono (by omega) hm)) (Submodule.smul_mem _ _ (trig_mul_cos hm))
    · have hm := ih (p - 2) q (by omega)
      have e : (fun t : ℝ => cos (t / 2) ^ p * sin (t / 2) ^ q) =
          (1 / 2 : ℝ) • (fun t => cos (t / 2) ^ (p - 2) * sin (t / 2) ^ q) +
            (1 / 2 : ℝ) • fun t => cos t * (cos (t / 2) ^ (p - 2) * sin (t / 2) ^ q) := by
        funext t
        simp only [Pi.add_apply, Pi.smul_apply, smul_eq_mul]
        rw [show cos (t / 2) ^ p = cos (t / 2) ^ (p - 2) * cos (t / 2) ^ 2 by rw [← pow_add]; congr 1; omega, half_cos_sq]
        ring
      rw [e]
      exact add_mem (Submodule.smul_mem _ _ (trig_mono (by omega) hm)) (Submodule.smul_mem _ _ (trig_mul_cos hm))

theorem hom_le_trig (n : Nat) : homSpace (2 * n) ≤ trigSpace n :=
  Submodule.span_le.2 fun _ ⟨p, q, h, e⟩ => by rw [e]; exact trig_monomial n p q h

theorem hom_mul {n m : Nat} {f g : ℝ → ℝ} (hf : f ∈ homSpace n) (hg : g ∈ homSpace m) : f * g ∈ homSpace (n + m) := by
  induction hf using Submodule.span_induction with
  | mem f hf =>
    obtain ⟨p, q, h, rfl⟩ := hf
    induction hg using Submodule.span_induction with
    | mem g hg =>
      obtain ⟨p', q', h', rfl⟩ := hg
      refine Submodule.subset_span ⟨p + p', q + q', by omega, ?_⟩
      funext t
      simp only [Pi.mul_apply]
      rw [pow_add, pow_add]
      ring
    | zero => rw [mul_zero]; exact zero_mem _
    | add g g' _ _ h h' => rw [mul_add]; exact add_mem h h'
    | smul a g _ h => rw [mul_smul_comm]; exact Submodule.smul_mem _ _ h
  | zero => rw [zero_mul]; exact zero_mem _
  | add f f' _ _ h h' => rw [add_mul]; exact add_mem h h'
  | smul a f _ h => rw [smul_mul_assoc]; exact Submodule.smul_mem _ _ h

theorem hom_period {n : Nat} {f : ℝ → ℝ} (hf : f ∈ homSpace (2 * n)) (t : ℝ) : f (t + 2 * π) = f t := by
  induction hf using Submodule.span_induction with
  | mem f hf =>
    obtain ⟨p, q, h, rfl⟩ := hf
    dsimp only
    rw [show (t + 2 * π) / 2 = t / 2 + π by ring, cos_add_pi, sin_add_pi, neg_pow, neg_pow (sin _)]
    have : ((-1 : ℝ)) ^ p * (-1) ^ q = 1 := by rw [← pow_add, h, pow_mul]; norm_num
    linear_combination (cos (t / 2) ^ p * sin (t / 2) ^ q) * this
  | zero => rfl
  | add f g _ _ hf hg => simp only [Pi.add_apply, hf, hg]
  | smul a f _ hf => simp only [Pi.smul_apply, hf]

/-! ## The functions `d^l_{ms}` -/

theorem wigner_hom (l : Nat) (m s : ℤ) (hm : |m| ≤ l) : wignerWT l m s ∈ homSpace (2 * l) := by
  rcases lt_or_ge (l : ℤ) |s| with hs | hs
  · have e : wignerWT l m s = 0 := by
      funext t
      exact (C110_small l m s hm hs t 0).1
    rw [e]; exact zero_mem _
  · have e : wignerWT l m s = wignerRoot l m s • ∑ k ∈ Icc (max 0 (m - s)) (min ((l : ℤ) + m) (l - s)),
        ((-1) ^ k / (factD (l + m - k) * factD (l - s - k) * factD k * factD (k + s - m))) •
          fun t : ℝ => cos (t / 2) ^ (2 * (l : ℤ) + m - s - 2 * k).toNat * sin (t / 2) ^ (2 * k + s - m).toNat := by
      funext t
      rw [wignerWT_eq]
      unfold wignerSum wignerTerm
      simp only [Pi.smul_apply, Finset.sum_apply, smul_eq_mul]
      congr 1
      refine sum_congr rfl fun k hk => ?_
      rw [mem_Icc] at hk
      have h1 : (2 * (l : ℤ) + m - s - 2 * k) = ((2 * (l : ℤ) + m - s - 2 * k).toNat : ℤ) := by omega
      have h2 : (2 * k + s - m) = ((2 * k + s - m).toNat : ℤ) := by omega
      rw [← zpow_natCast, ← zpow_natCast, ← h1, ← h2]
      ring
    rw [e]
    refine Submodule.smul_mem _ _ (Submodule.sum_mem _ fun k hk => Submodule.smul_mem _ _ (Submodule.subset_span ⟨_, _, ?_, rfl⟩))
    rw [mem_Icc] at hk
    omega

/-- The other angle of the same point. -/
theorem wigner_double (l : Nat) (m s : ℤ) (hm : |m| ≤ l) (t : ℝ) :
    wignerWT l m s (2 * π - t) = (-1) ^ (m - s) * wignerWT l m s t := by
  rcases lt_or_ge (l : ℤ) |s| with hs | hs
  · rw [(C110_small l m s hm hs _ 0).1, (C110_small l m s hm hs _ 0).1, mul_zero]
  · rw [show 2 * π - t = -t + 2 * π by ring, hom_period (wigner_hom l m s hm), C110_inverse l m s hm hs, C110_transpose]

/-! ## Fourier directions resolve trigonometric polynomials -/

/-- A direction with a Fourier basis over a full circle. -/
structure Spec.Circle (D : BDir) : Prop where
  four : D.kind = .fourier
  a0 : D.a = 0
  b0 : D.b = 2 * π
  n1 : 1 ≤ D.n

theorem circle_angle (X : ℝ) (k : Nat) : (k : ℝ) * (2 * π * (X - 0) / (2 * π - 0)) = k * X := by
  have := pi_pos.ne'
  field_simp
  ring

theorem circle_cos {D : BDir} (hD : Spec.Circle D) {k : Nat} (h : 2 * k + 1 ≤ D.n) : D.space fun Y => cos (k * Y) := by
  unfold BDir.space
  rw [hD.four, hD.a0, hD.b0]
  have hn : (D.n : ℝ) ≠ 0 := by exact_mod_cast (by have := hD.n1; omega : D.n ≠ 0)
  rcases Nat.eq_zero_or_pos k with rfl | hk
  · refine ⟨fun j => if j = 0 then (D.n : ℝ) else 0, ?_⟩
    funext X
    unfold Spec.fourSeries
    rw [sum_eq_zero fun k hk => ?_]
    · dsimp only
      have : (if D.n % 2 = 0 then (if D.n - 1 = 0 then (D.n : ℝ) else 0) *
          cos ((D.n / 2 : Nat) * (2 * π * (X - 0) / (2 * π - 0))) else 0) = 0 := by
        split
        · rw [if_neg (by have := hD.n1; omega), zero_mul]
        · rfl
      rw [this]
      simp [hn]
    · rw [mem_Ico] at hk
      dsimp only
      rw [if_neg (by omega), if_neg (by omega)]
      ring
  · refine ⟨fun j => if j = 2 * k - 1 then (D.n : ℝ) / 2 else 0, ?_⟩
    funext X
    unfold Spec.fourSeries
    rw [sum_eq_single k]
    · dsimp only
      have : (if D.n % 2 = 0 then (if D.n - 1 = 2 * k - 1 then (D.n : ℝ) / 2 else 0) *
          cos ((D.n / 2 : Nat) * (2 * π * (X - 0) / (2 * π - 0))) else 0) = 0 := by
        split
        · rw [if_neg (by omega), zero_mul]
        · rfl
      rw [this, if_neg (show ¬ 0 = 2 * k - 1 by omega), if_pos rfl, if_neg (show ¬ 2 * k = 2 * k - 1 by omega), circle_angle]
      field_simp
      ring
    · intro k' hk' hne
      rw [mem_Ico] at hk'
      dsimp only
      rw [if_neg (by omega), if_neg (by omega)]
      ring
    · intro hk'
      rw [mem_Ico] at hk'
      omega

theorem circle_sin {D : BDir} (hD : Spec.Circle D) {k : Nat} (h : 2 * k + 1 ≤ D.n) : D.space fun Y => sin (k * Y) := by
  unfold BDir.space
  rw [hD.four, hD.a0, hD.b0]
  have hn : (D.n : ℝ) ≠ 0 := by exact_mod_cast (by have := hD.n1; omega : D.n ≠ 0)
  rcases Nat.eq_zero_or_pos k with rfl | hk
  · refine ⟨fun j => 0, ?_⟩
    funext X
    unfold Spec.fourSeries
    simp
  · refine ⟨fun j => if j = 2 * k then (D.n : ℝ) / 2 else 0, ?_⟩
    funext X
    unfold Spec.fourSeries
    rw [sum_eq_single k]
    · dsimp only
      have : (if D.n % 2 = 0 then (if D.n - 1 = 2 * k then (D.n : ℝ) / 2 else 0) *
          cos ((D.n / 2 : Nat) * (2 * π * (X - 0) / (2 * π - 0))) else 0) = 0 := by
        split
        · rw [if_neg (by omega), zero_mul]
        · rfl
      rw [this, if_neg (show ¬ 0 = 2 * k by omega), if_neg (show ¬ 2 * k - 1 = 2 * k by omega), if_pos rfl, circle_angle]
      field_simp
      ring
    · intro k' hk' hne
      rw [mem_Ico] at hk'
      dsimp only
      rw [if_neg (by omega), if_neg (by omega)]
      ring
    · intro hk'
      rw [mem_Ico] at hk'
      omega

theorem closed_pair {S : (ℝ → ℝ) → Prop} (hS : Closed S) {f g : ℝ → ℝ} (a b : ℝ) (hf : S f) (hg : S g) :
    S fun X => a * f X + b * g X := by
  have := hS 2 (fun i => if i = 0 then a else b) (fun i => if i = 0 then f else g) (fun i => by split <;> assumption)
  simpa [sum_range_succ] using this

theorem trig_space {D : BDir} (hD : Spec.Circle D) {n : Nat} (h : 2 * n + 1 ≤ D.n) (c : ℝ) {f : ℝ → ℝ} (hf : f ∈ trigSpace n) :
    D.space fun Y => f (Y + c) := by
  have hcl := D.space_closed
  induction hf using Submodule.span_induction with
  | mem f hf =>
    obtain ⟨k, hk, rfl | rfl⟩ := hf
    · have := closed_pair hcl (cos (k * c)) (-sin (k * c)) (circle_cos hD (k := k) (by omega)) (circle_sin hD (k := k) (by omega))
      refine (congrArg D.space ?_).mp this
      funext Y
      dsimp only
      rw [mul_add, cos_add]; ring
    · have := closed_pair hcl (sin (k * c)) (cos (k * c)) (circle_cos hD (k := k) (by omega)) (circle_sin hD (k := k) (by omega))
      refine (congrArg D.space ?_).mp this
      funext Y
      dsimp only
      rw [mul_add, sin_add]; ring
  | zero =>
    have := hcl 0 (fun _ => 0) (fun _ => fun Y => cos ((0 : Nat) * Y)) (fun _ => circle_cos hD (k := 0) (by omega))
    simpa using this
  | add f g _ _ hf hg =>
    have := closed_pair hcl 1 1 hf hg
    simpa using this
  | smul a f _ hf =>
    have := closed_pair hcl a 0 hf hf
    simpa using this

/-! ## The product of a harmonic with the complex conjugate of another one -/

/-- The real part of `conj(sYlm) Σ (p - i q)_{l'm'} sY_{l'm'}`. -/
noncomputable def modeKernel (L l : Nat) (m s : ℤ) (p q : Nat → ℤ → ℝ) (th phi : ℝ) : ℝ :=
  ∑ l' ∈ range (L + 1), ∑ m' ∈ Icc (-(l' : ℤ)) l', sYlmFactor l s * sYlmFactor l' s *
    (wignerWT l m (-s) th * wignerWT l' m' (-s) th) *
      (p l' m' * cos (((m' - m : ℤ) : ℝ) * phi) + q l' m' * sin (((m' - m : ℤ) : ℝ) * phi))

theorem kernel_theta (L l : Nat) (m s : ℤ) (hm : |m| ≤ l) (p q : Nat → ℤ → ℝ) (phi : ℝ) :
    (fun th => modeKernel L l m s p q th phi) ∈ trigSpace (l + L) := by
  have e : (fun th => modeKernel L l m s p q th phi) = ∑ l' ∈ range (L + 1), ∑ m' ∈ Icc (-(l' : ℤ)) l',
      (sYlmFactor l s * sYlmFactor l' s * (p l' m' * cos (((m' - m : ℤ) : ℝ) * phi) + q l' m' * sin (((m' - m : ℤ) : ℝ) * phi))) •
        (wignerWT l m (-s) * wignerWT l' m' (-s)) := by
    funext th
    unfold modeKernel
    simp only [Finset.sum_apply, Pi.smul_apply, Pi.mul_apply, smul_eq_mul]
    exact sum_congr rfl fun l' _ => sum_congr rfl fun m' _ => by ring
  rw [e]
  refine Submodule.sum_mem _ fun l' hl' => Submodule.sum_mem _ fun m' hm' => Submodule.smul_mem _ _ ?_
  rw [mem_range] at hl'
  rw [mem_Icc, ← abs_le] at hm'
  have := hom_mul (wigner_hom l m (-s) hm) (wigner_hom l' m' (-s) hm')
  rw [← mul_add] at this
  exact trig_mono (by omega) (hom_le_trig _ this)

theorem trig_int {n : Nat} (k : ℤ) (h : |k| ≤ n) (a b : ℝ) :
    (fun t : ℝ => a * cos (k * t) + b * sin (k * t)) ∈ trigSpace n := by
  rcases le_or_gt 0 k with hk | hk
  · obtain ⟨j, rfl⟩ := Int.eq_ofNat_of_zero_le hk
    rw [abs_of_nonneg hk] at h
    exact add_mem (Submodule.smul_mem _ a (trig_cos (k := j) (by exact_mod_cast h)))
      (Submodule.smul_mem _ b (trig_sin (k := j) (by exact_mod_cast h)))
  · obtain ⟨j, hj⟩ := Int.eq_ofNat_of_zero_le (show 0 ≤ -k by omega)
    rw [abs_of_neg hk, hj] at h
    have e : (fun t : ℝ => a * cos (k * t) + b * sin (k * t)) =
        (a • fun t : ℝ => cos (j * t)) + ((-b) • fun t : ℝ => sin (j * t)) := by
      funext t
      simp only [Pi.add_apply, Pi.smul_apply, smul_eq_mul]
      rw [show k = -(j : ℤ) by omega]
      push_cast
      rw [neg_mul, cos_neg, sin_neg]
      ring
    rw [e]
    exact add_mem (Submodule.smul_mem _ a (trig_cos (k := j) (by exact_mod_cast h)))
      (Submodule.smul_mem _ (-b) (trig_sin (k := j) (by exact_mod_cast h)))

theorem kernel_phi (L l : Nat) (m s : ℤ) (hm : |m| ≤ l) (p q : Nat → ℤ → ℝ) (th : ℝ) :
    (fun phi => modeKernel L l m s p q th phi) ∈ trigSpace (l + L) := by
  have e : (fun phi => modeKernel L l m s p q th phi) = ∑ l' ∈ range (L + 1), ∑ m' ∈ Icc (-(l' : ℤ)) l',
      (sYlmFactor l s * sYlmFactor l' s * (wignerWT l m (-s) th * wignerWT l' m' (-s) th)) •
        fun phi : ℝ => p l' m' * cos (((m' - m : ℤ) : ℝ) * phi) + q l' m' * sin (((m' - m : ℤ) : ℝ) * phi) := by
    funext phi
    unfold modeKernel
    simp only [Finset.sum_apply, Pi.smul_apply, smul_eq_mul]
  rw [e]
  refine Submodule.sum_mem _ fun l' hl' => Submodule.sum_mem _ fun m' hm' => Submodule.smul_mem _ _ (trig_int _ ?_ _ _)
  rw [mem_range] at hl'
  rw [mem_Icc, ← abs_le] at hm'
  have := abs_sub m' m
  push_cast
  omega

/-- The product has the same value for the other angles of the point. -/
theorem kernel_double (L l : Nat) (m s : ℤ) (hm : |m| ≤ l) (p q : Nat → ℤ → ℝ) (th phi : ℝ) :
    modeKernel L l m s p q (2 * π - th) (phi + π) = modeKernel L l m s p q th phi := by
  unfold modeKernel
  refine sum_congr rfl fun l' _ => sum_congr rfl fun m' hm' => ?_
  rw [mem_Icc, ← abs_le] at hm'
  rw [wigner_double l m (-s) hm, wigner_double l' m' (-s) hm', mul_add (((m' - m : ℤ) : ℝ)), cos_add_int_mul_pi, sin_add_int_mul_pi]
  have e : ((-1 : ℝ)) ^ (m - -s) * (-1) ^ (m' - -s) * (-1) ^ (m' - m) = 1 := by
    rw [← zpow_add₀ (by norm_num), ← zpow_add₀ (by norm_num), show m - -s + (m' - -s) + (m' - m) = 2 * (m' + s) by ring, zpow_mul]
    norm_num
  linear_combination (sYlmFactor l s * sYlmFactor l' s * (wignerWT l m (-s) th * wignerWT l' m' (-s) th) *
      (p l' m' * cos (((m' - m : ℤ) : ℝ) * phi) + q l' m' * sin (((m' - m : ℤ) : ℝ) * phi))) * e

theorem kernel_period (L l : Nat) (m s : ℤ) (p q : Nat → ℤ → ℝ) (th phi : ℝ) :
    modeKernel L l m s p q th (phi + 2 * π) = modeKernel L l m s p q th phi := by
  unfold modeKernel
  refine sum_congr rfl fun l' _ => sum_congr rfl fun m' _ => ?_
  rw [mul_add (((m' - m : ℤ) : ℝ)), cos_add_int_mul_two_pi, sin_add_int_mul_two_pi]

theorem wigner_continuous (l m s : ℤ) (hm : |m| ≤ l) : Continuous (wignerWT l m s) := by
  obtain ⟨n, rfl⟩ := Int.eq_ofNat_of_zero_le (le_trans (abs_nonneg m) hm)
  have h := wigner_hom n m s hm
  generalize wignerWT (n : ℤ) m s = w at h
  induction h using Submodule.span_induction with
  | mem f hf =>
    obtain ⟨p, q, _, rfl⟩ := hf
    fun_prop
  | zero => exact continuous_const
  | add f g _ _ hf hg => exact hf.add hg
  | smul a f _ hf => exact hf.const_smul a

/-- The integral of the product over the sphere. -/
theorem kernel_int (L l : Nat) (m s : ℤ) (hm : |m| ≤ l) (p q : Nat → ℤ → ℝ) :
    ∫ th in (0 : ℝ)..π, sin th * ∫ phi in (0 : ℝ)..(2 * π), modeKernel L l m s p q th phi =
      if |s| ≤ l ∧ l ≤ L then p l m else 0 := by
  have e1 : ∀ th : ℝ, ∫ phi in (0 : ℝ)..(2 * π), modeKernel L l m s p q th phi =
      ∑ l' ∈ range (L + 1), if |m| ≤ l' then sYlmFactor l s * sYlmFactor l' s *
        (wignerWT l m (-s) th * wignerWT l' m (-s) th) * (p l' m * (2 * π)) else 0 := by
    intro th
    unfold modeKernel
    rw [intervalIntegral.integral_finsetSum fun l' _ => (Continuous.intervalIntegrable (by fun_prop) _ _)]
    refine sum_congr rfl fun l' _ => ?_
    rw [intervalIntegral.integral_finsetSum fun l' _ => (Continuous.intervalIntegrable (by fun_prop) _ _)]
    have e : ∀ m' ∈ Icc (-(l' : ℤ)) l', (∫ phi in (0 : ℝ)..(2 * π), sYlmFactor l s * sYlmFactor l' s *
        (wignerWT l m (-s) th * wignerWT l' m' (-s) th) *
          (p l' m' * cos (((m' - m : ℤ) : ℝ) * phi) + q l' m' * sin (((m' - m : ℤ) : ℝ) * phi))) =
        if m' = m then sYlmFactor l s * sYlmFactor l' s * (wignerWT l m (-s) th * wignerWT l' m (-s) th) * (p l' m * (2 * π)) else 0 := by
      intro m' _
      rw [intervalIntegral.integral_const_mul, intervalIntegral.integral_add
        (Continuous.intervalIntegrable (by fun_prop) _ _) (Continuous.intervalIntegrable (by fun_prop) _ _),
        intervalIntegral.integral_const_mul, intervalIntegral.integral_const_mul, int_cos_int, int_sin_int, mul_zero, add_zero]
      by_cases h : m' = m
      · subst h
        rw [if_pos (by ring), if_pos rfl]
      · rw [if_neg (by omega), if_neg h]
        ring
    rw [sum_congr rfl e, sum_ite_eq']
    refine if_congr ?_ rfl rfl
    rw [mem_Icc, abs_le]
  simp only [e1]
  have e2 : ∀ th : ℝ, sin th * (∑ l' ∈ range (L + 1), if |m| ≤ l' then sYlmFactor l s * sYlmFactor l' s *
        (wignerWT l m (-s) th * wignerWT l' m (-s) th) * (p l' m * (2 * π)) else 0) =
      ∑ l' ∈ range (L + 1), (if |m| ≤ l' then sYlmFactor l s * sYlmFactor l' s * (p l' m * (2 * π)) else 0) *
        (wignerWT l m (-s) th * wignerWT l' m (-s) th * sin th) := by
    intro th
    rw [mul_sum]
    refine sum_congr rfl fun l' _ => ?_
    split <;> ring
  simp only [e2]
  rw [intervalIntegral.integral_finsetSum]
  · have e3 : ∀ l' ∈ range (L + 1), (∫ th in (0 : ℝ)..π, (if |m| ≤ l' then sYlmFactor l s * sYlmFactor l' s * (p l' m * (2 * π)) else 0) *
        (wignerWT l m (-s) th * wignerWT l' m (-s) th * sin th)) = if l' = l then (if |s| ≤ l then p l m else 0) else 0 := by
      intro l' _
      rw [intervalIntegral.integral_const_mul]
      by_cases h1 : |m| ≤ l'
      · rw [if_pos h1]
        by_cases hs : |s| ≤ l
        · by_cases hs' : |s| ≤ l'
          · rw [C110_integral l l' m (-s) hm (by rwa [abs_neg]) h1 (by rwa [abs_neg])]
            by_cases hl : l' = l
            · subst hl
              rw [if_pos rfl, if_pos rfl, if_pos hs, sYlmFactor_mul, mul_self_sqrt (by positivity)]
              have := pi_pos.ne'
              have h2 : (2 * (l' : ℝ) + 1) ≠ 0 := by positivity
              field_simp
              ring
            · rw [if_neg fun h => hl h.symm, if_neg hl, mul_zero]
          · have hne : l' ≠ l := by rintro rfl; exact hs' hs
            have e : ∀ th : ℝ, wignerWT l m (-s) th * wignerWT l' m (-s) th * sin th = 0 := by
              intro th
              rw [(C110_small l' m (-s) h1 (by rw [abs_neg]; omega) th 0).1]; ring
            simp only [e]
            rw [if_neg hne]
            simp
        · have e : ∀ th : ℝ, wignerWT l m (-s) th * wignerWT l' m (-s) th * sin th = 0 := by
            intro th
            rw [(C110_small l m (-s) hm (by rw [abs_neg]; omega) th 0).1]; ring
          simp only [e, if_neg hs]
          simp
      · have hne : l' ≠ l := by rintro rfl; exact h1 hm
        rw [if_neg h1, if_neg hne, zero_mul]
    rw [sum_congr rfl e3, sum_ite_eq']
    by_cases h : |s| ≤ l
    · rw [if_pos h]
      refine if_congr ?_ rfl rfl
      rw [mem_range]
      exact ⟨fun h' => ⟨h, by omega⟩, fun h' => by omega⟩
    · rw [if_neg h, ite_self, if_neg fun h' => h h'.1]
  · intro l' _
    refine Continuous.intervalIntegrable ?_ _ _
    split
    · rename_i h
      have c1 := wigner_continuous l m (-s) hm
      have c2 := wigner_continuous l' m (-s) h
      fun_prop
    · simp only [zero_mul]
      exact continuous_const

end Sgrid
