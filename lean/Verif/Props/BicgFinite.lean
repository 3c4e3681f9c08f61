import Mathlib.LinearAlgebra.FiniteDimensional.Lemmas
import Mathlib.Algebra.Module.LinearMap.End
import Mathlib.Tactic.LinearCombination
import Mathlib.Tactic.FieldSimp
import Verif.Props.Bicgstab

/-!
# C50: bicgstab ends after as many passes as there are unknowns

The vectors of `bicgstab` are `Q` applied to the vectors of the biconjugate gradient method, where `Q` is a product
of the factors `1 - omega B` and `B` is the preconditioned operator. The residuals of the biconjugate gradient
method are orthogonal to `rt`, `Bᵀ rt`, ..., which leaves only zero after `n` passes.
-/

namespace Sgrid

open Finset Module

variable {ι K : Type} [Field K]

/-- The linear map that belongs to a function. -/
def Spec.Linear.toLin {A : (ι → K) → ι → K} (h : Spec.Linear A) : (ι → K) →ₗ[K] (ι → K) :=
  have h0 : A 0 = 0 := by
    funext i
    have := h 0 0 1 i
    simp only [Pi.zero_apply, mul_zero, add_zero, one_mul] at this
    have e : (fun _ : ι => (0 : K)) = 0 := rfl
    rw [e] at this
    simpa using this
  { toFun := A
    map_add' := fun u v => by
      funext i
      have := h u v 1 i
      simp only [one_mul] at this
      exact this
    map_smul' := fun a v => by
      funext i
      have := h 0 v a i
      rw [h0] at this
      simp only [Pi.zero_apply, zero_add] at this
      exact this }

/-- Functionals that are triangular on some vectors leave only zero. -/
theorem triangular_zero {V : Type} [AddCommGroup V] [Module K V] [FiniteDimensional K V] (f : Nat → V →ₗ[K] K)
    (h : ∀ l < finrank K V, ∃ z, (∀ i < l, f i z = 0) ∧ f l z ≠ 0) (w : V)
    (hw : ∀ i < finrank K V, f i w = 0) : w = 0 := by
  choose! z hz using h
  have key : ∀ (g : Fin (finrank K V) → K) (w : V), ∑ l, g l • z l = w → (∀ i < finrank K V, f i w = 0) →
      ∀ l, g l = 0 := by
    rintro g w rfl hw ⟨l, hl⟩
    induction l using Nat.strong_induction_on with
    | _ l ih =>
      have e := hw l hl
      rw [map_sum, sum_eq_single (⟨l, hl⟩ : Fin (finrank K V))] at e
      · rw [map_smul, smul_eq_mul] at e
        exact (mul_eq_zero.mp e).resolve_right (hz l hl).2
      · rintro ⟨m, hm⟩ _ hne
        rw [map_smul, smul_eq_mul]
        rcases Nat.lt_trichotomy m l with hlt | rfl | hgt
        · rw [ih m hlt hm, zero_mul]
        · exact absurd rfl hne
        · rw [(hz m hm).1 l hgt, mul_zero]
      · intro hn
        exact absurd (mem_univ _) hn
  have hli : LinearIndependent K fun l : Fin (finrank K V) => z l := by
    rw [Fintype.linearIndependent_iff]
    intro g hg l
    exact key g 0 hg (fun i _ => map_zero _) l
  have hspan := hli.span_eq_top_of_card_eq_finrank' (by simp)
  have hwm : w ∈ Submodule.span K (Set.range fun l : Fin (finrank K V) => z l) := by
    rw [hspan]; trivial
  obtain ⟨g, hg⟩ := (Submodule.mem_span_range_iff_exists_fun K).mp hwm
  have hz := key g w hg hw
  rw [← hg]
  exact sum_eq_zero fun l _ => by rw [hz l, zero_smul]

variable [LinearOrder K]

/-- The biconjugate gradient method behind the state after `k` passes. -/
def BicgKrylov (B : (ι → K) →ₗ[K] (ι → K)) (c : (ι → K) →ₗ[K] K) (k : Nat) (s : Bicg ι K) : Prop :=
  ∃ (Z P : ι → K) (Q : (ι → K) →ₗ[K] (ι → K)) (lc : K), lc ≠ 0 ∧ (∀ w, Q (B w) = B (Q w)) ∧ s.r = Q Z ∧
    (∀ i < k, c ((B ^ i) Z) = 0) ∧
    (∀ w, (∀ i < k, c ((B ^ i) w) = 0) → c (Q w) = lc * c ((B ^ k) w)) ∧
    (0 < k → (s.p - s.omega • s.v = Q P) ∧ (∀ i, i + 1 < k → c ((B ^ (i + 1)) P) = 0) ∧
      s.alpha * (lc * c ((B ^ k) P)) = -(s.omega * s.rho1)) ∧
    ∀ l < k, ∃ z, (∀ i < l, c ((B ^ i) z) = 0) ∧ c ((B ^ l) z) ≠ 0

theorem bicgTiny_pos [IsStrictOrderedRing K] : (0 : K) < bicgTiny := by
  unfold bicgTiny; positivity

/-- What a pass that does not end the loop does. -/
theorem bicgStep_inr [IsStrictOrderedRing K] {o : BicgOps ι K} {rt : ι → K} {tol : K} {j : Nat} {s s' : Bicg ι K}
    (h : bicgStep o rt tol j s = .inr s') :
    ∃ p alpha omega, bicgDir j (o.dot rt s.r) s = some p ∧ o.dot rt s.r ≠ 0 ∧
      o.dot rt (o.lop (o.precon p)) ≠ 0 ∧ alpha = o.dot rt s.r / o.dot rt (o.lop (o.precon p)) ∧ omega ≠ 0 ∧
      s'.p = p ∧ s'.v = o.lop (o.precon p) ∧ s'.alpha = alpha ∧ s'.omega = omega ∧ s'.rho1 = o.dot rt s.r ∧
      s'.r = fun i => (s.r i - alpha * o.lop (o.precon p) i) -
        omega * o.lop (o.precon fun i => s.r i - alpha * o.lop (o.precon p) i) i := by
  unfold bicgStep at h
  dsimp only at h
  have hne : ∀ a : K, ¬|a| < bicgTiny → a ≠ 0 := by
    rintro a ha rfl
    exact ha (by rw [abs_zero]; exact bicgTiny_pos)
  split at h
  · cases h
  rename_i h1
  split at h
  · cases h
  rename_i p hp
  split at h
  · cases h
  rename_i h2
  split at h
  · cases h
  split at h
  · cases h
  split at h
  · cases h
  split at h
  · cases h
  rename_i h6
  cases h
  exact ⟨p, _, _, hp, hne _ h1, h2, rfl, hne _ h6, rfl, rfl, rfl, rfl, rfl, rfl⟩

theorem krylov_step [IsStrictOrderedRing K] {o : BicgOps ι K} {rt : ι → K} {tol : K}
    {B : (ι → K) →ₗ[K] (ι → K)} {c : (ι → K) →ₗ[K] K} (hB : ∀ u, o.lop (o.precon u) = B u)
    (hc : ∀ u, o.dot rt u = c u) {k : Nat} {s s' : Bicg ι K} (hI : BicgKrylov B c k s)
    (h : bicgStep o rt tol (k + 1) s = .inr s') : BicgKrylov B c (k + 1) s' := by
  obtain ⟨Z, P, Q, lc, hlc, hcom, hr, hZ, hQ, hP, hz⟩ := hI
  obtain ⟨p, alpha, omega, hp, hrho, hden, ha, hom, e1, e2, e3, e4, e5, e6⟩ := bicgStep_inr h
  simp only [hB, hc] at hp hrho hden ha e2 e5 e6
  -- the direction
  have hdir : ∃ P', p = Q P' ∧ ∀ i < k, c ((B ^ (i + 1)) P') = 0 := by
    unfold bicgDir at hp
    split at hp
    · obtain rfl : k = 0 := by omega
      cases hp
      exact ⟨Z, hr, fun i hi => absurd hi (by omega)⟩
    split at hp
    · cases hp
    rename_i hk hn
    rw [not_or] at hn
    obtain ⟨hP1, hP2, hP3⟩ := hP (by omega)
    cases hp
    refine ⟨Z + (c s.r / s.rho1 * (s.alpha / s.omega)) • P, ?_, ?_⟩
    · rw [map_add, map_smul, ← hP1, ← hr]
      rfl
    · intro i hi
      rw [map_add, map_smul, map_add, map_smul, smul_eq_mul]
      by_cases hik : i + 1 < k
      · rw [hZ _ hik, hP2 i hik, mul_zero, add_zero]
      · obtain rfl : k = i + 1 := by omega
        have hrz : c s.r = lc * c ((B ^ (i + 1)) Z) := by rw [hr]; exact hQ Z hZ
        rw [hrz]
        obtain ⟨hn1, hn2⟩ := hn
        field_simp
        linear_combination c ((B ^ (i + 1)) Z) * hP3
  obtain ⟨P', hp', hPz⟩ := hdir
  have hpow : ∀ (i : Nat) (w : ι → K), (B ^ i) (B w) = (B ^ (i + 1)) w := fun i w => by
    rw [pow_succ]; rfl
  have hv : c (B p) = lc * c ((B ^ (k + 1)) P') := by
    rw [hp', ← hcom, hQ (B P') fun i hi => by rw [hpow]; exact hPz i hi, hpow]
  have hrz : c s.r = lc * c ((B ^ k) Z) := by rw [hr]; exact hQ Z hZ
  have hal : alpha * c (B p) = c s.r := by rw [ha]; field_simp
  -- the next vectors
  refine ⟨Z - alpha • B P', P', Q - omega • (B ∘ₗ Q), -omega * lc, mul_ne_zero (neg_ne_zero.mpr hom) hlc, ?_, ?_, ?_, ?_, ?_, ?_⟩
  · intro w
    simp only [LinearMap.sub_apply, LinearMap.smul_apply, LinearMap.comp_apply, map_sub, map_smul, hcom]
  · have es : (fun i => s.r i - alpha * B p i) = Q (Z - alpha • B P') := by
      rw [map_sub, map_smul, hcom, ← hp', ← hr]
      rfl
    rw [e6, es]
    funext i
    rw [congrFun es i]
    rfl
  · intro i hi
    rw [map_sub, map_smul, hpow, map_sub, map_smul, smul_eq_mul]
    by_cases hik : i < k
    · rw [hZ i hik, hPz i hik, mul_zero, sub_zero]
    · obtain rfl : i = k := by omega
      apply mul_left_cancel₀ hlc
      linear_combination -hal - hrz + alpha * hv
  · intro w hw
    have := hQ (w - omega • B w) (fun i hi => by
      rw [map_sub, map_smul, hpow, map_sub, map_smul, hw i (by omega), hw (i + 1) (by omega), smul_zero, sub_zero])
    have e : (Q - omega • (B ∘ₗ Q)) w = Q (w - omega • B w) := by
      rw [map_sub, map_smul, hcom]
      rfl
    rw [e, this, map_sub, map_smul, hpow, map_sub, map_smul, hw k (by omega), smul_eq_mul]
    ring
  · intro _
    refine ⟨?_, fun i hi => hPz i (by omega), ?_⟩
    · rw [e1, e2, e4, LinearMap.sub_apply, LinearMap.smul_apply, LinearMap.comp_apply, ← hp']
    · rw [e3, e4, e5]
      linear_combination -omega * hal + omega * alpha * hv
  · intro l hl
    by_cases hlk : l < k
    · exact hz l hlk
    · obtain rfl : l = k := by omega
      exact ⟨Z, hZ, fun h0 => hrho (by rw [hrz, h0, mul_zero])⟩

/-- **C50**, finite termination: for all linear operators and preconditioners on `n` unknowns, all products that are
linear in the second factor and all tolerances that zero meets, `bicgstab` with at least `n` allowed passes ends
after at most `n` passes: either it divides by zero or reports a breakdown, or the residual is at most `tol`. -/
theorem C50_finite [IsStrictOrderedRing K] [Fintype ι] (o : BicgOps ι K) (hA : Spec.Linear o.lop)
    (hM : Spec.Linear o.precon)
    (hdot : ∀ (u v w : ι → K) (a : K), o.dot u (fun i => v i + a * w i) = o.dot u v + a * o.dot u w)
    (x b p0 v0 : ι → K) (itmax : Nat) (tol : K) (htol : o.norm2 (fun _ => 0) ≤ tol)
    (hit : Fintype.card ι ≤ itmax) :
    bicgstab o x b p0 v0 itmax tol = none ∨
    ∃ code x' r' n', bicgstab o x b p0 v0 itmax tol = some (code, x', r', n') ∧
      (code = -10 ∨ code = -11 ∨ 0 ≤ code ∧ code ≤ Fintype.card ι ∧
        o.norm2 (Spec.residual o.lop b x') ≤ tol) := by
  unfold bicgstab
  dsimp only
  have hr0 : (fun i => b i - o.lop x i) = Spec.residual o.lop b x := rfl
  by_cases h0 : o.norm2 (fun i => b i - o.lop x i) ≤ tol
  · rw [if_pos h0]
    exact Or.inr ⟨_, _, _, _, rfl, Or.inr (Or.inr ⟨le_refl _, by positivity, h0⟩)⟩
  rw [if_neg h0]
  -- the functional and the operator
  obtain ⟨B, hB⟩ : ∃ B : (ι → K) →ₗ[K] (ι → K), ∀ u, o.lop (o.precon u) = B u :=
    ⟨hA.toLin ∘ₗ hM.toLin, fun u => rfl⟩
  obtain ⟨c, hc⟩ : ∃ c : (ι → K) →ₗ[K] K, ∀ u, o.dot (fun i => b i - o.lop x i) u = c u := by
    have hd0 : ∀ u, o.dot u 0 = 0 := by
      intro u
      have := hdot u 0 0 1
      simp only [Pi.zero_apply, mul_zero, add_zero, one_mul] at this
      have e : (fun _ : ι => (0 : K)) = 0 := rfl
      rw [e] at this
      simpa using this
    refine ⟨{ toFun := o.dot (fun i => b i - o.lop x i), map_add' := fun u v => ?_, map_smul' := fun a v => ?_ },
      fun u => rfl⟩
    · have := hdot (fun i => b i - o.lop x i) u v 1
      simp only [one_mul] at this
      exact this
    · have := hdot (fun i => b i - o.lop x i) 0 v a
      rw [hd0] at this
      simp only [Pi.zero_apply, zero_add] at this
      exact this
  -- not more than n passes
  have hend : ∀ k s, BicgInv o b tol s → BicgKrylov B c k s → k < Fintype.card ι := by
    rintro k s hI ⟨Z, P, Q, lc, hlc, hcom, hr, hZ, hQ, hP, hz⟩
    by_contra hk
    have hfr : finrank K (ι → K) = Fintype.card ι := finrank_fintype_fun_eq_card K
    have : Z = 0 := triangular_zero (fun i => c ∘ₗ (B ^ i)) (fun l hl => hz l (by omega)) Z
      fun i hi => hZ i (by omega)
    rw [this, map_zero] at hr
    have h1 := hI.t
    rw [hI.n, hr] at h1
    exact absurd htol (not_le.mpr h1)
  refine (forRet_inv (n := itmax) (body := bicgStep o (fun i => b i - o.lop x i) tol)
    (s := ⟨x, fun i => b i - o.lop x i, p0, v0, 0, 0, 1, 0, o.norm2 fun i => b i - o.lop x i⟩)
    (fun j s => BicgInv o b tol s ∧ BicgKrylov B c (j - 1) s)
    (fun j q => q = none ∨ ∃ s', q = some (j - 1, s') ∧ j ≤ Fintype.card ι ∧
      s'.normres = o.norm2 (Spec.residual o.lop b s'.x) ∧
      (s'.normres ≤ tol ∨ |s'.rho| < bicgTiny ∨ |s'.omega| < bicgTiny))
    ⟨⟨hr0, rfl, not_le.mp h0⟩, ?_⟩ ?_ ?_).elim ?_ ?_
  · exact ⟨_, 0, LinearMap.id, 1, one_ne_zero, fun _ => rfl, rfl, fun i hi => absurd hi (by omega),
      fun w _ => by simp, fun h => absurd h (by omega), fun l hl => absurd hl (by omega)⟩
  · rintro j s q hj _ ⟨hI, hKr⟩ hq
    have hlt := hend _ s hI hKr
    rcases bicgStep_cases hA hI with h1 | ⟨s', h1, h2⟩ | ⟨s', h1, _⟩ <;> rw [h1] at hq <;> cases hq
    · exact Or.inl rfl
    · exact Or.inr ⟨s', rfl, by omega, h2⟩
  · rintro j s q hj _ ⟨hI, hKr⟩ hq
    refine ⟨?_, ?_⟩
    · rcases bicgStep_cases hA hI with h1 | ⟨s', h1, _⟩ | ⟨s', h1, h2⟩ <;> rw [h1] at hq <;> cases hq
      exact h2
    · obtain ⟨k, rfl⟩ : ∃ k, j = k + 1 := ⟨j - 1, by omega⟩
      exact krylov_step hB hc hKr hq
  · rintro ⟨q, j, h1, h2, hq, hQ⟩
    rw [hq]
    rcases hQ with rfl | ⟨s', rfl, hj, h3, h4⟩
    · exact Or.inl rfl
    right
    refine ⟨_, _, _, _, rfl, ?_⟩
    unfold bicgCode
    rw [if_neg (by omega)]
    split
    · exact Or.inl rfl
    split
    · exact Or.inr (Or.inl rfl)
    rename_i h5 h6
    refine Or.inr (Or.inr ⟨by omega, by omega, ?_⟩)
    rw [← h3]
    exact (h4.resolve_right fun h => h.elim h5 h6)
  · rintro ⟨s, hs, hI, hKr⟩
    have := hend _ s hI hKr
    omega

/-- Three unknowns with the diagonal as preconditioner: the exact solution after three passes, with tolerance zero.
The direction for given numbers, also for `omega = 1`; the return value after too many passes. -/
example : ((bicgstab (⟨fun u => ![2 * u 0 + u 1, 3 * u 1 - u 2, u 0 + 5 * u 2],
      fun u => ![u 0 / 2, u 1 / 3, u 2 / 5], fun u v => u 0 * v 0 + u 1 * v 1 + u 2 * v 2,
      fun u => u 0 * u 0 + u 1 * u 1 + u 2 * u 2⟩ : BicgOps (Fin 3) ℚ)
      ![0, 0, 0] ![1, 2, 3] ![0, 0, 0] ![0, 0, 0] 9 0).map fun q => (q.1, q.2.1, q.2.2.2)) =
        some (3, ![2 / 29, 25 / 29, 17 / 29], 0) ∧
    bicgDir 2 6 (⟨fun _ => 0, ![1, 2], ![3, 4], ![5, 7], 2, 0, 3, 1, 0⟩ : Bicg (Fin 2) ℚ) = some ![-7, -10] ∧
    bicgCode 3 4 (⟨fun _ => 0, ![1, 2], ![3, 4], ![5, 7], 2, 1, 3, 1, 0⟩ : Bicg (Fin 2) ℚ) = -1 ∧
    (bicgTiny : ℚ) * 10 ^ 50 = 1 := by
  decide +kernel

end Sgrid
