import Verif.Model.PNWaves
import Verif.Props.PNOrbit
import Mathlib.Analysis.SpecialFunctions.Trigonometric.Deriv
import Mathlib.Analysis.SpecialFunctions.Sqrt
import Mathlib.Tactic.Linarith

/-!
# C138: the gravitational waves of the post-Newtonian orbit
-/

namespace Sgrid

open Real

namespace Spec

/-- Orthonormal, and `a × b = c`. -/
def IsTriad (a b c : Nat → ℝ) : Prop :=
  a 1 ^ 2 + a 2 ^ 2 + a 3 ^ 2 = 1 ∧ b 1 ^ 2 + b 2 ^ 2 + b 3 ^ 2 = 1 ∧ a 1 * b 1 + a 2 * b 2 + a 3 * b 3 = 0 ∧
  a 2 * b 3 - a 3 * b 2 = c 1 ∧ a 3 * b 1 - a 1 * b 3 = c 2 ∧ a 1 * b 2 - a 2 * b 1 = c 3

/-- The two bodies exchanged: the spins, and half a turn of the phase. -/
noncomputable def swapBodies (y : Nat → ℝ) (n : Nat) : ℝ := if n = 11 then y 11 + π else swapSpins y n

end Spec

open GW

theorem sq_sum_pos (x z : ℝ) (h : ¬ (x = 0 ∧ z = 0)) : 0 < x * x + z * z := by
  rcases eq_or_ne x 0 with hx | hx
  · have : z ≠ 0 := fun hz => h ⟨hx, hz⟩
    have := mul_self_pos.2 this
    nlinarith [mul_self_nonneg x]
  · have := mul_self_pos.2 hx
    nlinarith [mul_self_nonneg z]

@[simp] theorem vec_1 (a b c : ℝ) : vec a b c 1 = a := rfl

@[simp] theorem vec_2 (a b c : ℝ) : vec a b c 2 = b := rfl

@[simp] theorem vec_3 (a b c : ℝ) : vec a b c 3 = c := rfl

/-- `es1`, `es2` and the direction of the angular momentum are a right handed triad, also where the angular momentum points along `y`. -/
theorem C138_triad (y : Nat → ℝ) (hu : y 8 ^ 2 + y 9 ^ 2 + y 10 ^ 2 = 1) : Spec.IsTriad (es1 y) (es2 y) (fun i => y (i + 7)) := by
  unfold Spec.IsTriad es1 es2
  by_cases h : y 8 = 0 ∧ y 10 = 0
  · have h9 : y 9 ^ 2 = 1 := by rw [h.1, h.2] at hu; linarith
    have h9' : y 9 ≠ 0 := by rintro h0; rw [h0] at h9; norm_num at h9
    have ha : |y 9| = 1 := by rw [← sq_eq_sq₀ (abs_nonneg _) zero_le_one, sq_abs, h9, one_pow]
    simp only [if_pos h, vec]
    simp [h.1, h.2, ha, h9]
  · have hp := sq_sum_pos _ _ h
    have hs : 0 < √(y 8 * y 8 + y 10 * y 10) := sqrt_pos.2 hp
    have hq : √(y 8 * y 8 + y 10 * y 10) ^ 2 = y 8 * y 8 + y 10 * y 10 := sq_sqrt hp.le
    simp only [if_neg h, vec]
    generalize √(y 8 * y 8 + y 10 * y 10) = s at hs hq
    have hs' := hs.ne'
    have hw : y 9 ^ 2 = 1 - s ^ 2 := by linarith
    simp
    refine ⟨?_, ?_, ?_, ?_, ?_, ?_⟩
    · field_simp; linear_combination -hq
    · field_simp; linear_combination -y 9 ^ 2 * hq + (y 9 ^ 2 - 1) * hw
    · field_simp; ring
    · field_simp; linear_combination -y 8 * hu - y 8 * hq
    · field_simp; linear_combination -y 9 * hq
    · field_simp; linear_combination -y 10 * hu - y 10 * hq

/-- The case of an angular momentum along `-y`, and one in the `xz` plane. -/
example : es2 (fun n => if n = 9 then -1 else 0) 3 = 1 ∧ es1 (fun n => if n = 8 then 1 else 0) 3 = -1 := by
  constructor <;> simp [es1, es2]

/-- So are the direction from one star to the other, that of the velocity and that of the angular momentum. -/
theorem C138_orbit (y : Nat → ℝ) (hu : y 8 ^ 2 + y 9 ^ 2 + y 10 ^ 2 = 1) : Spec.IsTriad (nvec y) (lam y) (fun i => y (i + 7)) := by
  obtain ⟨h1, h2, h3, h4, h5, h6⟩ := C138_triad y hu
  have hc := sin_sq_add_cos_sq (y 11)
  unfold Spec.IsTriad nvec lam
  generalize sin (y 11) = S at hc
  generalize cos (y 11) = C at hc
  refine ⟨?_, ?_, ?_, ?_, ?_, ?_⟩
  · linear_combination C ^ 2 * h1 + S ^ 2 * h2 + 2 * S * C * h3 + hc
  · linear_combination S ^ 2 * h1 + C ^ 2 * h2 - 2 * S * C * h3 + hc
  · linear_combination -S * C * h1 + S * C * h2 + (C ^ 2 - S ^ 2) * h3
  · linear_combination h4 + (es1 y 2 * es2 y 3 - es1 y 3 * es2 y 2) * hc
  · linear_combination h5 + (es1 y 3 * es2 y 1 - es1 y 1 * es2 y 3) * hc
  · linear_combination h6 + (es1 y 1 * es2 y 2 - es1 y 2 * es2 y 1) * hc

/-- The direction to the observer is a unit vector, and `Tplus` and `Tcross` are symmetric, transverse and traceless tensors, orthogonal to
each other and of the same size. -/
theorem C138_polarizations (theta phi : ℝ) :
    let N := NN theta phi
    let P := Tplus theta phi
    let X := Tcross theta phi
    N 1 ^ 2 + N 2 ^ 2 + N 3 ^ 2 = 1 ∧
    (∀ T, T = P ∨ T = X →
      (∀ i j, T i j = T j i) ∧ (∀ i, T i 1 * N 1 + T i 2 * N 2 + T i 3 * N 3 = 0) ∧ T 1 1 + T 2 2 + T 3 3 = 0 ∧ GW.project T T = 1) ∧
    GW.project P X = 0 := by
  intro N P X
  have h1 := sin_sq_add_cos_sq theta
  have h2 := sin_sq_add_cos_sq phi
  refine ⟨?_, ?_, ?_⟩
  · simp only [N, NN]
    simp [vec]; linear_combination h1 + sin theta ^ 2 * h2
  · rintro T (rfl | rfl)
    · simp only [N, P, NN, Tplus, etheta, ephi]
      refine ⟨?_, ?_, ?_, ?_⟩
      · intro i j; ring
      · intro i
        simp only [vec_1, vec_2, vec_3]
        linear_combination vec (cos theta * cos phi) (cos theta * sin phi) (-sin theta) i * cos theta * sin theta * h2
      · simp [vec]; linear_combination h1 + (cos theta ^ 2 - 1) * h2
      · simp only [GW.project, Tplus, etheta, ephi, vec_1, vec_2, vec_3]
        have e : (sin theta ^ 2 + cos theta ^ 2 * (sin phi ^ 2 + cos phi ^ 2)) ^ 2 = 1 := by rw [h2, mul_one, h1, one_pow]
        have e2 : (sin phi ^ 2 + cos phi ^ 2) ^ 2 = 1 := by rw [h2]; ring
        linear_combination (1 / 2) * e + (1 / 2) * e2
    · simp only [N, X, NN, Tcross, etheta, ephi]
      refine ⟨?_, ?_, ?_, ?_⟩
      · intro i j; ring
      · intro i
        simp only [vec_1, vec_2, vec_3]
        linear_combination vec (-sin phi) (cos phi) 0 i * cos theta * sin theta * h2
      · simp [vec]; ring
      · simp only [GW.project, Tcross, etheta, ephi, vec_1, vec_2, vec_3]
        have e : (sin theta ^ 2 + cos theta ^ 2 * (sin phi ^ 2 + cos phi ^ 2)) * (sin phi ^ 2 + cos phi ^ 2) = 1 := by
          rw [h2]; linear_combination h1
        linear_combination e
  · simp only [P, X, Tplus, Tcross, etheta, ephi, GW.project, vec]; simp
    ring

/-- The two numbers are the components of the wave in the plane of the sky. -/
theorem C138_projection (o : GW.Opts) (time : ℝ) (y : Nat → ℝ) (D theta phi m1 m2 : ℝ) :
    let h := GW.hij o time y D theta phi m1 m2
    let c := fun a b : Nat → ℝ => (a 1 * h 1 1 * b 1 + a 1 * h 1 2 * b 2 + a 1 * h 1 3 * b 3) +
      (a 2 * h 2 1 * b 1 + a 2 * h 2 2 * b 2 + a 2 * h 2 3 * b 3) + (a 3 * h 3 1 * b 1 + a 3 * h 3 2 * b 2 + a 3 * h 3 3 * b 3)
    let et := fun i => [0, cos theta * cos phi, cos theta * sin phi, -sin theta].getD i 0
    let ep := fun i => [0, -sin phi, cos phi, 0].getD i 0
    (∀ i j, h i j = h j i) ∧ GW.hplus o time y D theta phi m1 m2 = (c et et - c ep ep) / 2 ∧ GW.hcross o time y D theta phi m1 m2 = c et ep := by
  intro h c et ep
  have hs : ∀ i j, h i j = h j i := by
    intro i j
    simp only [h, GW.hij, P05Q, P1Q, P15Q, P2QSS]
    ring
  refine ⟨hs, ?_, ?_⟩
  · simp only [GW.hplus, GW.project, Tplus, etheta, ephi, vec, c, et, ep]
    simp
    ring
  · simp only [GW.hcross, GW.project, Tcross, etheta, ephi, vec, c, et, ep]
    have h12 := hs 1 2
    have h13 := hs 1 3
    have h23 := hs 2 3
    simp only [h] at h12 h13 h23 ⊢
    rw [h12, h13, h23]
    simp
    ring

theorem es_swap (y : Nat → ℝ) : es1 (Spec.swapBodies y) = es1 y ∧ es2 (Spec.swapBodies y) = es2 y := by
  have h8 : Spec.swapBodies y 8 = y 8 := by simp [Spec.swapBodies, Spec.swapSpins]
  have h9 : Spec.swapBodies y 9 = y 9 := by simp [Spec.swapBodies, Spec.swapSpins]
  have h10 : Spec.swapBodies y 10 = y 10 := by simp [Spec.swapBodies, Spec.swapSpins]
  simp only [es1, es2, h8, h9, h10, and_self]

theorem nl_swap (y : Nat → ℝ) : nvec (Spec.swapBodies y) = (fun i => -nvec y i) ∧ lam (Spec.swapBodies y) = (fun i => -lam y i) := by
  obtain ⟨a, b⟩ := es_swap y
  have h11 : Spec.swapBodies y 11 = y 11 + π := by simp [Spec.swapBodies]
  constructor <;> funext i
  · simp only [nvec, a, b, h11, sin_add_pi, cos_add_pi]; ring
  · simp only [lam, a, b, h11, sin_add_pi, cos_add_pi]; ring

theorem dot_neg (a b : Nat → ℝ) : GW.dot a (fun i => -b i) = -GW.dot a b ∧ GW.dot (fun i => -a i) b = -GW.dot a b := by
  constructor <;> simp only [GW.dot] <;> ring

theorem cross_neg (a b : Nat → ℝ) (i : Nat) : cross a (fun i => -b i) i = -cross a b i ∧ cross (fun i => -a i) b i = -cross a b i := by
  by_cases h1 : i = 1
  · subst h1; constructor <;> simp only [cross, vec_1] <;> ring
  · by_cases h2 : i = 2
    · subst h2; constructor <;> simp only [cross, vec_2] <;> ring
    · constructor <;> simp only [cross, vec, if_neg h1, if_neg h2] <;> ring

theorem Delta_swap (y : Nat → ℝ) (m1 m2 : ℝ) (i : Nat) (hi : 1 ≤ i ∧ i ≤ 3) :
    Delta (Spec.swapBodies y) m2 m1 i = -Delta y m1 m2 i := by
  obtain ⟨a, b⟩ := hi
  interval_cases i <;> simp [Delta, Spec.swapBodies, Spec.swapSpins] <;> ring

/-- What is missing in line 383: with the factor `N·n` the exchange of the two stars would not change `P15Q`. -/
theorem C138_P15Q (y N : Nat → ℝ) (m1 m2 nu : ℝ) (i j : Nat) :
    P15Q (Spec.swapBodies y) (lam (Spec.swapBodies y)) (nvec (Spec.swapBodies y)) N (m2 - m1) m2 m1 nu i j =
      P15Q y (lam y) (nvec y) N (m1 - m2) m1 m2 nu i j +
        2 * ((m1 - m2) / (m1 + m2) * (1 / 12 * (149 - 36 * nu) * (nvec y i * lam y j + nvec y j * lam y i))) := by
  obtain ⟨hn, hl⟩ := nl_swap y
  have hD1 := Delta_swap y m1 m2 1 (by omega)
  have hD2 := Delta_swap y m1 m2 2 (by omega)
  have hD3 := Delta_swap y m1 m2 3 (by omega)
  have s2 : Spec.swapBodies y 2 = y 5 := by simp [Spec.swapBodies, Spec.swapSpins]
  have s3 : Spec.swapBodies y 3 = y 6 := by simp [Spec.swapBodies, Spec.swapSpins]
  have s4 : Spec.swapBodies y 4 = y 7 := by simp [Spec.swapBodies, Spec.swapSpins]
  have s5 : Spec.swapBodies y 5 = y 2 := by simp [Spec.swapBodies, Spec.swapSpins]
  have s6 : Spec.swapBodies y 6 = y 3 := by simp [Spec.swapBodies, Spec.swapSpins]
  have s7 : Spec.swapBodies y 7 = y 4 := by simp [Spec.swapBodies, Spec.swapSpins]
  have hL : Lcap (Spec.swapBodies y) = Lcap y := by
    have h8 : Spec.swapBodies y 8 = y 8 := by simp [Spec.swapBodies, Spec.swapSpins]
    have h9 : Spec.swapBodies y 9 = y 9 := by simp [Spec.swapBodies, Spec.swapSpins]
    have h10 : Spec.swapBodies y 10 = y 10 := by simp [Spec.swapBodies, Spec.swapSpins]
    simp only [Lcap, h8, h9, h10]
  have hS : ∀ a b : ℝ, ∀ k, 1 ≤ k → k ≤ 3 → a * (Spec.swapBodies y (k + 1) + Spec.swapBodies y (k + 4)) +
      b * (m2 - m1) / (m2 + m1) * Delta (Spec.swapBodies y) m2 m1 k =
      a * (y (k + 1) + y (k + 4)) + b * (m1 - m2) / (m1 + m2) * Delta y m1 m2 k := by
    intro a b k h1 h2
    interval_cases k <;> simp only [Nat.reduceAdd, hD1, hD2, hD3, s2, s3, s4, s5, s6, s7, add_comm m2 m1] <;> ring
  have hS1 : ∀ k, 1 ≤ k → k ≤ 3 → (Spec.swapBodies y (k + 1) + Spec.swapBodies y (k + 4)) +
      (m2 - m1) / (m2 + m1) * Delta (Spec.swapBodies y) m2 m1 k = (y (k + 1) + y (k + 4)) + (m1 - m2) / (m1 + m2) * Delta y m1 m2 k := by
    intro k h1 h2
    have := hS 1 1 k h1 h2
    simpa using this
  have hS2 : ∀ a : ℝ, ∀ k, 1 ≤ k → k ≤ 3 → a * (Spec.swapBodies y (k + 1) + Spec.swapBodies y (k + 4)) +
      (m2 - m1) / (m2 + m1) * Delta (Spec.swapBodies y) m2 m1 k = a * (y (k + 1) + y (k + 4)) + (m1 - m2) / (m1 + m2) * Delta y m1 m2 k := by
    intro a k h1 h2
    have := hS a 1 k h1 h2
    simpa using this
  have ext : ∀ a b : Nat → ℝ, (∀ k, 1 ≤ k → k ≤ 3 → a k = b k) →
      (∀ x, GW.dot x a = GW.dot x b) ∧ (∀ x k, cross x a k = cross x b k) ∧ (∀ x k, cross a x k = cross b x k) := by
    intro a b h
    have e1 := h 1 (by omega) (by omega)
    have e2 := h 2 (by omega) (by omega)
    have e3 := h 3 (by omega) (by omega)
    refine ⟨fun x => ?_, fun x k => ?_, fun x k => ?_⟩
    · simp only [GW.dot, e1, e2, e3]
    · simp only [cross, e1, e2, e3]
    · simp only [cross, e1, e2, e3]
  simp only [P15Q, hn, hl, hL]
  rw [(ext _ _ (hS 5 3)).1, (ext _ _ (hS2 2)).1]
  simp only [(ext _ _ hS1).2.1, (ext _ _ (hS 9 5)).2.1, (ext _ _ hS1).2.2]
  simp only [(dot_neg _ _).1, (cross_neg _ _ _).2]
  rw [add_comm m2 m1]
  ring

/-- It does not matter which star is called 1, as long as the wave does not contain the term `P15Q` or the masses are the same. -/
theorem C138_exchange_partial (o : GW.Opts) (time : ℝ) (y : Nat → ℝ) (D theta phi m1 m2 : ℝ) (h : o.a3 = 0 ∨ m1 = m2) :
    GW.hplus o time (Spec.swapBodies y) D theta phi m2 m1 = GW.hplus o time y D theta phi m1 m2 ∧
    GW.hcross o time (Spec.swapBodies y) D theta phi m2 m1 = GW.hcross o time y D theta phi m1 m2 := by
  have key : ∀ i j, 1 ≤ i → i ≤ 3 → 1 ≤ j → j ≤ 3 →
      GW.hij o time (Spec.swapBodies y) D theta phi m2 m1 i j = GW.hij o time y D theta phi m1 m2 i j := by
    intro i j hi hi' hj hj'
    obtain ⟨hn, hl⟩ := nl_swap y
    have h0 : Spec.swapBodies y 0 = y 0 := by simp [Spec.swapBodies, Spec.swapSpins]
    have hc : ∀ N k, cross (Delta (Spec.swapBodies y) m2 m1) N k = -cross (Delta y m1 m2) N k := by
      intro N k
      rw [← (cross_neg _ _ _).2]
      simp only [cross, Delta_swap y m1 m2 1 (by omega), Delta_swap y m1 m2 2 (by omega), Delta_swap y m1 m2 3 (by omega)]
    have hP2 : P2QSS (Spec.swapBodies y) (nvec (Spec.swapBodies y)) m2 m1 i j = P2QSS y (nvec y) m1 m2 i j := by
      have s : ∀ k, 2 ≤ k → k ≤ 4 → Spec.swapBodies y k = y (k + 3) ∧ Spec.swapBodies y (k + 3) = y k := by
        intro k a b
        interval_cases k <;> simp [Spec.swapBodies, Spec.swapSpins]
      have s2 := s 2 (by omega) (by omega)
      have s3 := s 3 (by omega) (by omega)
      have s4 := s 4 (by omega) (by omega)
      have si := s (i + 1) (by omega) (by omega)
      have sj := s (j + 1) (by omega) (by omega)
      simp only [Nat.reduceAdd] at s2 s3 s4
      simp only [Nat.add_assoc, Nat.reduceAdd] at si sj
      simp only [P2QSS, hn, GW.dot, Nat.reduceAdd, s2.1, s2.2, s3.1, s3.2, s4.1, s4.2, si.1, si.2, sj.1, sj.2]
      rw [add_comm m2 m1, mul_comm m2 m1]
      ring
    have hP1 : ∀ N nu, P1Q (lam (Spec.swapBodies y)) (nvec (Spec.swapBodies y)) N (m2 + m1) (Delta (Spec.swapBodies y) m2 m1) nu i j =
        P1Q (lam y) (nvec y) N (m1 + m2) (Delta y m1 m2) nu i j := by
      intro N nu
      simp only [P1Q, hn, hl, hc, (dot_neg _ _).1]
      rw [add_comm m2 m1]
      ring
    have hP05 : ∀ N, P05Q (lam (Spec.swapBodies y)) (nvec (Spec.swapBodies y)) N (m2 - m1) (m2 + m1) i j =
        P05Q (lam y) (nvec y) N (m1 - m2) (m1 + m2) i j := by
      intro N
      simp only [P05Q, hn, hl, (dot_neg _ _).1]
      rw [add_comm m2 m1]
      ring
    simp only [GW.hij, C138_P15Q, hP2, hP1, hP05, h0]
    simp only [hn, hl]
    rw [mul_comm m2 m1, add_comm m2 m1]
    rcases h with h | h
    · rw [h]; ring
    · rw [h]; ring
  simp only [GW.hplus, GW.hcross, GW.project]
  simp only [key 1 1 (by omega) (by omega) (by omega) (by omega), key 1 2 (by omega) (by omega) (by omega) (by omega),
    key 1 3 (by omega) (by omega) (by omega) (by omega), key 2 1 (by omega) (by omega) (by omega) (by omega),
    key 2 2 (by omega) (by omega) (by omega) (by omega), key 2 3 (by omega) (by omega) (by omega) (by omega),
    key 3 1 (by omega) (by omega) (by omega) (by omega), key 3 2 (by omega) (by omega) (by omega) (by omega),
    key 3 3 (by omega) (by omega) (by omega) (by omega), and_self]

/-- With the term `P15Q` it does matter: a face-on binary of masses 2 and 1 without spins, at distance `r = m`. -/
theorem C138_exchange_counterexample : ∃ (o : GW.Opts) (y : Nat → ℝ),
    GW.hcross o 0 (Spec.swapBodies y) 1 0 0 1 2 ≠ GW.hcross o 0 y 1 0 0 2 1 := by
  refine ⟨⟨0, 0, 1, 0, 0, 1⟩, fun n => if n = 0 then 3 else if n = 10 then 1 else 0, ?_⟩
  set y : Nat → ℝ := fun n => if n = 0 then 3 else if n = 10 then 1 else 0 with hy
  obtain ⟨hn, hl⟩ := nl_swap y
  have hN : nvec y = vec 1 0 0 := by
    funext i
    simp only [nvec, es1, es2, hy]
    simp [vec]
  have hl0 : lam y = vec 0 1 0 := by
    funext i
    simp only [lam, es1, es2, hy]
    simp [vec]
  have hP := C138_P15Q y (NN 0 0) 2 1 (2 / 9) 1 2
  have hP' := C138_P15Q y (NN 0 0) 2 1 (2 / 9) 2 1
  have n3 : (2 : ℝ) - 1 = 1 := by norm_num
  have n4 : (1 : ℝ) - 2 = -1 := by norm_num
  rw [hN, hl0] at hP hP'
  simp only [vec_1, vec_2] at hP hP'
  norm_num at hP hP'
  simp only [GW.hcross, GW.project, Tcross, etheta, ephi, vec_1, vec_2, vec_3, sin_zero, cos_zero, GW.hij]
  have h0 : Spec.swapBodies y 0 = 3 := by simp [Spec.swapBodies, Spec.swapSpins, hy]
  have h0' : y 0 = 3 := by simp [hy]
  simp only [h0, h0', hN, hl0]
  norm_num
  rw [hP, hP', hn, hl, hN, hl0]
  simp only [vec_1, vec_2]
  norm_num
  intro h
  linarith

/-- The leading order of the wave for an orbit in the `xy` plane is the quadrupole formula: twice the phase, `1 + cos²` and `2 cos` of the
inclination. The last factor fades the wave out after `tsdamp`. -/
theorem C138_quadrupole (o : GW.Opts) (ho : o.a1 = 0 ∧ o.a2 = 0 ∧ o.a3 = 0 ∧ o.a4 = 0) (time : ℝ) (y : Nat → ℝ)
    (hy : y 8 = 0 ∧ y 9 = 0 ∧ y 10 = 1) (D theta phi m1 m2 : ℝ) :
    let damp := 1 / (1 + exp ((time - o.tsdamp) / (o.taudamp * (m1 + m2))))
    GW.hplus o time y D theta phi m1 m2 = -(2 * m1 * m2 / (D * y 0)) * (1 + cos theta ^ 2) * cos (2 * (y 11 - phi)) * damp ∧
    GW.hcross o time y D theta phi m1 m2 = -(2 * m1 * m2 / (D * y 0)) * (2 * cos theta) * sin (2 * (y 11 - phi)) * damp := by
  intro damp
  obtain ⟨h8, h9, h10⟩ := hy
  obtain ⟨a1, a2, a3, a4⟩ := ho
  have hn : nvec y = vec (cos (y 11)) (sin (y 11)) 0 := by
    funext i
    simp only [nvec, es1, es2, h8, h9, h10]
    by_cases h1 : i = 1
    · simp [vec, h1]
    · by_cases h2 : i = 2
      · simp [vec, h2]
      · simp [vec, h1, h2]
  have hl : lam y = vec (-sin (y 11)) (cos (y 11)) 0 := by
    funext i
    simp only [lam, es1, es2, h8, h9, h10]
    by_cases h1 : i = 1
    · simp [vec, h1]
    · by_cases h2 : i = 2
      · simp [vec, h2]
      · simp [vec, h1, h2]
  have e1 := sin_sq_add_cos_sq (y 11)
  have e2 := sin_sq_add_cos_sq phi
  simp only [GW.hplus, GW.hcross, GW.project, GW.hij, Tplus, Tcross, etheta, ephi, hn, hl, a1, a2, a3, a4, vec_1, vec_2, vec_3, damp]
  rw [cos_two_mul, sin_two_mul, cos_sub, sin_sub]
  generalize exp ((time - o.tsdamp) / (o.taudamp * (m1 + m2))) = E
  generalize cos (y 11) = C at e1
  generalize sin (y 11) = S at e1
  generalize cos phi = c at e2
  generalize sin phi = s at e2
  generalize cos theta = T
  generalize sin theta = U
  have q : 2 * (C * c + S * s) ^ 2 - 1 = (C ^ 2 - S ^ 2) * (c ^ 2 - s ^ 2) + 4 * C * S * c * s := by
    have : (1 : ℝ) = (S ^ 2 + C ^ 2) * (s ^ 2 + c ^ 2) := by rw [e1, e2]; ring
    linear_combination -this
  rw [q]
  constructor
  · field_simp
    ring
  · field_simp
    ring

/-- Two stars of mass 1 seen along the axis. -/
example : GW.hplus ⟨0, 0, 0, 0, 0, 1⟩ 0 (fun n => if n = 0 then 8 else if n = 10 then 1 else 0) 100 0 0 1 1 = -1 / 400 := by
  have h := (C138_quadrupole ⟨0, 0, 0, 0, 0, 1⟩ (by simp) 0 (fun n => if n = 0 then 8 else if n = 10 then 1 else 0) (by simp) 100 0 0 1 1).1
  rw [h]
  norm_num

/-- Apart from `y` the time enters only through the factor which fades the wave out: it is 1/2 at `tsdamp`. -/
theorem C138_damping (o : GW.Opts) (y : Nat → ℝ) (D theta phi m1 m2 t1 t2 : ℝ) :
    GW.hplus o t1 y D theta phi m1 m2 * (1 + exp ((t1 - o.tsdamp) / (o.taudamp * (m1 + m2)))) =
      GW.hplus o t2 y D theta phi m1 m2 * (1 + exp ((t2 - o.tsdamp) / (o.taudamp * (m1 + m2)))) := by
  have p1 : (1 + exp ((t1 - o.tsdamp) / (o.taudamp * (m1 + m2)))) ≠ 0 := by positivity
  have p2 : (1 + exp ((t2 - o.tsdamp) / (o.taudamp * (m1 + m2)))) ≠ 0 := by positivity
  have key : ∀ t, 1 + exp ((t - o.tsdamp) / (o.taudamp * (m1 + m2))) ≠ 0 → ∀ i j,
      GW.hij o t y D theta phi m1 m2 i j * (1 + exp ((t - o.tsdamp) / (o.taudamp * (m1 + m2)))) =
        GW.hij ⟨o.a1, o.a2, o.a3, o.a4, o.tsdamp, 0⟩ t y D theta phi m1 m2 i j * 2 := by
    intro t ht i j
    simp only [GW.hij]
    rw [div_mul_cancel₀ _ ht]
    simp
    norm_num
  have key2 : ∀ i j, GW.hij ⟨o.a1, o.a2, o.a3, o.a4, o.tsdamp, 0⟩ t1 y D theta phi m1 m2 i j =
      GW.hij ⟨o.a1, o.a2, o.a3, o.a4, o.tsdamp, 0⟩ t2 y D theta phi m1 m2 i j := by
    intro i j
    simp only [GW.hij]
    simp
  simp only [GW.hplus, GW.project]
  have k1 := key t1 p1
  have k2 := key t2 p2
  linear_combination (1 / 2 : ℝ) * (Tplus theta phi 1 1 * (k1 1 1 - k2 1 1 + 2 * key2 1 1) + Tplus theta phi 1 2 * (k1 1 2 - k2 1 2 + 2 * key2 1 2) +
    Tplus theta phi 1 3 * (k1 1 3 - k2 1 3 + 2 * key2 1 3) + Tplus theta phi 2 1 * (k1 2 1 - k2 2 1 + 2 * key2 2 1) +
    Tplus theta phi 2 2 * (k1 2 2 - k2 2 2 + 2 * key2 2 2) + Tplus theta phi 2 3 * (k1 2 3 - k2 2 3 + 2 * key2 2 3) +
    Tplus theta phi 3 1 * (k1 3 1 - k2 3 1 + 2 * key2 3 1) + Tplus theta phi 3 2 * (k1 3 2 - k2 3 2 + 2 * key2 3 2) +
    Tplus theta phi 3 3 * (k1 3 3 - k2 3 3 + 2 * key2 3 3))

/-- The renormalisation inside `compute_P15Qc` leaves a unit vector alone. -/
theorem C138_unit (y : Nat → ℝ) (hu : y 8 ^ 2 + y 9 ^ 2 + y 10 ^ 2 = 1) (i : Nat) (hi : 1 ≤ i ∧ i ≤ 3) : Lcap y i = y (i + 7) := by
  have h1 : y 8 * y 8 + y 9 * y 9 + y 10 * y 10 = 1 := by linear_combination hu
  obtain ⟨a, b⟩ := hi
  interval_cases i <;> simp [Lcap, h1]

/-- It does not make every vector a unit vector, because it uses components which it has already changed: `(3, 4, 0)`. -/
theorem C138_renorm_counterexample : ∃ y : Nat → ℝ, y 8 ^ 2 + y 9 ^ 2 + y 10 ^ 2 ≠ 0 ∧ Lcap y 1 ^ 2 + Lcap y 2 ^ 2 + Lcap y 3 ^ 2 ≠ 1 := by
  refine ⟨fun n => if n = 8 then 3 else if n = 9 then 4 else 0, by norm_num, ?_⟩
  have h5 : √(25 : ℝ) = 5 := by rw [show (25 : ℝ) = 5 ^ 2 by norm_num]; exact sqrt_sq (by norm_num)
  simp only [Lcap, vec_1, vec_2, vec_3]
  norm_num
  rw [h5]
  norm_num
  rw [div_pow, div_pow, sq_sqrt (by norm_num), sq_sqrt (by norm_num)]
  norm_num

theorem phase_algebra (x w z x' w' z' r C S om P : ℝ) (hr : r ≠ 0) (hsq : r ^ 2 = x * x + z * z) (hu : x ^ 2 + w ^ 2 + z ^ 2 = 1)
    (hL : x * x' + w * w' + z * z' = 0) (hcs : S ^ 2 + C ^ 2 = 1) (hP : P = om - w * (z * x' - x * z') / (x * x + z * z)) :
    let q := (x * x' + z * z') / r
    let a1 := (z' * r - z * q) / r ^ 2
    let a3 := (-x' * r - -x * q) / r ^ 2
    let b1 := ((-x' * w + -x * w') * r - -x * w * q) / r ^ 2
    let b2 := (-(w' * w + w * w') * r - (1 - w * w) * q) / r ^ 2
    let b3 := ((-w' * z + -w * z') * r - -w * z * q) / r ^ 2
    (a1 * C + z / r * (-S * P) + (b1 * S + -x * w / r * (C * P))) * (-(z / r) * S + -x * w / r * C) +
    (b2 * S + (1 - w * w) / r * (C * P)) * ((1 - w * w) / r * C) +
    (a3 * C + -x / r * (-S * P) + (b3 * S + -w * z / r * (C * P))) * (-(-x / r) * S + -w * z / r * C) = om := by
  intro q a1 a3 b1 b2 b3
  have hw : 1 - w * w = r ^ 2 := by rw [hsq]; linear_combination -hu
  have hq : q * r = x * x' + z * z' := by simp only [q]; field_simp
  -- the scalar products
  have e11 : z / r * (z / r) + -x / r * (-x / r) = 1 := by field_simp; linear_combination -hsq
  have e22 : -x * w / r * (-x * w / r) + (1 - w * w) / r * ((1 - w * w) / r) + -w * z / r * (-w * z / r) = 1 := by
    rw [hw]; field_simp; linear_combination -w ^ 2 * hsq - r ^ 2 * hw
  have e12 : z / r * (-x * w / r) + -x / r * (-w * z / r) = 0 := by field_simp; ring
  have f11 : a1 * (z / r) + a3 * (-x / r) = 0 := by
    simp only [a1, a3]; field_simp; linear_combination -r * hq + q * hsq
  have f12 : a1 * (-x * w / r) + a3 * (-w * z / r) = w * (z * x' - x * z') / (x * x + z * z) := by
    rw [← hsq]; simp only [a1, a3]; field_simp; ring
  have f21 : b1 * (z / r) + b3 * (-x / r) = -(w * (z * x' - x * z') / (x * x + z * z)) := by
    rw [← hsq]; simp only [b1, b3]; field_simp; ring
  have f22 : b1 * (-x * w / r) + b2 * ((1 - w * w) / r) + b3 * (-w * z / r) = 0 := by
    simp only [b1, b2, b3]; rw [hw]; field_simp
    linear_combination (-r * w ^ 2 - r ^ 3) * hq - (w * w' * r - q * w ^ 2) * hsq - r ^ 3 * hL
  rw [← sub_eq_zero]
  have : om = P + w * (z * x' - x * z') / (x * x + z * z) := by rw [hP]; ring
  generalize w * (z * x' - x * z') / (x * x + z * z) = Q at *
  generalize z / r = E1 at *
  generalize -x / r = E3 at *
  generalize -x * w / r = F1 at *
  generalize (1 - w * w) / r = F2 at *
  generalize -w * z / r = F3 at *
  clear_value a1 a3 b1 b2 b3
  rw [this]
  linear_combination (-C * S) * f11 + C ^ 2 * f12 - S ^ 2 * f21 + S * C * f22 + P * S ^ 2 * e11 + P * C ^ 2 * e22 - 2 * P * S * C * e12 +
    (P + Q) * hcs

/-- The derivative of the direction from one star to the other, along a solution of the equations of the orbit: its part along the
velocity is the angular velocity `y[1]`, however the plane of the orbit moves. This is what `dydx[11]` is for. -/
theorem C138_phase (p : PNPar) (y : ℝ → Nat → ℝ) (t : ℝ) (hu : y t 8 ^ 2 + y t 9 ^ 2 + y t 10 ^ 2 = 1)
    (h0 : ¬ (y t 8 = 0 ∧ y t 10 = 0)) (hd : ∀ k, 8 ≤ k → k ≤ 11 → HasDerivAt (fun s => y s k) (PN.derivs p (y t) k) t) :
    ∃ n' : Nat → ℝ, (∀ i, 1 ≤ i → i ≤ 3 → HasDerivAt (fun s => nvec (y s) i) (n' i) t) ∧
      n' 1 * lam (y t) 1 + n' 2 * lam (y t) 2 + n' 3 * lam (y t) 3 = y t 1 := by
  have hdx := hd 8 (by omega) (by omega)
  have hdw := hd 9 (by omega) (by omega)
  have hdz := hd 10 (by omega) (by omega)
  have hdp := hd 11 (by omega) (by omega)
  have hL := (C137_lengths p (y t)).2.2
  -- the rate of the phase
  have hren : PN.renorm (y t) = y t := by
    funext k
    have h1 : y t 8 * y t 8 + y t 9 * y t 9 + y t 10 * y t 10 = 1 := by linear_combination hu
    simp [PN.renorm, h1]
  have hphi : PN.derivs p (y t) 11 = y t 1 - y t 9 * (y t 10 * PN.derivs p (y t) 8 - y t 8 * PN.derivs p (y t) 10) /
      (y t 8 * y t 8 + y t 10 * y t 10) := by
    simp only [PN.derivs, hren]
    simp only [PN.rhs, if_neg h0]
    simp
  rw [hphi] at hdp
  generalize PN.derivs p (y t) 8 = x' at *
  generalize PN.derivs p (y t) 9 = w' at *
  generalize PN.derivs p (y t) 10 = z' at *
  have hp := sq_sum_pos _ _ h0
  -- the square root
  have hs : HasDerivAt (fun s => √(y s 8 * y s 8 + y s 10 * y s 10))
      ((y t 8 * x' + y t 10 * z') / √(y t 8 * y t 8 + y t 10 * y t 10)) t := by
    refine (((hdx.mul hdx).add (hdz.mul hdz)).sqrt hp.ne').congr_deriv ?_
    have : √(y t 8 * y t 8 + y t 10 * y t 10) ≠ 0 := (sqrt_pos.2 hp).ne'
    simp
    field_simp
    ring
  have hspos := sqrt_pos.2 hp
  have hsq : √(y t 8 * y t 8 + y t 10 * y t 10) ^ 2 = y t 8 * y t 8 + y t 10 * y t 10 := sq_sqrt hp.le
  -- near t the second branch is taken
  have hev : ∀ᶠ s in nhds t, ¬ (y s 8 = 0 ∧ y s 10 = 0) := by
    have hc : ContinuousAt (fun s => y s 8 * y s 8 + y s 10 * y s 10) t := ((hdx.mul hdx).add (hdz.mul hdz)).continuousAt
    filter_upwards [hc.eventually (lt_mem_nhds hp)] with s hs h
    rw [h.1, h.2] at hs
    norm_num at hs
  have c := (hasDerivAt_cos (y t 11)).comp t hdp
  have sn := (hasDerivAt_sin (y t 11)).comp t hdp
  have hsne := hspos.ne'
  -- the components
  have d11 := hdz.div hs hsne
  have d13 := hdx.neg.div hs hsne
  have d21 := (hdx.neg.mul hdw).div hs hsne
  have d22 := ((hdw.mul hdw).const_sub 1).div hs hsne
  have d23 := (hdw.neg.mul hdz).div hs hsne
  have n1 := (d11.mul c).add (d21.mul sn)
  have n2 := d22.mul sn
  have n3 := (d13.mul c).add (d23.mul sn)
  have key := phase_algebra (y t 8) (y t 9) (y t 10) x' w' z' (√(y t 8 * y t 8 + y t 10 * y t 10)) (cos (y t 11)) (sin (y t 11)) (y t 1) _
    hsne hsq hu hL (sin_sq_add_cos_sq _) rfl
  obtain ⟨N1, hN1⟩ : ∃ N, HasDerivAt (fun s => nvec (y s) 1) N t ∧ N = _ := by
    refine ⟨_, n1.congr_of_eventuallyEq ?_, rfl⟩
    filter_upwards [hev] with s hs
    simp only [nvec, es1, es2, if_neg hs, vec_1]
    simp
  obtain ⟨N2, hN2⟩ : ∃ N, HasDerivAt (fun s => nvec (y s) 2) N t ∧ N = _ := by
    refine ⟨_, n2.congr_of_eventuallyEq ?_, rfl⟩
    filter_upwards [hev] with s hs
    simp only [nvec, es1, es2, if_neg hs, vec_2]
    simp
  obtain ⟨N3, hN3⟩ : ∃ N, HasDerivAt (fun s => nvec (y s) 3) N t ∧ N = _ := by
    refine ⟨_, n3.congr_of_eventuallyEq ?_, rfl⟩
    filter_upwards [hev] with s hs
    simp only [nvec, es1, es2, if_neg hs, vec_3]
    simp
  refine ⟨vec N1 N2 N3, ?_, ?_⟩
  · intro i hi hi'
    interval_cases i
    · exact hN1.1
    · exact hN2.1
    · exact hN3.1
  · rw [vec_1, vec_2, vec_3, hN1.2, hN2.2, hN3.2]
    simp only [lam, es1, es2, if_neg h0, vec_1, vec_2, vec_3]
    simp only [Pi.div_apply, Pi.mul_apply, Pi.neg_apply, Function.comp]
    refine Eq.trans ?_ key
    ring

end Sgrid
