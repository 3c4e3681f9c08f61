import Mathlib.LinearAlgebra.Lagrange
import Mathlib.Algebra.Polynomial.Derivative
import Mathlib.Algebra.Order.Field.Rat
import Mathlib.Algebra.BigOperators.Field
import Mathlib.Algebra.BigOperators.Ring.Finset
import Mathlib.Data.Real.Basic
import Mathlib.Tactic.FieldSimp
import Mathlib.Tactic.Linarith
import Mathlib.Tactic.Positivity
import Mathlib.Tactic.Ring
import Mathlib.Tactic.LinearCombination
import Verif.Model.Quadrature
import Verif.Props.RootFind

/-!
# C88: integrals in one dimension
-/

namespace Sgrid

open Finset Polynomial

/-! ### Integrals of data on a grid -/

section grid

variable {K : Type} [Field K] [CharZero K]

/-- The values of a polynomial of degree at most 4 and its derivative. -/
theorem eval_deg4 (F : K[X]) (hF : F.natDegree ≤ 4) (x : K) :
    F.eval x = F.coeff 0 + F.coeff 1 * x + F.coeff 2 * x ^ 2 + F.coeff 3 * x ^ 3 + F.coeff 4 * x ^ 4 ∧
    F.derivative.eval x = F.coeff 1 + 2 * F.coeff 2 * x + 3 * F.coeff 3 * x ^ 2 + 4 * F.coeff 4 * x ^ 3 := by
  constructor
  · rw [eval_eq_sum_range' (n := 5) (by omega)]
    simp [Finset.sum_range_succ]
  · rw [eval_eq_sum_range' (n := 4) (by
      have := natDegree_derivative_le F; omega)]
    simp [Finset.sum_range_succ, coeff_derivative]
    ring

/-- One Simpson panel. -/
theorem simpson_panel (F : K[X]) (hF : F.natDegree ≤ 4) (x h : K) :
    h / 3 * (F.derivative.eval x + 4 * F.derivative.eval (x + h) + F.derivative.eval (x + 2 * h)) =
      F.eval (x + 2 * h) - F.eval x := by
  simp only [(eval_deg4 F hF _).1, (eval_deg4 F hF _).2]
  field_simp
  ring

/-- One panel of the 3/8 rule. -/
theorem simpson38_panel (F : K[X]) (hF : F.natDegree ≤ 4) (x h : K) :
    3 * h * (F.derivative.eval x + 3 * (F.derivative.eval (x + h) + F.derivative.eval (x + 2 * h)) +
      F.derivative.eval (x + 3 * h)) / 8 = F.eval (x + 3 * h) - F.eval x := by
  simp only [(eval_deg4 F hF _).1, (eval_deg4 F hF _).2]
  field_simp
  ring

theorem simpsonLoop_exact {F : K[X]} (hF : F.natDegree ≤ 4) {f : Nat → K} {x0 dx : K} {i1 i2 : Nat}
    (h12 : i1 ≤ i2) (hev : (i2 - i1) % 2 = 0)
    (hf : ∀ i, i1 ≤ i → i ≤ i2 → f i = F.derivative.eval (x0 + i * dx)) (s : K) :
    simpsonLoop f dx i1 i2 s = s + (F.eval (x0 + i2 * dx) - F.eval (x0 + i1 * dx)) := by
  unfold simpsonLoop
  have key : ∀ k, k ≤ (i2 - i1) / 2 → upLoop 0 k (fun k sum =>
      let i := i1 + 2 * k
      sum + dx / 3 * (f i + 4 * f (i + 1) + f (i + 2))) s =
      s + (F.eval (x0 + ((i1 + 2 * k : Nat) : K) * dx) - F.eval (x0 + i1 * dx)) := by
    intro k
    induction k with
    | zero => intro _; rw [upLoop_nil le_rfl]; simp
    | succ k ih =>
      intro hk
      rw [upLoop_succ (Nat.zero_le _), ih (by omega)]
      dsimp only
      rw [hf _ (by omega) (by omega), hf _ (by omega) (by omega), hf _ (by omega) (by omega)]
      have := simpson_panel F hF (x0 + ((i1 + 2 * k : Nat) : K) * dx) dx
      have e1 : x0 + ((i1 + 2 * k + 1 : Nat) : K) * dx = x0 + ((i1 + 2 * k : Nat) : K) * dx + dx := by
        push_cast; ring
      have e2 : x0 + ((i1 + 2 * k + 2 : Nat) : K) * dx = x0 + ((i1 + 2 * k : Nat) : K) * dx + 2 * dx := by
        push_cast; ring
      rw [show i1 + 2 * (k + 1) = i1 + 2 * k + 2 by omega, e1, e2, this]
      ring
  rw [key _ le_rfl]
  congr 5
  have : i1 + 2 * ((i2 - i1) / 2) = i2 := by omega
  rw [this]

/-- **C88** (trapezoidal rule): the result is the integral for every polynomial of degree 1 (the derivative of
a polynomial of degree 2), and it only uses the given points. -/
theorem C88_trapez (F : K[X]) (hF : F.natDegree ≤ 2) (f : Nat → K) (x0 dx : K) (i1 i2 : Nat) (h12 : i1 ≤ i2)
    (hf : ∀ i, i1 ≤ i → i ≤ i2 → f i = F.derivative.eval (x0 + i * dx)) :
    trapez1D f dx i1 i2 = F.eval (x0 + i2 * dx) - F.eval (x0 + i1 * dx) := by
  have hev : ∀ x, F.eval x = F.coeff 0 + F.coeff 1 * x + F.coeff 2 * x ^ 2 ∧
      F.derivative.eval x = F.coeff 1 + 2 * F.coeff 2 * x := by
    intro x
    obtain ⟨h1, h2⟩ := eval_deg4 F (by omega) x
    rw [h1, h2, coeff_eq_zero_of_natDegree_lt (n := 3) (by omega),
      coeff_eq_zero_of_natDegree_lt (n := 4) (by omega)]
    constructor <;> ring
  unfold trapez1D
  refine upLoop_inv h12 (fun i s => s = F.eval (x0 + i * dx) - F.eval (x0 + i1 * dx)) (by ring) ?_
  intro i s h1 h2 hs
  rw [hs, hf i h1 (by omega), hf (i + 1) (by omega) (by omega)]
  simp only [(hev _).1, (hev _).2]
  push_cast
  field_simp
  ring

/-- **C88** (Simpson rule): with at least 4 points the result is the integral for every polynomial of degree
3 (the derivative of a polynomial of degree 4), for even and odd numbers of points. -/
theorem C88_simpson (F : K[X]) (hF : F.natDegree ≤ 4) (f : Nat → K) (x0 dx : K) (i1 i2 : Nat)
    (h12 : i1 + 3 ≤ i2) (hf : ∀ i, i1 ≤ i → i ≤ i2 → f i = F.derivative.eval (x0 + i * dx)) :
    simpson1D f dx i1 i2 = F.eval (x0 + i2 * dx) - F.eval (x0 + i1 * dx) := by
  unfold simpson1D
  rw [if_neg (by omega)]
  by_cases hpar : (i2 - i1 + 1) % 2 = 0
  · simp only [if_pos hpar]
    rw [simpsonLoop_exact hF (by omega) (by omega) (fun i h1 h2 => hf i h1 (by omega)),
      hf _ (by omega) (by omega), hf _ (by omega) (by omega), hf _ (by omega) (by omega),
      hf _ (by omega) le_rfl]
    have := simpson38_panel F hF (x0 + ((i2 - 3 : Nat) : K) * dx) dx
    have e1 : x0 + ((i2 - 2 : Nat) : K) * dx = x0 + ((i2 - 3 : Nat) : K) * dx + dx := by
      rw [show i2 - 2 = i2 - 3 + 1 by omega]; push_cast; ring
    have e2 : x0 + ((i2 - 1 : Nat) : K) * dx = x0 + ((i2 - 3 : Nat) : K) * dx + 2 * dx := by
      rw [show i2 - 1 = i2 - 3 + 2 by omega]; push_cast; ring
    have e3 : x0 + (i2 : K) * dx = x0 + ((i2 - 3 : Nat) : K) * dx + 3 * dx := by
      conv_lhs => rw [show i2 = i2 - 3 + 3 by omega]
      push_cast; ring
    rw [e1, e2, e3, this]
    ring
  · simp only [if_neg hpar, Nat.sub_zero]
    rw [simpsonLoop_exact hF (by omega) (by omega) hf]
    ring

/-- **C88** (old Simpson rule): the result is the integral for every polynomial of degree 3, unless there are
two points only. -/
theorem C88_simpson_old (F : K[X]) (hF : F.natDegree ≤ 4) (f : Nat → K) (x0 dx : K) (i1 i2 : Nat)
    (h12 : i1 ≤ i2) (h2 : i2 ≠ i1 + 1)
    (hf : ∀ i, i1 ≤ i → i ≤ i2 → f i = F.derivative.eval (x0 + i * dx)) :
    simpsonOld1D f dx i1 i2 = F.eval (x0 + i2 * dx) - F.eval (x0 + i1 * dx) := by
  unfold simpsonOld1D
  by_cases hpar : (i2 - i1 + 1) % 2 = 0
  · rw [if_pos hpar, simpsonLoop_exact hF (by omega) (by omega) (fun i h1 h2 => hf i (by omega) h2),
      hf _ (by omega) (by omega), hf _ (by omega) (by omega), hf _ (by omega) (by omega),
      hf _ (by omega) (by omega)]
    have := simpson38_panel F hF (x0 + (i1 : K) * dx) dx
    have e1 : x0 + ((i1 + 1 : Nat) : K) * dx = x0 + (i1 : K) * dx + dx := by push_cast; ring
    have e2 : x0 + ((i1 + 2 : Nat) : K) * dx = x0 + (i1 : K) * dx + 2 * dx := by push_cast; ring
    have e3 : x0 + ((i1 + 3 : Nat) : K) * dx = x0 + (i1 : K) * dx + 3 * dx := by push_cast; ring
    rw [e1, e2, e3, Nat.add_zero, this]
    ring
  · rw [if_neg hpar, simpsonLoop_exact hF h12 (by omega) hf]
    ring

end grid

/-- **C88** (two points and the old Simpson rule): the result depends on entries after the last point. -/
theorem C88_simpson_old_counterexample :
    simpsonOld1D (fun i => if i ≤ 1 then (1 : ℚ) else 0) 1 0 1 ≠ simpsonOld1D (fun _ => (1 : ℚ)) 1 0 1 := by
  decide +kernel

example : simpson1D (fun i => ((i : ℚ) / 4) ^ 3) (1 / 4) 0 4 = 1 / 4 := by decide +kernel

example : simpson1D (fun i => ((i : ℚ) / 5) ^ 3) (1 / 5) 0 5 = 1 / 4 := by decide +kernel

/-! ### The iterated trapezoidal rule -/

namespace Spec

/-- The trapezoidal rule with `N` panels. -/
noncomputable def trapezoid (f : ℝ → ℝ) (a b : ℝ) (N : Nat) : ℝ :=
  ∑ i ∈ range N, (b - a) / N * ((f (a + i * ((b - a) / N)) + f (a + (i + 1) * ((b - a) / N))) / 2)

end Spec

theorem pow_loop (n : Nat) : upLoop 1 n (fun _ it => it * 2) 1 = 2 ^ (n - 1) := by
  rcases Nat.lt_or_ge n 1 with h | h
  · rw [upLoop_nil (by omega)]
    simp [show n = 0 by omega]
  · refine upLoop_inv h (fun j it => it = 2 ^ (j - 1)) rfl ?_
    intro j it h1 _ hit
    rw [hit, ← pow_succ]
    congr 1
    omega

/-- The points in the middle of the panels. -/
theorem trapezoid_double (f : ℝ → ℝ) (a b : ℝ) {N : Nat} (hN : 0 < N) :
    Spec.trapezoid f a b (2 * N) = 1 / 2 * (Spec.trapezoid f a b N +
      (b - a) * (∑ i ∈ range N, f (a + 1 / 2 * ((b - a) / N) + i * ((b - a) / N))) / N) := by
  unfold Spec.trapezoid
  have hN' : (N : ℝ) ≠ 0 := by exact_mod_cast hN.ne'
  rw [mul_sum, sum_div, ← sum_add_distrib, mul_sum]
  have split : ∀ (g : Nat → ℝ) (m : Nat), ∑ i ∈ range (2 * m), g i =
      ∑ i ∈ range m, (g (2 * i) + g (2 * i + 1)) := by
    intro g m
    induction m with
    | zero => simp
    | succ m ih =>
      rw [show 2 * (m + 1) = 2 * m + 1 + 1 by ring, sum_range_succ, sum_range_succ, ih, sum_range_succ]
      ring
  rw [split]
  refine sum_congr rfl fun i _ => ?_
  push_cast
  have e : (b - a) / (2 * (N : ℝ)) = 1 / 2 * ((b - a) / N) := by field_simp
  rw [e]
  have hd : (b - a) / (N : ℝ) * N = b - a := by field_simp
  generalize (b - a) / (N : ℝ) = h at *
  rw [show a + 2 * (i : ℝ) * (1 / 2 * h) = a + i * h by ring,
    show a + (2 * (i : ℝ) + 1) * (1 / 2 * h) = a + 1 / 2 * h + i * h by ring,
    show a + (2 * (i : ℝ) + 1 + 1) * (1 / 2 * h) = a + (i + 1) * h by ring, ← hd]
  field_simp
  ring

/-- **C88** (`trapezit`): the n-th call gives the trapezoidal rule with `2^(n-1)` panels if it gets the
result of the call before. -/
theorem C88_trapezit (f : ℝ → ℝ) (a b : ℝ) (n : Nat) (hn : 1 ≤ n) (s : ℝ)
    (hs : n ≠ 1 → s = Spec.trapezoid f a b (2 ^ (n - 2))) :
    trapezit f a b n s = Spec.trapezoid f a b (2 ^ (n - 1)) := by
  unfold trapezit
  by_cases h1 : n = 1
  · rw [if_pos h1, h1]
    unfold Spec.trapezoid
    simp
    ring
  rw [if_neg h1, pow_loop]
  dsimp only
  rw [hs h1, show n - 1 - 1 = n - 2 by omega]
  have hpow : 2 ^ (n - 1) = 2 * 2 ^ (n - 2) := by
    rw [← pow_succ']
    congr 1
    omega
  rw [hpow, trapezoid_double f a b (by positivity)]
  have hloop : ∀ (h x0 : ℝ) (m : Nat), upLoop 1 (m + 1) (fun _ (xs : ℝ × ℝ) => (xs.1 + h, xs.2 + f xs.1))
      (x0, 0) = (x0 + m * h, ∑ i ∈ range m, f (x0 + i * h)) := by
    intro h x0 m
    induction m with
    | zero => rw [upLoop_nil (by omega)]; simp
    | succ m ih =>
      rw [upLoop_succ (by omega), ih, sum_range_succ]
      dsimp only
      congr 1
      push_cast
      ring
  rw [hloop]

/-- **C88** (`integral`): the result is the trapezoidal rule with `2^(j-1)` panels, where `j` is at most
`max`; if `j` is smaller than `max` the last change was small. -/
theorem C88_integral (f : ℝ → ℝ) (a b s : ℝ) (max : Nat) (hmax : 1 ≤ max) :
    ∃ j, 1 ≤ j ∧ j ≤ max ∧ integralTrapez f a b s max = Spec.trapezoid f a b (2 ^ (j - 1)) ∧
      (j < max → |Spec.trapezoid f a b (2 ^ (j - 1)) - Spec.trapezoid f a b (2 ^ (j - 2))| <
        s * |Spec.trapezoid f a b (2 ^ (j - 2))|) := by
  unfold integralTrapez
  dsimp only
  refine (forRet_inv (n := max - 1) (s := trapezit f a b 1 0) (body := fun j itold =>
    if |trapezit f a b (j + 1) itold - itold| < s * |itold| then .inl (trapezit f a b (j + 1) itold)
    else .inr (trapezit f a b (j + 1) itold))
    (fun j t => t = Spec.trapezoid f a b (2 ^ (j - 1)))
    (fun j r => r = Spec.trapezoid f a b (2 ^ j) ∧
      |Spec.trapezoid f a b (2 ^ j) - Spec.trapezoid f a b (2 ^ (j - 1))| <
        s * |Spec.trapezoid f a b (2 ^ (j - 1))|)
    (C88_trapezit f a b 1 le_rfl 0 (fun h => absurd rfl h)) ?_ ?_).elim ?_ ?_
  · intro j t r h1 _ ht hr
    have hnew : trapezit f a b (j + 1) t = Spec.trapezoid f a b (2 ^ j) :=
      C88_trapezit f a b (j + 1) (by omega) t (fun _ => ht)
    rw [hnew] at hr
    split at hr
    · rename_i hlt
      cases hr
      exact ⟨rfl, by rw [← ht]; exact hlt⟩
    · cases hr
  · intro j t t' h1 _ ht hr
    have hnew : trapezit f a b (j + 1) t = Spec.trapezoid f a b (2 ^ j) :=
      C88_trapezit f a b (j + 1) (by omega) t (fun _ => ht)
    rw [hnew] at hr
    split at hr
    · cases hr
    · cases hr
      rfl
  · rintro ⟨r, j, h1, h2, hr, rfl, hlt⟩
    rw [hr]
    exact ⟨j + 1, by omega, by omega, rfl, fun _ => hlt⟩
  · rintro ⟨t, ht, rfl⟩
    rw [ht]
    exact ⟨max, hmax, le_rfl, by rw [show max - 1 + 1 - 1 = max - 1 by omega], fun h => absurd h (by omega)⟩

/-! ### Polynomial interpolation -/

section polint

variable {K : Type} [Field K]

/-- The value at `x` of the polynomial through the points `i` to `i+m`. -/
noncomputable def through (xa ya : Nat → K) (x : K) (i m : Nat) : K :=
  (Lagrange.interpolate (Icc i (i + m)) xa ya).eval x

theorem through_zero (xa ya : Nat → K) (x : K) (i : Nat) : through xa ya x i 0 = ya i := by
  unfold through
  rw [Nat.add_zero, Icc_self, Lagrange.interpolate_singleton, eval_C]

/-- Neville's recursion. -/
theorem through_succ {xa ya : Nat → K} {x : K} {n : Nat} (hx : Set.InjOn xa (Set.Icc 1 n)) {i m : Nat}
    (hi : 1 ≤ i) (hm : i + (m + 1) ≤ n) :
    (xa i - xa (i + (m + 1))) * through xa ya x i (m + 1) =
      (x - xa (i + (m + 1))) * through xa ya x i m - (x - xa i) * through xa ya x (i + 1) m := by
  have hinj : Set.InjOn xa (Icc i (i + (m + 1))) := by
    intro p hp q hq h
    simp only [coe_Icc, Set.mem_Icc] at hp hq
    exact hx ⟨by omega, by omega⟩ ⟨by omega, by omega⟩ h
  have hne : xa i - xa (i + (m + 1)) ≠ 0 := by
    intro h
    have := hx ⟨hi, by omega⟩ ⟨by omega, hm⟩ (sub_eq_zero.mp h)
    omega
  have hne' : xa (i + (m + 1)) - xa i ≠ 0 := by
    intro h
    exact hne (by linear_combination -h)
  have e1 : (Icc i (i + (m + 1))).erase (i + (m + 1)) = Icc i (i + m) := by
    ext k
    simp only [mem_erase, mem_Icc]
    omega
  have e2 : (Icc i (i + (m + 1))).erase i = Icc (i + 1) (i + 1 + m) := by
    ext k
    simp only [mem_erase, mem_Icc]
    omega
  unfold through
  rw [Lagrange.interpolate_eq_add_interpolate_erase ya hinj (i := i) (j := i + (m + 1))
    (by simp) (by simp) (by omega), e1, e2]
  simp only [eval_add, eval_mul, Lagrange.basisDivisor, eval_C, eval_sub, eval_X]
  field_simp
  ring

/-- The arrays `c` and `d` after pass `m`. -/
def PolArrays (xa ya : Nat → K) (x : K) (n m : Nat) (c d : Nat → K) : Prop :=
  ∀ i, 1 ≤ i → i + m ≤ n →
    c i = through xa ya x i m - (if m = 0 then 0 else through xa ya x i (m - 1)) ∧
    d i = through xa ya x i m - (if m = 0 then 0 else through xa ya x (i + 1) (m - 1))

theorem polInner_spec {xa ya : Nat → K} {x : K} {n : Nat} (hx : Set.InjOn xa (Set.Icc 1 n)) {m : Nat}
    (hm : m + 1 < n) {c d : Nat → K} (h : PolArrays xa ya x n m c d) :
    PolArrays xa ya x n (m + 1) (polInner xa x n (m + 1) (c, d)).1 (polInner xa x n (m + 1) (c, d)).2 := by
  unfold polInner
  have hinv := upLoop_inv (lo := 1) (hi := n - (m + 1) + 1) (by omega) (s := (c, d))
    (body := fun i (cd : (Nat → K) × (Nat → K)) =>
      let ho := xa i - x
      let hp := xa (i + (m + 1)) - x
      let w := cd.1 (i + 1) - cd.2 i
      let den := ho - hp
      let den := w / den
      (aset cd.1 i (ho * den), aset cd.2 i (hp * den)))
    (fun j cd => (∀ i, j ≤ i → cd.1 i = c i ∧ cd.2 i = d i) ∧
      ∀ i, 1 ≤ i → i < j →
        cd.1 i = through xa ya x i (m + 1) - through xa ya x i m ∧
        cd.2 i = through xa ya x i (m + 1) - through xa ya x (i + 1) m)
    ⟨fun i _ => ⟨rfl, rfl⟩, fun i h1 h2 => absurd h2 (by omega)⟩ ?_
  · intro i h1 h2
    obtain ⟨ha, hb⟩ := hinv.2 i h1 (by omega)
    rw [if_neg (by omega), if_neg (by omega)]
    exact ⟨ha, hb⟩
  · rintro j cd h1 h2 ⟨hlo, hhi⟩
    dsimp only
    have hw : cd.1 (j + 1) - cd.2 j = through xa ya x (j + 1) m - through xa ya x j m := by
      rw [(hlo (j + 1) (by omega)).1, (hlo j le_rfl).2, (h (j + 1) (by omega) (by omega)).1,
        (h j h1 (by omega)).2]
      by_cases h0 : m = 0
      · simp [h0]
      · simp only [if_neg h0]
        ring
    have hrec := through_succ (ya := ya) (x := x) hx h1 (m := m) (by omega)
    have hne : xa j - xa (j + (m + 1)) ≠ 0 := by
      intro h
      have := hx ⟨h1, by omega⟩ ⟨by omega, by omega⟩ (sub_eq_zero.mp h)
      omega
    have hden : xa j - x - (xa (j + (m + 1)) - x) = xa j - xa (j + (m + 1)) := by ring
    refine ⟨fun i hi => ?_, fun i h3 h4 => ?_⟩
    · rw [aset_ne _ _ (by omega), aset_ne _ _ (by omega)]
      exact hlo i (by omega)
    · rcases Nat.lt_or_ge i j with h5 | h5
      · rw [aset_ne _ _ (by omega), aset_ne _ _ (by omega)]
        exact hhi i h3 h5
      · have : i = j := by omega
        subst this
        rw [aset_self, aset_self, hw, hden]
        constructor
        · field_simp
          linear_combination -hrec
        · field_simp
          linear_combination -hrec

variable [LinearOrder K]

theorem polNearest_mem (xa : Nat → K) {n : Nat} (hn : 1 ≤ n) (x : K) :
    1 ≤ polNearest xa n x ∧ polNearest xa n x ≤ n := by
  unfold polNearest
  refine upLoop_inv (by omega) (fun _ (s : Nat × K) => 1 ≤ s.1 ∧ s.1 ≤ n) ⟨le_rfl, hn⟩ ?_
  rintro j s h1 h2 hs
  dsimp only
  split
  · exact ⟨h1, by omega⟩
  · exact hs

omit [LinearOrder K] in
theorem polStep_spec {xa ya : Nat → K} {x : K} {n : Nat} (hx : Set.InjOn xa (Set.Icc 1 n)) {m : Nat}
    (hm : m + 1 < n) {s : PolState K} (h : PolArrays xa ya x n m s.c s.d) (hns : s.ns + 1 + m ≤ n)
    (hy : s.y = through xa ya x (s.ns + 1) m) :
    PolArrays xa ya x n (m + 1) (polStep xa x n (m + 1) s).c (polStep xa x n (m + 1) s).d ∧
    (polStep xa x n (m + 1) s).ns + 1 + (m + 1) ≤ n ∧
    (polStep xa x n (m + 1) s).y = through xa ya x ((polStep xa x n (m + 1) s).ns + 1) (m + 1) := by
  have hI := polInner_spec hx hm h
  unfold polStep
  generalize polInner xa x n (m + 1) (s.c, s.d) = cd at hI
  dsimp only
  split
  · rename_i hlt
    refine ⟨hI, by dsimp only; omega, ?_⟩
    dsimp only
    rw [(hI (s.ns + 1) (by omega) (by omega)).1, if_neg (by omega), hy]
    simp
  · rename_i hge
    refine ⟨hI, by dsimp only; omega, ?_⟩
    dsimp only
    rw [(hI s.ns (by omega) (by omega)).2, if_neg (by omega), hy, show s.ns - 1 + 1 = s.ns by omega]
    simp

/-- **C88** (`polint`): `*y` is the value at `x` of the polynomial of lowest degree through the points. -/
theorem C88_polint (xa ya : Nat → K) (n : Nat) (hn : 1 ≤ n) (hx : Set.InjOn xa (Set.Icc 1 n)) (x dy : K) :
    (polint xa ya n x dy).1 = (Lagrange.interpolate (Icc 1 n) xa ya).eval x := by
  unfold polint
  obtain ⟨h1, h2⟩ := polNearest_mem xa hn x
  generalize polNearest xa n x = ns at h1 h2
  dsimp only
  have hinv := upLoop_inv hn (body := polStep xa x n) (s := (⟨ya, ya, ya ns, dy, ns - 1⟩ : PolState K))
    (fun m s => PolArrays xa ya x n (m - 1) s.c s.d ∧ s.ns + 1 + (m - 1) ≤ n ∧
      s.y = through xa ya x (s.ns + 1) (m - 1)) ?_ ?_
  · obtain ⟨_, h3, h4⟩ := hinv
    rw [h4]
    generalize upLoop 1 n (polStep xa x n) ⟨ya, ya, ya ns, dy, ns - 1⟩ = s at h3
    have : s.ns = 0 := by omega
    rw [this]
    unfold through
    rw [show 0 + 1 + (n - 1) = n by omega]
  · refine ⟨fun i hi1 hi2 => ?_, by dsimp only; omega, ?_⟩
    · dsimp only
      rw [show 1 - 1 = 0 by rfl, through_zero]
      simp
    · dsimp only
      rw [show 1 - 1 = 0 by rfl, through_zero, show ns - 1 + 1 = ns by omega]
  · rintro m s h3 h4 ⟨h5, h6, h7⟩
    have := polStep_spec (m := m - 1) hx (by omega) h5 h6 h7
    rw [show m - 1 + 1 = m by omega] at this
    rw [show m + 1 - 1 = m by omega]
    exact this

end polint

example : (polint (fun i => (i : ℚ)) (fun i => (i : ℚ) ^ 2) 3 7 0).1 = 49 := by decide +kernel

/-! ### Romberg integration -/

/-- The polynomials of degree at most 10 and the derivatives that are needed. -/
theorem eval_deg10 (F : ℝ[X]) (hF : F.natDegree ≤ 10) (k : Nat) (x : ℝ) :
    (derivative^[k] F).eval x = ∑ i ∈ range 11, F.coeff (i + k) * (i + k).descFactorial k * x ^ i := by
  rw [eval_eq_sum_range' (n := 11) (lt_of_le_of_lt (natDegree_iterate_derivative F k) (by omega))]
  refine sum_congr rfl fun i _ => ?_
  rw [coeff_iterate_derivative, nsmul_eq_mul]
  ring

/-- Euler's and Maclaurin's formula for one panel. -/
theorem euler_panel (F : ℝ[X]) (hF : F.natDegree ≤ 10) (x h : ℝ) :
    h * ((F.derivative.eval x + F.derivative.eval (x + h)) / 2) = F.eval (x + h) - F.eval x +
      1 / 12 * h ^ 2 * ((derivative^[2] F).eval (x + h) - (derivative^[2] F).eval x) -
      1 / 720 * h ^ 4 * ((derivative^[4] F).eval (x + h) - (derivative^[4] F).eval x) +
      1 / 30240 * h ^ 6 * ((derivative^[6] F).eval (x + h) - (derivative^[6] F).eval x) -
      1 / 1209600 * h ^ 8 * ((derivative^[8] F).eval (x + h) - (derivative^[8] F).eval x) := by
  have h0 : ∀ y, F.eval y = (derivative^[0] F).eval y := fun y => rfl
  have h1 : ∀ y, F.derivative.eval y = (derivative^[1] F).eval y := fun y => rfl
  have hz : ∀ k, 10 < k → F.coeff k = 0 := fun k hk => coeff_eq_zero_of_natDegree_lt (by omega)
  simp only [h0, h1, eval_deg10 F hF, Finset.sum_range_succ, Finset.sum_range_zero, Nat.reduceAdd,
    hz 11 (by norm_num), hz 12 (by norm_num), hz 13 (by norm_num), hz 14 (by norm_num),
    hz 15 (by norm_num), hz 16 (by norm_num), hz 17 (by norm_num), hz 18 (by norm_num), Nat.descFactorial,
    Nat.reduceSub, Nat.reduceMul]
  push_cast
  ring

/-- The trapezoidal rule for the derivative of a polynomial of degree at most 10 is a polynomial in the
square of the step. -/
theorem trapezoid_euler (F : ℝ[X]) (hF : F.natDegree ≤ 10) (a b : ℝ) {N : Nat} (hN : 0 < N) :
    Spec.trapezoid (fun x => F.derivative.eval x) a b N = F.eval b - F.eval a +
      1 / 12 * ((b - a) / N) ^ 2 * ((derivative^[2] F).eval b - (derivative^[2] F).eval a) -
      1 / 720 * ((b - a) / N) ^ 4 * ((derivative^[4] F).eval b - (derivative^[4] F).eval a) +
      1 / 30240 * ((b - a) / N) ^ 6 * ((derivative^[6] F).eval b - (derivative^[6] F).eval a) -
      1 / 1209600 * ((b - a) / N) ^ 8 * ((derivative^[8] F).eval b - (derivative^[8] F).eval a) := by
  have hN' : (N : ℝ) ≠ 0 := by exact_mod_cast hN.ne'
  have hb : a + N * ((b - a) / N) = b := by field_simp; ring
  unfold Spec.trapezoid
  generalize (b - a) / (N : ℝ) = h at *
  have key : ∀ m : Nat, ∑ i ∈ range m, h * ((F.derivative.eval (a + i * h) +
      F.derivative.eval (a + (i + 1) * h)) / 2) = F.eval (a + m * h) - F.eval a +
      1 / 12 * h ^ 2 * ((derivative^[2] F).eval (a + m * h) - (derivative^[2] F).eval a) -
      1 / 720 * h ^ 4 * ((derivative^[4] F).eval (a + m * h) - (derivative^[4] F).eval a) +
      1 / 30240 * h ^ 6 * ((derivative^[6] F).eval (a + m * h) - (derivative^[6] F).eval a) -
      1 / 1209600 * h ^ 8 * ((derivative^[8] F).eval (a + m * h) - (derivative^[8] F).eval a) := by
    intro m
    induction m with
    | zero => simp
    | succ m ih =>
      rw [sum_range_succ, ih]
      have := euler_panel F hF (a + m * h) h
      rw [show a + (m : ℝ) * h + h = a + (m + 1) * h by ring] at this
      push_cast
      rw [this]
      ring
  rw [key N, hb]

/-- The values of the trapezoidal rule with `2^(j-1)` panels lie on a polynomial of degree at most 4 that
is the integral at zero. -/
theorem romberg_poly (F : ℝ[X]) (hF : F.natDegree ≤ 10) (a b : ℝ) :
    ∃ Q : ℝ[X], Q.degree < 5 ∧ Q.eval 0 = F.eval b - F.eval a ∧ ∀ n : Nat,
      Spec.trapezoid (fun x => F.derivative.eval x) a b (2 ^ n) = Q.eval ((1 / 4) ^ n) := by
  refine ⟨C (F.eval b - F.eval a) +
    C (1 / 12 * (b - a) ^ 2 * ((derivative^[2] F).eval b - (derivative^[2] F).eval a)) * X ^ 1 +
    C (-1 / 720 * (b - a) ^ 4 * ((derivative^[4] F).eval b - (derivative^[4] F).eval a)) * X ^ 2 +
    C (1 / 30240 * (b - a) ^ 6 * ((derivative^[6] F).eval b - (derivative^[6] F).eval a)) * X ^ 3 +
    C (-1 / 1209600 * (b - a) ^ 8 * ((derivative^[8] F).eval b - (derivative^[8] F).eval a)) * X ^ 4,
    ?_, by simp, fun n => ?_⟩
  · refine lt_of_le_of_lt (degree_add_le _ _) (max_lt (lt_of_le_of_lt (degree_add_le _ _) (max_lt
      (lt_of_le_of_lt (degree_add_le _ _) (max_lt (lt_of_le_of_lt (degree_add_le _ _) (max_lt
      (lt_of_le_of_lt degree_C_le ?_) ?_)) ?_)) ?_)) ?_)
    · decide
    all_goals
      refine lt_of_le_of_lt (degree_C_mul_X_pow_le _ _) ?_
      decide
  · rw [trapezoid_euler F hF a b (by positivity)]
    have h4 : ((1 : ℝ) / 4) ^ n = 1 / (2 ^ n) ^ 2 := by
      rw [div_pow, one_pow, ← pow_mul, mul_comm n 2, pow_mul]
      norm_num
    simp only [eval_add, eval_mul, eval_C, eval_pow, eval_X, h4]
    push_cast
    have h2 : (2 : ℝ) ^ n ≠ 0 := by positivity
    generalize (2 : ℝ) ^ n = t at h2
    field_simp
    ring

/-- **C88** (Romberg): for every polynomial of degree at most 9 (the derivative of a polynomial of degree
at most 10) the result is the integral, for every `eps` and every `max` that is at least 5, whatever the
arrays contain at the start. -/
theorem C88_romberg (F : ℝ[X]) (hF : F.natDegree ≤ 10) (s0 h0 : Nat → ℝ) (dss0 a b eps : ℝ) (max : Nat)
    (hmax : 5 ≤ max) :
    rombintegral s0 h0 dss0 (fun x => F.derivative.eval x) a b eps max = .ok (F.eval b - F.eval a) := by
  obtain ⟨Q, hQ, hQ0, hT⟩ := romberg_poly F hF a b
  have hstep : ∀ (j : Nat) (t : RombState ℝ), 1 ≤ j →
      (∀ k, 1 ≤ k → k < j → t.s k = Q.eval ((1 / 4) ^ (k - 1))) →
      (∀ k, 1 ≤ k → k ≤ j → t.h k = (1 / 4) ^ (k - 1)) →
      (∀ k, 1 ≤ k → k < j + 1 → aset t.s j (trapezit (fun x => F.derivative.eval x) a b j (t.s (j - 1))) k =
        Q.eval ((1 / 4) ^ (k - 1))) ∧
      (5 ≤ j → (polint (fun k => t.h (j - 5 + k)) (fun k => aset t.s j (trapezit (fun x =>
        F.derivative.eval x) a b j (t.s (j - 1))) (j - 5 + k)) 5 0 t.dss).1 = F.eval b - F.eval a) := by
    intro j t hj hs hh
    have hnew : ∀ k, 1 ≤ k → k < j + 1 → aset t.s j (trapezit (fun x => F.derivative.eval x) a b j
        (t.s (j - 1))) k = Q.eval ((1 / 4) ^ (k - 1)) := by
      intro k h1 h2
      rcases Nat.lt_or_ge k j with h3 | h3
      · rw [aset_ne _ _ (by omega)]
        exact hs k h1 h3
      · have : k = j := by omega
        subst this
        rw [aset_self, C88_trapezit _ a b k h1 _ (fun h => by
          rw [hs (k - 1) (by omega) (by omega), hT, show k - 1 - 1 = k - 2 by omega]), hT]
    refine ⟨hnew, fun h5 => ?_⟩
    have hinj : Set.InjOn (fun k => t.h (j - 5 + k)) (Set.Icc 1 5) := by
      intro p hp q hq hpq
      simp only [Set.mem_Icc] at hp hq
      dsimp only at hpq
      rw [hh _ (by omega) (by omega), hh _ (by omega) (by omega)] at hpq
      have := pow_right_injective₀ (a := (1 / 4 : ℝ)) (by norm_num) (by norm_num) hpq
      omega
    rw [C88_polint _ _ 5 (by norm_num) hinj]
    rw [← Lagrange.eq_interpolate_of_eval_eq (f := Q) (s := Icc 1 5) _ (by simpa using hinj)
      (by simpa using hQ), hQ0]
    intro i hi
    rw [mem_Icc] at hi
    rw [hnew _ (by omega) (by omega), hh _ (by omega) (by omega)]
  unfold rombintegral
  refine (forRet_inv (n := max) (body := rombStep (fun x => F.derivative.eval x) a b eps)
    (s := ⟨s0, aset h0 1 1, none, dss0⟩)
    (fun j t => (∀ k, 1 ≤ k → k < j → t.s k = Q.eval ((1 / 4) ^ (k - 1))) ∧
      (∀ k, 1 ≤ k → k ≤ j → t.h k = (1 / 4) ^ (k - 1)) ∧ (5 < j → t.ss = some (F.eval b - F.eval a)))
    (fun j r => r = F.eval b - F.eval a) ?_ ?_ ?_).elim ?_ ?_
  · refine ⟨fun k h1 h2 => absurd h2 (by omega), fun k h1 h2 => ?_, fun h => absurd h (by omega)⟩
    have : k = 1 := by omega
    subst this
    simp [aset_self]
  · rintro j t r h1 h2 ⟨hs, hh, _⟩ hr
    obtain ⟨_, hb⟩ := hstep j t h1 hs hh
    unfold rombStep at hr
    dsimp only at hr
    split at hr
    · rename_i h5
      split at hr
      · cases hr
        exact hb h5
      · cases hr
    · cases hr
  · rintro j t t' h1 h2 ⟨hs, hh, hss⟩ hr
    obtain ⟨ha, hb⟩ := hstep j t h1 hs hh
    have hh' : ∀ k, 1 ≤ k → k ≤ j + 1 → aset t.h (j + 1) (1 / 4 * t.h j) k = (1 / 4) ^ (k - 1) := by
      intro k h3 h4
      rcases Nat.lt_or_ge k (j + 1) with h5 | h5
      · rw [aset_ne _ _ (by omega)]
        exact hh k h3 (by omega)
      · have : k = j + 1 := by omega
        subst this
        rw [aset_self, hh j h1 le_rfl, ← pow_succ']
        congr 1
        omega
    unfold rombStep at hr
    dsimp only at hr
    split at hr
    · rename_i h5
      split at hr
      · cases hr
      · cases hr
        exact ⟨ha, hh', fun _ => by dsimp only; rw [hb h5]⟩
    · cases hr
      exact ⟨ha, hh', fun h => absurd h (by omega)⟩
  · rintro ⟨r, j, h1, h2, hr, rfl⟩
    rw [hr]
  · rintro ⟨t, ht, _, _, hss⟩
    rw [ht]
    dsimp only
    rw [hss (by omega)]

/-- **C88** (Romberg with few iterations): with `max` smaller than 5 the result is never set. -/
theorem C88_romberg_undefined (f : ℝ → ℝ) (s0 h0 : Nat → ℝ) (dss0 a b eps : ℝ) (max : Nat) (hmax : max < 5) :
    rombintegral s0 h0 dss0 f a b eps max = .ub := by
  unfold rombintegral
  refine (forRet_inv (n := max) (body := rombStep f a b eps) (s := ⟨s0, aset h0 1 1, none, dss0⟩)
    (fun j t => t.ss = none) (fun j r => False) rfl ?_ ?_).elim ?_ ?_
  · rintro j t r h1 h2 ht hr
    unfold rombStep at hr
    dsimp only at hr
    rw [if_neg (by omega)] at hr
    cases hr
  · rintro j t t' h1 h2 ht hr
    unfold rombStep at hr
    dsimp only at hr
    rw [if_neg (by omega)] at hr
    cases hr
    exact ht
  · rintro ⟨r, j, _, _, _, h⟩
    exact h.elim
  · rintro ⟨t, ht, hss⟩
    rw [ht]
    dsimp only
    rw [hss]

example : rombintegral (fun _ => 0) (fun _ => 0) (0 : ℚ) (fun x => 10 * x ^ 9) 0 2 (1 / 100) 7 =
    .ok 1024 := by decide +kernel

end Sgrid
