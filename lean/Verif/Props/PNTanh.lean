import Verif.Model.PNOrbit
import Mathlib.Analysis.SpecialFunctions.Trigonometric.DerivHyp
import Mathlib.Analysis.Calculus.Deriv.MeanValue
import Mathlib.Tactic.FieldSimp
import Mathlib.Tactic.Ring
import Mathlib.Tactic.LinearCombination
import Mathlib.Tactic.NormNum
import Mathlib.Tactic.Positivity
import Mathlib.Tactic.Linarith
import Mathlib.Analysis.SpecialFunctions.Pow.Asymptotics

/-!
# C137: the post-Newtonian equations with the hyperbolic tangent
-/

namespace Sgrid

open Real Set

theorem tanh_hasDeriv (x : ℝ) : HasDerivAt tanh (1 - tanh x ^ 2) x := by
  have hc := (cosh_pos x).ne'
  have h := (hasDerivAt_sinh x).div (hasDerivAt_cosh x) hc
  have e : (sinh / cosh : ℝ → ℝ) = tanh := by funext z; simp [tanh_eq_sinh_div_cosh]
  rw [e] at h
  refine h.congr_deriv ?_
  rw [tanh_eq_sinh_div_cosh]
  field_simp

theorem nonneg_of_deriv (f f' : ℝ → ℝ) (hf : ∀ x, HasDerivAt f (f' x) x) (h0 : f 0 = 0) (hp : ∀ x, 0 < x → 0 ≤ f' x) (x : ℝ) (hx : 0 ≤ x) :
    0 ≤ f x := by
  have hm : MonotoneOn f (Ici 0) := by
    refine monotoneOn_of_deriv_nonneg (convex_Ici 0) (fun z _ => (hf z).continuousAt.continuousWithinAt)
      (fun z _ => (hf z).differentiableAt.differentiableWithinAt) ?_
    intro z hz
    rw [interior_Ici] at hz
    rw [(hf z).deriv]
    exact hp z hz
  have := hm (mem_Ici.2 le_rfl) (mem_Ici.2 hx) hx
  rwa [h0] at this

theorem tanh_bound_pos (x : ℝ) (hx : 0 ≤ x) : 0 ≤ tanh x - x + x ^ 3 / 3 ∧ tanh x - x + x ^ 3 / 3 ≤ x ^ 5 := by
  have ht : ∀ x : ℝ, 0 ≤ x → 0 ≤ tanh x := by
    intro x hx
    rw [tanh_eq_sinh_div_cosh]
    exact div_nonneg (sinh_nonneg_iff.2 hx) (cosh_pos x).le
  have h1 : ∀ x : ℝ, 0 ≤ x → 0 ≤ x - tanh x := by
    refine nonneg_of_deriv (fun x => x - tanh x) (fun x => 1 - (1 - tanh x ^ 2)) (fun x => (hasDerivAt_id x).sub (tanh_hasDeriv x)) (by simp) ?_
    intro x _; nlinarith [sq_nonneg (tanh x)]
  have p3 : ∀ x : ℝ, HasDerivAt (fun x : ℝ => x ^ 3 / 3) (x ^ 2) x := by
    intro x
    refine ((hasDerivAt_pow 3 x).div_const 3).congr_deriv ?_
    norm_num
  have d2 : ∀ x : ℝ, HasDerivAt (fun x : ℝ => tanh x - x + x ^ 3 / 3) ((1 - tanh x ^ 2) - 1 + x ^ 2) x := fun x =>
    ((tanh_hasDeriv x).sub (hasDerivAt_id x)).add (p3 x)
  have h2 : ∀ x : ℝ, 0 ≤ x → 0 ≤ tanh x - x + x ^ 3 / 3 := by
    refine nonneg_of_deriv _ _ d2 (by simp) ?_
    intro x hx
    nlinarith [h1 x hx.le, ht x hx.le]
  have h3 : ∀ x : ℝ, 0 ≤ x → 0 ≤ x ^ 5 - (tanh x - x + x ^ 3 / 3) := by
    refine nonneg_of_deriv _ (fun x => 5 * x ^ 4 - ((1 - tanh x ^ 2) - 1 + x ^ 2)) (fun x => ?_) (by simp) ?_
    · refine ((hasDerivAt_pow 5 x).congr_deriv ?_).sub (d2 x)
      norm_num
    · intro x hx
      have a := h1 x hx.le
      have b := ht x hx.le
      have c := h2 x hx.le
      have e : x ^ 2 - tanh x ^ 2 ≤ x ^ 3 / 3 * (2 * x) := by
        rw [show x ^ 2 - tanh x ^ 2 = (x - tanh x) * (x + tanh x) by ring]
        exact mul_le_mul (by linarith) (by linarith) (by linarith) (by positivity)
      have : 0 ≤ x ^ 4 := by positivity
      nlinarith
  exact ⟨h2 x hx, by linarith [h3 x hx]⟩

theorem tanh_bound (x : ℝ) : |tanh x - x + x ^ 3 / 3| ≤ |x| ^ 5 := by
  rcases le_total 0 x with h | h
  · obtain ⟨a, b⟩ := tanh_bound_pos x h
    rw [abs_of_nonneg a, abs_of_nonneg h]; exact b
  · obtain ⟨a, b⟩ := tanh_bound_pos (-x) (by linarith)
    rw [tanh_neg] at a b
    rw [abs_of_nonpos (by linarith [a, show (-x) ^ 3 = -x ^ 3 by ring]), abs_of_nonpos h]
    linarith [b, show (-x) ^ 3 = -x ^ 3 by ring]

open Filter Topology

/-- What the code's comment claims, for any coefficients: with `e6 = a6 + e2^3/3` and `e7 = a7 + e2^2 e3` the hyperbolic tangent
has the given terms up to the seventh order. -/
theorem tanh_cut (b2 b3 b4 b5 b6 b7 B2 c : ℝ) (E P : ℝ → ℝ) (e : ℝ) (hE : Tendsto E (𝓝[>] 0) (𝓝 e)) (hP : Tendsto P (𝓝[>] 0) (𝓝 0)) :
    let a2 := b2 + B2
    let a3 := b3
    let a4 := b4 + a2 * B2
    let a5 := b5 + a3 * B2
    let a6 := b6 + a4 * B2
    let a7 := b7 + a5 * B2
    Tendsto (fun v => ((1 - B2 * v ^ 2) * (1 + tanh (a2 * v ^ 2 + a3 * v ^ 3 + a4 * v ^ 4 + a5 * v ^ 5 +
        (a6 + a2 * a2 * a2 / 3) * v ^ 6 - c * P v * v ^ 5 + (a7 + a2 * a2 * a3) * v ^ 7) + E v * v ^ 10) -
      (1 + b2 * v ^ 2 + b3 * v ^ 3 + b4 * v ^ 4 + b5 * v ^ 5 + b6 * v ^ 6 - c * P v * v ^ 5 + b7 * v ^ 7)) / v ^ 7) (𝓝[>] 0) (𝓝 0) := by
  intro a2 a3 a4 a5 a6 a7
  have q2 : b2 = a2 - B2 := by simp only [a2]; ring
  have q3 : b3 = a3 := rfl
  have q4 : b4 = a4 - a2 * B2 := by simp only [a4]; ring
  have q5 : b5 = a5 - a3 * B2 := by simp only [a5]; ring
  have q6 : b6 = a6 - a4 * B2 := by simp only [a6]; ring
  have q7 : b7 = a7 - a5 * B2 := by simp only [a7]; ring
  rw [q2, q3, q4, q5, q6, q7]
  clear_value a7 a6 a5 a4 a3 a2
  clear q2 q3 q4 q5 q6 q7
  have hv : Tendsto (fun v : ℝ => v) (𝓝[>] 0) (𝓝 0) := tendsto_id.mono_left nhdsWithin_le_nhds
  have hk2 : Tendsto (fun v => a4 + a5 * v + (a6 + a2 * a2 * a2 / 3) * v ^ 2 - c * P v * v + (a7 + a2 * a2 * a3) * v ^ 3) (𝓝[>] 0) (𝓝 a4) := by
    have := (((tendsto_const_nhds (x := a4)).add (hv.const_mul a5)).add ((hv.pow 2).const_mul (a6 + a2 * a2 * a2 / 3))).sub
      ((hP.const_mul c).mul hv) |>.add ((hv.pow 3).const_mul (a7 + a2 * a2 * a3))
    simpa using this
  set k2 : ℝ → ℝ := fun v => a4 + a5 * v + (a6 + a2 * a2 * a2 / 3) * v ^ 2 - c * P v * v + (a7 + a2 * a2 * a3) * v ^ 3 with hk2d
  have hk : Tendsto (fun v => a2 + a3 * v + v ^ 2 * k2 v) (𝓝[>] 0) (𝓝 a2) := by
    have := ((tendsto_const_nhds (x := a2)).add (hv.const_mul a3)).add ((hv.pow 2).mul hk2)
    simpa using this
  set k : ℝ → ℝ := fun v => a2 + a3 * v + v ^ 2 * k2 v with hkd
  set k3 : ℝ → ℝ := fun v => 3 * a2 * a3 ^ 2 + a3 ^ 3 * v + 3 * (a2 + a3 * v) ^ 2 * k2 v + 3 * (a2 + a3 * v) * k2 v ^ 2 * v ^ 2 + k2 v ^ 3 * v ^ 4
    with hk3d
  have hal : Tendsto (fun v => a2 + a3 * v) (𝓝[>] 0) (𝓝 a2) := by
    have := (tendsto_const_nhds (x := a2)).add (hv.const_mul a3)
    simpa using this
  have hk3 : Tendsto (fun v => v * k3 v) (𝓝[>] 0) (𝓝 0) := by
    have h := (((((tendsto_const_nhds (x := 3 * a2 * a3 ^ 2)).add (hv.const_mul (a3 ^ 3))).add (((hal.pow 2).const_mul 3).mul hk2)).add
      (((hal.const_mul 3).mul (hk2.pow 2)).mul (hv.pow 2))).add ((hk2.pow 3).mul (hv.pow 4)))
    have := hv.mul h
    simpa using this
  have hone : Tendsto (fun v : ℝ => 1 - B2 * v ^ 2) (𝓝[>] 0) (𝓝 1) := by
    have := (tendsto_const_nhds (x := (1 : ℝ))).sub ((hv.pow 2).const_mul B2)
    simpa using this
  set R : ℝ → ℝ := fun v => tanh (v ^ 2 * k v) - v ^ 2 * k v + (v ^ 2 * k v) ^ 3 / 3 with hRd
  have hR : Tendsto (fun v => R v / v ^ 7) (𝓝[>] 0) (𝓝 0) := by
    have hb : Tendsto (fun v => v ^ 3 * |k v| ^ 5) (𝓝[>] 0) (𝓝 0) := by
      have := (hv.pow 3).mul (hk.abs.pow 5)
      simpa using this
    refine squeeze_zero_norm' ?_ hb
    filter_upwards [self_mem_nhdsWithin] with v hv0
    have hv0 : 0 < v := hv0
    rw [Real.norm_eq_abs, abs_div, abs_of_pos (by positivity : 0 < v ^ 7), div_le_iff₀ (by positivity)]
    refine (tanh_bound (v ^ 2 * k v)).trans (le_of_eq ?_)
    rw [abs_mul, abs_of_pos (by positivity : 0 < v ^ 2)]
    ring
  have hEv : Tendsto (fun v => E v * v ^ 3) (𝓝[>] 0) (𝓝 0) := by
    have := hE.mul (hv.pow 3)
    simpa using this
  have hG : Tendsto (fun v => -B2 * (a6 * v + a7 * v ^ 2 - c * P v) + (1 - B2 * v ^ 2) * (-(v * k3 v) / 3 + R v / v ^ 7 + E v * v ^ 3))
      (𝓝[>] 0) (𝓝 0) := by
    have := ((((hv.const_mul a6).add ((hv.pow 2).const_mul a7)).sub (hP.const_mul c)).const_mul (-B2)).add
      (hone.mul (((hk3.neg.div_const 3).add hR).add hEv))
    simpa using this
  refine hG.congr' ?_
  filter_upwards [self_mem_nhdsWithin] with v hv0
  have hv0 : v ≠ 0 := ne_of_gt hv0
  have ex : a2 * v ^ 2 + a3 * v ^ 3 + a4 * v ^ 4 + a5 * v ^ 5 + (a6 + a2 * a2 * a2 / 3) * v ^ 6 - c * P v * v ^ 5 +
      (a7 + a2 * a2 * a3) * v ^ 7 = v ^ 2 * k v := by
    simp only [hkd, hk2d]; ring
  rw [ex, show tanh (v ^ 2 * k v) = R v + v ^ 2 * k v - (v ^ 2 * k v) ^ 3 / 3 by simp only [hRd]; ring]
  have ek3 : (k v) ^ 3 = a2 ^ 3 + 3 * a2 ^ 2 * a3 * v + v ^ 2 * k3 v := by
    simp only [hkd, hk3d]; ring
  have e3 : (v ^ 2 * k v) ^ 3 = v ^ 6 * (a2 ^ 3 + 3 * a2 ^ 2 * a3 * v + v ^ 2 * k3 v) := by rw [← ek3]; ring
  rw [e3]
  generalize k3 v = K3
  generalize R v = RR
  simp only [hkd, hk2d]
  generalize E v = EE
  generalize P v = PP
  rw [eq_div_iff (by positivity)]
  have hRR : RR / v ^ 7 * v ^ 7 = RR := div_mul_cancel₀ _ (by positivity)
  linear_combination (1 - B2 * v ^ 2) * hRR

open PN in
/-- The equations with the hyperbolic tangent, which stop the growth at `v2cut`, agree with those of Buonanno et al. in all orders
which those contain: what is left is small against `v^7` (flags 1). -/
theorem C137_buonanno_v2cut (p : PNPar) (hf : p.f2 = 1 ∧ p.f3 = 1 ∧ p.f4 = 1 ∧ p.f5 = 1 ∧ p.f6 = 1 ∧ p.f7 = 1) (y : Nat → ℝ) :
    Tendsto (fun v => (bracket { p with typ := .buonannoV2 } v (v ^ 3) y - bracket { p with typ := .buonanno } v (v ^ 3) y) / v ^ 7)
      (𝓝[>] 0) (𝓝 0) := by
  obtain ⟨f2, f3, f4, f5, f6, f7⟩ := hf
  have hv : Tendsto (fun v : ℝ => v) (𝓝[>] 0) (𝓝 0) := tendsto_id.mono_left nhdsWithin_le_nhds
  have hP : Tendsto (fun v : ℝ => v * (log 16 + 2 * log v)) (𝓝[>] 0) (𝓝 0) := by
    have h1 : Tendsto (fun v : ℝ => log v * v) (𝓝[>] 0) (𝓝 0) := by
      simpa only [rpow_one] using tendsto_log_mul_rpow_nhdsGT_zero zero_lt_one
    have h2 := (hv.mul_const (log 16)).add (h1.const_mul 2)
    have h3 : Tendsto (fun v : ℝ => v * log 16 + 2 * (log v * v)) (𝓝[>] 0) (𝓝 0) := by simpa using h2
    refine h3.congr fun v => by ring
  have hE : Tendsto (fun v : ℝ => p.cutoffP * (1 - 1 / (p.v2trans * p.v2trans) * (v * v)) * (1 - 1 / (p.v2trans * p.v2trans) * (v * v)) *
      (1 / (p.v2trans * p.v2trans)) ^ 5) (𝓝[>] 0) (𝓝 (p.cutoffP * (1 / (p.v2trans * p.v2trans)) ^ 5)) := by
    have h1 : Tendsto (fun v : ℝ => 1 - 1 / (p.v2trans * p.v2trans) * (v * v)) (𝓝[>] 0) (𝓝 1) := by
      have := (tendsto_const_nhds (x := (1 : ℝ))).sub ((hv.mul hv).const_mul (1 / (p.v2trans * p.v2trans)))
      simpa using this
    have := ((h1.const_mul p.cutoffP).mul h1).mul_const ((1 / (p.v2trans * p.v2trans)) ^ 5)
    simpa using this
  have key := tanh_cut (-c2 p) (-(c3 p * LS1 y + c4 p * LS2 y - c5)) (c6 p - c7 p * SS y + c8 p * LS1 y * LS2 y) (-c9 p)
    (c10 p + c11 p + c12 p) (c14 p) (1 / (p.v2cut * p.v2cut)) c13 _ _ _ hE hP
  refine key.congr' ?_
  filter_upwards [self_mem_nhdsWithin] with v hv0
  have hv0 : 0 < v := hv0
  have hl : log (16 * (v * v)) = log 16 + 2 * log v := by
    rw [log_mul (by norm_num) (by positivity), log_mul hv0.ne' hv0.ne']; ring
  congr 1
  have k2 : ∀ t, c2 { p with typ := t } = c2 p := fun _ => rfl
  have k3 : ∀ t, c3 { p with typ := t } = c3 p := fun _ => rfl
  have k4 : ∀ t, c4 { p with typ := t } = c4 p := fun _ => rfl
  have k6 : ∀ t, c6 { p with typ := t } = c6 p := fun _ => rfl
  have k7 : ∀ t, c7 { p with typ := t } = c7 p := fun _ => rfl
  have k8 : ∀ t, c8 { p with typ := t } = c8 p := fun _ => rfl
  have k9 : ∀ t, c9 { p with typ := t } = c9 p := fun _ => rfl
  have k10 : ∀ t, c10 { p with typ := t } = c10 p := fun _ => rfl
  have k11 : ∀ t, c11 { p with typ := t } = c11 p := fun _ => rfl
  have k12 : ∀ t, c12 { p with typ := t } = c12 p := fun _ => rfl
  have k14 : ∀ t, c14 { p with typ := t } = c14 p := fun _ => rfl
  simp only [bracket, k2, k3, k4, k6, k7, k8, k9, k10, k11, k12, k14]
  simp only [f2, f3, f4, f5, f6, f7, hl]
  generalize log 16 + 2 * log v = ell
  generalize LS1 y = A
  generalize LS2 y = B
  generalize SS y = C
  refine congrArg₂ (· - ·) ?_ (by ring)
  rw [show v * v * 1 = v ^ 2 by ring]
  congr 1
  refine congrArg₂ (· + ·) (congrArg (fun t => 1 + tanh t) ?_) ?_
  · ring
  · ring

end Sgrid
