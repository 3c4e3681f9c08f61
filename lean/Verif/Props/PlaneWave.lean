import Verif.Props.Congruence
import Verif.Props.SmoothOn
import Verif.Props.BssnRhs

/-!
# Metrics that depend on one coordinate

The curvature of a diagonal metric with components that depend on the first coordinate only.
-/

namespace Sgrid
open Finset

variable {A : Type} [CommRing A]

/-- The tensor with the diagonal components `x`, `y` and `z`. -/
def Spec.diag (x y z : A) : Fin 3 → Fin 3 → A
  | 0, 0 => x
  | 0, 1 => 0
  | 0, 2 => 0
  | 1, 0 => 0
  | 1, 1 => y
  | 1, 2 => 0
  | 2, 0 => 0
  | 2, 1 => 0
  | 2, 2 => z

theorem diag_symm (x y z : A) (a b : Fin 3) : Spec.diag x y z a b = Spec.diag x y z b a := by
  fin_cases a <;> fin_cases b <;> rfl

theorem diag_d (C : Spec.Calculus A) (i : Fin 3) (x y z : A) (a b : Fin 3) :
    C.d i (Spec.diag x y z a b) = Spec.diag (C.d i x) (C.d i y) (C.d i z) a b := by
  fin_cases a <;> fin_cases b <;> first | rfl | exact C.zero i

/-- A diagonal metric. -/
def Spec.diagMetric (f p q u v w : A) (h : f * u = 1) (h' : p * v = 1) (h'' : q * w = 1) : Spec.Metric A where
  g := Spec.diag f p q
  inv := Spec.diag u v w
  symm := diag_symm f p q
  isymm := diag_symm u v w
  mul_inv := fun a c => by
    fin_cases a <;> fin_cases c <;> simp [Fin.sum_univ_three, Spec.diag, h, h', h'']

section
variable [Invertible (2 : A)] (C : Spec.Calculus A) {f p q u v w : A} (h : f * u = 1) (h' : p * v = 1) (h'' : q * w = 1)
variable (hf : ∀ i : Fin 3, i ≠ 0 → C.d i f = 0) (hp : ∀ i : Fin 3, i ≠ 0 → C.d i p = 0) (hq : ∀ i : Fin 3, i ≠ 0 → C.d i q = 0)

/-- The Christoffel symbols. -/
def Spec.waveGamma (f p q u v w : A) : Fin 3 → Fin 3 → Fin 3 → A
  | 0, a, b => ⅟2 * u * Spec.diag (C.d 0 f) (-C.d 0 p) (-C.d 0 q) a b
  | 1, 0, 1 => ⅟2 * v * C.d 0 p
  | 1, 1, 0 => ⅟2 * v * C.d 0 p
  | 2, 0, 2 => ⅟2 * w * C.d 0 q
  | 2, 2, 0 => ⅟2 * w * C.d 0 q
  | _, _, _ => 0

include hf hp hq

theorem wave_christoffel (c a b : Fin 3) :
    Spec.christoffel C (Spec.diagMetric f p q u v w h h' h'') c a b = Spec.waveGamma C f p q u v w c a b := by
  have f1 := hf 1 (by decide)
  have f2 := hf 2 (by decide)
  have p1 := hp 1 (by decide)
  have p2 := hp 2 (by decide)
  have q1 := hq 1 (by decide)
  have q2 := hq 2 (by decide)
  unfold Spec.christoffel Spec.christoffelLow
  show ∑ d, Spec.diag u v w c d * (⅟2 * (C.d a (Spec.diag f p q b d) + C.d b (Spec.diag f p q a d) - C.d d (Spec.diag f p q a b))) = _
  have h2 : (⅟2 : A) * 2 = 1 := invOf_mul_self 2
  simp only [diag_d, Fin.sum_univ_three]
  fin_cases a <;> fin_cases b <;> fin_cases c <;>
    simp only [Fin.zero_eta, Fin.mk_one, Fin.reduceFinMk, Spec.diag, Spec.waveGamma, f1, f2, p1, p2, q1, q2] <;>
    ring1

end

section
variable (C : Spec.Calculus A)

/-- A function of the first coordinate and its derivatives depend on the first coordinate only. -/
theorem wave_dd {x : A} (hx : ∀ i : Fin 3, i ≠ 0 → C.d i x = 0) (i : Fin 3) (hi : i ≠ 0) : C.d i (C.d 0 x) = 0 := by
  rw [C.comm, hx i hi, C.zero]

theorem wave_dinv {x y : A} (h : x * y = 1) (i : Fin 3) : C.d i y = -(y ^ 2 * C.d i x) := by
  have e := congrArg (C.d i) h
  rw [C.mul, C.one] at e
  linear_combination y * e - C.d i y * h

variable [Invertible (2 : A)]

/-- A metric `f dx² + dy² + dz²` is flat. -/
theorem gauge_ricci {f u : A} (h : f * u = 1) (hf : ∀ i : Fin 3, i ≠ 0 → C.d i f = 0) (a b : Fin 3) :
    Spec.ricci C (Spec.diagMetric f 1 1 u 1 1 h (one_mul 1) (one_mul 1)) a b = 0 := by
  have f1 := hf 1 (by decide)
  have f2 := hf 2 (by decide)
  have g1 := wave_dd C hf 1 (by decide)
  have g2 := wave_dd C hf 2 (by decide)
  unfold Spec.ricci
  simp only [wave_christoffel C h (one_mul 1) (one_mul 1) hf (fun i _ => C.one i) (fun i _ => C.one i), Fin.sum_univ_three]
  fin_cases a <;> fin_cases b <;>
    simp only [Fin.zero_eta, Fin.mk_one, Fin.reduceFinMk, Spec.diag, Spec.waveGamma, C.one, C.mul, C.half, C.zero, C.neg, f1, f2, g1, g2,
      wave_dinv C h] <;>
    ring1

section
variable {f a w k : A} (h : f * w ^ 2 = 1) (haw : a * w = 1) (hf : ∀ i : Fin 3, i ≠ 0 → C.d i f = 0) (ha : a * a = f) (hk : 2 * (a * k) = C.d 0 f)

/-- The metric `f dx² + dy² + dz²` with `f = 1/w²`. -/
abbrev Spec.gaugeMetric : Spec.Metric A := Spec.diagMetric f 1 1 (w ^ 2) 1 1 h (one_mul 1) (one_mul 1)

section
include haw ha hk

/-- The derivative of the lapse is the extrinsic curvature. -/
theorem gauge_da : C.d 0 a = k := by
  have h2 : (⅟2 : A) * 2 = 1 := invOf_mul_self 2
  have e := congrArg (C.d 0) ha
  rw [C.mul, ← hk] at e
  linear_combination ⅟2 * w * e - (C.d 0 a - k) * haw + (a * w * k - a * w * C.d 0 a) * h2

omit hk in
include hf in
theorem gauge_da' (i : Fin 3) (hi : i ≠ 0) : C.d i a = 0 := by
  have h2 : (⅟2 : A) * 2 = 1 := invOf_mul_self 2
  have e := congrArg (C.d i) ha
  rw [C.mul, hf i hi] at e
  linear_combination ⅟2 * w * e - C.d i a * haw - a * w * C.d i a * h2

include hf in
theorem gauge_dk (i : Fin 3) (hi : i ≠ 0) : C.d i k = 0 := by
  rw [← gauge_da C haw ha hk, C.comm, gauge_da' C haw hf ha i hi, C.zero]

omit [Invertible (2 : A)] hk in
include hf in
theorem gauge_dw [Invertible (2 : A)] (i : Fin 3) (hi : i ≠ 0) : C.d i w = 0 := by
  rw [wave_dinv C haw, gauge_da' C haw hf ha i hi]
  ring

end

omit [Invertible (2 : A)] in
theorem gauge_trace : Spec.trace (Spec.gaugeMetric h) (Spec.diag k 0 0) = w ^ 2 * k := by
  unfold Spec.trace
  simp only [Fin.sum_univ_three, Spec.diagMetric, Spec.diag]
  ring

omit [Invertible (2 : A)] in
theorem gauge_square : Spec.square (Spec.gaugeMetric h) (Spec.diag k 0 0) = (w ^ 2 * k) ^ 2 := by
  unfold Spec.square
  simp only [Fin.sum_univ_three, Spec.diagMetric, Spec.diag]
  ring

include haw hf ha hk in
theorem gauge_momentum (c : Fin 3) : ∑ b, ∑ d, (Spec.gaugeMetric h).inv b d *
    Spec.cov2 C (Spec.gaugeMetric h) (fun i j => Spec.diag k 0 0 i j - (Spec.gaugeMetric h).g i j * (w ^ 2 * k)) d c b = 0 := by
  have e : (fun i j => Spec.diag k 0 0 i j - (Spec.gaugeMetric h).g i j * (w ^ 2 * k)) = Spec.diag 0 (-(w ^ 2 * k)) (-(w ^ 2 * k)) := by
    funext i j
    fin_cases i <;> fin_cases j <;> simp only [Fin.zero_eta, Fin.mk_one, Fin.reduceFinMk, Spec.diagMetric, Spec.diag] <;>
      first | ring1 | linear_combination -k * h
  have hw : ∀ i : Fin 3, i ≠ 0 → C.d i (w ^ 2 * k) = 0 := by
    intro i hi
    rw [pow_two, C.mul, C.mul, gauge_dw C haw hf ha i hi, gauge_dk C haw hf ha hk i hi]
    ring
  have h1 := hw 1 (by decide)
  have h2 := hw 2 (by decide)
  rw [e]
  unfold Spec.cov2
  simp only [wave_christoffel C h (one_mul 1) (one_mul 1) hf (fun i _ => C.one i) (fun i _ => C.one i), Fin.sum_univ_three, diag_d, C.zero, C.neg]
  fin_cases c <;>
    simp only [Fin.zero_eta, Fin.mk_one, Fin.reduceFinMk, Spec.diagMetric, Spec.diag, Spec.waveGamma, C.one, h1, h2] <;>
    ring1

include haw hf ha hk in
/-- The right hand side of the equation for the extrinsic curvature. -/
theorem gauge_evolution (i j : Fin 3) : -Spec.hessian C (Spec.gaugeMetric h) a i j + a * (Spec.ricci C (Spec.gaugeMetric h) i j -
      2 * (∑ c, ∑ d, (Spec.gaugeMetric h).inv c d * (Spec.diag k 0 0 i c * Spec.diag k 0 0 d j)) +
      Spec.diag k 0 0 i j * Spec.trace (Spec.gaugeMetric h) (Spec.diag k 0 0)) = Spec.diag (-C.d 0 k) 0 0 i j := by
  have h2 : (⅟2 : A) * 2 = 1 := invOf_mul_self 2
  have a1 := gauge_da' C haw hf ha 1 (by decide)
  have a2 := gauge_da' C haw hf ha 2 (by decide)
  have k1 := gauge_dk C haw hf ha hk 1 (by decide)
  have k2 := gauge_dk C haw hf ha hk 2 (by decide)
  rw [gauge_ricci C h hf, gauge_trace]
  unfold Spec.hessian
  simp only [wave_christoffel C h (one_mul 1) (one_mul 1) hf (fun i _ => C.one i) (fun i _ => C.one i), Fin.sum_univ_three]
  fin_cases i <;> fin_cases j <;>
    simp only [Fin.zero_eta, Fin.mk_one, Fin.reduceFinMk, Spec.diagMetric, Spec.diag, Spec.waveGamma, C.one, C.zero, a1, a2, k1, k2,
      gauge_da C haw ha hk, ← hk] <;>
    first
      | ring1
      | linear_combination w ^ 2 * a * k ^ 2 * h2

end

/-- The curvature of `dx² + p dy² + q dz²`. -/
theorem wave_ricci {p q v w : A} (h : p * v = 1) (h' : q * w = 1) (hp : ∀ i : Fin 3, i ≠ 0 → C.d i p = 0)
    (hq : ∀ i : Fin 3, i ≠ 0 → C.d i q = 0) (a b : Fin 3) :
    Spec.ricci C (Spec.diagMetric 1 p q 1 v w (one_mul 1) h h') a b = Spec.diag
      (-(⅟2 * (v * C.d 0 (C.d 0 p) + w * C.d 0 (C.d 0 q))) + ⅟2 * ⅟2 * (v ^ 2 * C.d 0 p ^ 2 + w ^ 2 * C.d 0 q ^ 2))
      (-(⅟2 * C.d 0 (C.d 0 p)) + ⅟2 * ⅟2 * (v * C.d 0 p ^ 2 - w * C.d 0 p * C.d 0 q))
      (-(⅟2 * C.d 0 (C.d 0 q)) + ⅟2 * ⅟2 * (w * C.d 0 q ^ 2 - v * C.d 0 p * C.d 0 q)) a b := by
  have p1 := hp 1 (by decide)
  have p2 := hp 2 (by decide)
  have q1 := hq 1 (by decide)
  have q2 := hq 2 (by decide)
  have p3 := wave_dd C hp 1 (by decide)
  have p4 := wave_dd C hp 2 (by decide)
  have q3 := wave_dd C hq 1 (by decide)
  have q4 := wave_dd C hq 2 (by decide)
  have h2 : (⅟2 : A) * 2 = 1 := invOf_mul_self 2
  unfold Spec.ricci
  simp only [wave_christoffel C (one_mul 1) h h' (fun i _ => C.one i) hp hq, Fin.sum_univ_three]
  fin_cases a <;> fin_cases b <;>
    simp only [Fin.zero_eta, Fin.mk_one, Fin.reduceFinMk, Spec.diag, Spec.waveGamma, C.one, C.mul, C.half, C.zero, C.neg, p1, p2, q1, q2,
      p3, p4, q3, q4, wave_dinv C h, wave_dinv C h'] <;>
    first
      | ring1
      | linear_combination -⅟2 * (v ^ 2 * C.d 0 p ^ 2 + w ^ 2 * C.d 0 q ^ 2) * h2

section
variable {s v w k : A} (h : (1 + s) * v = 1) (h' : (1 - s) * w = 1) (hs : ∀ i : Fin 3, i ≠ 0 → C.d i s = 0) (hk : 2 * k = C.d 0 s)

/-- The metric `dx² + (1+s) dy² + (1-s) dz²`. -/
abbrev Spec.linearMetric : Spec.Metric A := Spec.diagMetric 1 (1 + s) (1 - s) 1 v w (one_mul 1) h h'

/-- By how much Einstein's equations are not satisfied; this is of second order in `s`. -/
def Spec.linearError (C : Spec.Calculus A) (s v w k : A) : A := k ^ 2 * (v ^ 2 + w ^ 2) + 2 * (s * (v * w) * C.d 0 k)

section
include hs
omit [Invertible (2 : A)]

theorem linear_dp (i : Fin 3) (hi : i ≠ 0) : C.d i (1 + s) = 0 := by
  rw [C.add, C.one, hs i hi, add_zero]

theorem linear_dq (i : Fin 3) (hi : i ≠ 0) : C.d i (1 - s) = 0 := by
  rw [C.sub, C.one, hs i hi, sub_zero]

include hk in
theorem linear_dk [Invertible (2 : A)] (i : Fin 3) (hi : i ≠ 0) : C.d i k = 0 := by
  have h2 : (⅟2 : A) * 2 = 1 := invOf_mul_self 2
  have e : k = ⅟2 * C.d 0 s := by linear_combination ⅟2 * hk - k * h2
  rw [e, C.mul, C.half, wave_dd C hs i hi]
  ring

end

include hk in
omit [Invertible (2 : A)] in
theorem linear_dp0 : C.d 0 (1 + s) = 2 * k := by rw [C.add, C.one, hk, zero_add]

include hk in
omit [Invertible (2 : A)] in
theorem linear_dq0 : C.d 0 (1 - s) = -(2 * k) := by rw [C.sub, C.one, hk, zero_sub]

omit [Invertible (2 : A)] in
theorem linear_d2 (i : Fin 3) : C.d i 2 = 0 := by
  rw [← one_add_one_eq_two, C.add, C.one, add_zero]

include h h' in
omit [Invertible (2 : A)] in
theorem linear_vw : v - w = -(2 * (s * (v * w))) := by
  linear_combination w * h - v * h'

omit [Invertible (2 : A)] in
theorem linear_trace : Spec.trace (Spec.linearMetric h h') (Spec.diag 0 k (-k)) = k * (v - w) := by
  unfold Spec.trace
  simp only [Fin.sum_univ_three, Spec.diagMetric, Spec.diag]
  ring

include hs hk in
theorem linear_ricci (i j : Fin 3) : Spec.ricci C (Spec.linearMetric h h') i j =
    Spec.diag (Spec.linearError C s v w k) (-C.d 0 k + k ^ 2 * (v + w)) (C.d 0 k + k ^ 2 * (v + w)) i j := by
  have h2 : (⅟2 : A) * 2 = 1 := invOf_mul_self 2
  have hv := linear_vw h h'
  rw [wave_ricci C h h' (linear_dp C hs) (linear_dq C hs)]
  unfold Spec.linearError
  fin_cases i <;> fin_cases j <;>
    simp only [Spec.diag, linear_dp0 C hk, linear_dq0 C hk, C.neg, C.mul, linear_d2 C]
  · linear_combination (-C.d 0 k) * hv + (k ^ 2 * (v ^ 2 + w ^ 2) * (⅟2 * 2 + 1) - (v - w) * C.d 0 k) * h2
  · linear_combination (k ^ 2 * (v + w) * (⅟2 * 2 + 1) - C.d 0 k) * h2
  · linear_combination (k ^ 2 * (v + w) * (⅟2 * 2 + 1) + C.d 0 k) * h2

include hs hk in
theorem linear_ham : Spec.trace (Spec.linearMetric h h') (Spec.ricci C (Spec.linearMetric h h')) +
    Spec.trace (Spec.linearMetric h h') (Spec.diag 0 k (-k)) ^ 2 - Spec.square (Spec.linearMetric h h') (Spec.diag 0 k (-k)) =
      2 * Spec.linearError C s v w k := by
  have hv := linear_vw h h'
  rw [linear_trace]
  unfold Spec.trace Spec.square
  simp only [linear_ricci C h h' hs hk]
  simp only [Fin.sum_univ_three, Spec.diagMetric, Spec.diag]
  unfold Spec.linearError
  linear_combination (-C.d 0 k) * hv

include hs hk in
theorem linear_momentum (c : Fin 3) : ∑ b, ∑ d, (Spec.linearMetric h h').inv b d *
    Spec.cov2 C (Spec.linearMetric h h') (fun i j => Spec.diag 0 k (-k) i j - (Spec.linearMetric h h').g i j * (k * (v - w))) d c b =
      if c = 0 then Spec.linearError C s v w k else 0 := by
  have h2 : (⅟2 : A) * 2 = 1 := invOf_mul_self 2
  have hv := linear_vw h h'
  have e : (fun i j => Spec.diag 0 k (-k) i j - (Spec.linearMetric h h').g i j * (k * (v - w))) =
      Spec.diag (-(k * (v - w))) (k - (1 + s) * (k * (v - w))) (-k - (1 - s) * (k * (v - w))) := by
    funext i j
    fin_cases i <;> fin_cases j <;> simp only [Fin.zero_eta, Fin.mk_one, Fin.reduceFinMk, Spec.diagMetric, Spec.diag] <;> ring1
  have hx : ∀ i : Fin 3, i ≠ 0 → C.d i (k * (v - w)) = 0 := by
    intro i hi
    rw [C.mul, C.sub, linear_dk C hs hk i hi, wave_dinv C h, wave_dinv C h', linear_dp C hs i hi, linear_dq C hs i hi]
    ring
  have h3 := hx 1 (by decide)
  have h4 := hx 2 (by decide)
  have k1 := linear_dk C hs hk 1 (by decide)
  have k2 := linear_dk C hs hk 2 (by decide)
  have p1 := linear_dp C hs 1 (by decide)
  have p2 := linear_dp C hs 2 (by decide)
  have x0 : C.d 0 (k * (v - w)) = C.d 0 k * (v - w) - 2 * (k ^ 2 * (v ^ 2 + w ^ 2)) := by
    rw [C.mul, C.sub, wave_dinv C h, wave_dinv C h', linear_dp0 C hk, linear_dq0 C hk]
    ring
  rw [e]
  unfold Spec.cov2
  simp only [wave_christoffel C (one_mul 1) h h' (fun i _ => C.one i) (linear_dp C hs) (linear_dq C hs), Fin.sum_univ_three, diag_d]
  obtain ⟨y, hy⟩ : ∃ y, y = k * (v - w) := ⟨_, rfl⟩
  rw [← hy] at h3 h4 x0 ⊢
  fin_cases c <;>
    simp only [Fin.zero_eta, Fin.mk_one, Fin.reduceFinMk, Fin.reduceEq, if_true, if_false, Spec.diagMetric, Spec.diag, Spec.waveGamma, C.one,
      C.neg, C.sub, C.mul, h3, h4, k1, k2, p1, p2, linear_dp0 C hk, x0, ← hk, hs 1 (by decide), hs 2 (by decide)]
  · unfold Spec.linearError
    linear_combination (-(v ^ 2 * k * (k - (1 + s) * y)) - v * k * y - w ^ 2 * k * (k + (1 - s) * y) + w * k * y) * h2 + v * k * y * h -
      w * k * y * h' - C.d 0 k * hv
  · ring
  · ring

include hs hk in
/-- The right hand side of the equation for the extrinsic curvature. -/
theorem linear_evolution (i j : Fin 3) : -Spec.hessian C (Spec.linearMetric h h') 1 i j + 1 * (Spec.ricci C (Spec.linearMetric h h') i j -
      2 * (∑ c, ∑ d, (Spec.linearMetric h h').inv c d * (Spec.diag 0 k (-k) i c * Spec.diag 0 k (-k) d j)) +
      Spec.diag 0 k (-k) i j * Spec.trace (Spec.linearMetric h h') (Spec.diag 0 k (-k))) =
        Spec.diag (Spec.linearError C s v w k) (-C.d 0 k) (C.d 0 k) i j := by
  rw [linear_ricci C h h' hs hk, linear_trace]
  unfold Spec.hessian
  simp only [C.one, C.zero, Fin.sum_univ_three, Spec.diagMetric]
  fin_cases i <;> fin_cases j <;> simp only [Fin.zero_eta, Fin.mk_one, Fin.reduceFinMk, Spec.diag] <;> ring1

end

end
end Sgrid
