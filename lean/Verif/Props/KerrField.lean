import Verif.Props.KerrConstraints

/-!
# The congruence of the Kerr metric

Kerr's radius `r` and vector field `l` in flat space satisfy the equations of `Spec.Congruence`.
-/

namespace Sgrid
open Finset

variable {A : Type} [CommRing A]

/-- Cartesian coordinates `x`, a constant vector `a`, Kerr's radius `r`, and the inverses of `r`, of `r² + a²` and of
`2 r² - x² + a²`. -/
structure Spec.KerrRadius (C : Spec.Calculus A) (x a : Fin 3 → A) (r u q w : A) : Prop where
  dx : ∀ i j, C.d i (x j) = Spec.kd i j
  da : ∀ i j, C.d i (a j) = 0
  quartic : r ^ 4 - ((∑ i, x i * x i) - ∑ i, a i * a i) * r ^ 2 - (∑ i, a i * x i) ^ 2 = 0
  hu : u * r = 1
  hq : q * (r ^ 2 + ∑ i, a i * a i) = 1
  hw : w * (2 * r ^ 2 - (∑ i, x i * x i) + ∑ i, a i * a i) = 1

/-- Kerr's vector field, `(r² x - r a × x + (a·x) a) / (r (r² + a²))`. -/
def Spec.kerrL (x a : Fin 3 → A) (r u q : A) (j : Fin 3) : A :=
  u * q * (r ^ 2 * x j - r * (∑ n, Spec.crossMat a n j * x n) + (∑ i, a i * x i) * a j)

namespace Spec.KerrRadius
variable {C : Spec.Calculus A} {x a : Fin 3 → A} {r u q w : A}

local notation "l" => Spec.kerrL x a r u q

theorem x_eq (h : Spec.KerrRadius C x a r u q w) (j : Fin 3) : x j = r * l j + ∑ n, Spec.crossMat a n j * l n := by
  have hu := h.hu
  have hq := h.hq
  unfold Spec.kerrL
  simp only [Fin.sum_univ_three] at hq ⊢
  fin_cases j <;> simp only [Fin.zero_eta, Fin.mk_one, Fin.reduceFinMk, Spec.crossMat]
  · linear_combination -x 0 * hq - x 0 * q * (r ^ 2 + (a 0 * a 0 + a 1 * a 1 + a 2 * a 2)) * hu
  · linear_combination -x 1 * hq - x 1 * q * (r ^ 2 + (a 0 * a 0 + a 1 * a 1 + a 2 * a 2)) * hu
  · linear_combination -x 2 * hq - x 2 * q * (r ^ 2 + (a 0 * a 0 + a 1 * a 1 + a 2 * a 2)) * hu

theorem al_eq (h : Spec.KerrRadius C x a r u q w) : ∑ i, a i * x i = r * ∑ i, a i * l i := by
  simp only [h.x_eq]
  simp only [Fin.sum_univ_three, Spec.crossMat]
  ring

theorem x_sq (h : Spec.KerrRadius C x a r u q w) : ∑ i, x i * x i = (r ^ 2 + ∑ i, a i * a i) * (∑ i, l i * l i) - (∑ i, a i * l i) ^ 2 := by
  rw [sum_congr rfl fun i _ => show x i * x i = (r * l i + ∑ n, Spec.crossMat a n i * l n) * (r * l i + ∑ n, Spec.crossMat a n i * l n) by
    rw [← h.x_eq i]]
  simp only [Fin.sum_univ_three, Spec.crossMat]
  ring

/-- Kerr's vector field has unit length. -/
theorem unit (h : Spec.KerrRadius C x a r u q w) : ∑ i, l i * l i = 1 := by
  have h1 := h.quartic
  have h2 := h.x_sq
  have h3 := h.al_eq
  have hu := h.hu
  have hq := h.hq
  generalize (∑ i, l i * l i) = L at *
  generalize (∑ i, a i * l i) = c at *
  generalize (∑ i, x i * x i) = X at *
  generalize (∑ i, a i * a i) = a2 at *
  rw [h2, h3] at h1
  linear_combination -q * u ^ 2 * h1 + (1 - L) * (hq + q * (r ^ 2 + a2) * (1 + u * r) * hu)

theorem x_sq' (h : Spec.KerrRadius C x a r u q w) : ∑ i, x i * x i = r ^ 2 + (∑ i, a i * a i) - (∑ i, a i * l i) ^ 2 := by
  rw [h.x_sq, h.unit, mul_one]

theorem hw' (h : Spec.KerrRadius C x a r u q w) : w * (r ^ 2 + (∑ i, a i * l i) ^ 2) = 1 := by
  have h1 := h.hw
  rw [h.x_sq'] at h1
  linear_combination h1

/-- The gradient of Kerr's radius. -/
theorem dr (h : Spec.KerrRadius C x a r u q w) [Invertible (2 : A)] (i : Fin 3) :
    r * (2 * r ^ 2 - (∑ i, x i * x i) + ∑ i, a i * a i) * C.d i r = r ^ 2 * x i + (∑ i, a i * x i) * a i := by
  have h1 := congrArg (C.d i) h.quartic
  have hx : C.d i (∑ i, x i * x i) = 2 * x i := by
    have := kd_sum' x i
    simp only [C.sum, C.mul, h.dx]
    simp only [Fin.sum_univ_three] at this ⊢
    linear_combination 2 * this
  have ha : C.d i (∑ i, a i * a i) = 0 := by
    simp only [C.sum, C.mul, h.da]
    simp
  have hax : C.d i (∑ i, a i * x i) = a i := by
    have := kd_sum' a i
    simp only [C.sum, C.mul, h.da, h.dx]
    simp only [Fin.sum_univ_three] at this ⊢
    linear_combination this
  rw [show r ^ 4 = r * r * (r * r) by ring, pow_two, pow_two, C.sub, C.sub, C.mul, C.mul, C.mul _ (_ - _), C.mul, C.mul, C.sub, hx, ha, hax, C.zero] at h1
  refine Spec.Congruence.half_cancel ?_
  linear_combination h1

/-- The derivatives of Kerr's vector field. -/
theorem congruence (h : Spec.KerrRadius C x a r u q w) [Invertible (2 : A)] :
    Spec.Congruence C l (w * r) (-(w * ∑ i, a i * l i)) := by
  have hu := h.hu
  have hq := h.hq
  have hw := h.hw'
  have h1 := h.unit
  refine ⟨h1, ?_⟩
  intro i
  have h2 : ∀ j, Spec.kd i j = C.d i r * l j + r * C.d i (l j) + ∑ n, Spec.crossMat a n j * C.d i (l n) := by
    intro j
    rw [← h.dx i j, h.x_eq j, C.add, C.mul, C.sum]
    congr 1
    refine sum_congr rfl fun n _ => ?_
    have : C.d i (Spec.crossMat a n j) = 0 := by
      fin_cases n <;> fin_cases j <;> simp [Spec.crossMat, h.da, C.zero, C.neg]
    rw [C.mul, this]
    ring
  have h3 : ∑ j, l j * C.d i (l j) = 0 := by
    have d1 := congrArg (C.d i) h1
    rw [C.sum, C.one] at d1
    refine Spec.Congruence.half_cancel ?_
    simp only [C.mul] at d1
    simp only [Fin.sum_univ_three] at d1 ⊢
    linear_combination d1
  generalize C.d i r = R at h2
  generalize hD : (fun j => C.d i (l j)) = D
  have hD' : ∀ j, C.d i (l j) = D j := fun j => by rw [← hD]
  simp only [hD'] at h2 h3 ⊢
  clear hD hD'
  generalize hl : l = k at *
  have hR : ∃ S : A, R = w * (r ^ 2 * k i - r * (∑ n, Spec.crossMat a i n * k n) + (∑ n, a n * k n) * a i) + S :=
    ⟨R - w * (r ^ 2 * k i - r * (∑ n, Spec.crossMat a i n * k n) + (∑ n, a n * k n) * a i), by ring⟩
  obtain ⟨S, hR⟩ := hR
  have hE : ∃ E : Fin 3 → A, ∀ j, D j = w * r * (Spec.kd i j - k i * k j) + -(w * ∑ i, a i * k i) * Spec.crossMat k i j + E j :=
    ⟨fun j => D j - (w * r * (Spec.kd i j - k i * k j) + -(w * ∑ i, a i * k i) * Spec.crossMat k i j), fun j => by ring⟩
  obtain ⟨E, hE⟩ := hE
  suffices ∀ j, E j = 0 by
    intro j
    rw [hE j, this j, add_zero]
  simp only [hE] at h2 h3
  rw [hR] at h2
  have h4 : ∑ j, k j * E j = 0 := by
    have d1 := kd_sum' k i
    have d2 := cross_right k i
    simp only [Fin.sum_univ_three] at h3 d1 d2 h1 ⊢
    linear_combination h3 - w * r * d1 + w * r * k i * h1 + w * (a 0 * k 0 + a 1 * k 1 + a 2 * k 2) * d2
  have h5 : ∀ j, S * k j + r * E j + ∑ n, Spec.crossMat a n j * E n = 0 := by
    intro j
    have d1 := h2 j
    simp only [Fin.sum_univ_three] at d1 h1 hw ⊢
    have d3 : Spec.crossMat a i j = -Spec.crossMat a j i := cross_symm a i j
    have key : Spec.kd i j = w * (r ^ 2 * k i - r * (Spec.crossMat a i 0 * k 0 + Spec.crossMat a i 1 * k 1 + Spec.crossMat a i 2 * k 2) +
        (a 0 * k 0 + a 1 * k 1 + a 2 * k 2) * a i) * k j + r * (w * r * (Spec.kd i j - k i * k j) +
        -(w * (a 0 * k 0 + a 1 * k 1 + a 2 * k 2)) * Spec.crossMat k i j) +
        (Spec.crossMat a 0 j * (w * r * (Spec.kd i 0 - k i * k 0) + -(w * (a 0 * k 0 + a 1 * k 1 + a 2 * k 2)) * Spec.crossMat k i 0) +
        Spec.crossMat a 1 j * (w * r * (Spec.kd i 1 - k i * k 1) + -(w * (a 0 * k 0 + a 1 * k 1 + a 2 * k 2)) * Spec.crossMat k i 1) +
        Spec.crossMat a 2 j * (w * r * (Spec.kd i 2 - k i * k 2) + -(w * (a 0 * k 0 + a 1 * k 1 + a 2 * k 2)) * Spec.crossMat k i 2)) := by
      clear * - hw h1
      fin_cases i <;> fin_cases j <;> simp only [Fin.zero_eta, Fin.mk_one, Fin.reduceFinMk, Spec.crossMat, Spec.kd, Fin.reduceEq, if_true, if_false]
      · linear_combination -hw
      · linear_combination w * r * a 2 * h1
      · linear_combination -w * r * a 1 * h1
      · linear_combination -w * r * a 2 * h1
      · linear_combination -hw
      · linear_combination w * r * a 0 * h1
      · linear_combination w * r * a 1 * h1
      · linear_combination -w * r * a 0 * h1
      · linear_combination -hw
    linear_combination key - d1
  have h6 : ∀ j, r * (r ^ 2 + ∑ n, a n * a n) * E j = -(S * (r ^ 2 * k j - r * (∑ n, Spec.crossMat a n j * k n) + (∑ n, a n * k n) * a j)) := by
    intro j
    have d0 := h5 0
    have d1 := h5 1
    have d2 := h5 2
    clear * - d0 d1 d2
    fin_cases j <;> simp only [Fin.zero_eta, Fin.mk_one, Fin.reduceFinMk, Spec.crossMat, Fin.sum_univ_three] at d0 d1 d2 ⊢
    · linear_combination r ^ 2 * d0 - r * (a 1 * d2 - a 2 * d1) + a 0 * (a 0 * d0 + a 1 * d1 + a 2 * d2)
    · linear_combination r ^ 2 * d1 - r * (a 2 * d0 - a 0 * d2) + a 1 * (a 0 * d0 + a 1 * d1 + a 2 * d2)
    · linear_combination r ^ 2 * d2 - r * (a 0 * d1 - a 1 * d0) + a 2 * (a 0 * d0 + a 1 * d1 + a 2 * d2)
  have h7 : S = 0 := by
    have d0 := h6 0
    have d1 := h6 1
    have d2 := h6 2
    clear * - d0 d1 d2 h4 hw h1
    simp only [Fin.sum_univ_three, Spec.crossMat] at d0 d1 d2 h4 hw h1 ⊢
    linear_combination -S * hw + w * (-r * (r ^ 2 + (a 0 * a 0 + a 1 * a 1 + a 2 * a 2)) * h4 + k 0 * d0 + k 1 * d1 + k 2 * d2 - S * r ^ 2 * h1)
  intro j
  have d := h6 j
  rw [h7, zero_mul, neg_zero] at d
  linear_combination u * q * d - E j * (hq + q * (r ^ 2 + ∑ n, a n * a n) * hu)

end Spec.KerrRadius
end Sgrid
