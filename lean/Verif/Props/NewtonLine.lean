import Mathlib.Tactic.Positivity
import Verif.Model.NewtonLine
import Verif.Props.LU
import Verif.Props.RootFind

/-!
# C94: Newton's method with line search
-/

namespace Sgrid

open Finset

noncomputable section

namespace Spec

/-- Half of the sum of squares of the first `n` entries. -/
def half2 (n : Nat) (v : Nat → ℝ) : ℝ := (∑ i ∈ range n, v i ^ 2) / 2

/-- `x` and `y` differ in each entry by at most `1e-14` times the larger of `|x|` and 1. -/
def Close (n : Nat) (x y : Nat → ℝ) : Prop := ∀ i, i < n → |y i - x i| ≤ 1 / 10 ^ 14 * max |x i| 1

end Spec

/-! ### Loops -/

theorem sumLoop_eq (n : Nat) (f : Nat → ℝ) : sumLoop n f = ∑ i ∈ range n, f i := by
  unfold sumLoop
  rw [upLoop_sum, zero_add, Nat.Ico_zero_eq_range]

theorem setLoop_eq (n : Nat) (f : Nat → ℝ) (a : RArr) (i : Nat) :
    setLoop n f a i = if i < n then f i else a i := by
  unfold setLoop
  rw [upLoop_fill]
  simp

theorem lineFun_eq (n : Nat) (v : RArr) : lineObj n v = Spec.half2 n v := by
  unfold lineObj Spec.half2
  rw [sumLoop_eq, Finset.sum_congr rfl fun i _ => (sq (v i)).symm]
  ring

theorem maxLoop_spec (n : Nat) (f : Nat → ℝ) :
    0 ≤ maxLoop n f ∧ (∀ i, i < n → f i ≤ maxLoop n f) ∧
      (maxLoop n f = 0 ∨ ∃ i, i < n ∧ maxLoop n f = f i) := by
  unfold maxLoop
  refine upLoop_inv (Nat.zero_le n) (fun m t => 0 ≤ t ∧ (∀ i, i < m → f i ≤ t) ∧
    (t = 0 ∨ ∃ i, i < m ∧ t = f i)) ⟨le_refl _, fun i hi => absurd hi (Nat.not_lt_zero i), Or.inl rfl⟩ ?_
  rintro j t _ hj ⟨h0, h1, h2⟩
  split_ifs with h
  · refine ⟨by linarith, fun i hi => ?_, Or.inr ⟨j, by omega, rfl⟩⟩
    rcases Nat.lt_or_ge i j with hij | hij
    · have := h1 i hij; linarith
    · obtain rfl : i = j := by omega
      exact le_refl _
  · refine ⟨h0, fun i hi => ?_, h2.imp id fun ⟨i, hi, hh⟩ => ⟨i, by omega, hh⟩⟩
    rcases Nat.lt_or_ge i j with hij | hij
    · exact h1 i hij
    · obtain rfl : i = j := by omega
      linarith

theorem maxLoop_lt {n : Nat} {f : Nat → ℝ} {t : ℝ} (ht : 0 < t) :
    maxLoop n f < t ↔ ∀ i, i < n → f i < t := by
  obtain ⟨h0, h1, h2⟩ := maxLoop_spec n f
  constructor
  · intro h i hi
    exact lt_of_le_of_lt (h1 i hi) h
  · intro h
    rcases h2 with h2 | ⟨i, hi, h2⟩
    · rw [h2]; exact ht
    · rw [h2]; exact h i hi

theorem maxLoop_congr {n : Nat} {f f' : Nat → ℝ} (h : ∀ i, i < n → f i = f' i) :
    maxLoop n f = maxLoop n f' := by
  unfold maxLoop
  exact upLoop_congr _ fun j t _ hj => by rw [h j hj]

/-! ### The matrix of finite differences -/

theorem fdStart_pos (x : ℝ) : 0 < fdStart x := by
  unfold fdStart
  dsimp only
  split_ifs with h
  · positivity
  · push Not at h
    exact lt_of_lt_of_le (by positivity) h

/-- The difference quotients in direction `j`. -/
def Spec.quotient (F : (Nat → ℝ) → Nat → ℝ) (x : Nat → ℝ) (j : Nat) (h : ℝ) (i : Nat) : ℝ :=
  (F (Function.update x j (x j + h)) i - F x i) / h

/-- **C94** (`fd_jacobianP`). Column `j` holds the difference quotients for `h = h0 10^k` with
`h0 = max(1e-7 |x_j|, 1e-10)`, where `k` is the first of `0, …, 7` for which they do not all vanish, or
they are all zero. -/
theorem C94_jacobian (n : Nat) (F : RArr → RArr) (x : RArr) (j : Nat) :
    (∃ k, k ≤ 7 ∧ (∀ i, i < n → fdJacobian n F x (F x) i j =
        Spec.quotient F x j (max (1 / 10 ^ 7 * |x j|) (1 / 10 ^ 10) * 10 ^ k) i) ∧
      (∃ i, i < n ∧ fdJacobian n F x (F x) i j ≠ 0) ∧
      ∀ m, m < k → ∀ i, i < n →
        Spec.quotient F x j (max (1 / 10 ^ 7 * |x j|) (1 / 10 ^ 10) * 10 ^ m) i = 0) ∨
    ∀ i, i < n → fdJacobian n F x (F x) i j = 0 ∧ ∀ m, m < 8 →
        Spec.quotient F x j (max (1 / 10 ^ 7 * |x j|) (1 / 10 ^ 10) * 10 ^ m) i = 0 := by
  have hstart : fdStart (x j) = max (1 / 10 ^ 7 * |x j|) (1 / 10 ^ 10) := by
    unfold fdStart
    dsimp only
    split_ifs with h
    · rw [max_eq_right h.le]
    · push Not at h; rw [max_eq_left h]
  set h0 := max (1 / 10 ^ 7 * |x j|) (1 / 10 ^ 10) with hh0
  have inner : ∀ (h : ℝ) (c : Nat → ℝ),
      let r := upLoop 0 n (fun i (t : (Nat → ℝ) × Bool) =>
        let d := (F (aset x j (x j + h)) i - F x i) / h
        (aset t.1 i d, if d ≠ 0 then true else t.2)) (c, false)
      (∀ i, i < n → r.1 i = Spec.quotient F x j h i) ∧
        (r.2 = true ↔ ∃ i, i < n ∧ Spec.quotient F x j h i ≠ 0) := by
    intro h c
    refine upLoop_inv (Nat.zero_le n) (fun m (r : (Nat → ℝ) × Bool) =>
      (∀ i, i < m → r.1 i = Spec.quotient F x j h i) ∧
        (r.2 = true ↔ ∃ i, i < m ∧ Spec.quotient F x j h i ≠ 0)) ⟨by omega, by simp⟩ ?_
    rintro i r _ hi ⟨h1, h2⟩
    dsimp only
    have hq : (F (aset x j (x j + h)) i - F x i) / h = Spec.quotient F x j h i := rfl
    rw [hq]
    constructor
    · intro i' hi'
      by_cases e : i' = i
      · subst e; rw [aset_self]
      · rw [aset_ne _ _ e]; exact h1 i' (by omega)
    · split_ifs with hd
      · exact ⟨fun _ => ⟨i, by omega, hd⟩, fun _ => rfl⟩
      · rw [h2]
        constructor
        · rintro ⟨i', hi', hh⟩; exact ⟨i', by omega, hh⟩
        · rintro ⟨i', hi', hh⟩
          refine ⟨i', ?_, hh⟩
          by_contra hc
          obtain rfl : i' = i := by omega
          exact hd hh
  have main := upLoop_inv (Nat.zero_le 8) (body := fun _ (s : ℝ × (Nat → ℝ) × Bool) =>
      if s.2.2 then s else
      let f := F (aset x j (x j + s.1))
      let r := upLoop 0 n (fun i (t : (Nat → ℝ) × Bool) =>
        let d := (f i - F x i) / s.1
        (aset t.1 i d, if d ≠ 0 then true else t.2)) (s.2.1, false)
      (if r.2 then s.1 else s.1 * 10, r.1, r.2)) (s := (fdStart (x j), (fun _ => (0 : ℝ)), false))
    (fun k s => (s.2.2 = true ∧ ∃ k', k' < k ∧
        (∀ i, i < n → s.2.1 i = Spec.quotient F x j (h0 * 10 ^ k') i) ∧
        (∃ i, i < n ∧ Spec.quotient F x j (h0 * 10 ^ k') i ≠ 0) ∧
        ∀ m, m < k' → ∀ i, i < n → Spec.quotient F x j (h0 * 10 ^ m) i = 0) ∨
      (s.2.2 = false ∧ s.1 = h0 * 10 ^ k ∧
        ∀ i, i < n → s.2.1 i = 0 ∧ ∀ m, m < k → Spec.quotient F x j (h0 * 10 ^ m) i = 0))
    (Or.inr ⟨rfl, by simp [hstart], fun i _ => ⟨rfl, by omega⟩⟩) (by
      rintro k ⟨h, c, b⟩ _ hk (⟨hb, k', hk', h1, h2, h3⟩ | ⟨hb, hh, h1⟩)
      · dsimp only at hb h1 ⊢
        subst hb
        exact Or.inl ⟨rfl, k', by omega, h1, h2, h3⟩
      · dsimp only at hb hh h1 ⊢
        subst hb
        rw [if_neg (by decide)]
        obtain ⟨i1, i2⟩ := inner h c
        dsimp only at i1 i2
        generalize upLoop 0 n (fun i (t : (Nat → ℝ) × Bool) =>
          (aset t.1 i ((F (aset x j (x j + h)) i - F x i) / h),
            if (F (aset x j (x j + h)) i - F x i) / h ≠ 0 then true else t.2)) (c, false) = r at i1 i2 ⊢
        obtain ⟨rc, rb⟩ := r
        dsimp only at i1 i2 ⊢
        rw [hh] at i1 i2
        cases rb with
        | true =>
          left
          exact ⟨rfl, k, by omega, i1, i2.1 rfl, fun m hm i hi => (h1 i hi).2 m hm⟩
        | false =>
          right
          have hz : ∀ i, i < n → Spec.quotient F x j (h0 * 10 ^ k) i = 0 := by
            intro i hi
            by_contra hc
            exact absurd (i2.2 ⟨i, hi, hc⟩) (by decide)
          refine ⟨rfl, ?_, fun i hi => ⟨?_, fun m hm => ?_⟩⟩
          · rw [if_neg (by decide), hh, pow_succ, mul_assoc]
          · rw [i1 i hi, hz i hi]
          · rcases Nat.lt_or_ge m k with h' | h'
            · exact (h1 i hi).2 m h'
            · obtain rfl : m = k := by omega
              exact hz i hi)
  unfold fdJacobian fdColumn
  rcases main with ⟨_, k, hk, h1, ⟨i, hi, h2⟩, h3⟩ | ⟨_, _, h1⟩
  · left
    refine ⟨k, by omega, h1, ⟨i, hi, ?_⟩, h3⟩
    rw [← h1 i hi] at h2
    exact h2
  · right
    exact fun i hi => h1 i hi

/-- **C94.** The matrix of an affine function is exact. -/
theorem C94_jacobian_affine {n : Nat} {F : RArr → RArr} {A : Mat ℝ} {b : Nat → ℝ}
    (hF : ∀ y i, i < n → F y i = (∑ c ∈ range n, A i c * y c) + b i) (x : RArr) :
    ∀ i j, i < n → j < n → fdJacobian n F x (F x) i j = A i j := by
  have hq : ∀ j, j < n → ∀ h : ℝ, h ≠ 0 → ∀ i, i < n → Spec.quotient F x j h i = A i j := by
    intro j hj h hh i hi
    unfold Spec.quotient
    rw [hF _ i hi, hF _ i hi]
    have : ∑ c ∈ range n, A i c * Function.update x j (x j + h) c =
        (∑ c ∈ range n, A i c * x c) + A i j * h := by
      have e : ∀ c ∈ range n, A i c * Function.update x j (x j + h) c =
          A i c * x c + if c = j then A i j * h else 0 := by
        intro c _
        by_cases hc : c = j
        · subst hc; rw [Function.update_self, if_pos rfl]; ring
        · rw [Function.update_of_ne hc, if_neg hc, add_zero]
      rw [sum_congr rfl e, sum_add_distrib, sum_ite_eq' (range n) j, if_pos (mem_range.mpr hj)]
    rw [this]
    field_simp
    ring
  have hpos : ∀ j (k : Nat), max (1 / 10 ^ 7 * |x j|) (1 / 10 ^ 10) * (10 : ℝ) ^ k ≠ 0 := by
    intro j k
    have : (0 : ℝ) < max (1 / 10 ^ 7 * |x j|) (1 / 10 ^ 10) :=
      lt_of_lt_of_le (by positivity) (le_max_right _ _)
    positivity
  intro i j hi hj
  rcases C94_jacobian n F x j with ⟨k, _, h, _⟩ | h
  · rw [h i hi, hq j hj _ (hpos j k) i hi]
  · obtain ⟨h1, h2⟩ := h i hi
    rw [h1, ← h2 0 (by omega), hq j hj _ (hpos j 0) i hi]

/-! ### The line search -/

/-- **C94** (`linesrchP`, first backtracking). If the slope is negative and the full step is not good
enough, the next factor is the minimum of the parabola through the known values; it is between 0 and
0.51. -/
theorem C94_parabola {fold slope f : ℝ} {s : LineState} (h1 : s.alam = 1) (hs : slope < 0)
    (hf : fold + 1 / 10 ^ 4 * slope < f) :
    ∃ t c, lineLam fold slope f s = .ok t ∧ fold + slope * 1 + c * 1 ^ 2 = f ∧ 0 < c ∧
      slope + 2 * c * t = 0 ∧ 0 < t ∧ t < 51 / 100 := by
  have hc : 0 < f - fold - slope := by linarith
  refine ⟨-slope / (2 * (f - fold - slope)), f - fold - slope, by rw [lineLam, if_pos h1], by ring, hc,
    ?_, by apply div_pos <;> linarith, ?_⟩
  · field_simp
    ring
  · rw [div_lt_iff₀ (by linarith)]
    linarith

/-- **C94** (`linesrchP`, further backtracking). If the slope is negative and a shortened step is not good
enough, then the discriminant is not negative, and the next factor is the minimum of the cubic function
through the known values, but at most half of the last factor. -/
theorem C94_cubic {fold slope f : ℝ} {s : LineState} (h1 : s.alam ≠ 1) (h0 : 0 < s.alam)
    (h2 : s.alam < s.alam2) (hs : slope < 0) (hf : fold + 1 / 10 ^ 4 * s.alam * slope < f) :
    ∃ t a b, lineLam fold slope f s = .ok (min t (s.alam / 2)) ∧
      fold + slope * s.alam + b * s.alam ^ 2 + a * s.alam ^ 3 = f ∧
      fold + slope * s.alam2 + b * s.alam2 ^ 2 + a * s.alam2 ^ 3 = s.f2 ∧
      slope + 2 * b * t + 3 * a * t ^ 2 = 0 ∧ 0 ≤ 2 * b + 6 * a * t := by
  have hl2 : 0 < s.alam2 := by linarith
  have hd : s.alam - s.alam2 ≠ 0 := by linarith
  unfold lineLam
  rw [if_neg h1]
  dsimp only
  generalize s.alam = l at *
  generalize s.alam2 = l2 at *
  generalize s.f2 = f2 at *
  have half : ∀ t : ℝ, (if t > 5 / 10 * l then 5 / 10 * l else t) = min t (l / 2) := by
    intro t
    split_ifs with h
    · rw [min_eq_right (by linarith)]; ring
    · rw [min_eq_left (by linarith)]
  set a := ((f - fold - l * slope) / (l * l) - (f2 - fold - l2 * slope) / (l2 * l2)) / (l - l2) with ha
  set b := (-l2 * (f - fold - l * slope) / (l * l) + l * (f2 - fold - l2 * slope) / (l2 * l2)) /
    (l - l2) with hb
  have e1 : fold + slope * l + b * l ^ 2 + a * l ^ 3 = f := by
    rw [ha, hb]
    field_simp
    ring
  have e2 : fold + slope * l2 + b * l2 ^ 2 + a * l2 ^ 3 = f2 := by
    rw [ha, hb]
    field_simp
    ring
  clear_value a b
  have hpos : 9999 / 10000 * (-slope) < b * l + a * l ^ 2 := by
    have : 0 < l * (slope * (1 - 1 / 10 ^ 4) + b * l + a * l ^ 2) := by nlinarith
    have := (pos_iff_pos_of_mul_pos this).mp h0
    norm_num at this ⊢
    linarith
  by_cases ha0 : a = 0
  · rw [if_pos ha0]
    subst ha0
    have hb0 : 0 < b := by
      have : 0 < b * l := by nlinarith
      exact (pos_iff_pos_of_mul_pos this).mpr h0
    refine ⟨-slope / (2 * b), 0, b, by rw [half], e1, e2, ?_, ?_⟩
    · field_simp
      ring
    · linarith
  · rw [if_neg ha0]
    have hD : 0 ≤ b * b - 3 * a * slope := by
      rcases lt_or_gt_of_ne ha0 with h | h
      · have hsq : 0 ≤ (b + 2 * a * l) ^ 2 := sq_nonneg _
        nlinarith [mul_pos (neg_pos.mpr h) (sub_pos.mpr hpos), mul_pos (neg_pos.mpr h) (neg_pos.mpr hs)]
      · nlinarith [mul_pos h (neg_pos.mpr hs), sq_nonneg b]
    rw [if_neg (not_lt.mpr hD)]
    refine ⟨(-b + Real.sqrt (b * b - 3 * a * slope)) / (3 * a), a, b, by rw [half], e1, e2, ?_, ?_⟩
    · have hsq := Real.sq_sqrt hD
      generalize Real.sqrt (b * b - 3 * a * slope) = r at hsq
      field_simp
      nlinarith
    · have hr := Real.sqrt_nonneg (b * b - 3 * a * slope)
      have : 2 * b + 6 * a * ((-b + Real.sqrt (b * b - 3 * a * slope)) / (3 * a)) =
          2 * Real.sqrt (b * b - 3 * a * slope) := by
        field_simp
        ring
      rw [this]; linarith

theorem lineScale_eq {n : Nat} {p : RArr} {stpmax : ℝ} (hs : 0 < stpmax) :
    ∃ c, 0 < c ∧ c ≤ 1 ∧ (Real.sqrt (∑ i ∈ range n, p i ^ 2) ≤ stpmax → c = 1) ∧
      (stpmax < Real.sqrt (∑ i ∈ range n, p i ^ 2) →
        c * Real.sqrt (∑ i ∈ range n, p i ^ 2) = stpmax) ∧
      ∀ i, i < n → lineScale n p stpmax i = c * p i := by
  unfold lineScale
  rw [sumLoop_eq, Finset.sum_congr rfl fun i _ => (sq (p i)).symm]
  generalize Real.sqrt (∑ i ∈ range n, p i ^ 2) = r
  split_ifs with h
  · have hr : 0 < r := by linarith
    refine ⟨stpmax / r, by positivity, (div_le_one hr).mpr h.le, fun h' => absurd h' (not_le.mpr h),
      fun _ => div_mul_cancel₀ _ hr.ne', fun i hi => ?_⟩
    rw [setLoop_eq, if_pos hi, mul_comm]
  · exact ⟨1, one_pos, le_refl _, fun _ => rfl, fun h' => absurd h' h, fun i _ => (one_mul _).symm⟩

/-- What the line search leaves behind. -/
structure LineDone (n : Nat) (F : RArr → RArr) (xold p x0 : RArr) (fold slope test : ℝ) (o : LineOut) :
    Prop where
  tail : ∀ i, n ≤ i → o.x i = x0 i
  f_eq : o.f = Spec.half2 n o.fvec
  good : o.check = false → o.fvec = F o.x ∧ ∃ l, 0 < l ∧ (slope < 0 → l ≤ 1) ∧
    (∀ i, i < n → o.x i = xold i + l * p i) ∧ o.f ≤ fold + 1 / 10 ^ 4 * l * slope
  bad : o.check = true → (∀ i, i < n → o.x i = xold i) ∧ ∃ l y, 0 < l ∧ o.fvec = F y ∧
    (∀ i, i < n → y i = xold i + l * p i) ∧ (∀ i, n ≤ i → y i = x0 i) ∧
    (test = 0 ∨ l * test < 1 / 10 ^ 14)

/-- Invariant of the loop of `linesrchP`. -/
structure LineInv (n : Nat) (x0 : RArr) (slope : ℝ) (j : Nat) (s : LineState) : Prop where
  tail : ∀ i, n ≤ i → s.x i = x0 i
  pos : 0 < s.alam
  small : slope < 0 → s.alam ≤ (6 / 10) ^ (j - 1)
  one : j = 1 → s.alam = 1
  first : slope < 0 → 1 < j → s.alam < s.alam2

theorem lineLam_ok {n : Nat} {x0 : RArr} {fold slope f : ℝ} {j : Nat} (hj : 1 ≤ j) {s : LineState}
    (hP : LineInv n x0 slope j s) (hs : slope < 0) (hf : fold + 1 / 10 ^ 4 * s.alam * slope < f) :
    ∃ t, lineLam fold slope f s = .ok t ∧ t ≤ 6 / 10 * s.alam := by
  have := hP.pos
  by_cases h1 : s.alam = 1
  · rw [h1, mul_one] at hf
    obtain ⟨t', c, h3, _, _, _, _, h4⟩ := C94_parabola h1 hs hf
    exact ⟨t', h3, by rw [h1]; linarith⟩
  · have h2 : s.alam < s.alam2 := by
      rcases Nat.lt_or_ge 1 j with h | h
      · exact hP.first hs h
      · exact absurd (hP.one (by omega)) h1
    obtain ⟨t', a, b, h3, _⟩ := C94_cubic h1 hP.pos h2 hs hf
    exact ⟨_, h3, (min_le_right _ _).trans (by linarith)⟩

theorem linePass_done {n : Nat} {F : RArr → RArr} {xold p x0 : RArr} {fold slope test : ℝ} {j : Nat}
    {s : LineState} (htest : 0 ≤ test) (hP : LineInv n x0 slope j s) (o : LineOut)
    (h : linePass n F xold p fold slope test s = .inl (.ok o)) :
    LineDone n F xold p x0 fold slope test o := by
  have hx : ∀ i, setLoop n (fun i => xold i + s.alam * p i) s.x i =
      if i < n then xold i + s.alam * p i else x0 i := by
    intro i
    rw [setLoop_eq]
    split_ifs with hi
    · rfl
    · exact hP.tail i (by omega)
  have hle : slope < 0 → s.alam ≤ 1 := fun hs =>
    (hP.small hs).trans (pow_le_one₀ (by norm_num) (by norm_num))
  unfold linePass at h
  dsimp only at h
  split at h
  · rename_i hstop
    cases h
    refine ⟨fun i hi => ?_, lineFun_eq n _, nofun, fun _ => ⟨fun i hi => ?_, s.alam, _, hP.pos, rfl,
      fun i hi => ?_, fun i hi => ?_, ?_⟩⟩
    · dsimp only
      rw [setLoop_eq, if_neg (by omega), hx, if_neg (by omega)]
    · dsimp only
      rw [setLoop_eq, if_pos hi]
    · rw [hx, if_pos hi]
    · rw [hx, if_neg (by omega)]
    · refine hstop.imp id fun h => ?_
      rcases htest.eq_or_lt with h0 | h0
      · rw [← h0]; norm_num
      · rwa [lt_div_iff₀ h0] at h
  · split at h
    · rename_i hgood
      cases h
      refine ⟨fun i hi => ?_, lineFun_eq n _, fun _ => ⟨rfl, s.alam, hP.pos, hle, fun i hi => ?_, hgood⟩,
        nofun⟩
      · dsimp only
        rw [hx, if_neg (by omega)]
      · dsimp only
        rw [hx, if_pos hi]
    · split at h <;> cases h

theorem linePass_next {n : Nat} {F : RArr → RArr} {xold p x0 : RArr} {fold slope test : ℝ} {j : Nat}
    (hj : 1 ≤ j) {s s' : LineState} (hP : LineInv n x0 slope j s)
    (h : linePass n F xold p fold slope test s = .inr s') :
    LineInv n x0 slope (j + 1) s' ∧ ¬(test = 0 ∨ s.alam < 1 / 10 ^ 14 / test) := by
  have hx : ∀ i, n ≤ i → setLoop n (fun i => xold i + s.alam * p i) s.x i = x0 i := by
    intro i hi
    rw [setLoop_eq, if_neg (by omega), hP.tail i hi]
  unfold linePass at h
  dsimp only at h
  split at h
  · cases h
  rename_i hstop
  refine ⟨?_, hstop⟩
  split at h
  · cases h
  rename_i hf
  push Not at hf
  have hmax : ∀ t, 0 < max t (1 / 10 * s.alam) := fun t =>
    lt_of_lt_of_le (by have := hP.pos; positivity) (le_max_right _ _)
  have key : slope < 0 → ∀ t, lineLam fold slope (lineObj n (F (setLoop n (fun i =>
      xold i + s.alam * p i) s.x))) s = .ok t → max t (1 / 10 * s.alam) ≤ 6 / 10 * s.alam := by
    intro hs t ht
    have := hP.pos
    obtain ⟨t', h1, h2⟩ := lineLam_ok hj hP hs hf
    rw [h1] at ht
    cases ht
    exact max_le h2 (by linarith)
  split at h
  · rename_i t ht
    cases h
    refine ⟨hx, hmax t, fun hs => ?_, by omega, fun hs _ => ?_⟩
    · refine (key hs t ht).trans ?_
      have h2 := hP.small hs
      obtain ⟨m, rfl⟩ : ∃ m, j = m + 1 := ⟨j - 1, by omega⟩
      simp only [Nat.add_sub_cancel] at h2 ⊢
      rw [pow_succ]
      linarith
    · exact lt_of_le_of_lt (key hs t ht) (by have := hP.pos; linarith)
  · cases h
  · cases h

theorem linePass_ok {n : Nat} {F : RArr → RArr} {xold p x0 : RArr} {fold slope test : ℝ} {j : Nat}
    (hj : 1 ≤ j) {s : LineState} (hP : LineInv n x0 slope j s) (hs : slope < 0) {r : Res LineOut}
    (h : linePass n F xold p fold slope test s = .inl r) : ∃ o, r = .ok o := by
  unfold linePass at h
  dsimp only at h
  split at h
  · cases h; exact ⟨_, rfl⟩
  split at h
  · cases h; exact ⟨_, rfl⟩
  rename_i hf
  push Not at hf
  obtain ⟨t, h1, _⟩ := lineLam_ok hj hP hs hf
  rw [h1] at h
  cases h

/-- A body that returns in the first pass. -/
theorem forRet_first {σ ρ : Type} {n : Nat} {body : Nat → σ → ρ ⊕ σ} {s : σ} {r : ρ} (hn : 1 ≤ n)
    (h : body 1 s = .inl r) : forRet n body s = .inl r := by
  refine (forRet_inv (n := n) (body := body) (s := s) (fun j s' => j = 1 ∧ s' = s)
    (fun _ r' => r' = r) ⟨rfl, rfl⟩ ?_ ?_).elim ?_ ?_
  · rintro j s' r' _ _ ⟨rfl, rfl⟩ hb
    rw [h] at hb
    cases hb
    rfl
  · rintro j s' t _ _ ⟨rfl, rfl⟩ hb
    rw [h] at hb
    cases hb
  · rintro ⟨r', j, _, _, he, rfl⟩
    exact he
  · rintro ⟨s', _, h1, _⟩
    omega

/-- The part of the step that is tried first has no entry larger than `stpmax`. -/
theorem scaled_le {n : Nat} {p : Nat → ℝ} {c stpmax : ℝ} (hc : 0 < c)
    (h1 : Real.sqrt (∑ i ∈ range n, p i ^ 2) ≤ stpmax → c = 1)
    (h2 : stpmax < Real.sqrt (∑ i ∈ range n, p i ^ 2) →
      c * Real.sqrt (∑ i ∈ range n, p i ^ 2) = stpmax) {i : Nat} (hi : i < n) :
    |c * p i| ≤ stpmax := by
  have hle : |p i| ≤ Real.sqrt (∑ i ∈ range n, p i ^ 2) := by
    rw [← Real.sqrt_sq_eq_abs]
    exact Real.sqrt_le_sqrt (single_le_sum (f := fun i => p i ^ 2) (fun i _ => sq_nonneg _)
      (mem_range.mpr hi))
  rw [abs_mul, abs_of_pos hc]
  rcases le_or_gt (Real.sqrt (∑ i ∈ range n, p i ^ 2)) stpmax with h | h
  · rw [h1 h, one_mul]; exact hle.trans h
  · rw [← h2 h]; exact mul_le_mul_of_nonneg_left hle hc.le

/-- Everything about the line search that the loop around it needs. -/
theorem linesrch_spec (fuel n : Nat) (F : RArr → RArr) (xold : RArr) (fold : ℝ) (g p x : RArr)
    {stpmax : ℝ} (hst : 0 < stpmax) :
    ∃ c, 0 < c ∧ c ≤ 1 ∧ (Real.sqrt (∑ i ∈ range n, p i ^ 2) ≤ stpmax → c = 1) ∧
      (stpmax < Real.sqrt (∑ i ∈ range n, p i ^ 2) →
        c * Real.sqrt (∑ i ∈ range n, p i ^ 2) = stpmax) ∧
      (∀ o, linesrch fuel n F xold fold g p x stpmax = some (.ok o) →
        (∀ i, n ≤ i → o.x i = x i) ∧ o.f = Spec.half2 n o.fvec ∧
        (o.check = false → o.fvec = F o.x ∧ ∃ l, 0 < l ∧ (∑ i ∈ range n, g i * p i < 0 → l ≤ 1) ∧
          (∀ i, i < n → o.x i = xold i + l * (c * p i)) ∧
          o.f ≤ fold + 1 / 10 ^ 4 * l * (c * ∑ i ∈ range n, g i * p i)) ∧
        (o.check = true → (∀ i, i < n → o.x i = xold i) ∧
          ∃ y, Spec.Close n xold y ∧ o.fvec = F y ∧ (∀ i, n ≤ i → y i = x i))) ∧
      (∑ i ∈ range n, g i * p i < 0 → (∀ r, linesrch fuel n F xold fold g p x stpmax = some r →
          ∃ o, r = .ok o) ∧
        (stpmax * (6 / 10) ^ (fuel - 1) < 1 / 10 ^ 14 → 1 ≤ fuel →
          linesrch fuel n F xold fold g p x stpmax ≠ none)) ∧
      (∀ y, (∀ i, i < n → y i = xold i + c * p i) → (∀ i, n ≤ i → y i = x i) → 1 ≤ fuel →
        (∃ i, i < n ∧ 1 / 10 ^ 14 * max |xold i| 1 ≤ |c * p i|) →
        Spec.half2 n (F y) ≤ fold + 1 / 10 ^ 4 * (c * ∑ i ∈ range n, g i * p i) →
        linesrch fuel n F xold fold g p x stpmax = some (.ok ⟨y, Spec.half2 n (F y), F y, false⟩)) := by
  obtain ⟨c, hc0, hc1, h1, h2, hp⟩ := lineScale_eq (n := n) (p := p) hst
  refine ⟨c, hc0, hc1, h1, h2, ?_⟩
  have hslope : sumLoop n (fun i => g i * lineScale n p stpmax i) = c * ∑ i ∈ range n, g i * p i := by
    rw [sumLoop_eq, mul_sum]
    exact sum_congr rfl fun i hi => by rw [hp i (mem_range.mp hi)]; ring
  obtain ⟨ht0, ht1, ht2⟩ := maxLoop_spec n (fun i => |lineScale n p stpmax i| / max |xold i| 1)
  have hden : ∀ i, (0 : ℝ) < max |xold i| 1 := fun i => lt_of_lt_of_le one_pos (le_max_right _ _)
  have htle : maxLoop n (fun i => |lineScale n p stpmax i| / max |xold i| 1) ≤ stpmax := by
    rcases ht2 with h | ⟨i, hi, h⟩
    · rw [h]; exact hst.le
    · rw [h, div_le_iff₀ (hden i), hp i hi]
      have := scaled_le hc0 h1 h2 hi
      nlinarith [le_max_right |xold i| 1]
  unfold linesrch
  dsimp only
  rw [hslope]
  generalize htest : maxLoop n (fun i => |lineScale n p stpmax i| / max |xold i| 1) = test at *
  have hneg : ∑ i ∈ range n, g i * p i < 0 → c * ∑ i ∈ range n, g i * p i < 0 :=
    fun h => mul_neg_of_pos_of_neg hc0 h
  generalize hsl : c * ∑ i ∈ range n, g i * p i = slope at *
  generalize hpp : lineScale n p stpmax = p' at *
  have inv0 : LineInv n x slope 1 ⟨x, 1, 0, 0⟩ :=
    ⟨fun _ _ => rfl, one_pos, fun _ => by simp, fun _ => rfl, by omega⟩
  have key := forRet_inv (n := fuel) (body := fun _ => linePass n F xold p' fold slope test)
    (s := ⟨x, 1, 0, 0⟩)
    (fun j s => LineInv n x slope j s ∧ (slope < 0 → 1 < j → 1 / 10 ^ 14 ≤ (6 / 10) ^ (j - 2) * test))
    (fun j r => (∀ o, r = .ok o → LineDone n F xold p' x fold slope test o) ∧
      (slope < 0 → ∃ o, r = .ok o)) ⟨inv0, by omega⟩ (by
      rintro j s r hj _ ⟨hP, _⟩ hb
      refine ⟨?_, fun hs => linePass_ok hj hP hs hb⟩
      rintro o rfl
      exact linePass_done ht0 hP o hb) (by
      rintro j s s' hj _ ⟨hP, _⟩ hb
      obtain ⟨h3, h4⟩ := linePass_next hj hP hb
      refine ⟨h3, fun hs _ => ?_⟩
      push Not at h4
      have htp : 0 < test := lt_of_le_of_ne ht0 (Ne.symm h4.1)
      rw [div_le_iff₀ htp] at h4
      refine h4.2.trans (mul_le_mul_of_nonneg_right ?_ ht0)
      have := hP.small hs
      rwa [show j + 1 - 2 = j - 1 by omega])
  refine ⟨?_, ?_, ?_⟩
  · intro o ho
    rcases key with ⟨r, j, _, _, he, hQ, _⟩ | ⟨s, he, _⟩
    · rw [he] at ho
      cases ho
      have hd := hQ o rfl
      refine ⟨hd.tail, hd.f_eq, fun hch => ?_, fun hch => ?_⟩
      · obtain ⟨e1, l, l0, l1, e2, e3⟩ := hd.good hch
        refine ⟨e1, l, l0, fun h => l1 (hneg h), fun i hi => by rw [e2 i hi, hp i hi], e3⟩
      · obtain ⟨e1, l, y, l0, e2, e3, e4, e5⟩ := hd.bad hch
        refine ⟨e1, y, fun i hi => ?_, e2, e4⟩
        rw [e3 i hi, add_sub_cancel_left, abs_mul, abs_of_pos l0]
        have hti := ht1 i hi
        rw [div_le_iff₀ (hden i)] at hti
        rcases e5 with e5 | e5
        · rw [e5, zero_mul] at hti
          have := abs_nonneg (p' i)
          have hz : |p' i| = 0 := le_antisymm hti this
          rw [hz, mul_zero]
          have := hden i
          positivity
        · have := hden i
          nlinarith [mul_le_mul_of_nonneg_left hti l0.le]
    · rw [he] at ho
      cases ho
  · intro hs
    rcases key with ⟨r, j, _, _, he, _, hQ⟩ | ⟨s, he, _, hj⟩
    · rw [he]
      exact ⟨fun r' hr => by cases hr; exact hQ (hneg hs), fun _ _ => nofun⟩
    · rw [he]
      refine ⟨nofun, fun hsmall hf => ?_⟩
      have := hj (hneg hs) (by omega)
      rw [show fuel + 1 - 2 = fuel - 1 by omega] at this
      have hpw : (0 : ℝ) < (6 / 10) ^ (fuel - 1) := by positivity
      nlinarith [mul_le_mul_of_nonneg_left htle hpw.le]
  · rintro y hy hyt hf ⟨i, hi, hbig⟩ hgood
    obtain ⟨m, rfl⟩ : ∃ m, fuel = m + 1 := ⟨fuel - 1, by omega⟩
    have hstep : linePass n F xold p' fold slope test ⟨x, 1, 0, 0⟩ =
        .inl (.ok ⟨y, Spec.half2 n (F y), F y, false⟩) := by
      unfold linePass
      dsimp only
      have hx : setLoop n (fun i => xold i + 1 * p' i) x = y := by
        funext i
        rw [setLoop_eq]
        split_ifs with h
        · rw [hy i h, hp i h, one_mul]
        · rw [hyt i (by omega)]
      have hti := ht1 i hi
      rw [div_le_iff₀ (hden i), hp i hi] at hti
      have hb : 1 / 10 ^ 14 ≤ test := by
        have := hden i
        by_contra hcon
        push Not at hcon
        nlinarith
      have htp : 0 < test := lt_of_lt_of_le (by positivity) hb
      rw [hx, if_neg, lineFun_eq, if_pos]
      · rw [mul_one]; exact hgood
      · rintro (h | h)
        · exact htp.ne' h
        · rw [lt_div_iff₀ htp] at h
          linarith
    have : forRet (m + 1) (fun _ => linePass n F xold p' fold slope test) ⟨x, 1, 0, 0⟩ =
        .inl (.ok ⟨y, Spec.half2 n (F y), F y, false⟩) :=
      forRet_first (by omega) hstep
    rw [this]

/-! ### Newton's method -/

theorem half2_nonneg (n : Nat) (v : Nat → ℝ) : 0 ≤ Spec.half2 n v := by
  unfold Spec.half2
  have := sum_nonneg (s := range n) (fun i _ => sq_nonneg (v i))
  linarith

theorem half2_pos {n : Nat} {v : Nat → ℝ} (h : ∃ i, i < n ∧ v i ≠ 0) : 0 < Spec.half2 n v := by
  obtain ⟨i, hi, hv⟩ := h
  unfold Spec.half2
  have h1 : v i ^ 2 ≤ ∑ i ∈ range n, v i ^ 2 :=
    single_le_sum (f := fun i => v i ^ 2) (fun i _ => sq_nonneg _) (mem_range.mpr hi)
  have : 0 < v i ^ 2 := by positivity
  linarith

/-- **C94.** If the matrix is invertible, the step solves `J p = -F`, and along it half of the sum of
squares decreases at first with the slope `-F·F`. -/
theorem C94_step {n : Nat} {J : Mat ℝ} (hJ : (Spec.matrix n J).det ≠ 0) (v : RArr) :
    ∃ p, nlStep n J v = .ok p ∧ (∀ i, i < n → ∑ c ∈ range n, J i c * p c = -v i) ∧
      ∑ i ∈ range n, (∑ j ∈ range n, J j i * v j) * p i = -2 * Spec.half2 n v := by
  obtain ⟨s, h1, h2, _⟩ := C46_invertible hJ (fun _ => 0) (fun _ => 0) 0
  refine ⟨luSolve n s.A s.p fun i => -v i, ?_, h2 _, ?_⟩
  · unfold nlStep
    rw [h1]
    simp
  · have h3 := h2 (fun i => -v i)
    generalize luSolve n s.A s.p (fun i => -v i) = p at h3 ⊢
    have e : ∑ i ∈ range n, (∑ j ∈ range n, J j i * v j) * p i =
        ∑ j ∈ range n, v j * ∑ i ∈ range n, J j i * p i := by
      simp only [sum_mul, mul_sum]
      rw [sum_comm]
      exact sum_congr rfl fun j _ => sum_congr rfl fun i _ => by ring
    rw [e, sum_congr rfl fun j hj => by rw [h3 j (mem_range.mp hj)]]
    unfold Spec.half2
    rw [show ∑ j ∈ range n, v j * -v j = -∑ j ∈ range n, v j ^ 2 by
      rw [← sum_neg_distrib]
      exact sum_congr rfl fun j _ => by ring]
    ring

/-- The gradient of half of the sum of squares, computed with the matrix of finite differences. -/
def Spec.gradient (n : Nat) (F : (Nat → ℝ) → Nat → ℝ) (x : Nat → ℝ) (i : Nat) : ℝ :=
  ∑ j ∈ range n, fdJacobian n F x (F x) j i * F x j

/-- How `newton_linesearch` may end in pass `its`: at a root; at a point next to a root; at a point from
which the line search did not move, where `check` tells whether the gradient vanishes; after a tiny
step. -/
inductive Spec.Ending (n : Nat) (F : (Nat → ℝ) → Nat → ℝ) (tolf : ℝ) (check : Bool) (x : Nat → ℝ) :
    Prop where
  | root : check = false → (∀ i, i < n → |F x i| < tolf) → Spec.Ending n F tolf check x
  | near (y : Nat → ℝ) : check = false → Close n x y → (∀ i, n ≤ i → y i = x i) →
      (∀ i, i < n → |F y i| < tolf) → Spec.Ending n F tolf check x
  | stuck (y : Nat → ℝ) : Close n x y → (∀ i, n ≤ i → y i = x i) → (∃ i, i < n ∧ tolf ≤ |F y i|) →
      (check = true ↔ ∀ i, i < n → |Spec.gradient n F x i| * max |x i| 1 <
        1 / 10 ^ 13 * max (Spec.half2 n (F y)) (n / 2)) → Spec.Ending n F tolf check x
  | slow (y : Nat → ℝ) : check = false → Close n x y → (∀ i, n ≤ i → y i = x i) →
      (∃ i, i < n ∧ tolf ≤ |F x i|) → Spec.Ending n F tolf check x

/-- What is known at the beginning of a pass. -/
structure NLInv (n : Nat) (F : RArr → RArr) (x0 : RArr) (s : NLState) : Prop where
  tail : ∀ i, n ≤ i → s.x i = x0 i
  fvec : s.fvec = F s.x
  f : s.f = Spec.half2 n (F s.x)
  nz : ∃ i, i < n ∧ F s.x i ≠ 0

theorem not_lt_ex {n : Nat} {v : Nat → ℝ} {t : ℝ} (ht : 0 < t)
    (h : ¬maxLoop n (fun i => |v i|) < t) : ∃ i, i < n ∧ t ≤ |v i| := by
  rw [maxLoop_lt ht] at h
  push Not at h
  exact h

theorem linesrch_done {fuel n : Nat} {F : RArr → RArr} {x0 : RArr} {s : NLState} {g p : RArr}
    {stpmax : ℝ} (hst : 0 < stpmax) (hI : NLInv n F x0 s) {o : LineOut}
    (ho : linesrch fuel n F s.x s.f g p s.x stpmax = some (.ok o)) :
    (∀ i, n ≤ i → o.x i = x0 i) ∧ o.f = Spec.half2 n o.fvec ∧ (o.check = false → o.fvec = F o.x) ∧
    (o.check = true → o.x = s.x ∧ ∃ y, Spec.Close n s.x y ∧ o.fvec = F y ∧ ∀ i, n ≤ i → y i = s.x i) ∧
    (∑ i ∈ range n, g i * p i < 0 → Spec.half2 n (F o.x) ≤ Spec.half2 n (F s.x)) := by
  obtain ⟨c, hc, _, _, _, h, _⟩ := linesrch_spec fuel n F s.x s.f g p s.x hst
  obtain ⟨h1, h2, h3, h4⟩ := h o ho
  have hx : o.check = true → o.x = s.x := by
    intro hch
    funext i
    rcases Nat.lt_or_ge i n with hi | hi
    · exact (h4 hch).1 i hi
    · exact h1 i hi
  refine ⟨fun i hi => by rw [h1 i hi, hI.tail i hi], h2, fun hch => (h3 hch).1, fun hch =>
    ⟨hx hch, (h4 hch).2⟩, fun hs => ?_⟩
  cases hch : o.check with
  | true => rw [hx hch]
  | false =>
    obtain ⟨e1, l, l0, _, _, e2⟩ := h3 hch
    rw [h2, e1, hI.f] at e2
    have : 1 / 10 ^ 4 * l * (c * ∑ i ∈ range n, g i * p i) < 0 :=
      mul_neg_of_pos_of_neg (by positivity) (mul_neg_of_pos_of_neg hc hs)
    linarith

theorem nlTests_spec {n : Nat} {F : RArr → RArr} {tolf : ℝ} (ht : 0 < tolf) {x0 : RArr} {s : NLState}
    (hI : NLInv n F x0 s) {o : LineOut} (h1 : ∀ i, n ≤ i → o.x i = x0 i)
    (h2 : o.f = Spec.half2 n o.fvec) (h3 : o.check = false → o.fvec = F o.x)
    (h4 : o.check = true → o.x = s.x ∧ ∃ y, Spec.Close n s.x y ∧ o.fvec = F y ∧
      ∀ i, n ≤ i → y i = s.x i) :
    (∀ check, nlTests n tolf s.x (Spec.gradient n F s.x) o = .inl check →
      Spec.Ending n F tolf check o.x) ∧
    ∀ s', nlTests n tolf s.x (Spec.gradient n F s.x) o = .inr s' →
      NLInv n F x0 s' ∧ s'.x = o.x ∧ s'.check = false ∧ ∃ i, i < n ∧ tolf ≤ |F s'.x i| := by
  have hden : ∀ i, (0 : ℝ) < max |o.x i| 1 := fun i => lt_of_lt_of_le one_pos (le_max_right _ _)
  unfold nlTests
  split_ifs with ha hb hc
  · refine ⟨?_, nofun⟩
    intro check hck
    cases hck
    rw [maxLoop_lt ht] at ha
    cases hch : o.check with
    | false => exact .root rfl (by rw [← h3 hch]; exact ha)
    | true =>
      obtain ⟨e1, y, e2, e3, e4⟩ := h4 hch
      rw [e1]
      exact .near y rfl e2 e4 (by rw [← e3]; exact ha)
  · refine ⟨?_, nofun⟩
    intro check hck
    cases hck
    obtain ⟨e1, y, e2, e3, e4⟩ := h4 hb
    have hnz := not_lt_ex ht ha
    rw [e3] at hnz
    have hn : 0 < n := by obtain ⟨i, hi, _⟩ := hnz; omega
    have hd : 0 < max (Spec.half2 n (F y)) ((n : ℝ) / 2) :=
      lt_of_lt_of_le (by positivity) (le_max_right _ _)
    have ed : max o.f (5 / 10 * (n : ℝ)) = max (Spec.half2 n (F y)) (n / 2) := by
      rw [h2, e3]
      congr 1
      ring
    rw [e1]
    refine .stuck y e2 e4 hnz ?_
    rw [decide_eq_true_iff, ed, maxLoop_lt (by positivity)]
    exact forall_congr' fun i => forall_congr' fun _ => by rw [div_lt_iff₀ hd]
  · refine ⟨?_, nofun⟩
    intro check hck
    have hf : o.check = false := by simpa using hb
    rw [hf] at hck
    cases hck
    rw [maxLoop_lt (by positivity)] at hc
    refine .slow s.x rfl (fun i hi => ?_) (fun i hi => by rw [h1 i hi, hI.tail i hi]) ?_
    · have := hc i hi
      rw [div_lt_iff₀ (hden i), abs_sub_comm] at this
      exact this.le
    · rw [← h3 hf]
      exact not_lt_ex ht ha
  · refine ⟨nofun, ?_⟩
    intro s' hs
    cases hs
    have hf : o.check = false := by simpa using hb
    have hnz := not_lt_ex ht ha
    rw [h3 hf] at hnz
    refine ⟨⟨h1, h3 hf, by rw [← h3 hf]; exact h2, ?_⟩, rfl, hf, hnz⟩
    obtain ⟨i, hi, h⟩ := hnz
    exact ⟨i, hi, fun h0 => by dsimp only at h0; rw [h0, abs_zero] at h; linarith⟩

theorem gradient_eq (n : Nat) (F : RArr → RArr) (x : RArr) :
    (fun i => sumLoop n (fun j => fdJacobian n F x (F x) j i * F x j)) = Spec.gradient n F x := by
  funext i
  rw [sumLoop_eq]
  rfl

/-- One pass. -/
theorem nlPass_spec {fuel n : Nat} {F : RArr → RArr} {tolf stpmax : ℝ} (ht : 0 < tolf)
    (hst : 0 < stpmax) {x0 : RArr} {its : Nat} {s : NLState} (hI : NLInv n F x0 s) :
    (∀ out, nlPass fuel n F stpmax tolf its s = .inl (some (.ok out)) →
      out.1 = its ∧ Spec.Ending n F tolf out.2.1 out.2.2 ∧ (∀ i, n ≤ i → out.2.2 i = x0 i) ∧
      ((Spec.matrix n (fdJacobian n F s.x (F s.x))).det ≠ 0 →
        Spec.half2 n (F out.2.2) ≤ Spec.half2 n (F s.x))) ∧
    (∀ s', nlPass fuel n F stpmax tolf its s = .inr s' → NLInv n F x0 s' ∧ s'.check = false ∧
      (∃ i, i < n ∧ tolf ≤ |F s'.x i|) ∧
      ((Spec.matrix n (fdJacobian n F s.x (F s.x))).det ≠ 0 →
        Spec.half2 n (F s'.x) ≤ Spec.half2 n (F s.x))) ∧
    ((Spec.matrix n (fdJacobian n F s.x (F s.x))).det ≠ 0 → 1 ≤ fuel →
      stpmax * (6 / 10) ^ (fuel - 1) < 1 / 10 ^ 14 →
      (∃ out, nlPass fuel n F stpmax tolf its s = .inl (some (.ok out))) ∨
      ∃ s', nlPass fuel n F stpmax tolf its s = .inr s') := by
  have hslope : ∀ {p : RArr}, (Spec.matrix n (fdJacobian n F s.x (F s.x))).det ≠ 0 →
      nlStep n (fdJacobian n F s.x (F s.x)) (F s.x) = .ok p →
      ∑ i ∈ range n, Spec.gradient n F s.x i * p i < 0 := by
    intro p hd hp
    obtain ⟨p', h1, _, h2⟩ := C94_step hd (F s.x)
    rw [h1] at hp
    cases hp
    have e : ∑ i ∈ range n, Spec.gradient n F s.x i * p i = -2 * Spec.half2 n (F s.x) := h2
    rw [e]
    have := half2_pos hI.nz
    linarith
  unfold nlPass
  dsimp only
  rw [hI.fvec, gradient_eq]
  generalize hg : Spec.gradient n F s.x = g at *
  cases hstep : nlStep n (fdJacobian n F s.x (F s.x)) (F s.x) with
  | abort =>
    refine ⟨nofun, nofun, fun hd _ _ => ?_⟩
    obtain ⟨p', h1, _⟩ := C94_step hd (F s.x)
    rw [h1] at hstep
    cases hstep
  | ub =>
    refine ⟨nofun, nofun, fun hd _ _ => ?_⟩
    obtain ⟨p', h1, _⟩ := C94_step hd (F s.x)
    rw [h1] at hstep
    cases hstep
  | ok p =>
    dsimp only
    obtain ⟨c, _, _, _, _, _, hok, _⟩ := linesrch_spec fuel n F s.x s.f g p s.x hst
    cases hl : linesrch fuel n F s.x s.f g p s.x stpmax with
    | none =>
      refine ⟨nofun, nofun, fun hd hf hsm => ?_⟩
      exact absurd hl ((hok (hslope hd hstep)).2 hsm hf)
    | some r =>
      cases r with
      | abort =>
        refine ⟨nofun, nofun, fun hd _ _ => ?_⟩
        obtain ⟨o, ho⟩ := (hok (hslope hd hstep)).1 _ hl
        cases ho
      | ub =>
        refine ⟨nofun, nofun, fun hd _ _ => ?_⟩
        obtain ⟨o, ho⟩ := (hok (hslope hd hstep)).1 _ hl
        cases ho
      | ok o =>
        dsimp only
        obtain ⟨h1, h2, h3, h4, h5⟩ := linesrch_done hst hI hl
        obtain ⟨k1, k2⟩ := nlTests_spec ht hI h1 h2 h3 h4
        rw [hg] at k1 k2
        cases htst : nlTests n tolf s.x g o with
        | inl check =>
          dsimp only
          refine ⟨?_, nofun, fun _ _ _ => Or.inl ⟨_, rfl⟩⟩
          intro out ho
          cases ho
          exact ⟨rfl, k1 check htst, h1, fun hd => h5 (hslope hd hstep)⟩
        | inr s' =>
          dsimp only
          refine ⟨nofun, ?_, fun _ _ _ => Or.inr ⟨_, rfl⟩⟩
          intro s'' hs
          cases hs
          obtain ⟨m1, m2, m3, m4⟩ := k2 s' htst
          exact ⟨m1, m3, m4, fun hd => by rw [m2]; exact h5 (hslope hd hstep)⟩

theorem nlInit {n : Nat} {F : RArr → RArr} {tolf : ℝ} (ht : 0 < tolf) {x : RArr} {check0 : Bool}
    (h : ¬maxLoop n (fun i => |F x i|) < 1 / 100 * tolf) :
    NLInv n F x ⟨x, lineObj n (F x), F x, check0⟩ ∧
    0 < 100 * max (Real.sqrt (sumLoop n (fun i => x i * x i))) (n : ℝ) := by
  obtain ⟨i, hi, hF⟩ := not_lt_ex (by positivity) h
  refine ⟨⟨fun _ _ => rfl, rfl, lineFun_eq n _, i, hi, fun h0 => ?_⟩, ?_⟩
  · dsimp only at h0
    rw [h0, abs_zero] at hF
    linarith
  · have : (0 : ℝ) < n := by exact_mod_cast (by omega : 0 < n)
    have := lt_of_lt_of_le this (le_max_right (Real.sqrt (sumLoop n (fun i => x i * x i))) (n : ℝ))
    positivity

/-- **C94** (`newton_linesearch`). The return value is 0 if `x` is a root already. A positive value means
one of the endings in `Spec.Ending`. The only other value is `-itmax-2`. Entries of `x` beyond `n` are
not touched. -/
theorem C94_report {fuel n : Nat} {F : RArr → RArr} {itmax : Nat} {tolf : ℝ} (ht : 0 < tolf) {x : RArr}
    {check0 : Bool} {ret : Int} {check : Bool} {x' : RArr}
    (h : newtonLinesearch fuel n F itmax tolf x check0 = some (.ok (ret, check, x'))) :
    (∀ i, n ≤ i → x' i = x i) ∧
    ((ret = 0 ∧ check = false ∧ x' = x ∧ ∀ i, i < n → |F x i| < tolf / 100) ∨
     (1 ≤ ret ∧ ret ≤ itmax ∧ Spec.Ending n F tolf check x') ∨
     (ret = -itmax - 2 ∧ ∃ i, i < n ∧ tolf / 100 ≤ |F x' i|)) := by
  unfold newtonLinesearch at h
  dsimp only at h
  split at h
  · rename_i hs
    cases h
    rw [maxLoop_lt (by positivity)] at hs
    exact ⟨fun _ _ => rfl, Or.inl ⟨rfl, rfl, rfl, fun i hi => by have := hs i hi; linarith⟩⟩
  rename_i hs
  obtain ⟨hI, hst⟩ := nlInit (check0 := check0) ht hs
  have h0 := not_lt_ex (by positivity) hs
  generalize 100 * max (Real.sqrt (sumLoop n (fun i => x i * x i))) (n : ℝ) = stpmax at h hst
  refine (forRet_inv (n := itmax) (body := nlPass fuel n F stpmax tolf)
    (s := ⟨x, lineObj n (F x), F x, check0⟩)
    (fun _ s => NLInv n F x s ∧ ∃ i, i < n ∧ tolf / 100 ≤ |F s.x i|)
    (fun j r => ∀ out, r = some (.ok out) → out.1 = (j : Int) ∧ Spec.Ending n F tolf out.2.1 out.2.2 ∧
      ∀ i, n ≤ i → out.2.2 i = x i)
    ⟨hI, by obtain ⟨i, hi, hh⟩ := h0; exact ⟨i, hi, by dsimp only; linarith⟩⟩ ?_ ?_).elim ?_ ?_
  · rintro j s r _ _ ⟨hP, _⟩ hb out rfl
    obtain ⟨h1, h2, h3, _⟩ := (nlPass_spec ht hst hP).1 out hb
    exact ⟨h1, h2, h3⟩
  · rintro j s s' _ _ ⟨hP, _⟩ hb
    obtain ⟨h1, _, ⟨i, hi, h2⟩, _⟩ := (nlPass_spec ht hst hP).2.1 s' hb
    exact ⟨h1, i, hi, by linarith⟩
  · rintro ⟨r, j, hj1, hj2, he, hQ⟩
    rw [he] at h
    dsimp only at h
    obtain ⟨h1, h2, h3⟩ := hQ _ h
    dsimp only at h1 h2 h3
    exact ⟨h3, Or.inr (Or.inl ⟨by omega, by omega, h2⟩)⟩
  · rintro ⟨s, he, hP, h1⟩
    rw [he] at h
    cases h
    exact ⟨hP.tail, Or.inr (Or.inr ⟨by omega, h1⟩)⟩

/-- **C94.** If the matrices of finite differences are invertible wherever the sum of squares is not
larger than at the beginning, then `newton_linesearch` returns, and the sum of squares is not larger than
before. -/
theorem C94_descent {fuel n : Nat} {F : RArr → RArr} {itmax : Nat} {tolf : ℝ} (ht : 0 < tolf) {x : RArr}
    {check0 : Bool}
    (hJ : ∀ y, Spec.half2 n (F y) ≤ Spec.half2 n (F x) →
      (Spec.matrix n (fdJacobian n F y (F y))).det ≠ 0) (hf : 1 ≤ fuel)
    (hfuel : 100 * max (Real.sqrt (∑ i ∈ range n, x i * x i)) n * (6 / 10) ^ (fuel - 1) < 1 / 10 ^ 14) :
    ∃ ret check x', newtonLinesearch fuel n F itmax tolf x check0 = some (.ok (ret, check, x')) ∧
      Spec.half2 n (F x') ≤ Spec.half2 n (F x) := by
  unfold newtonLinesearch
  dsimp only
  split
  · exact ⟨_, _, _, rfl, le_refl _⟩
  rename_i hs
  obtain ⟨hI, hst⟩ := nlInit (check0 := check0) ht hs
  rw [← sumLoop_eq] at hfuel
  generalize 100 * max (Real.sqrt (sumLoop n (fun i => x i * x i))) (n : ℝ) = stpmax at hst hfuel ⊢
  refine (forRet_inv (n := itmax) (body := nlPass fuel n F stpmax tolf)
    (s := ⟨x, lineObj n (F x), F x, check0⟩)
    (fun _ s => NLInv n F x s ∧ Spec.half2 n (F s.x) ≤ Spec.half2 n (F x))
    (fun j r => ∃ out, r = some (.ok out) ∧ Spec.half2 n (F out.2.2) ≤ Spec.half2 n (F x))
    ⟨hI, le_refl _⟩ ?_ ?_).elim ?_ ?_
  · rintro j s r _ _ ⟨hP, hle⟩ hb
    obtain ⟨h1, _, h3⟩ := nlPass_spec (fuel := fuel) (its := j) ht hst hP
    rcases h3 (hJ _ hle) hf hfuel with ⟨out, ho⟩ | ⟨s', ho⟩
    · rw [hb] at ho
      cases ho
      exact ⟨out, rfl, ((h1 out hb).2.2.2 (hJ _ hle)).trans hle⟩
    · rw [hb] at ho
      cases ho
  · rintro j s s' _ _ ⟨hP, hle⟩ hb
    obtain ⟨h1, _, _, h2⟩ := (nlPass_spec ht hst hP).2.1 s' hb
    exact ⟨h1, (h2 (hJ _ hle)).trans hle⟩
  · rintro ⟨r, j, _, _, he, ⟨r1, r2, r3⟩, rfl, hle⟩
    rw [he]
    exact ⟨_, _, _, rfl, hle⟩
  · rintro ⟨s, he, hP, hle⟩
    rw [he]
    exact ⟨_, _, _, rfl, hle⟩

/-- **C94.** An affine system with an invertible matrix is solved in one pass, if the step is not longer
than the largest step and not tiny. -/
theorem C94_affine {fuel n : Nat} {F : RArr → RArr} {A : Mat ℝ} {b : Nat → ℝ}
    (hF : ∀ y i, i < n → F y i = (∑ c ∈ range n, A i c * y c) + b i)
    (hA : (Spec.matrix n A).det ≠ 0) {itmax : Nat} (hit : 1 ≤ itmax) (hf : 1 ≤ fuel) {tolf : ℝ}
    (ht : 0 < tolf) {x z : RArr} (check0 : Bool) (hx : ∃ i, i < n ∧ tolf / 100 ≤ |F x i|)
    (hz : ∀ i, i < n → F z i = 0) (hzt : ∀ i, n ≤ i → z i = x i)
    (hlong : Real.sqrt (∑ i ∈ range n, (z i - x i) ^ 2) ≤
      100 * max (Real.sqrt (∑ i ∈ range n, x i * x i)) n)
    (htiny : ∃ i, i < n ∧ 1 / 10 ^ 14 * max |x i| 1 ≤ |z i - x i|) :
    newtonLinesearch fuel n F itmax tolf x check0 = some (.ok (1, false, z)) := by
  have hJ := C94_jacobian_affine hF x
  have hM : Spec.matrix n (fdJacobian n F x (F x)) = Spec.matrix n A := by
    ext i j
    exact hJ i j i.2 j.2
  obtain ⟨p, hp1, hp2, hp3⟩ := C94_step (J := fdJacobian n F x (F x)) (by rw [hM]; exact hA) (F x)
  have hp : ∀ i, i < n → p i = z i - x i := by
    have h0 : (Spec.matrix n A).mulVec (fun i : Fin n => p i - (z i - x i)) = 0 := by
      funext i
      have h1 := hp2 i i.2
      rw [sum_congr rfl fun c hc => by rw [hJ i c i.2 (mem_range.mp hc)]] at h1
      have h2 := hz i i.2
      rw [hF z i i.2] at h2
      have h3 := hF x i i.2
      show ∑ c : Fin n, A i c * (p c - (z c - x c)) = 0
      rw [Fin.sum_univ_eq_sum_range (fun c => A i c * (p c - (z c - x c))) n]
      have e : ∑ c ∈ range n, A i c * (p c - (z c - x c)) = (∑ c ∈ range n, A i c * p c) -
          (∑ c ∈ range n, A i c * z c) + ∑ c ∈ range n, A i c * x c := by
        rw [← sum_sub_distrib, ← sum_add_distrib]
        exact sum_congr rfl fun c _ => by ring
      rw [e, h1]
      linarith
    have h1 := Matrix.eq_zero_of_mulVec_eq_zero hA h0
    intro i hi
    have := congrFun h1 ⟨i, hi⟩
    simp only [Pi.zero_apply] at this
    linarith
  have hs : ¬maxLoop n (fun i => |F x i|) < 1 / 100 * tolf := by
    rw [maxLoop_lt (by positivity)]
    push Not
    obtain ⟨i, hi, h⟩ := hx
    exact ⟨i, hi, by linarith⟩
  obtain ⟨hI, hst⟩ := nlInit (check0 := check0) ht hs
  have hF0 : Spec.half2 n (F z) = 0 := by
    unfold Spec.half2
    rw [sum_eq_zero fun i hi => by rw [hz i (mem_range.mp hi)]; ring]
    ring
  have hpass : nlPass fuel n F (100 * max (Real.sqrt (sumLoop n (fun i => x i * x i))) n) tolf 1
      ⟨x, lineObj n (F x), F x, check0⟩ = .inl (some (.ok (1, false, z))) := by
    unfold nlPass
    dsimp only
    rw [gradient_eq, hp1]
    dsimp only
    obtain ⟨c, _, _, hc1, _, _, _, hfull⟩ := linesrch_spec fuel n F x (lineObj n (F x))
      (Spec.gradient n F x) p x hst
    have hc : c = 1 := by
      apply hc1
      rw [sum_congr rfl fun i hi => by rw [hp i (mem_range.mp hi)], sumLoop_eq]
      exact hlong
    subst hc
    rw [hfull z (fun i hi => by rw [hp i hi]; ring) hzt hf (by
      obtain ⟨i, hi, h⟩ := htiny
      exact ⟨i, hi, by rw [one_mul, hp i hi]; exact h⟩) (by
      have e : ∑ i ∈ range n, Spec.gradient n F x i * p i = -2 * Spec.half2 n (F x) := hp3
      rw [hF0, lineFun_eq, e]
      have := half2_nonneg n (F x)
      norm_num
      linarith)]
    dsimp only
    have htst : nlTests n tolf x (Spec.gradient n F x) ⟨z, Spec.half2 n (F z), F z, false⟩ =
        .inl false := by
      unfold nlTests
      rw [if_pos]
      rw [maxLoop_lt ht]
      intro i hi
      dsimp only
      rw [hz i hi, abs_zero]
      exact ht
    rw [htst]
    rfl
  unfold newtonLinesearch
  dsimp only
  rw [if_neg hs, forRet_first hit hpass]

/-- Example: `2 x + y = 3`, `x = y` from `(0,0)`. -/
def nlExampleF : RArr → RArr := fun y i => if i = 0 then 2 * y 0 + y 1 - 3 else y 0 - y 1

example (check0 : Bool) : newtonLinesearch 1 2 nlExampleF 1 (1 / 10 ^ 10) (fun _ => 0) check0 =
    some (.ok (1, false, fun i => if i < 2 then 1 else 0)) := by
  refine C94_affine (A := fun i j => if i = 0 then (if j = 0 then 2 else 1) else
    (if j = 0 then 1 else -1)) (b := fun i => if i = 0 then -3 else 0) ?_ ?_ (le_refl _) (le_refl _)
    (by positivity) _ ⟨0, by omega, ?_⟩ ?_ ?_ ?_ ⟨0, by omega, ?_⟩
  · intro y i hi
    obtain rfl | rfl : i = 0 ∨ i = 1 := by omega
    · simp [nlExampleF, sum_range_succ]; ring
    · simp [nlExampleF, sum_range_succ]; ring
  · rw [Matrix.det_fin_two]
    simp [Spec.matrix]
    norm_num
  · simp [nlExampleF]
    norm_num
  · intro i hi
    obtain rfl | rfl : i = 0 ∨ i = 1 := by omega
    · simp [nlExampleF]; norm_num
    · simp [nlExampleF]
  · intro i hi
    rw [if_neg (by omega)]
  · simp
    rw [Real.sqrt_le_left (by norm_num)]
    norm_num
    decide
  · simp
    norm_num

/-- A step below the resolution is not taken, but the function is evaluated there. -/
theorem linesrch_tiny {fuel n : Nat} (hf : 1 ≤ fuel) (F : RArr → RArr) (fold : ℝ) (g : RArr)
    {p x z : RArr} {stpmax : ℝ} (hst : 0 < stpmax)
    (hshort : Real.sqrt (∑ i ∈ range n, p i ^ 2) ≤ stpmax)
    (htiny : ∀ i, i < n → |p i| < 1 / 10 ^ 14 * max |x i| 1) (hz : ∀ i, i < n → z i = x i + p i)
    (hzt : ∀ i, n ≤ i → z i = x i) :
    linesrch fuel n F x fold g p x stpmax = some (.ok ⟨x, Spec.half2 n (F z), F z, true⟩) := by
  obtain ⟨c, _, _, h1, _, hp⟩ := lineScale_eq (n := n) (p := p) hst
  obtain rfl := h1 hshort
  have hden : ∀ i, (0 : ℝ) < max |x i| 1 := fun i => lt_of_lt_of_le one_pos (le_max_right _ _)
  have htest : maxLoop n (fun i => |lineScale n p stpmax i| / max |x i| 1) < 1 / 10 ^ 14 := by
    rw [maxLoop_lt (by positivity)]
    intro i hi
    rw [hp i hi, one_mul, div_lt_iff₀ (hden i)]
    exact htiny i hi
  have ht0 := (maxLoop_spec n (fun i => |lineScale n p stpmax i| / max |x i| 1)).1
  unfold linesrch
  dsimp only
  generalize maxLoop n (fun i => |lineScale n p stpmax i| / max |x i| 1) = test at *
  generalize sumLoop n (fun i => g i * lineScale n p stpmax i) = slope
  have hstep : linePass n F x (lineScale n p stpmax) fold slope test ⟨x, 1, 0, 0⟩ =
      .inl (.ok ⟨x, Spec.half2 n (F z), F z, true⟩) := by
    have hx : setLoop n (fun i => x i + 1 * lineScale n p stpmax i) x = z := by
      funext i
      rw [setLoop_eq]
      split_ifs with h
      · rw [hp i h, hz i h]; ring
      · rw [hzt i (by omega)]
    have hx' : setLoop n x z = x := by
      funext i
      rw [setLoop_eq]
      split_ifs with h
      · rfl
      · rw [hzt i (by omega)]
    unfold linePass
    dsimp only
    rw [hx, hx', lineFun_eq, if_pos]
    rcases ht0.eq_or_lt with h | h
    · exact Or.inl h.symm
    · right
      rw [lt_div_iff₀ h, one_mul]
      exact htest
  rw [forRet_first hf hstep]

/-- **C94**, counterexample: a return value that is not negative and `check == 0` do not mean that `x` is a
root. The function `1e20 x - 1e5` is evaluated at its root, but `x` is set back because the step is
small. -/
theorem C94_root_counterexample {fuel itmax : Nat} (hf : 1 ≤ fuel) (hit : 1 ≤ itmax) (check0 : Bool) :
    newtonLinesearch fuel 1 (fun y _ => 10 ^ 20 * y 0 - 10 ^ 5) itmax 1 (fun _ => 0) check0 =
      some (.ok (1, false, fun _ => 0)) ∧
    ¬|(10 : ℝ) ^ 20 * (fun _ => 0 : RArr) 0 - 10 ^ 5| < 1 := by
  refine ⟨?_, by norm_num⟩
  set F : RArr → RArr := fun y _ => 10 ^ 20 * y 0 - 10 ^ 5 with hFd
  have hJ := C94_jacobian_affine (n := 1) (F := F) (A := fun _ _ => 10 ^ 20) (b := fun _ => -10 ^ 5)
    (by intro y i _; simp [hFd, sub_eq_add_neg]) (fun _ => 0)
  have hF0 : F (fun _ => 0) = fun _ => -10 ^ 5 := by funext i; simp [hFd]
  obtain ⟨p, hp1, hp2, _⟩ := C94_step (n := 1) (J := fdJacobian 1 F (fun _ => 0) (F fun _ => 0)) (by
    rw [Matrix.det_fin_one]
    show fdJacobian 1 F (fun _ => 0) (F fun _ => 0) 0 0 ≠ 0
    rw [hJ 0 0 (by omega) (by omega)]
    positivity) (F fun _ => 0)
  have hp : p 0 = 1 / 10 ^ 15 := by
    have := hp2 0 (by omega)
    rw [sum_range_one, hJ 0 0 (by omega) (by omega), hF0] at this
    norm_num at this ⊢
    linarith
  have hs : ¬maxLoop 1 (fun i => |F (fun _ => 0) i|) < 1 / 100 * 1 := by
    rw [maxLoop_lt (by positivity), hF0]
    push Not
    exact ⟨0, by omega, by norm_num⟩
  obtain ⟨hI, hst⟩ := nlInit (check0 := check0) one_pos hs
  have hpass : nlPass fuel 1 F (100 * max (Real.sqrt (sumLoop 1 (fun i => (fun _ => 0 : RArr) i *
      (fun _ => 0 : RArr) i))) (1 : Nat)) 1 1 ⟨fun _ => 0, lineObj 1 (F fun _ => 0), F fun _ => 0, check0⟩ =
      .inl (some (.ok (1, false, fun _ => 0))) := by
    unfold nlPass
    dsimp only
    rw [hp1]
    dsimp only
    rw [linesrch_tiny (z := fun i => if i < 1 then 1 / 10 ^ 15 else 0) hf F _ _ hst ?_ ?_ ?_ ?_]
    · have htst : ∀ g, nlTests 1 1 (fun _ => 0) g ⟨fun _ => 0, Spec.half2 1 (F fun i =>
          if i < 1 then 1 / 10 ^ 15 else 0), F fun i => if i < 1 then 1 / 10 ^ 15 else 0, true⟩ =
          .inl false := by
        intro g
        unfold nlTests
        rw [if_pos]
        rw [maxLoop_lt one_pos]
        intro i _
        simp [hFd]
        norm_num
      dsimp only
      rw [htst]
      rfl
    · rw [sum_range_one, hp, Real.sqrt_sq (by positivity)]
      exact le_trans (b := 100 * 1) (by norm_num)
        (mul_le_mul_of_nonneg_left (le_max_of_le_right (by norm_num)) (by norm_num))
    · intro i hi
      obtain rfl : i = 0 := by omega
      rw [hp]
      norm_num [abs_of_pos]
    · intro i hi
      obtain rfl : i = 0 := by omega
      rw [hp]
      norm_num
    · intro i hi
      rw [if_neg (by omega)]
  unfold newtonLinesearch
  dsimp only
  rw [if_neg hs, forRet_first hit hpass]

/-- **C94**, counterexample: with a singular matrix the first equation is ignored. For `x = 1` and a second
equation that is always satisfied, nothing is done and success is reported. -/
theorem C94_singular_counterexample {fuel itmax : Nat} (hf : 1 ≤ fuel) (hit : 1 ≤ itmax)
    (check0 : Bool) :
    newtonLinesearch fuel 2 (fun y i => if i = 0 then y 0 - 1 else 0) itmax 1 (fun _ => 0) check0 =
      some (.ok (1, false, fun _ => 0)) := by
  set F : RArr → RArr := fun y i => if i = 0 then y 0 - 1 else 0 with hFd
  have hJ := C94_jacobian_affine (n := 2) (F := F) (A := fun i j => if i = 0 ∧ j = 0 then 1 else 0)
    (b := fun i => if i = 0 then -1 else 0)
    (by
      intro y i hi
      obtain rfl | rfl : i = 0 ∨ i = 1 := by omega
      · simp [hFd, sub_eq_add_neg]
      · simp [hFd]) (fun _ => 0)
  have hF0 : F (fun _ => 0) = fun i => if i = 0 then -1 else 0 := by funext i; simp [hFd]
  have hs : ¬maxLoop 2 (fun i => |F (fun _ => 0) i|) < 1 / 100 * 1 := by
    rw [maxLoop_lt (by positivity), hF0]
    push Not
    exact ⟨0, by omega, by norm_num⟩
  have j00 := hJ 0 0 (by omega) (by omega)
  have j01 := hJ 0 1 (by omega) (by omega)
  have j10 := hJ 1 0 (by omega) (by omega)
  have j11 := hJ 1 1 (by omega) (by omega)
  have hgr : Spec.gradient 2 F (fun _ => 0) 0 = -1 := by
    unfold Spec.gradient
    rw [hF0] at *
    simp [j00]
  generalize hJJ : fdJacobian 2 F (fun _ => 0) (F fun _ => 0) = J at *
  have hstep : ∃ p, nlStep 2 J (F fun _ => 0) = .ok p ∧ p 0 = 0 ∧ p 1 = 0 := by
    unfold nlStep
    obtain ⟨r, s, h1, h2⟩ := C46_returns 2 J (fun _ => 0) (fun _ => 0) 0
    rw [h1]
    have h3 : r ≠ 0 ∧ s.A = J := by
      rcases h2 with ⟨_, h, _⟩ | ⟨j, _, h, hA, _⟩ | ⟨j, _, h, hA, _⟩
      · obtain ⟨i, hi, hne⟩ := h 1 (by omega)
        obtain rfl | rfl : i = 0 ∨ i = 1 := by omega
        · exact absurd j01 (by simpa using hne)
        · exact absurd j11 (by simpa using hne)
      · exact ⟨by omega, hA⟩
      · exact ⟨by omega, hA⟩
    refine ⟨_, rfl, ?_⟩
    rw [if_pos h3.1, h3.2]
    have h10 : ¬(1 : ℝ) < 0 := by norm_num
    simp [singStep, singSearch, upLoop, List.range'_succ, aset, j00, j01, j10, j11, h10]
  obtain ⟨p, hp1, hp0, hp2⟩ := hstep
  have hp : ∀ i, i < 2 → p i = 0 := by
    intro i hi
    obtain rfl | rfl : i = 0 ∨ i = 1 := by omega
    · exact hp0
    · exact hp2
  obtain ⟨hI, hst⟩ := nlInit (check0 := check0) one_pos hs
  have hpass : nlPass fuel 2 F (100 * max (Real.sqrt (sumLoop 2 (fun i => (fun _ => 0 : RArr) i *
      (fun _ => 0 : RArr) i))) (2 : Nat)) 1 1 ⟨fun _ => 0, lineObj 2 (F fun _ => 0), F fun _ => 0, check0⟩ =
      .inl (some (.ok (1, false, fun _ => 0))) := by
    unfold nlPass
    dsimp only
    rw [gradient_eq, hJJ, hp1]
    dsimp only
    rw [linesrch_tiny (z := fun _ => 0) hf F _ _ hst ?_ ?_ ?_ (fun _ _ => rfl)]
    · have htst : nlTests 2 1 (fun _ => 0) (Spec.gradient 2 F fun _ => 0)
          ⟨fun _ => 0, Spec.half2 2 (F fun _ => 0), F fun _ => 0, true⟩ = .inl false := by
        unfold nlTests
        rw [if_neg, if_pos rfl]
        · dsimp only
          congr 1
          rw [decide_eq_false_iff_not, maxLoop_lt (by positivity)]
          push Not
          refine ⟨0, by omega, ?_⟩
          rw [hgr, hF0]
          simp [Spec.half2]
          norm_num
        · rw [maxLoop_lt one_pos, hF0]
          push Not
          exact ⟨0, by omega, by norm_num⟩
      dsimp only
      rw [htst]
      rfl
    · rw [sum_eq_zero fun i hi => by rw [hp i (mem_range.mp hi)]; ring, Real.sqrt_zero]
      exact hst.le
    · intro i hi
      rw [hp i hi]
      simp
    · intro i hi
      rw [hp i hi, add_zero]
  unfold newtonLinesearch
  dsimp only
  rw [if_neg hs, forRet_first hit hpass]

end

end Sgrid
