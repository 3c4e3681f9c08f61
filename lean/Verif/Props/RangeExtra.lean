import Mathlib.Tactic.Positivity
import Verif.Model.RangeExtra
import Verif.Props.NewtonLine

/-!
# C95: functions outside of their range
-/

namespace Sgrid

open Finset

noncomputable section

namespace Spec

/-- `lo ≤ v ≤ hi` in the first `n` entries. -/
def InRange (n : Nat) (v hi lo : Nat → ℝ) : Prop := ∀ i, i < n → lo i ≤ v i ∧ v i ≤ hi i

/-- The centre of the range. -/
def centre (hi lo : Nat → ℝ) (i : Nat) : ℝ := (hi i + lo i) / 2

end Spec

theorem rangeCent_eq (hi lo : RArr) (i : Nat) : rangeCent hi lo i = Spec.centre hi lo i := by
  unfold rangeCent Spec.centre
  ring

/-- **C95** (`newton_lnsrch_vec_within_range`). -/
theorem C95_within (n : Nat) (vec hi lo : RArr) :
    (vecWithinRange n vec hi lo = 1 ↔ Spec.InRange n vec hi lo) ∧
    (vecWithinRange n vec hi lo = 0 ↔ ¬Spec.InRange n vec hi lo) := by
  have h := upLoop_inv (Nat.zero_le n) (body := fun i (ret : Int) =>
      let ret := if vec i > hi i then 0 else ret
      if vec i < lo i then 0 else ret) (s := (1 : Int))
    (fun m r => (r = 1 ∧ ∀ i, i < m → lo i ≤ vec i ∧ vec i ≤ hi i) ∨
      (r = 0 ∧ ∃ i, i < m ∧ ¬(lo i ≤ vec i ∧ vec i ≤ hi i)))
    (Or.inl ⟨rfl, by omega⟩) (by
      rintro j r _ hj h
      dsimp only
      by_cases h1 : vec j < lo j
      · rw [if_pos h1]
        exact Or.inr ⟨rfl, j, by omega, fun h => absurd h.1 (not_le.mpr h1)⟩
      · rw [if_neg h1]
        by_cases h2 : vec j > hi j
        · rw [if_pos h2]
          exact Or.inr ⟨rfl, j, by omega, fun h => absurd h.2 (not_le.mpr h2)⟩
        · rw [if_neg h2]
          rcases h with ⟨rfl, h⟩ | ⟨rfl, i, hi', h⟩
          · refine Or.inl ⟨rfl, fun i hi' => ?_⟩
            rcases Nat.lt_or_ge i j with h' | h'
            · exact h i h'
            · obtain rfl : i = j := by omega
              exact ⟨not_lt.mp h1, not_lt.mp h2⟩
          · exact Or.inr ⟨rfl, i, by omega, h⟩)
  change (vecWithinRange n vec hi lo = 1 ∧ _) ∨ (vecWithinRange n vec hi lo = 0 ∧ _) at h
  unfold Spec.InRange
  rcases h with ⟨h1, h2⟩ | ⟨h1, i, hi', h2⟩
  · rw [h1]
    exact ⟨⟨fun _ => h2, fun _ => rfl⟩, ⟨fun h => by omega, fun h => absurd h2 h⟩⟩
  · rw [h1]
    exact ⟨⟨fun h => by omega, fun h => absurd (h i hi') h2⟩, ⟨fun _ h => h2 (h i hi'), fun _ => rfl⟩⟩

/-- The first entry that is not at the centre is in the range. -/
def Spec.FirstInside (n : Nat) (vec hi lo : Nat → ℝ) : Prop :=
  ∃ j, j < n ∧ (∀ k, k < j → vec k = Spec.centre hi lo k) ∧ vec j ≠ Spec.centre hi lo j ∧
    lo j ≤ vec j ∧ vec j ≤ hi j

theorem rangeLoop_ok {n : Nat} {vec hi lo : RArr} (hlh : ∀ i, i < n → lo i < hi i)
    (hf : ¬Spec.FirstInside n vec hi lo) :
    ∃ s sc, forN n (rangePass vec hi lo) (1, none) = .ok (s, sc) ∧ 0 < s ∧ s ≤ 1 ∧
      (∀ i, i < n → |vec i - Spec.centre hi lo i| * s ≤ (hi i - lo i) / 2) ∧
      (s = 1 ∨ ∃ i, i < n ∧ |vec i - Spec.centre hi lo i| * s = (hi i - lo i) / 2 ∧ s < 1) := by
  obtain ⟨⟨s, sc⟩, h, h1, h2, h3, h4, _⟩ := forN_inv (n := n) (body := rangePass vec hi lo)
    (s := (1, none)) (fun m st => 0 < st.1 ∧ st.1 ≤ 1 ∧
      (∀ i, i < m → |vec i - Spec.centre hi lo i| * st.1 ≤ (hi i - lo i) / 2) ∧
      (st.1 = 1 ∨ ∃ i, i < n ∧ |vec i - Spec.centre hi lo i| * st.1 = (hi i - lo i) / 2 ∧ st.1 < 1) ∧
      (match st.2 with
        | none => ∀ k, k < m → vec k = Spec.centre hi lo k
        | some t => st.1 ≤ t))
    ⟨one_pos, le_refl _, by omega, Or.inl rfl, by dsimp only; omega⟩ (by
      rintro i hi' ⟨s, sc⟩ ⟨h1, h2, h3, h4, h5⟩
      dsimp only at h1 h2 h3 h4 h5
      have hw := hlh i hi'
      have hc : Spec.centre hi lo i = (hi i + lo i) / 2 := rfl
      have ext : ∀ s', 0 < s' → s' ≤ s → |vec i - Spec.centre hi lo i| * s' ≤ (hi i - lo i) / 2 →
          ∀ k, k < i + 1 → |vec k - Spec.centre hi lo k| * s' ≤ (hi k - lo k) / 2 := by
        intro s' h0 hle h k hk
        rcases Nat.lt_or_ge k i with h' | h'
        · exact (mul_le_mul_of_nonneg_left hle (abs_nonneg _)).trans (h3 k h')
        · obtain rfl : k = i := by omega
          exact h
      unfold rangePass
      simp only [rangeCent_eq]
      by_cases hd : vec i - Spec.centre hi lo i = 0
      · rw [if_neg (not_not.mpr hd)]
        refine ⟨_, rfl, h1, h2, ext s h1 (le_refl _) ?_, h4, ?_⟩
        · rw [hd, abs_zero, zero_mul]; linarith
        · cases sc with
          | none =>
            dsimp only at h5 ⊢
            intro k hk
            rcases Nat.lt_or_ge k i with h' | h'
            · exact h5 k h'
            · obtain rfl : k = i := by omega
              linarith
          | some t => exact h5
      · rw [if_pos hd]
        have good : ∀ t : ℝ, 0 < t → t < 1 → |vec i - Spec.centre hi lo i| * t = (hi i - lo i) / 2 →
            ∃ t', (Res.ok (if t < s then t else s, some t) : Res (ℝ × Option ℝ)) = .ok t' ∧
              0 < t'.1 ∧ t'.1 ≤ 1 ∧
              (∀ k, k < i + 1 → |vec k - Spec.centre hi lo k| * t'.1 ≤ (hi k - lo k) / 2) ∧
              (t'.1 = 1 ∨ ∃ k, k < n ∧ |vec k - Spec.centre hi lo k| * t'.1 = (hi k - lo k) / 2 ∧
                t'.1 < 1) ∧
              (match t'.2 with
                | none => ∀ k, k < i + 1 → vec k = Spec.centre hi lo k
                | some t => t'.1 ≤ t) := by
          intro t t0 t1 te
          refine ⟨_, rfl, ?_⟩
          dsimp only
          split_ifs with hts
          · exact ⟨t0, t1.le, ext t t0 hts.le te.le, Or.inr ⟨i, hi', te, t1⟩, le_refl _⟩
          · push Not at hts
            refine ⟨h1, h2, ext s h1 (le_refl _) ?_, h4, hts⟩
            rw [← te]
            exact mul_le_mul_of_nonneg_left hts (abs_nonneg _)
        by_cases hlow : vec i < lo i
        · rw [if_pos hlow]
          have hneg : vec i - Spec.centre hi lo i < 0 := by rw [hc]; linarith
          refine good _ (div_pos_of_neg_of_neg (by rw [hc]; linarith) hneg) ?_ ?_
          · rw [div_lt_one_of_neg hneg]
            linarith
          · rw [abs_of_neg hneg]
            have : vec i - Spec.centre hi lo i ≠ 0 := hneg.ne
            rw [neg_mul, mul_div_cancel₀ _ this, hc]
            ring
        · rw [if_neg hlow]
          by_cases hhigh : vec i > hi i
          · rw [if_pos hhigh]
            have hpos : 0 < vec i - Spec.centre hi lo i := by rw [hc]; linarith
            refine good _ (div_pos (by rw [hc]; linarith) hpos) ?_ ?_
            · rw [div_lt_one hpos]
              linarith
            · rw [abs_of_pos hpos, mul_div_cancel₀ _ hpos.ne', hc]
              ring
          · rw [if_neg hhigh]
            cases sc with
            | none =>
              exfalso
              refine hf ⟨i, hi', h5, fun h => hd (by rw [h, sub_self]), not_lt.mp hlow, not_lt.mp hhigh⟩
            | some t =>
              dsimp only at h5 ⊢
              rw [show (if t < s then t else s) = s from if_neg (not_lt.mpr h5)]
              refine ⟨_, rfl, h1, h2, ext s h1 (le_refl _) ?_, h4, h5⟩
              have habs : |vec i - Spec.centre hi lo i| ≤ (hi i - lo i) / 2 := by
                rw [abs_le, hc]
                constructor <;> linarith
              nlinarith [abs_nonneg (vec i - Spec.centre hi lo i)])
  exact ⟨s, sc, h, h1, h2, h3, h4⟩

theorem rangeLoop_ub {n : Nat} {vec hi lo : RArr} (hf : Spec.FirstInside n vec hi lo) :
    forN n (rangePass vec hi lo) (1, none) = .ub := by
  obtain ⟨j, hj, h1, h2, h3, h4⟩ := hf
  have start : ∀ m, m ≤ j → forN m (rangePass vec hi lo) (1, none) = .ok (1, none) := by
    intro m
    induction m with
    | zero => exact fun _ => rfl
    | succ m ih =>
      intro hm
      rw [forN, ih (by omega)]
      show rangePass vec hi lo m (1, none) = _
      unfold rangePass
      rw [rangeCent_eq, h1 m (by omega), sub_self, if_neg (not_not.mpr rfl)]
  have : ∀ d, forN (j + 1 + d) (rangePass vec hi lo) (1, none) = .ub := by
    intro d
    induction d with
    | zero =>
      rw [Nat.add_zero, forN, start j (le_refl _)]
      show rangePass vec hi lo j (1, none) = _
      unfold rangePass
      simp only [rangeCent_eq]
      rw [if_pos (sub_ne_zero.mpr h2), if_neg (not_lt.mpr h3), if_neg (not_lt.mpr h4)]
    | succ d ih =>
      rw [← Nat.add_assoc, forN, ih]
      rfl
  obtain ⟨d, rfl⟩ : ∃ d, n = j + 1 + d := ⟨n - (j + 1), by omega⟩
  exact this d

/-- **C95**, counterexample (`newton_lnsrch_set_vecs_for_lininterp`): `sc` is read before it is set if the
first entry of `vec` that is not at the centre is inside its range. -/
theorem C95_uninitialised_counterexample {n : Nat} {vec hi lo : RArr} (vb vi : RArr)
    (hf : Spec.FirstInside n vec hi lo) : setVecsForLininterp n vec hi lo vb vi = .ub := by
  unfold setVecsForLininterp
  rw [rangeLoop_ub hf]

/-- **C95** (`newton_lnsrch_set_vecs_for_lininterp`). Otherwise `vb` is in the range, on the way from the
centre to `vec`. It is `vec` if `vec` is in the range. Otherwise it is on the boundary, and `vi` is between
the centre and `vb`, strictly inside the range, at the distance of 1e-6 of the way from the centre. -/
theorem C95_vecs_partial {n : Nat} {vec hi lo : RArr} (vb vi : RArr) (hlh : ∀ i, i < n → lo i < hi i)
    (hf : ¬Spec.FirstInside n vec hi lo) :
    ∃ vb' vi' s, setVecsForLininterp n vec hi lo vb vi = .ok (vb', vi') ∧ 0 < s ∧ s ≤ 1 ∧
      (∀ i, i < n → vb' i = Spec.centre hi lo i + s * (vec i - Spec.centre hi lo i)) ∧
      (∀ i, i < n → vi' i = vb' i - 1 / 10 ^ 6 * (vb' i - Spec.centre hi lo i)) ∧
      (∀ i, n ≤ i → vb' i = vb i ∧ vi' i = vi i) ∧
      Spec.InRange n vb' hi lo ∧ (∀ i, i < n → lo i < vi' i ∧ vi' i < hi i) ∧
      (Spec.InRange n vec hi lo → s = 1) ∧
      (¬Spec.InRange n vec hi lo → s < 1 ∧ ∃ i, i < n ∧ (vb' i = hi i ∨ vb' i = lo i)) := by
  obtain ⟨s, sc, h, h1, h2, h3, h4⟩ := rangeLoop_ok hlh hf
  have hr : ∀ i, i < n → lo i ≤ Spec.centre hi lo i + (vec i - Spec.centre hi lo i) * s ∧
      Spec.centre hi lo i + (vec i - Spec.centre hi lo i) * s ≤ hi i := by
    intro i hi'
    have := h3 i hi'
    rw [← abs_of_pos h1, ← abs_mul, abs_le] at this
    have hc : Spec.centre hi lo i = (hi i + lo i) / 2 := rfl
    rw [hc] at this ⊢
    constructor <;> linarith [this.1, this.2]
  refine ⟨fun i => if i < n then Spec.centre hi lo i + s * (vec i - Spec.centre hi lo i) else vb i,
    fun i => if i < n then Spec.centre hi lo i + s * (vec i - Spec.centre hi lo i) * (999999 / 1000000)
      else vi i, s, ?_, h1, h2, fun i hi' => if_pos hi', ?_, ?_, ?_, ?_, ?_, ?_⟩
  · unfold setVecsForLininterp
    rw [h]
    dsimp only
    congr 1
    have := upLoop_inv (Nat.zero_le n) (body := fun i (v : RArr × RArr) =>
      let dir := vec i - rangeCent hi lo i
      let vb := aset v.1 i (rangeCent hi lo i + dir * s)
      let vi := aset v.2 i (rangeCent hi lo i + dir * s * (999999 / 1000000))
      let vb := if vb i > hi i then aset vb i (hi i) else vb
      let vb := if vb i < lo i then aset vb i (lo i) else vb
      (vb, vi)) (s := (vb, vi))
      (fun m v => v = (fun i => if i < m then Spec.centre hi lo i + s * (vec i - Spec.centre hi lo i)
        else vb i, fun i => if i < m then Spec.centre hi lo i + s * (vec i - Spec.centre hi lo i) *
          (999999 / 1000000) else vi i)) (by simp) (by
        rintro j v _ hj rfl
        dsimp only
        simp only [rangeCent_eq, aset_self]
        obtain ⟨hr1, hr2⟩ := hr j hj
        rw [if_neg (not_lt.mpr hr2), aset_self, if_neg (not_lt.mpr hr1)]
        refine Prod.ext ?_ ?_
        · funext i
          dsimp only
          by_cases e : i = j
          · subst e
            rw [aset_self, if_pos (by omega)]
            ring
          · rw [aset_ne _ _ e]
            exact if_congr (by omega) rfl rfl
        · funext i
          dsimp only
          by_cases e : i = j
          · subst e
            rw [aset_self, if_pos (by omega)]
            ring
          · rw [aset_ne _ _ e]
            exact if_congr (by omega) rfl rfl)
    exact this
  · intro i hi'
    dsimp only
    rw [if_pos hi', if_pos hi']
    ring
  · intro i hi'
    dsimp only
    rw [if_neg (by omega), if_neg (by omega)]
    exact ⟨rfl, rfl⟩
  · intro i hi'
    dsimp only
    rw [if_pos hi', mul_comm]
    exact hr i hi'
  · intro i hi'
    dsimp only
    rw [if_pos hi']
    obtain ⟨h5, h6⟩ := hr i hi'
    have hw := hlh i hi'
    have hc : Spec.centre hi lo i = (hi i + lo i) / 2 := rfl
    rw [hc] at h5 h6 ⊢
    constructor
    · linarith
    · linarith
  · intro hin
    rcases h4 with h4 | ⟨i, hi', h5, h6⟩
    · exact h4
    · exfalso
      obtain ⟨h7, h8⟩ := hin i hi'
      have habs : |vec i - Spec.centre hi lo i| ≤ (hi i - lo i) / 2 := by
        rw [abs_le]
        unfold Spec.centre
        constructor <;> linarith
      have := hlh i hi'
      nlinarith
  · intro hout
    have hs1 : s < 1 := by
      rcases h4 with rfl | ⟨i, _, _, h6⟩
      · exfalso
        apply hout
        intro i hi'
        have := hr i hi'
        rw [mul_one, add_sub_cancel] at this
        exact this
      · exact h6
    refine ⟨hs1, ?_⟩
    rcases h4 with h4 | ⟨i, hi', h5, _⟩
    · linarith
    · refine ⟨i, hi', ?_⟩
      dsimp only
      rw [if_pos hi']
      have hc : Spec.centre hi lo i = (hi i + lo i) / 2 := rfl
      rcases abs_cases (vec i - Spec.centre hi lo i) with ⟨he, _⟩ | ⟨he, _⟩
      · left
        rw [he] at h5
        rw [hc] at h5 ⊢
        linarith
      · right
        rw [he] at h5
        rw [hc] at h5 ⊢
        linarith

/-- **C95** (`newton_lnsrch_get_fvec_by_lininterp`). With the points of
`newton_lnsrch_set_vecs_for_lininterp` the result is exact for affine functions. -/
theorem C95_extrapolate {n : Nat} {vec hi lo vb vi vb0 vi0 : RArr} (hlh : ∀ i, i < n → lo i < hi i)
    (hout : ¬Spec.InRange n vec hi lo)
    (hset : setVecsForLininterp n vec hi lo vb0 vi0 = .ok (vb, vi)) {F : RArr → RArr} {A : Mat ℝ}
    {b : Nat → ℝ} (hF : ∀ y i, i < n → F y i = (∑ c ∈ range n, A i c * y c) + b i) (fvec : RArr) :
    ∀ i, i < n → getFvecByLininterp n vec vb vi fvec (F vb) (F vi) i = F vec i := by
  by_cases hf : Spec.FirstInside n vec hi lo
  · rw [C95_uninitialised_counterexample vb0 vi0 hf] at hset
    cases hset
  obtain ⟨vb', vi', s, h, s0, _, hb, hi', _, _, _, _, hs⟩ := C95_vecs_partial vb0 vi0 hlh hf
  rw [hset] at h
  cases h
  obtain ⟨s1, k, hk, _⟩ := hs hout
  set d := fun i => vec i - Spec.centre hi lo i with hd
  have e1 : ∀ i, i < n → vb i - vi i = 1 / 10 ^ 6 * s * d i := by
    intro i hi2
    rw [hi' i hi2, hb i hi2, hd]
    ring
  have e2 : ∀ i, i < n → vec i - vb i = (1 - s) * d i := by
    intro i hi2
    rw [hb i hi2, hd]
    ring
  have loop : upLoop 0 n (fun i (r : ℝ × ℝ) =>
      let h := r.1 + (vb i - vi i) * (vb i - vi i)
      (h, r.2 + (vec i - vb i) * (vec i - vb i))) (0, 0) =
      ((1 / 10 ^ 6 * s) ^ 2 * ∑ i ∈ range n, d i ^ 2, (1 - s) ^ 2 * ∑ i ∈ range n, d i ^ 2) := by
    refine upLoop_inv (Nat.zero_le n) (fun m r => r = ((1 / 10 ^ 6 * s) ^ 2 * ∑ i ∈ range m, d i ^ 2,
      (1 - s) ^ 2 * ∑ i ∈ range m, d i ^ 2)) (by simp) ?_
    rintro j r _ hj rfl
    dsimp only
    rw [e1 j hj, e2 j hj, sum_range_succ]
    refine Prod.ext ?_ ?_
    · dsimp only; ring
    · dsimp only; ring
  have hD : 0 < ∑ i ∈ range n, d i ^ 2 := by
    refine sum_pos' (fun i _ => sq_nonneg _) ?_
    unfold Spec.InRange at hout
    push Not at hout
    obtain ⟨i, hi2, h⟩ := hout
    refine ⟨i, mem_range.mpr hi2, ?_⟩
    have hne : d i ≠ 0 := by
      intro h0
      have hv : vec i = (hi i + lo i) / 2 := by
        have : vec i - Spec.centre hi lo i = 0 := h0
        unfold Spec.centre at this
        linarith
      have hw := hlh i hi2
      have := h (by linarith)
      linarith
    positivity
  intro i hi2
  unfold getFvecByLininterp
  dsimp only
  rw [loop, setLoop_eq, if_pos hi2]
  dsimp only
  rw [Real.sqrt_mul (sq_nonneg _), Real.sqrt_mul (sq_nonneg _), Real.sqrt_sq (by positivity),
    Real.sqrt_sq (by linarith)]
  have hr : 0 < Real.sqrt (∑ i ∈ range n, d i ^ 2) := Real.sqrt_pos.mpr hD
  generalize Real.sqrt (∑ i ∈ range n, d i ^ 2) = r at hr
  have f1 : F vb i - F vi i = 1 / 10 ^ 6 * s * ∑ c ∈ range n, A i c * d c := by
    rw [hF _ i hi2, hF _ i hi2, mul_sum, add_sub_add_right_eq_sub, ← sum_sub_distrib]
    exact sum_congr rfl fun c hc => by rw [← mul_sub, e1 c (mem_range.mp hc)]; ring
  have f2 : F vec i - F vb i = (1 - s) * ∑ c ∈ range n, A i c * d c := by
    rw [hF _ i hi2, hF _ i hi2, mul_sum, add_sub_add_right_eq_sub, ← sum_sub_distrib]
    exact sum_congr rfl fun c hc => by rw [← mul_sub, e2 c (mem_range.mp hc)]; ring
  rw [f1]
  have : F vec i = F vb i + (1 - s) * ∑ c ∈ range n, A i c * d c := by linarith
  rw [this]
  field_simp

/-! ### Example: the point `(3,1)` and the unit square around the origin -/

example : Spec.FirstInside 2 (fun i => if i = 0 then 1 / 2 else 3) (fun _ => 1) (fun _ => -1) :=
  ⟨0, by omega, by omega, by norm_num [Spec.centre], by norm_num, by norm_num⟩

example : ¬Spec.FirstInside 2 (fun i => if i = 0 then 3 else 1) (fun _ => 1) (fun _ => -1) := by
  rintro ⟨j, hj, h1, h2, h3, h4⟩
  obtain rfl | rfl : j = 0 ∨ j = 1 := by omega
  · norm_num at h4
  · have := h1 0 (by omega)
    norm_num [Spec.centre] at this

end

end Sgrid
