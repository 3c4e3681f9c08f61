import Mathlib.Algebra.Order.Field.Rat
import Verif.Model.Filters
import Verif.Props.Box3d
import Verif.Props.StdBox
import Verif.Props.InPlane

/-!
# C107: filters of evolved variables
-/

namespace Sgrid
open Finset

section generic
variable {K : Type} [Field K] (g : Nat → (Nat → K) × (Nat → K) × (Nat → K))

open Classical in
/-- `u'` is what a filter makes out of `u`: with the coefficients `T` those in `keep` are kept and all others are
zero; and if there is nothing to remove the values stay as they are. -/
def Spec.Filtered (d : Dims) (T : (Nat → Nat → Nat → K) → Nat → Nat → Nat → K) (keep : Nat → Nat → Nat → Prop)
    (u u' : Nat → Nat → Nat → K) : Prop :=
  (∀ i j k, Spec.inBox d i j k → T u' i j k = if keep i j k then T u i j k else 0) ∧
  ((∀ i j k, Spec.inBox d i j k → ¬ keep i j k → T u i j k = 0) →
    ∀ i j k, Spec.inBox d i j k → u' i j k = u i j k)

/-- Boxes for which the transforms in every direction are linear and inverse to each other. -/
def Spec.GoodBox (b : LBox K) : Prop := (∀ ax, BoxLinear b ax) ∧ EvalCoeffs b ∧ CoeffsEval b

/-- The coefficients in one direction. -/
def Spec.coeffs1 (b : LBox K) (ax : Axis) (u : Nat → Nat → Nat → K) : Nat → Nat → Nat → K :=
  Spec.onLines ax (coeffsOp b ax) u

/-- **C107.** A filter that is applied twice does the same as if it is applied once. -/
theorem C107_idempotent {d : Dims} {T : (Nat → Nat → Nat → K) → Nat → Nat → Nat → K} {keep : Nat → Nat → Nat → Prop}
    {u u' u'' : Nat → Nat → Nat → K} (h : Spec.Filtered d T keep u u') (h' : Spec.Filtered d T keep u' u'') :
    ∀ i j k, Spec.inBox d i j k → u'' i j k = u' i j k :=
  h'.2 fun i j k hb hk => by rw [h.1 i j k hb, if_neg hk]

open Classical in
/-- From transforms in both directions. -/
theorem filtered_of {d : Dims} {T E : (Nat → Nat → Nat → K) → Nat → Nat → Nat → K} {keep : Nat → Nat → Nat → Prop}
    (hT : ∀ c c', (∀ i j k, Spec.inBox d i j k → c i j k = c' i j k) →
      ∀ i j k, Spec.inBox d i j k → T c i j k = T c' i j k)
    (hE : ∀ c c', (∀ i j k, Spec.inBox d i j k → c i j k = c' i j k) →
      ∀ i j k, Spec.inBox d i j k → E c i j k = E c' i j k)
    (hTE : ∀ c i j k, Spec.inBox d i j k → T (E c) i j k = c i j k)
    (hET : ∀ c i j k, Spec.inBox d i j k → E (T c) i j k = c i j k) {u u' : Nat → Nat → Nat → K}
    (h : ∀ i j k, Spec.inBox d i j k → u' i j k = E (fun i j k => if keep i j k then T u i j k else 0) i j k) :
    Spec.Filtered d T keep u u' := by
  refine ⟨fun i j k hb => ?_, fun hz i j k hb => ?_⟩
  · rw [hT _ _ h i j k hb, hTE _ i j k hb]
  · rw [h i j k hb, hE _ (T u) (fun i j k hb => ?_) i j k hb, hET u i j k hb]
    split
    · rfl
    · rename_i hk
      exact (hz i j k hb hk).symm

/-! ## Loops that remove coefficients -/

/-- `cutX` at a point of the box. -/
theorem cutX_at {d : Dims} (icut : Nat) (c : Nat → K) {i j k : Nat} (hb : Spec.inBox d i j k) :
    cutX d icut c (d.idx i j k) = if i < icut then c (d.idx i j k) else 0 := by
  unfold cutX
  rw [zeroBlock_at (le_refl _) (le_refl _) _ hb]
  obtain ⟨h1, h2, h3⟩ := hb
  by_cases hi : i < icut
  · rw [if_neg (by omega), if_pos hi]
  · rw [if_pos (by omega), if_neg hi]

/-- The three blocks of `filter_with2o3rule_inXYZ`. -/
theorem cutXYZ_at {d : Dims} (c : Nat → K) {i j k : Nat} (hb : Spec.inBox d i j k) :
    zeroBlock d (d.n3 / 3 * 2) d.n3 0 (d.n2 / 3 * 2 + 1) 0 (d.n1 / 3 * 2 + 1)
      (zeroBlock d 0 d.n3 (d.n2 / 3 * 2) d.n2 0 (d.n1 / 3 * 2 + 1)
        (zeroBlock d 0 d.n3 0 d.n2 (d.n1 / 3 * 2) d.n1 c)) (d.idx i j k) =
      if i < d.n1 / 3 * 2 ∧ j < d.n2 / 3 * 2 ∧ k < d.n3 / 3 * 2 then c (d.idx i j k) else 0 := by
  have hb' := hb
  obtain ⟨h1, h2, h3⟩ := hb'
  have l1 : d.n1 / 3 * 2 + 1 ≤ d.n1 := by omega
  have l2 : d.n2 / 3 * 2 + 1 ≤ d.n2 := by omega
  rw [zeroBlock_at l1 l2 _ hb, zeroBlock_at l1 (le_refl _) _ hb, zeroBlock_at (le_refl _) (le_refl _) _ hb]
  by_cases c1 : i < d.n1 / 3 * 2
  · by_cases c2 : j < d.n2 / 3 * 2
    · by_cases c3 : k < d.n3 / 3 * 2
      · rw [if_neg (by omega), if_neg (by omega), if_neg (by omega), if_pos ⟨c1, c2, c3⟩]
      · rw [if_pos (by omega), if_neg (by omega)]
    · rw [if_neg (c := _ ∧ _ ∧ _) (by omega : ¬ (i < d.n1 / 3 * 2 ∧ j < d.n2 / 3 * 2 ∧ k < d.n3 / 3 * 2))]
      split
      · rfl
      · rw [if_pos (by omega)]
  · rw [if_neg (by omega : ¬ (i < d.n1 / 3 * 2 ∧ j < d.n2 / 3 * 2 ∧ k < d.n3 / 3 * 2))]
    split
    · rfl
    · split
      · rfl
      · rw [if_pos (by omega)]

/-- `killLoop` at a point of the box. -/
theorem killLoop_at {d : Dims} (kill : Nat → Nat → Nat → Prop) [∀ i j k, Decidable (kill i j k)] (c : Nat → K)
    {i j k : Nat} (hb : Spec.inBox d i j k) :
    killLoop d kill c (d.idx i j k) = if kill i j k then 0 else c (d.idx i j k) := by
  have hz : ∀ p, ((∃ k, 0 ≤ k ∧ k < d.n3 ∧ ∃ j, 0 ≤ j ∧ j < d.n2 ∧ ∃ i, 0 ≤ i ∧ i < d.n1 ∧ (kill i j k ∧ p = d.idx i j k)) →
      killLoop d kill c p = 0) ∧
      ((∀ k, 0 ≤ k → k < d.n3 → ¬ ∃ j, 0 ≤ j ∧ j < d.n2 ∧ ∃ i, 0 ≤ i ∧ i < d.n1 ∧ (kill i j k ∧ p = d.idx i j k)) →
      killLoop d kill c p = c p) := by
    intro p
    unfold killLoop
    refine upLoop_set 0 (fun k p => ∃ j, 0 ≤ j ∧ j < d.n2 ∧ ∃ i, 0 ≤ i ∧ i < d.n1 ∧ (kill i j k ∧ p = d.idx i j k))
      (fun k v p => ?_) c p
    have hj := upLoop_set 0 (fun j p => ∃ i, 0 ≤ i ∧ i < d.n1 ∧ (kill i j k ∧ p = d.idx i j k)) (lo := 0) (hi := d.n2)
      (body := fun j c => upLoop 0 d.n1 (fun i c => if kill i j k then aset c (d.idx i j k) 0 else c) c)
      (fun j v p => by
        have hi := upLoop_set 0 (fun i p => kill i j k ∧ p = d.idx i j k) (lo := 0) (hi := d.n1)
          (body := fun i c => if kill i j k then aset c (d.idx i j k) (0 : K) else c) (fun i v p => by
            by_cases hk : kill i j k
            · simp only [if_pos hk]
              exact ⟨fun h => by rw [h.2, aset_self], fun h => aset_ne _ _ fun e => h ⟨hk, e⟩⟩
            · simp only [if_neg hk]
              exact ⟨fun h => absurd h.1 hk, fun _ => trivial⟩) v p
        exact ⟨hi.1, fun h => hi.2 fun i h1 h2 h3 => h ⟨i, h1, h2, h3⟩⟩) v p
    exact ⟨hj.1, fun h => hj.2 fun j h1 h2 h3 => h ⟨j, h1, h2, h3⟩⟩
  split
  · rename_i hk
    exact (hz _).1 ⟨k, Nat.zero_le _, hb.2.2, j, Nat.zero_le _, hb.2.1, i, Nat.zero_le _, hb.1, hk, rfl⟩
  · rename_i hk
    refine (hz _).2 ?_
    rintro k' - hk1 ⟨j', -, hj1, i', -, hi1, hkill, e⟩
    obtain ⟨rfl, rfl, rfl⟩ := idx_inj hb.1 hi1 hb.2.1 hj1 e
    exact hk hkill

/-- `cutPhi` at a point of the box. -/
theorem cutPhi_at {d : Dims} (ks : Nat → Nat) (c : Nat → K) {i j k : Nat} (hb : Spec.inBox d i j k) :
    cutPhi d ks c (d.idx i j k) = if k < ks j then c (d.idx i j k) else 0 := by
  have hz : ∀ p, ((∃ j, 0 ≤ j ∧ j < d.n2 ∧ ∃ k, ks j ≤ k ∧ k < d.n3 ∧ ∃ i, 0 ≤ i ∧ i < d.n1 ∧ p = d.idx i j k) →
      cutPhi d ks c p = 0) ∧
      ((∀ j, 0 ≤ j → j < d.n2 → ¬ ∃ k, ks j ≤ k ∧ k < d.n3 ∧ ∃ i, 0 ≤ i ∧ i < d.n1 ∧ p = d.idx i j k) →
      cutPhi d ks c p = c p) := by
    intro p
    unfold cutPhi
    refine upLoop_set 0 (fun j p => ∃ k, ks j ≤ k ∧ k < d.n3 ∧ ∃ i, 0 ≤ i ∧ i < d.n1 ∧ p = d.idx i j k)
      (fun j v p => ?_) c p
    by_cases hks : ks j ≥ d.n3
    · simp only [if_pos hks]
      exact ⟨by rintro ⟨k, h1, h2, -⟩; omega, fun _ => trivial⟩
    · simp only [if_neg hks]
      have hj := upLoop_set 0 (fun k p => ∃ i, 0 ≤ i ∧ i < d.n1 ∧ p = d.idx i j k) (lo := ks j) (hi := d.n3)
        (body := fun k c => upLoop 0 d.n1 (fun i c => aset c (d.idx i j k) 0) c) (fun k v p => by
          have hi := upLoop_set 0 (fun i p => p = d.idx i j k) (lo := 0) (hi := d.n1)
            (body := fun i c => aset c (d.idx i j k) (0 : K)) (fun i v p =>
              ⟨fun h => by rw [h, aset_self], fun h => aset_ne _ _ h⟩) v p
          exact ⟨hi.1, fun h => hi.2 fun i h1 h2 h3 => h ⟨i, h1, h2, h3⟩⟩) v p
      exact ⟨hj.1, fun h => hj.2 fun j h1 h2 h3 => h ⟨j, h1, h2, h3⟩⟩
  split
  · rename_i hk
    refine (hz _).2 ?_
    rintro j' - hj1 ⟨k', hk0, hk1, i', -, hi1, e⟩
    obtain ⟨rfl, rfl, rfl⟩ := idx_inj hb.1 hi1 hb.2.1 hj1 e
    omega
  · rename_i hk
    exact (hz _).1 ⟨j, Nat.zero_le _, hb.2.1, k, by omega, hb.2.2, i, Nat.zero_le _, hb.1, rfl⟩

/-! ## Work on one variable -/

/-- What a filter of one variable does: `v` is filtered, `t` may be anything, the rest is unchanged. -/
def Spec.FiltersVar (b : LBox K) (T : (Nat → Nat → Nat → K) → Nat → Nat → Nat → K) (keep : Nat → Nat → Nat → Prop)
    (t v : Nat) (mem mem' : Arrays K) : Prop :=
  Spec.Filtered b.d T keep (Spec.view b.d mem v) (Spec.view b.d mem' v) ∧
  ∀ a p, a ≠ t → a ≠ v ∨ b.d.n1 * b.d.n2 * b.d.n3 ≤ p → mem' a p = mem a p

open Classical in
/-- Analysis in one direction, removal, synthesis. -/
theorem filter1_spec (b : LBox K) (h : Spec.GoodBox b) (ax : Axis) (t v : Nat) (mem : Arrays K) (c' : Nat → K)
    (keep : Nat → Nat → Nat → Prop)
    (hc : ∀ i j k, Spec.inBox b.d i j k → c' (b.d.idx i j k) =
      if keep i j k then specAnalysis1 g b ax v t mem t (b.d.idx i j k) else 0) :
    Spec.FiltersVar b (Spec.coeffs1 b ax) keep t v mem
      (specSynthesis1 g b ax v t (aset (specAnalysis1 g b ax v t mem) t c')) := by
  obtain ⟨hl, hec, hce⟩ := h
  have ha := C41_analysis g b ax (hl ax) v t mem
  have hs := C41_synthesis g b ax (hl ax) v t (aset (specAnalysis1 g b ax v t mem) t c')
  refine ⟨filtered_of (E := Spec.onLines ax (evalOp b ax)) (fun c c' e => along_congr (coeffsOp_local (hl ax)) e)
    (fun c c' e => along_congr (evalOp_local (hl ax)) e) (fun c => along_inverse (hce ax) c)
    (fun c => along_inverse (hec ax) c) (fun i j k hb => ?_), fun a p hat hap => ?_⟩
  · rw [hs.1 i j k hb]
    refine along_congr (evalOp_local (hl ax)) (fun i j k hb => ?_) i j k hb
    change aset (specAnalysis1 g b ax v t mem) t c' t (b.d.idx i j k) = _
    rw [aset_self, hc i j k hb]
    split
    · exact ha.1 i j k hb
    · rfl
  · rw [hs.2 a p hap, aset_ne _ _ hat, ha.2 a p (Or.inl hat)]

/-- `spec_Eval` in terms of coefficients. -/
theorem specEval_eq (b : LBox K) (h : ∀ ax, BoxLinear b ax) (v c : Nat) (mem : Arrays K) :
    (∀ i j k, Spec.inBox b.d i j k →
      Spec.view b.d (specEval g b v c mem) v i j k = eval3 b (Spec.view b.d mem c) i j k) ∧
    ∀ a p, a ≠ v ∨ b.d.n1 * b.d.n2 * b.d.n3 ≤ p → specEval g b v c mem a p = mem a p := by
  unfold specEval
  have h1 := C41_synthesis g b .one (h .one) v c mem
  have h2 := C41_synthesis g b .two (h .two) v v (specSynthesis1 g b .one v c mem)
  have h3 := C41_synthesis g b .three (h .three) v v (specSynthesis1 g b .two v v (specSynthesis1 g b .one v c mem))
  refine ⟨fun i j k hb => ?_, fun a p hap => by rw [h3.2 a p hap, h2.2 a p hap, h1.2 a p hap]⟩
  have le := fun ax => evalOp_local (h ax)
  have ee := fun ax => evalOp_isMat (h ax)
  rw [h3.1 i j k hb, along_congr (le .three) h2.1 i j k hb,
    along_congr (le .three) (along_congr (le .two) h1.1) i j k hb]
  unfold eval3
  rw [along_congr (le .three) (fun i j k hb => along_comm (by decide) (ee .two) (ee .one) _ i j k hb) i j k hb,
    along_comm (by decide) (ee .three) (ee .one) _ i j k hb]
  exact along_congr (le .one) (fun i j k hb => along_comm (by decide) (ee .three) (ee .two) _ i j k hb) i j k hb

open Classical in
/-- Analysis in all directions, removal, synthesis. -/
theorem filter3_spec (b : LBox K) (h : Spec.GoodBox b) (t v : Nat) (mem mem1 : Arrays K)
    (keep : Nat → Nat → Nat → Prop) (hm : ∀ a, a ≠ t → mem1 a = specCoeffs g b v t mem a)
    (hc : ∀ i j k, Spec.inBox b.d i j k → mem1 t (b.d.idx i j k) =
      if keep i j k then specCoeffs g b v t mem t (b.d.idx i j k) else 0) :
    Spec.FiltersVar b (coeffs3 b) keep t v mem (specEval g b v t mem1) := by
  obtain ⟨hl, hec, hce⟩ := h
  have ha := specCoeffs_eq g b hl v t mem
  have hs := specEval_eq g b hl v t mem1
  refine ⟨filtered_of (E := eval3 b) (fun c c' e => coeffs3_congr hl e) (fun c c' e => eval3_congr hl e)
    (coeffs3_eval3 hl hce) (eval3_coeffs3 hl hec) (fun i j k hb => ?_), fun a p hat hap => ?_⟩
  · rw [hs.1 i j k hb]
    refine eval3_congr hl (fun i j k hb => ?_) i j k hb
    change mem1 t (b.d.idx i j k) = _
    rw [hc i j k hb]
    split
    · exact ha.1 i j k hb
    · rfl
  · rw [hs.2 a p hap, hm a hat, ha.2 a p (Or.inl hat)]

/-- **C107.** The 2/3 rule in X: what is left are the coefficients in direction 1 with `i < 2(n1/3)`. -/
theorem C107_23X (b : LBox K) (h : Spec.GoodBox b) (t v : Nat) (mem : Arrays K) :
    Spec.FiltersVar b (Spec.coeffs1 b .one) (fun i _ _ => i < 2 * (b.d.n1 / 3)) t v mem (filter23X g b t v mem) := by
  unfold filter23X
  refine filter1_spec g b h .one t v mem _ _ fun i j k hb => ?_
  rw [cutX_at _ _ hb, Nat.mul_comm]
  split_ifs <;> rfl

/-- **C107.** The 2/3 rule in X with one coefficient less: `2(n1/3)-1` coefficients are left, an odd number, or none. -/
theorem C107_23Xminus1 (b : LBox K) (h : Spec.GoodBox b) (t v : Nat) (mem : Arrays K) :
    Spec.FiltersVar b (Spec.coeffs1 b .one) (fun i _ _ => i + 1 < 2 * (b.d.n1 / 3)) t v mem
      (filter23Xminus1 g b t v mem) ∧
    (3 ≤ b.d.n1 → ∃ m, Odd m ∧ ∀ i, i + 1 < 2 * (b.d.n1 / 3) ↔ i < m) := by
  constructor
  · unfold filter23Xminus1
    refine filter1_spec g b h .one t v mem _ _ fun i j k hb => ?_
    rw [cutX_at _ _ hb]
    have : (i < (if ((b.d.n1 / 3 * 2 : Nat) : Int) - 1 < 0 then 0 else ((b.d.n1 / 3 * 2 : Nat) : Int) - 1).toNat) ↔
        i + 1 < 2 * (b.d.n1 / 3) := by
      split <;> omega
    simp only [this]
    split_ifs <;> rfl
  · intro h3
    refine ⟨2 * (b.d.n1 / 3 - 1) + 1, ⟨_, rfl⟩, fun i => by omega⟩

/-- **C107.** The 2/3 rule in all directions: what is left are the coefficients with `i < 2(n1/3)`, `j < 2(n2/3)` and
`k < 2(n3/3)`. -/
theorem C107_23XYZ (b : LBox K) (h : Spec.GoodBox b) (t v : Nat) (mem : Arrays K) :
    Spec.FiltersVar b (coeffs3 b) (fun i j k => i < 2 * (b.d.n1 / 3) ∧ j < 2 * (b.d.n2 / 3) ∧ k < 2 * (b.d.n3 / 3)) t v
      mem (filter23XYZ g b t v mem) := by
  unfold filter23XYZ
  refine filter3_spec g b h t v mem _ _ (fun a ha => by simp only [aset_ne _ _ ha]) fun i j k hb => ?_
  simp only [aset_self]
  rw [cutXYZ_at _ hb]
  simp only [Nat.mul_comm]
  split_ifs <;> rfl

/-- **C107.** Removal of the coefficients with a property. -/
theorem C107_kill (b : LBox K) (h : Spec.GoodBox b) (kill : Nat → Nat → Nat → Prop) [∀ i j k, Decidable (kill i j k)]
    (t v : Nat) (mem : Arrays K) :
    Spec.FiltersVar b (coeffs3 b) (fun i j k => ¬ kill i j k) t v mem (filterKill g b kill t v mem) := by
  unfold filterKill
  refine filter3_spec g b h t v mem _ _ (fun a ha => by simp only [aset_ne _ _ ha]) fun i j k hb => ?_
  simp only [aset_self]
  rw [killLoop_at _ _ hb]
  by_cases hk : kill i j k
  · rw [if_pos hk, if_neg (not_not.2 hk)]
  · rw [if_neg hk, if_pos hk]

/-- **C107.** The filters for spherical coordinates keep the coefficients with `k < ks j`. -/
theorem C107_phi (b : LBox K) (h : Spec.GoodBox b) (ks : Arrays K → Nat → Nat) (t v : Nat) (mem : Arrays K)
    (hks : ∀ mem', (∀ a, a ≠ t → mem' a = mem a) → ks mem' = ks mem) :
    Spec.FiltersVar b (Spec.coeffs1 b .three) (fun _ j k => k < ks mem j) t v mem (filterPhi g b ks t v mem) := by
  unfold filterPhi
  refine filter1_spec g b h .three t v mem _ _ fun i j k hb => ?_
  rw [cutPhi_at _ _ hb, hks _ fun a ha => funext fun p => (C41_analysis g b .three (h.1 .three) v t mem).2 a p (Or.inl ha)]
  split_ifs <;> rfl

/-- **C107.** The old filters multiply by the filter matrices along all three directions. -/
theorem C107_old (b : LBox K) (v : Nat) (mem : Arrays K) :
    (∀ i j k, Spec.inBox b.d i j k → Spec.view b.d (filterOld b v mem) v i j k =
      ∑ n ∈ range b.d.n3, b.F .three (b.d.n3 * k + n) * ∑ m ∈ range b.d.n2, b.F .two (b.d.n2 * j + m) *
        ∑ l ∈ range b.d.n1, b.F .one (b.d.n1 * i + l) * Spec.view b.d mem v l m n) ∧
    ∀ a p, a ≠ v ∨ b.d.n1 * b.d.n2 * b.d.n3 ≤ p → filterOld b v mem a p = mem a p := by
  unfold filterOld
  have h1 := C41_filter1 b .one v mem
  have h2 := C41_filter1 b .two v (specFilter1 b .one v mem)
  have h3 := C41_filter1 b .three v (specFilter1 b .two v (specFilter1 b .one v mem))
  refine ⟨fun i j k hb => ?_, fun a p hap => by rw [h3.2 a p hap, h2.2 a p hap, h1.2 a p hap]⟩
  rw [h3.1 i j k hb, along_congr (matOp_local _ _) h2.1 i j k hb,
    along_congr (matOp_local _ _) (along_congr (matOp_local _ _) h1.1) i j k hb]
  rfl

/-! ## All boxes and variables -/

omit [Field K] in
/-- The variables in one box. `I` says what is known about the memory that is not filtered. -/
theorem varsLoop (d : Dims) (Rel : (Nat → Nat → Nat → K) → (Nat → Nat → Nat → K) → Prop) (t : Nat)
    (work : Nat → Arrays K → Arrays K) (all : List Nat) (htall : t ∉ all) (I : Arrays K → Prop)
    (hI : ∀ mem mem', I mem → (∀ a, a ∉ all → a ≠ t → mem' a = mem a) → I mem')
    (hwork : ∀ v ∈ all, ∀ mem, I mem → Rel (Spec.view d mem v) (Spec.view d (work v mem) v) ∧
      ∀ a p, a ≠ t → a ≠ v ∨ d.n1 * d.n2 * d.n3 ≤ p → work v mem a p = mem a p)
    (vars : List Nat) (hsub : ∀ v ∈ vars, v ∈ all) (hnd : vars.Nodup) (m : Arrays K) (h0 : I m) :
    let m' := vars.foldl (fun mb v => work v mb) m
    (∀ v ∈ vars, Rel (Spec.view d m v) (Spec.view d m' v)) ∧
    ∀ a p, a ≠ t → a ∉ vars ∨ d.n1 * d.n2 * d.n3 ≤ p → m' a p = m a p := by
  induction vars generalizing m with
  | nil => exact ⟨by simp, fun _ _ _ _ => rfl⟩
  | cons v vars ih =>
    rw [List.nodup_cons] at hnd
    have hv := hwork v (hsub v (by simp)) m h0
    have hne : ∀ w ∈ v :: vars, w ≠ t := fun w hw e => htall (e ▸ hsub w hw)
    have hI1 : I (work v m) := hI m _ h0 fun a ha hat => funext fun p =>
      hv.2 a p hat (Or.inl fun e => ha (e ▸ hsub v (by simp)))
    have := ih (fun w hw => hsub w (by simp [hw])) hnd.2 (work v m) hI1
    refine ⟨fun w hw => ?_, fun a p hat ha => ?_⟩
    · rcases List.mem_cons.1 hw with rfl | hw'
      · have e : (vars.foldl (fun mb v => work v mb) (work w m)) w = work w m w :=
          funext fun p => this.2 w p (hne w (by simp)) (Or.inl hnd.1)
        change Rel _ (fun i j k => vars.foldl (fun mb v => work v mb) (work w m) w (d.idx i j k))
        rw [e]
        exact hv.1
      · have e : work v m w = m w → Spec.view d (work v m) w = Spec.view d m w := fun e => by
          unfold Spec.view; rw [e]
        rw [← e (funext fun p => hv.2 w p (hne w hw) (Or.inl fun e => hnd.1 (e ▸ hw')))]
        exact this.1 w hw'
    · rw [List.foldl_cons, this.2 a p hat (ha.imp (fun h => fun h' => h (by simp [h'])) id)]
      exact hv.2 a p hat (ha.imp (fun h e => h (by simp [e])) id)

omit [Field K] in
/-- **C107.** Every active box and every variable of the list is worked on once; the other variables and boxes are not
changed. -/
theorem C107_grid (d : Nat → Dims) (Rel : Nat → (Nat → Nat → Nat → K) → (Nat → Nat → Nat → K) → Prop) (t nboxes : Nat)
    (on : Nat → Bool) (work : Nat → Nat → Arrays K → Arrays K) (vars : List Nat) (hnd : vars.Nodup) (ht : t ∉ vars)
    (I : Nat → Arrays K → Prop)
    (hI : ∀ b mem mem', I b mem → (∀ a, a ∉ vars → a ≠ t → mem' a = mem a) → I b mem')
    (hwork : ∀ b, b < nboxes → on b = true → ∀ v ∈ vars, ∀ mem, I b mem →
      Rel b (Spec.view (d b) mem v) (Spec.view (d b) (work b v mem) v) ∧
      ∀ a p, a ≠ t → a ≠ v ∨ (d b).n1 * (d b).n2 * (d b).n3 ≤ p → work b v mem a p = mem a p)
    (m : Nat → Arrays K) (h0 : ∀ b, I b (m b)) :
    let m' := filterGrid nboxes on work vars m
    (∀ b, b < nboxes → on b = true → ∀ v ∈ vars, Rel b (Spec.view (d b) (m b) v) (Spec.view (d b) (m' b) v)) ∧
    (∀ b a p, a ≠ t → a ∉ vars ∨ (d b).n1 * (d b).n2 * (d b).n3 ≤ p → m' b a p = m b a p) ∧
    ∀ b, nboxes ≤ b ∨ on b = false → m' b = m b := by
  intro m'
  have hm : ∀ b, m' b = if b ∈ List.range nboxes ∧ on b = true then vars.foldl (fun mb v => work b v mb) (m b)
      else m b := fun b => foldBoxes on (fun b mb => vars.foldl (fun mb v => work b v mb) mb) _ List.nodup_range m b
  have hv : ∀ b, b < nboxes → on b = true → _ := fun b hb ho =>
    varsLoop (d b) (Rel b) t (work b) vars ht (I b) (hI b) (hwork b hb ho) vars (fun _ h => h) hnd (m b) (h0 b)
  refine ⟨fun b hb ho => ?_, fun b a p hat ha => ?_, fun b hb => ?_⟩
  · rw [hm b, if_pos ⟨List.mem_range.2 hb, ho⟩]
    exact (hv b hb ho).1
  · rw [hm b]
    split
    · rename_i h
      exact (hv b (List.mem_range.1 h.1) h.2).2 a p hat ha
    · rfl
  · rw [hm b, if_neg]
    rintro ⟨h1, h2⟩
    rw [List.mem_range] at h1
    rcases hb with h | h
    · omega
    · rw [h] at h2; cases h2

end generic

/-- **C107.** The boxes of sgrid are boxes as required: for all bases, with the FFT or with matrices. -/
theorem C107_std (D : Axis → BDir) (hD : ∀ ax, (D ax).good) (fft : Axis → Bool) (W F : Axis → Nat → ℝ) :
    Spec.GoodBox (stdBox D fft W F) :=
  ⟨stdBox_linear D fft W F, stdBox_evalCoeffs D hD fft W F, stdBox_coeffsEval D hD fft W F⟩

variable (g : Nat → (Nat → ℝ) × (Nat → ℝ) × (Nat → ℝ))

/-! ## Spherical coordinates -/

/-- **C107.** `ks`: kept are exactly the modes with `m ≤ (n3/2)|s|`, where coefficient `k` belongs to
`m = (k+1)/2`. -/
theorem C107_modes (n3 : Nat) (s : ℝ) (k : Nat) :
    k < ksOf n3 s ↔ (((k + 1) / 2 : Nat) : ℝ) ≤ ((n3 / 2 : Nat) : ℝ) * |s| := by
  rw [← Nat.le_floor_iff (by positivity)]
  unfold ksOf
  dsimp only
  omega

/-- **C107.** The sine of the polar angle is the distance from the axis divided by the radius. -/
theorem C107_sin (x y z : ℝ) (h : 0 < x * x + y * y + z * z) :
    Real.sin (Real.arccos (z / Real.sqrt (x * x + y * y + z * z))) =
      Real.sqrt (x ^ 2 + y ^ 2) / Real.sqrt (x ^ 2 + y ^ 2 + z ^ 2) := by
  rw [Real.sin_arccos, show x * x + y * y + z * z = x ^ 2 + y ^ 2 + z ^ 2 by ring] at *
  rw [div_pow, Real.sq_sqrt h.le, ← Real.sqrt_div (by positivity)]
  congr 1
  field_simp
  ring

/-- What `coordinateDependentFilter` keeps in a box: `m ≤ (n3/2) sin(theta)` with the angle at the point with index
`j`, the first index of the other directions. -/
def Spec.phiKeep (d : Dims) (kind : SphKind) (Y x y z : Nat → ℝ) (_i j k : Nat) : Prop :=
  let p := d.idx 0 j 0
  match kind with
  | .df => (((k + 1) / 2 : Nat) : ℝ) ≤ ((d.n3 / 2 : Nat) : ℝ) *
      |Real.sin (Y p + Real.pi / ((if d.n2 % 2 = 0 then d.n2 else 2 * d.n2 : Nat) : ℝ))|
  | .sph => (((k + 1) / 2 : Nat) : ℝ) ≤ ((d.n3 / 2 : Nat) : ℝ) *
      (Real.sqrt (x p ^ 2 + y p ^ 2) / Real.sqrt (x p ^ 2 + y p ^ 2 + z p ^ 2))
  | .other => True

/-- **C107.** `coordinateDependentFilter` on the grid. -/
theorem C107_coord (nboxes : Nat) (on : Nat → Bool) (box : Nat → LBox ℝ) (hbox : ∀ b, Spec.GoodBox (box b))
    (kind : Nat → SphKind) (id : FiltIds) (vars : List Nat) (hnd : vars.Nodup) (ht : id.t ∉ vars)
    (hY : id.Y ∉ vars ∧ id.Y ≠ id.t) (hx : id.x ∉ vars ∧ id.x ≠ id.t) (hy : id.y ∉ vars ∧ id.y ≠ id.t)
    (hz : id.z ∉ vars ∧ id.z ≠ id.t) (m : Nat → Arrays ℝ)
    (hr : ∀ b j, kind b = .sph → j < (box b).d.n2 → 0 < m b id.x ((box b).d.idx 0 j 0) * m b id.x ((box b).d.idx 0 j 0) +
      m b id.y ((box b).d.idx 0 j 0) * m b id.y ((box b).d.idx 0 j 0) +
      m b id.z ((box b).d.idx 0 j 0) * m b id.z ((box b).d.idx 0 j 0)) :
    let m' := coordFilter g nboxes on box kind id vars m
    (∀ b, b < nboxes → on b = true → ∀ v ∈ vars, Spec.Filtered (box b).d (Spec.coeffs1 (box b) .three)
      (Spec.phiKeep (box b).d (kind b) (m b id.Y) (m b id.x) (m b id.y) (m b id.z))
      (Spec.view (box b).d (m b) v) (Spec.view (box b).d (m' b) v)) ∧
    (∀ b a p, a ≠ id.t → a ∉ vars ∨ (box b).d.n1 * (box b).d.n2 * (box b).d.n3 ≤ p → m' b a p = m b a p) ∧
    ∀ b, nboxes ≤ b ∨ on b = false → m' b = m b := by
  refine C107_grid (fun b => (box b).d) (fun b u u' => Spec.Filtered (box b).d (Spec.coeffs1 (box b) .three)
      (Spec.phiKeep (box b).d (kind b) (m b id.Y) (m b id.x) (m b id.y) (m b id.z)) u u') id.t nboxes on _ vars hnd ht
    (fun b mem => mem id.Y = m b id.Y ∧ mem id.x = m b id.x ∧ mem id.y = m b id.y ∧ mem id.z = m b id.z)
    (fun b mem mem' h he => ?_) (fun b hb ho v hv mem hmem => ?_) m fun b => ⟨rfl, rfl, rfl, rfl⟩
  · rw [he _ hY.1 hY.2, he _ hx.1 hx.2, he _ hy.1 hy.2, he _ hz.1 hz.2]
    exact h
  · obtain ⟨eY, ex, ey, ez⟩ := hmem
    have congrKeep : ∀ {T : (Nat → Nat → Nat → ℝ) → Nat → Nat → Nat → ℝ} {P Q : Nat → Nat → Nat → Prop} {u u'},
        (∀ i j k, Spec.inBox (box b).d i j k → (P i j k ↔ Q i j k)) → Spec.Filtered (box b).d T P u u' →
          Spec.Filtered (box b).d T Q u u' := by
      intro T P Q u u' hPQ h
      refine ⟨fun i j k hb => ?_, fun hz => h.2 fun i j k hb hk => hz i j k hb fun hq => hk ((hPQ i j k hb).2 hq)⟩
      rw [h.1 i j k hb]
      by_cases hq : Q i j k
      · rw [if_pos ((hPQ i j k hb).2 hq), if_pos hq]
      · rw [if_neg fun hp => hq ((hPQ i j k hb).1 hp), if_neg hq]
    cases hk : kind b with
    | df =>
      have h := C107_phi g (box b) (hbox b) (ksDF (box b).d id.Y) id.t v mem (fun mem' he => by
        unfold ksDF; funext j; rw [he _ hY.2])
      refine ⟨congrKeep (fun i j k _ => ?_) h.1, h.2⟩
      unfold ksDF Spec.phiKeep
      dsimp only
      rw [C107_modes, eY]
      rcases Nat.mod_two_eq_zero_or_one (box b).d.n2 with e | e
      · rw [e, if_pos rfl]; simp
      · rw [e, if_neg (by decide)]
    | sph =>
      have h := C107_phi g (box b) (hbox b) (ksSph (box b).d id.x id.y id.z) id.t v mem (fun mem' he => by
        unfold ksSph; funext j; rw [he _ hx.2, he _ hy.2, he _ hz.2])
      refine ⟨congrKeep (fun i j k hb => ?_) h.1, h.2⟩
      unfold ksSph Spec.phiKeep
      dsimp only
      rw [C107_modes, ex, ey, ez, C107_sin _ _ _ (hr b j hk hb.2.1), abs_of_nonneg (by positivity)]
    | other =>
      refine ⟨⟨fun i j k _ => (if_pos trivial).symm, fun _ _ _ _ _ => rfl⟩, fun _ _ _ _ => rfl⟩

/-! ## Filters in Y and Z -/

/-- **C107.** The last mode that is kept, for fractions that are not negative: `2 floor(frac n/2) + shift - 2`. -/
theorem C107_lastMode (frac : ℝ) (hf : 0 ≤ frac) (n : Nat) (shift : Int) :
    lastMode frac n shift = 2 * ⌊frac * n / 2⌋ + shift - 2 := by
  unfold lastMode toInt
  rw [if_neg (by push Not; positivity), show 0.5 * frac * (n : ℝ) = frac * n / 2 by ring]
  ring

/-- **C107.** What is kept: in the rectangular case `j ≤ jf` and `k ≤ kf`; in the elliptic case, if `jf` and `kf` are
not zero, the modes in an ellipse; both coefficients of a mode are treated in the same way. -/
theorem C107_region (jf kf : Int) (i j k : Nat) :
    (¬ killYZ false jf kf i j k ↔ (j : Int) ≤ jf ∧ (k : Int) ≤ kf) ∧
    (jf ≠ 0 → kf ≠ 0 → (¬ killYZ true jf kf i j k ↔
      (2 * ((j + 1) / 2 : Nat) * kf : ℝ) ^ 2 + (2 * ((k + 1) / 2 : Nat) * jf : ℝ) ^ 2 ≤ (jf * kf : ℝ) ^ 2)) ∧
    (∀ m, (killYZ true jf kf i (2 * m + 1) k ↔ killYZ true jf kf i (2 * m + 2) k) ∧
      (killYZ true jf kf i j (2 * m + 1) ↔ killYZ true jf kf i j (2 * m + 2))) := by
  refine ⟨?_, fun hj hk => ?_, fun m => ?_⟩
  · unfold killYZ
    simp only [Bool.false_eq_true, if_false]
    omega
  · unfold killYZ
    simp only [if_true, not_lt]
    have h1 : (jf : ℝ) ≠ 0 := by exact_mod_cast hj
    have h2 : (kf : ℝ) ≠ 0 := by exact_mod_cast hk
    have hp : (0 : ℝ) < (jf * kf : ℝ) ^ 2 := by positivity
    rw [← div_le_one hp]
    have e : ((2 * ((j + 1) / 2 : Nat) * kf : ℝ) ^ 2 + (2 * ((k + 1) / 2 : Nat) * jf : ℝ) ^ 2) / (jf * kf : ℝ) ^ 2 =
        ((2 * ((j + 1) / 2) : Nat) : ℝ) / jf * (((2 * ((j + 1) / 2) : Nat) : ℝ) / jf) +
        ((2 * ((k + 1) / 2) : Nat) : ℝ) / kf * (((2 * ((k + 1) / 2) : Nat) : ℝ) / kf) := by
      push_cast
      field_simp
    rw [e]
  · have e : (2 * m + 1 + 1) / 2 = (2 * m + 2 + 1) / 2 := by omega
    unfold killYZ
    rw [e]
    exact ⟨Iff.rfl, Iff.rfl⟩

/-- **C107.** `BSSN_filter_unew`: first `coordinateDependentFilter`, with the result `m1`; then in every active box and
for every variable the coefficients outside of the region are removed. -/
theorem C107_unew (nboxes : Nat) (on : Nat → Bool) (box : Nat → LBox ℝ) (hbox : ∀ b, Spec.GoodBox (box b))
    (kind : Nat → SphKind) (id : FiltIds) (q : YZPars) (vars : List Nat) (hnd : vars.Nodup) (ht : id.t ∉ vars)
    (m : Nat → Arrays ℝ) :
    let m1 := coordFilter g nboxes on box kind id vars m
    let m' := filterUnew g nboxes on box kind id q vars m
    (∀ b, b < nboxes → on b = true → ∀ v ∈ vars, Spec.Filtered (box b).d (coeffs3 (box b))
      (fun i j k => ¬ killYZ q.ellipse (lastMode q.n2frac (box b).d.n2 q.shift2)
        (lastMode q.n3frac (box b).d.n3 q.shift3) i j k)
      (Spec.view (box b).d (m1 b) v) (Spec.view (box b).d (m' b) v)) ∧
    (∀ b a p, a ≠ id.t → a ∉ vars ∨ (box b).d.n1 * (box b).d.n2 * (box b).d.n3 ≤ p → m' b a p = m1 b a p) ∧
    ∀ b, nboxes ≤ b ∨ on b = false → m' b = m1 b := by
  classical
  exact C107_grid (fun b => (box b).d) (fun b u u' => Spec.Filtered (box b).d (coeffs3 (box b))
      (fun i j k => ¬ killYZ q.ellipse (lastMode q.n2frac (box b).d.n2 q.shift2)
        (lastMode q.n3frac (box b).d.n3 q.shift3) i j k) u u') id.t nboxes on _ vars hnd ht
    (fun _ _ => True) (fun _ _ _ _ _ => trivial) (fun b _ _ v _ mem _ => C107_kill g (box b) (hbox b) _ id.t v mem)
    _ fun _ => trivial

/-! ## The choice of filters -/

/-- **C107.** With `BSSN_filter_type` equal to "X2/3", "XYZ2/3" or "X2/3-1" the variables of the list that is passed
are filtered. -/
theorem C107_choose (nboxes : Nat) (on : Nat → Bool) (box : Nat → LBox ℝ) (hbox : ∀ b, Spec.GoodBox (box b))
    (kind : Nat → SphKind) (id : FiltIds) (q : YZPars) (ylm : List Nat → Int → (Nat → Arrays ℝ) → Nat → Arrays ℝ)
    (comps : Nat → List Nat) (bssnVars vl : List Nat) (hnd : vl.Nodup) (ht : id.t ∉ vl) (m : Nat → Arrays ℝ) :
    let run sel := chooseFilters g nboxes on box kind id q ylm comps bssnVars sel vl m
    (∀ sel : FiltSel, sel.none = true → run sel = m) ∧
    run ⟨false, false, false, false, false, false, false, false, false⟩ = m ∧
    run ⟨false, false, true, false, false, false, false, false, false⟩ = coordFilter g nboxes on box kind id vl m ∧
    (∀ b, b < nboxes → on b = true → ∀ v ∈ vl,
      Spec.Filtered (box b).d (Spec.coeffs1 (box b) .one) (fun i _ _ => i < 2 * ((box b).d.n1 / 3))
        (Spec.view (box b).d (m b) v)
        (Spec.view (box b).d (run ⟨false, false, false, false, false, false, true, false, false⟩ b) v) ∧
      Spec.Filtered (box b).d (coeffs3 (box b)) (fun i j k => i < 2 * ((box b).d.n1 / 3) ∧
          j < 2 * ((box b).d.n2 / 3) ∧ k < 2 * ((box b).d.n3 / 3)) (Spec.view (box b).d (m b) v)
        (Spec.view (box b).d (run ⟨false, false, false, false, false, false, false, true, false⟩ b) v) ∧
      Spec.Filtered (box b).d (Spec.coeffs1 (box b) .one) (fun i _ _ => i + 1 < 2 * ((box b).d.n1 / 3))
        (Spec.view (box b).d (m b) v)
        (Spec.view (box b).d (run ⟨false, false, false, false, false, false, false, false, true⟩ b) v)) := by
  intro run
  refine ⟨fun sel h => ?_, rfl, rfl, fun b hb ho v hv => ⟨?_, ?_, ?_⟩⟩
  · simp only [run, chooseFilters, h, if_true]
  · exact (C107_grid (fun b => (box b).d) (fun b u u' => Spec.Filtered (box b).d (Spec.coeffs1 (box b) .one)
      (fun i _ _ => i < 2 * ((box b).d.n1 / 3)) u u') id.t nboxes on (fun b v => filter23X g (box b) id.t v) vl hnd ht
      (fun _ _ => True) (fun _ _ _ _ _ => trivial) (fun b _ _ v _ mem _ => C107_23X g (box b) (hbox b) id.t v mem)
      m fun _ => trivial).1 b hb ho v hv
  · exact (C107_grid (fun b => (box b).d) (fun b u u' => Spec.Filtered (box b).d (coeffs3 (box b))
      (fun i j k => i < 2 * ((box b).d.n1 / 3) ∧ j < 2 * ((box b).d.n2 / 3) ∧ k < 2 * ((box b).d.n3 / 3)) u u') id.t
      nboxes on (fun b v => filter23XYZ g (box b) id.t v) vl hnd ht
      (fun _ _ => True) (fun _ _ _ _ _ => trivial) (fun b _ _ v _ mem _ => C107_23XYZ g (box b) (hbox b) id.t v mem)
      m fun _ => trivial).1 b hb ho v hv
  · exact (C107_grid (fun b => (box b).d) (fun b u u' => Spec.Filtered (box b).d (Spec.coeffs1 (box b) .one)
      (fun i _ _ => i + 1 < 2 * ((box b).d.n1 / 3)) u u') id.t nboxes on (fun b v => filter23Xminus1 g (box b) id.t v)
      vl hnd ht (fun _ _ => True) (fun _ _ _ _ _ => trivial)
      (fun b _ _ v _ mem _ => (C107_23Xminus1 g (box b) (hbox b) id.t v mem).1) m fun _ => trivial).1 b hb ho v hv

/-- How much is removed with "Ylm_lmshift" for the variables g, phi, A, K, G, alpha, beta, B, alphaDensity of the list: the
scalars lose two more coefficients, the vectors one more. -/
def Spec.lmshift (i : Nat) : Int :=
  if i < 6 then 0 else if i = 6 then -2 else if i < 13 then 0 else if i = 13 then -2 else if i < 17 then -1
  else if i = 17 then -2 else if i < 24 then -1 else -2

theorem filtFold (f : Int → Nat → (Nat → Arrays ℝ) → Nat → Arrays ℝ) (h : Int → Nat → (Nat → ℝ) → Nat → ℝ)
    (hf : ∀ s v m b a, f s v m b a = if a = v then h s b (m b v) else m b a) (s : Int) :
    ∀ (l : List Nat), l.Nodup → ∀ m b a,
      l.foldl (fun m v => f s v m) m b a = if a ∈ l then h s b (m b a) else m b a := by
  intro l
  induction l with
  | nil => intro _ m b a; simp
  | cons v l ih =>
    intro hnd m b a
    rw [List.nodup_cons] at hnd
    rw [List.foldl_cons, ih hnd.2, hf]
    by_cases e : a = v
    · subst e
      rw [if_neg hnd.1, if_pos rfl, if_pos (List.mem_cons_self)]
    · simp [e]

/-- **C107.** With "Ylm_lmshift" every variable of the list is filtered once, with the shift for its kind; `ylm` filters the variables
of a list one after the other. -/
theorem C107_lmshift (nboxes : Nat) (on : Nat → Bool) (box : Nat → LBox ℝ) (kind : Nat → SphKind) (id : FiltIds) (q : YZPars)
    (f : Int → Nat → (Nat → Arrays ℝ) → Nat → Arrays ℝ) (h : Int → Nat → (Nat → ℝ) → Nat → ℝ)
    (hf : ∀ s v m b a, f s v m b a = if a = v then h s b (m b v) else m b a)
    (v : Nat → Nat) (hv : ∀ i < 25, ∀ j < 25, v i = v j → i = j) (bssnVars vl : List Nat)
    (comps : Nat → List Nat) (c0 : comps 0 = [v 0, v 1, v 2, v 3, v 4, v 5]) (c6 : comps 6 = [v 6])
    (c7 : comps 7 = [v 7, v 8, v 9, v 10, v 11, v 12]) (c13 : comps 13 = [v 13]) (c14 : comps 14 = [v 14, v 15, v 16])
    (c17 : comps 17 = [v 17]) (c18 : comps 18 = [v 18, v 19, v 20]) (c21 : comps 21 = [v 21, v 22, v 23]) (c24 : comps 24 = [v 24])
    (m : Nat → Arrays ℝ) :
    let m' := chooseFilters g nboxes on box kind id q (fun l s m => l.foldl (fun m v => f s v m) m) comps bssnVars
      ⟨false, false, false, false, false, true, false, false, false⟩ vl m
    (∀ i < 25, ∀ b, m' b (v i) = h (Spec.lmshift i) b (m b (v i))) ∧ ∀ b a, (∀ i < 25, a ≠ v i) → m' b a = m b a := by
  intro m'
  have em : m' = (comps 0 ++ comps 7).foldl (fun m v => f 0 v m) ((comps 14 ++ comps 18 ++ comps 21).foldl (fun m v => f (-1) v m)
      ((comps 6 ++ comps 13 ++ comps 17 ++ comps 24).foldl (fun m v => f (-2) v m) m)) := rfl
  have l1 : comps 6 ++ comps 13 ++ comps 17 ++ comps 24 = [6, 13, 17, 24].map v := by rw [c6, c13, c17, c24]; rfl
  have l2 : comps 14 ++ comps 18 ++ comps 21 = [14, 15, 16, 18, 19, 20, 21, 22, 23].map v := by rw [c14, c18, c21]; rfl
  have l3 : comps 0 ++ comps 7 = [0, 1, 2, 3, 4, 5, 7, 8, 9, 10, 11, 12].map v := by rw [c0, c7]; rfl
  have hmap : ∀ l : List Nat, (∀ i ∈ l, i < 25) → l.Nodup → (l.map v).Nodup := fun l hl hn =>
    (List.nodup_map_iff_inj_on hn).2 fun i hi j hj => hv i (hl i hi) j (hl j hj)
  have hmem : ∀ l : List Nat, (∀ i ∈ l, i < 25) → ∀ i < 25, (v i ∈ l.map v ↔ i ∈ l) := by
    intro l hl i hi
    rw [List.mem_map]
    refine ⟨?_, fun h => ⟨i, h, rfl⟩⟩
    rintro ⟨j, hj, e⟩
    rwa [hv i hi j (hl j hj) e.symm]
  have h1 := filtFold f h hf (-2) _ (hmap [6, 13, 17, 24] (by decide) (by decide))
  have h2 := filtFold f h hf (-1) _ (hmap [14, 15, 16, 18, 19, 20, 21, 22, 23] (by decide) (by decide))
  have h3 := filtFold f h hf 0 _ (hmap [0, 1, 2, 3, 4, 5, 7, 8, 9, 10, 11, 12] (by decide) (by decide))
  have hall : ∀ b a, m' b a = _ := fun b a => by rw [em, l1, l2, l3, h3, h2, h1]
  have hsel : ∀ i < 25, (if i ∈ [0, 1, 2, 3, 4, 5, 7, 8, 9, 10, 11, 12] then
      Spec.lmshift i = 0 ∧ i ∉ [14, 15, 16, 18, 19, 20, 21, 22, 23] ∧ i ∉ [6, 13, 17, 24]
      else if i ∈ [14, 15, 16, 18, 19, 20, 21, 22, 23] then Spec.lmshift i = -1 ∧ i ∉ [6, 13, 17, 24]
      else i ∈ [6, 13, 17, 24] ∧ Spec.lmshift i = -2) := by decide
  refine ⟨fun i hi b => ?_, fun b a ha => ?_⟩
  · rw [hall]
    simp only [hmem _ (by decide : ∀ i ∈ [0, 1, 2, 3, 4, 5, 7, 8, 9, 10, 11, 12], i < 25) i hi,
      hmem _ (by decide : ∀ i ∈ [14, 15, 16, 18, 19, 20, 21, 22, 23], i < 25) i hi,
      hmem _ (by decide : ∀ i ∈ [6, 13, 17, 24], i < 25) i hi]
    have hs := hsel i hi
    by_cases e3 : i ∈ [0, 1, 2, 3, 4, 5, 7, 8, 9, 10, 11, 12]
    · rw [if_pos e3] at hs
      rw [if_pos e3, if_neg hs.2.1, if_neg hs.2.2, hs.1]
    · rw [if_neg e3] at hs
      rw [if_neg e3]
      by_cases e2 : i ∈ [14, 15, 16, 18, 19, 20, 21, 22, 23]
      · rw [if_pos e2] at hs
        rw [if_pos e2, if_neg hs.2, hs.1]
      · rw [if_neg e2] at hs
        rw [if_neg e2, if_pos hs.1, hs.2]
  · have hn : ∀ l : List Nat, (∀ i ∈ l, i < 25) → a ∉ l.map v := by
      intro l hl hm
      obtain ⟨i, hi, e⟩ := List.mem_map.1 hm
      exact ha i (hl i hi) e.symm
    rw [hall, if_neg (hn _ (by decide)), if_neg (hn _ (by decide)), if_neg (hn _ (by decide))]

/-- **C107, not in the code.** With `BSSN_filter_type = simple` the list that is passed is not filtered unless it is
`BSSNvars`: lists without variables in common with `BSSNvars` are not changed, and `BSSNvars` are. -/
theorem C107_simple_counterexample (nboxes : Nat) (on : Nat → Bool) (box : Nat → LBox ℝ)
    (hbox : ∀ b, Spec.GoodBox (box b)) (id : FiltIds) (q : YZPars)
    (ylm : List Nat → Int → (Nat → Arrays ℝ) → Nat → Arrays ℝ) (comps : Nat → List Nat) (bssnVars vl : List Nat)
    (hnd : bssnVars.Nodup) (ht : id.t ∉ bssnVars) (htv : id.t ∉ vl) (hdis : ∀ v ∈ vl, v ∉ bssnVars)
    (m : Nat → Arrays ℝ) :
    let m' := chooseFilters g nboxes on box (fun _ => .other) id q ylm comps bssnVars
      ⟨false, false, false, true, false, false, false, false, false⟩ vl m
    (∀ b, ∀ v ∈ vl, m' b v = m b v) ∧
    ∀ b, b < nboxes → on b = true → ∀ v ∈ bssnVars, Spec.Filtered (box b).d (coeffs3 (box b))
      (fun i j k => ¬ killYZ q.ellipse (lastMode q.n2frac (box b).d.n2 q.shift2)
        (lastMode q.n3frac (box b).d.n3 q.shift3) i j k)
      (Spec.view (box b).d (m b) v) (Spec.view (box b).d (m' b) v) := by
  intro m'
  have h := C107_unew g nboxes on box hbox (fun _ => .other) id q bssnVars hnd ht m
  have hm1 : coordFilter g nboxes on box (fun _ => .other) id bssnVars m = m := by
    have hf : ∀ (l : List Nat) (mb : Arrays ℝ), l.foldl (fun mb _ => mb) mb = mb := by
      intro l
      induction l with
      | nil => intro mb; rfl
      | cons a l ih => intro mb; exact ih mb
    funext b
    refine (foldBoxes on (fun b mb => bssnVars.foldl (fun mb _ => mb) mb) (List.range nboxes) List.nodup_range m b).trans ?_
    rw [hf]
    simp
  simp only [hm1] at h
  refine ⟨fun b v hv => funext fun p => ?_, h.1⟩
  exact h.2.1 b v p (fun e => htv (e ▸ hv)) (Or.inl (hdis v hv))

/-! ## Examples -/

/-- Box with 6 points in each direction and coefficients equal to values: what the filters leave. -/
def exFBox : LBox ℚ :=
  { d := ⟨6, 6, 6⟩
    coeffs := fun _ w u n => fun i => if i ≤ n then u i else w i
    deriv := fun _ w u n => fun i => if i ≤ n then u i else w i
    eval := fun _ w u n => fun i => if i ≤ n then u i else w i
    fft := fun _ => true
    D := fun _ _ => 0
    DD := fun _ _ => 0
    F := fun _ _ => 0
    Mcoeffs := fun _ _ => 0
    Meval := fun _ _ => 0 }

example : (List.range 6).map (fun i => filter23X (fun _ => (fun _ => 0, fun _ => 0, fun _ => 0)) exFBox 1 0
      (fun _ p => (p : ℚ) + 1) 0 (exFBox.d.idx i 1 0)) = [7, 8, 9, 10, 0, 0] ∧
    (List.range 6).map (fun i => filter23Xminus1 (fun _ => (fun _ => 0, fun _ => 0, fun _ => 0)) exFBox 1 0
      (fun _ p => (p : ℚ) + 1) 0 (exFBox.d.idx i 1 0)) = [7, 8, 9, 0, 0, 0] := by
  refine ⟨?_, ?_⟩ <;> decide +kernel

/-- With 16 points in phi and `sin(theta) = 1/2` the modes up to `m = 4` are left, these are 9 coefficients. -/
example : ksOf 16 (1 / 2) = 9 := by
  have h : ∀ k, k < ksOf 16 (1 / 2) ↔ k < 9 := fun k => by
    rw [C107_modes, abs_of_pos (by norm_num), show ((16 / 2 : Nat) : ℝ) * (1 / 2) = ((4 : Nat) : ℝ) by norm_num,
      Nat.cast_le]
    omega
  have h1 := h (ksOf 16 (1 / 2))
  have h2 := h 8
  have h3 := h 9
  omega

/-- An ellipse: with `jf = kf = 6` the mode (2,2) is kept and (3,1) is not. -/
example : ¬ killYZ true 6 6 0 4 4 ∧ killYZ true 6 6 0 6 2 := by
  constructor
  · rw [(C107_region 6 6 0 4 4).2.1 (by norm_num) (by norm_num)]
    norm_num
  · rw [← not_not (a := killYZ true 6 6 0 6 2), (C107_region 6 6 0 6 2).2.1 (by norm_num) (by norm_num)]
    norm_num

end Sgrid
