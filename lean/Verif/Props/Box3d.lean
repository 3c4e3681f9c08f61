import Verif.Props.Lines
import Verif.Props.SpecMatrices
import Verif.Model.Integrals

/-!
# C38, C39, C41 and C73 in three dimensions
-/

namespace Sgrid
open Finset
variable {K : Type} [Field K] (g : Nat → (Nat → K) × (Nat → K) × (Nat → K))

/-! ## Coefficients in all directions -/

/-- The coefficients of a function of three indices. -/
def coeffs3 (b : LBox K) (u : Nat → Nat → Nat → K) : Nat → Nat → Nat → K :=
  Spec.onLines .three (coeffsOp b .three) (Spec.onLines .two (coeffsOp b .two)
    (Spec.onLines .one (coeffsOp b .one) u))

/-- `spec_Coeffs` computes the coefficients. -/
theorem specCoeffs_eq (b : LBox K) (h : ∀ ax, BoxLinear b ax) (u c : Nat) (mem : Arrays K) :
    (∀ i j k, Spec.inBox b.d i j k →
      Spec.view b.d (specCoeffs g b u c mem) c i j k = coeffs3 b (Spec.view b.d mem u) i j k) ∧
    ∀ a p, a ≠ c ∨ b.d.n1 * b.d.n2 * b.d.n3 ≤ p → specCoeffs g b u c mem a p = mem a p := by
  unfold specCoeffs
  have h1 := C41_analysis g b .one (h .one) u c mem
  have h2 := C41_analysis g b .two (h .two) c c (specAnalysis1 g b .one u c mem)
  have h3 := C41_analysis g b .three (h .three) c c
    (specAnalysis1 g b .two c c (specAnalysis1 g b .one u c mem))
  refine ⟨fun i j k hb => ?_, fun a p hap => by rw [h3.2 a p hap, h2.2 a p hap, h1.2 a p hap]⟩
  rw [h3.1 i j k hb]
  refine along_congr (coeffsOp_local (h .three)) (fun i j k hb => ?_) i j k hb
  rw [h2.1 i j k hb]
  exact along_congr (coeffsOp_local (h .two)) (fun i j k hb => h1.1 i j k hb) i j k hb

/-- In every direction evaluation undoes analysis. -/
def EvalCoeffs (b : LBox K) : Prop :=
  ∀ ax u i, i < b.d.len ax → evalOp b ax (coeffsOp b ax u) i = u i

/-- In every direction analysis undoes evaluation. -/
def CoeffsEval (b : LBox K) : Prop :=
  ∀ ax c i, i < b.d.len ax → coeffsOp b ax (evalOp b ax c) i = c i

omit [Field K] in
theorem along_inverse {d : Dims} {ax : Axis} {f h : (Nat → K) → Nat → K}
    (hfh : ∀ u i, i < d.len ax → f (h u) i = u i) (u : Nat → Nat → Nat → K) (i j k : Nat)
    (hb : Spec.inBox d i j k) : Spec.onLines ax f (Spec.onLines ax h u) i j k = u i j k := by
  cases ax with
  | one => exact hfh (fun l => u l j k) i hb.1
  | two => exact hfh (fun l => u i l k) j hb.2.1
  | three => exact hfh (fun l => u i j l) k hb.2.2

/-- **C41.** `spec_Eval` after `spec_Coeffs` gives back the values. -/
theorem C41_roundtrip (b : LBox K) (h : ∀ ax, BoxLinear b ax) (hinv : EvalCoeffs b) (u c v : Nat)
    (mem : Arrays K) (i j k : Nat) (hb : Spec.inBox b.d i j k) :
    Spec.view b.d (specEval g b v c (specCoeffs g b u c mem)) v i j k = Spec.view b.d mem u i j k := by
  have hc := (specCoeffs_eq g b h u c mem).1
  unfold specEval
  have h1 := C41_synthesis g b .one (h .one) v c (specCoeffs g b u c mem)
  have h2 := C41_synthesis g b .two (h .two) v v
    (specSynthesis1 g b .one v c (specCoeffs g b u c mem))
  have h3 := C41_synthesis g b .three (h .three) v v
    (specSynthesis1 g b .two v v (specSynthesis1 g b .one v c (specCoeffs g b u c mem)))
  set U := Spec.view b.d mem u with hU
  set e := evalOp b with he
  set f := coeffsOp b with hf
  have le := fun ax => evalOp_local (h ax)
  have ee := fun ax => evalOp_isMat (h ax)
  have ff := fun ax => coeffsOp_isMat (h ax)
  have s1 : ∀ i j k, Spec.inBox b.d i j k →
      Spec.view b.d (specSynthesis1 g b .one v c (specCoeffs g b u c mem)) v i j k =
        Spec.onLines .three (f .three) (Spec.onLines .two (f .two) U) i j k := by
    intro i j k hb
    rw [h1.1 i j k hb]
    have t : ∀ i j k, Spec.inBox b.d i j k → Spec.view b.d (specCoeffs g b u c mem) c i j k =
        Spec.onLines .one (f .one) (Spec.onLines .three (f .three) (Spec.onLines .two (f .two) U)) i j k := by
      intro i j k hb
      rw [hc i j k hb, along_comm (by decide) (ff .one) (ff .three) _ i j k hb]
      exact along_congr (coeffsOp_local (h .three)) (fun i j k hb =>
        along_comm (by decide) (ff .two) (ff .one) _ i j k hb) i j k hb
    rw [along_congr (le .one) t i j k hb]
    exact along_inverse (hinv .one) _ i j k hb
  have s2 : ∀ i j k, Spec.inBox b.d i j k →
      Spec.view b.d (specSynthesis1 g b .two v v
        (specSynthesis1 g b .one v c (specCoeffs g b u c mem))) v i j k =
        Spec.onLines .three (f .three) U i j k := by
    intro i j k hb
    rw [h2.1 i j k hb, along_congr (le .two) s1 i j k hb,
      along_congr (le .two) (fun i j k hb => along_comm (by decide) (ff .three) (ff .two) U i j k hb)
        i j k hb]
    exact along_inverse (hinv .two) _ i j k hb
  rw [h3.1 i j k hb, along_congr (le .three) s2 i j k hb]
  exact along_inverse (hinv .three) _ i j k hb

/-! ## C38: interpolation in three dimensions -/

theorem downLoop_range_sum {M : Type} [AddCommMonoid M] (f : Nat → M) (n : Nat) (s : M) :
    downLoop 0 n (fun j s => s + f j) s = s + ∑ j ∈ range n, f j := by
  have := downLoop_inv (Nat.zero_le n) (body := fun j (s : M) => s + f j) (s := s)
    (fun m t => t = s + ∑ j ∈ Ico m n, f j) (by simp)
    (by
      intro m t _ hm ht
      rw [ht, sum_eq_sum_Ico_succ_bot hm, add_assoc, add_comm (f m)])
  rw [this, range_eq_Ico]

/-- The sum in `spec_interpolate`. -/
theorem specInterpolate_eq (d : Dims) (c B1 B2 B3 : Nat → K) :
    specInterpolate d c B1 B2 B3 = ∑ k ∈ range d.n3, ∑ j ∈ range d.n2, ∑ i ∈ range d.n1,
      c (d.idx i j k) * B1 i * B2 j * B3 k := by
  unfold specInterpolate
  simp only [downLoop_range_sum, zero_add]

/-- The functional on lines that belongs to the basis functions at a point. -/
def lineValue (b : LBox K) (ax : Axis) (B u : Nat → K) : K :=
  ∑ i ∈ range (b.d.len ax), coeffsOp b ax u i * B i

theorem isMat_sum {f : (Nat → K) → Nat → K} {n : Nat} (hf : IsMatOp f n) (m : Nat) (F : Nat → Nat → K)
    (B : Nat → K) (k : Nat) (hk : k < n) :
    f (fun l => ∑ i ∈ range m, F i l * B i) k = ∑ i ∈ range m, f (F i) k * B i := by
  obtain ⟨A, hA⟩ := hf
  rw [hA _ k hk]
  simp only [hA _ k hk, sum_mul, mul_sum]
  rw [sum_comm]
  exact sum_congr rfl fun i _ => sum_congr rfl fun l _ => by ring

theorem lineValue_sum {b : LBox K} {ax : Axis} (h : BoxLinear b ax) (B : Nat → K) (m : Nat)
    (F : Nat → Nat → K) (w : Nat → K) :
    lineValue b ax B (fun l => ∑ i ∈ range m, F i l * w i) = ∑ i ∈ range m, lineValue b ax B (F i) * w i := by
  unfold lineValue
  have : ∀ k ∈ range (b.d.len ax), coeffsOp b ax (fun l => ∑ i ∈ range m, F i l * w i) k * B k =
      ∑ i ∈ range m, coeffsOp b ax (F i) k * w i * B k := by
    intro k hk
    rw [isMat_sum (coeffsOp_isMat h) m F w k (mem_range.1 hk), sum_mul]
  rw [sum_congr rfl this, sum_comm]
  refine sum_congr rfl fun i _ => ?_
  rw [sum_mul]
  exact sum_congr rfl fun k _ => by ring

/-- The triple sum is the line functional of one direction after the other. -/
theorem coeffs3_sum (b : LBox K) (h : ∀ ax, BoxLinear b ax) (B1 B2 B3 : Nat → K)
    (u : Nat → Nat → Nat → K) :
    ∑ k ∈ range b.d.n3, ∑ j ∈ range b.d.n2, ∑ i ∈ range b.d.n1,
      coeffs3 b u i j k * B1 i * B2 j * B3 k =
    lineValue b .three B3 fun k => lineValue b .two B2 fun j => lineValue b .one B1 fun i => u i j k := by
  have e1 : ∀ k, (lineValue b .two B2 fun j => lineValue b .one B1 fun i => u i j k) =
      ∑ i ∈ range b.d.n1, lineValue b .two B2 (fun j => coeffsOp b .one (fun l => u l j k) i) * B1 i := by
    intro k
    exact lineValue_sum (h .two) B2 b.d.n1 (fun i j => coeffsOp b .one (fun l => u l j k) i) B1
  simp only [e1]
  rw [lineValue_sum (h .three) B3 b.d.n1
    (fun i k => lineValue b .two B2 (fun j => coeffsOp b .one (fun l => u l j k) i)) B1]
  have e2 : ∀ i, (lineValue b .three B3 fun k =>
      lineValue b .two B2 (fun j => coeffsOp b .one (fun l => u l j k) i)) =
      ∑ j ∈ range b.d.n2, lineValue b .three B3 (fun k =>
        coeffsOp b .two (fun m => coeffsOp b .one (fun l => u l m k) i) j) * B2 j := by
    intro i
    exact lineValue_sum (h .three) B3 b.d.n2
      (fun j k => coeffsOp b .two (fun m => coeffsOp b .one (fun l => u l m k) i) j) B2
  simp only [e2]
  have e3 : ∀ k j i, coeffs3 b u i j k = coeffsOp b .three (fun q =>
      coeffsOp b .two (fun m => coeffsOp b .one (fun l => u l m q) i) j) k := fun _ _ _ => rfl
  simp only [e3, lineValue, sum_mul]
  rw [sum_congr rfl fun k _ => sum_comm, sum_comm]
  refine sum_congr rfl fun i _ => ?_
  rw [sum_comm]
  exact sum_congr rfl fun j _ => sum_congr rfl fun k _ => by ring

/-- `spec_interpolate` after `spec_Coeffs`. -/
theorem interpolate_eq (b : LBox K) (h : ∀ ax, BoxLinear b ax) (u c : Nat) (mem : Arrays K)
    (B1 B2 B3 : Nat → K) :
    specInterpolate b.d (specCoeffs g b u c mem c) B1 B2 B3 =
      lineValue b .three B3 fun k => lineValue b .two B2 fun j => lineValue b .one B1 fun i =>
        Spec.view b.d mem u i j k := by
  rw [specInterpolate_eq, ← coeffs3_sum b h]
  refine sum_congr rfl fun k hk => sum_congr rfl fun j hj => sum_congr rfl fun i hi => ?_
  rw [← (specCoeffs_eq g b h u c mem).1 i j k ⟨mem_range.1 hi, mem_range.1 hj, mem_range.1 hk⟩]
  rfl

theorem lineValue_local {b : LBox K} {ax : Axis} (h : BoxLinear b ax) (B u v : Nat → K)
    (e : ∀ j, j < b.d.len ax → u j = v j) : lineValue b ax B u = lineValue b ax B v := by
  unfold lineValue
  exact sum_congr rfl fun i hi => by rw [coeffsOp_local h u v e i (mem_range.1 hi)]

/-- **C38.** If in every direction the basis functions at a grid point reproduce the value at this point of
every line, then `spec_interpolate` reproduces the value at the grid point of every array. -/
theorem C38_grid3d (b : LBox K) (h : ∀ ax, BoxLinear b ax) (u c : Nat) (mem : Arrays K)
    (B1 B2 B3 : Nat → K) (i j k : Nat)
    (h1 : ∀ v, lineValue b .one B1 v = v i) (h2 : ∀ v, lineValue b .two B2 v = v j)
    (h3 : ∀ v, lineValue b .three B3 v = v k) :
    specInterpolate b.d (specCoeffs g b u c mem c) B1 B2 B3 = mem u (b.d.idx i j k) := by
  rw [interpolate_eq g b h, h3, h2, h1]
  rfl

/-! ## C39: filter in three dimensions -/

omit [Field K] in
theorem upLoop_set (x : K) {lo hi : Nat} {body : Nat → (Nat → K) → Nat → K} (Q : Nat → Nat → Prop)
    (hbody : ∀ m v p, (Q m p → body m v p = x) ∧ (¬ Q m p → body m v p = v p)) (c : Nat → K) (p : Nat) :
    ((∃ m, lo ≤ m ∧ m < hi ∧ Q m p) → upLoop lo hi body c p = x) ∧
    ((∀ m, lo ≤ m → m < hi → ¬ Q m p) → upLoop lo hi body c p = c p) := by
  rcases Nat.le_total lo hi with hl | hl
  · have := upLoop_inv hl (body := body) (s := c) (fun n v =>
      ((∃ m, lo ≤ m ∧ m < n ∧ Q m p) → v p = x) ∧ ((∀ m, lo ≤ m → m < n → ¬ Q m p) → v p = c p))
      ⟨by rintro ⟨m, h1, h2, -⟩; omega, fun _ => rfl⟩
      (by
        intro n v hn _ ⟨h1, h2⟩
        by_cases hq : Q n p
        · exact ⟨fun _ => (hbody n v p).1 hq, fun h => absurd hq (h n hn (by omega))⟩
        · refine ⟨?_, ?_⟩
          · rintro ⟨m, m1, m2, m3⟩
            have : m ≠ n := by rintro rfl; exact hq m3
            rw [(hbody n v p).2 hq, h1 ⟨m, m1, by omega, m3⟩]
          · intro h
            rw [(hbody n v p).2 hq, h2 fun m m1 m2 => h m m1 (by omega)])
    exact this
  · rw [upLoop_nil hl]
    exact ⟨by rintro ⟨m, h1, h2, -⟩; omega, fun _ => rfl⟩

theorem zeroBlock_eq (d : Dims) (k0 k1 j0 j1 i0 i1 : Nat) (c : Nat → K) (p : Nat) :
    ((∃ k, k0 ≤ k ∧ k < k1 ∧ ∃ j, j0 ≤ j ∧ j < j1 ∧ ∃ i, i0 ≤ i ∧ i < i1 ∧ p = d.idx i j k) →
      zeroBlock d k0 k1 j0 j1 i0 i1 c p = 0) ∧
    ((∀ k, k0 ≤ k → k < k1 → ¬ ∃ j, j0 ≤ j ∧ j < j1 ∧ ∃ i, i0 ≤ i ∧ i < i1 ∧ p = d.idx i j k) →
      zeroBlock d k0 k1 j0 j1 i0 i1 c p = c p) := by
  unfold zeroBlock
  refine upLoop_set 0 (fun k p => ∃ j, j0 ≤ j ∧ j < j1 ∧ ∃ i, i0 ≤ i ∧ i < i1 ∧ p = d.idx i j k)
    (fun k v p => ?_) c p
  have hj := upLoop_set 0 (fun j p => ∃ i, i0 ≤ i ∧ i < i1 ∧ p = d.idx i j k) (lo := j0) (hi := j1)
    (body := fun j c => upLoop i0 i1 (fun i c => aset c (d.idx i j k) 0) c) (fun j v p => by
      have hi := upLoop_set 0 (fun i p => p = d.idx i j k) (lo := i0) (hi := i1)
        (body := fun i c => aset c (d.idx i j k) (0 : K)) (fun i v p =>
          ⟨fun h => by rw [h, aset_self], fun h => aset_ne _ _ h⟩) v p
      exact ⟨hi.1, fun h => hi.2 fun i h1 h2 h3 => h ⟨i, h1, h2, h3⟩⟩) v p
  exact ⟨hj.1, fun h => hj.2 fun j h1 h2 h3 => h ⟨j, h1, h2, h3⟩⟩

/-- At a point of the box. -/
theorem zeroBlock_at {d : Dims} {k0 k1 j0 j1 i0 i1 : Nat} (h1 : i1 ≤ d.n1) (h2 : j1 ≤ d.n2)
    (c : Nat → K) {i j k : Nat} (hb : Spec.inBox d i j k) :
    zeroBlock d k0 k1 j0 j1 i0 i1 c (d.idx i j k) =
      if (k0 ≤ k ∧ k < k1) ∧ (j0 ≤ j ∧ j < j1) ∧ i0 ≤ i ∧ i < i1 then 0 else c (d.idx i j k) := by
  have hz := zeroBlock_eq d k0 k1 j0 j1 i0 i1 c (d.idx i j k)
  split
  · rename_i hh
    exact hz.1 ⟨k, hh.1.1, hh.1.2, j, hh.2.1.1, hh.2.1.2, i, hh.2.2.1, hh.2.2.2, rfl⟩
  · rename_i hh
    refine hz.2 ?_
    rintro k' hk0 hk1 ⟨j', hj0, hj1, i', hi0, hi1, e⟩
    obtain ⟨rfl, rfl, rfl⟩ := idx_inj hb.1 (by omega) hb.2.1 (by omega) e
    exact hh ⟨⟨hk0, hk1⟩, ⟨hj0, hj1⟩, hi0, hi1⟩

/-- The three blocks together (filters.c:146-162): what is left are the coefficients with small
indices in all directions. -/
theorem zeroBlocks_at {d : Dims} (nf1 nf2 nf3 : Nat) (c : Nat → K) {i j k : Nat}
    (hb : Spec.inBox d i j k) :
    zeroBlock d 0 (min nf3 d.n3) 0 (min nf2 d.n2) nf1 d.n1 (zeroBlock d 0 (min nf3 d.n3) nf2 d.n2 0 d.n1
      (zeroBlock d nf3 d.n3 0 d.n2 0 d.n1 c)) (d.idx i j k) =
      if i < nf1 ∧ j < nf2 ∧ k < nf3 then c (d.idx i j k) else 0 := by
  obtain ⟨h1, h2, h3⟩ := hb
  rw [zeroBlock_at (le_refl _) (by omega) _ ⟨h1, h2, h3⟩,
    zeroBlock_at (le_refl _) (le_refl _) _ ⟨h1, h2, h3⟩,
    zeroBlock_at (le_refl _) (le_refl _) _ ⟨h1, h2, h3⟩]
  by_cases c3 : k < nf3
  · by_cases c2 : j < nf2
    · by_cases c1 : i < nf1
      · rw [if_neg (by omega), if_neg (by omega), if_neg (by omega), if_pos ⟨c1, c2, c3⟩]
      · rw [if_pos (by omega), if_neg (by omega)]
    · rw [if_neg (by omega), if_pos (by omega), if_neg (by omega)]
  · rw [if_neg (by omega), if_neg (by omega), if_pos (by omega), if_neg (by omega)]

/-- Values from coefficients in all directions. -/
def eval3 (b : LBox K) (c : Nat → Nat → Nat → K) : Nat → Nat → Nat → K :=
  Spec.onLines .one (evalOp b .one) (Spec.onLines .two (evalOp b .two)
    (Spec.onLines .three (evalOp b .three) c))

/-- Coefficients with small indices. -/
def cut (nf1 nf2 nf3 : Nat) (c : Nat → Nat → Nat → K) (i j k : Nat) : K :=
  if i < nf1 ∧ j < nf2 ∧ k < nf3 then c i j k else 0

theorem eval3_congr {b : LBox K} (h : ∀ ax, BoxLinear b ax) {c c' : Nat → Nat → Nat → K}
    (e : ∀ i j k, Spec.inBox b.d i j k → c i j k = c' i j k) (i j k : Nat) (hb : Spec.inBox b.d i j k) :
    eval3 b c i j k = eval3 b c' i j k :=
  along_congr (evalOp_local (h .one)) (along_congr (evalOp_local (h .two))
    (along_congr (evalOp_local (h .three)) e)) i j k hb

theorem coeffs3_congr {b : LBox K} (h : ∀ ax, BoxLinear b ax) {c c' : Nat → Nat → Nat → K}
    (e : ∀ i j k, Spec.inBox b.d i j k → c i j k = c' i j k) (i j k : Nat) (hb : Spec.inBox b.d i j k) :
    coeffs3 b c i j k = coeffs3 b c' i j k :=
  along_congr (coeffsOp_local (h .three)) (along_congr (coeffsOp_local (h .two))
    (along_congr (coeffsOp_local (h .one)) e)) i j k hb

theorem coeffs3_eval3 {b : LBox K} (h : ∀ ax, BoxLinear b ax) (hce : CoeffsEval b)
    (c : Nat → Nat → Nat → K) (i j k : Nat) (hb : Spec.inBox b.d i j k) :
    coeffs3 b (eval3 b c) i j k = c i j k := by
  unfold coeffs3 eval3
  rw [along_congr (coeffsOp_local (h .three)) (along_congr (coeffsOp_local (h .two))
    (along_inverse (hce .one) _)) i j k hb,
    along_congr (coeffsOp_local (h .three)) (along_inverse (hce .two) _) i j k hb]
  exact along_inverse (hce .three) _ i j k hb

theorem eval3_coeffs3 {b : LBox K} (h : ∀ ax, BoxLinear b ax) (hec : EvalCoeffs b)
    (c : Nat → Nat → Nat → K) (i j k : Nat) (hb : Spec.inBox b.d i j k) :
    eval3 b (coeffs3 b c) i j k = c i j k := by
  unfold coeffs3 eval3
  rw [along_congr (evalOp_local (h .one)) (along_congr (evalOp_local (h .two))
    (along_inverse (hec .three) _)) i j k hb,
    along_congr (evalOp_local (h .one)) (along_inverse (hec .two) _) i j k hb]
  exact along_inverse (hec .one) _ i j k hb

/-- `spec_filter3d_inbox` in terms of coefficients. -/
theorem specFilter3d_eq (b : LBox K) (h : ∀ ax, BoxLinear b ax) (var vc nf1 nf2 nf3 : Nat)
    (mem : Arrays K) :
    (∀ i j k, Spec.inBox b.d i j k →
      Spec.view b.d (specFilter3d g b var vc nf1 nf2 nf3 mem) var i j k =
        eval3 b (cut nf1 nf2 nf3 (coeffs3 b (Spec.view b.d mem var))) i j k) ∧
    ∀ a, a ≠ var → a ≠ vc → specFilter3d g b var vc nf1 nf2 nf3 mem a = mem a := by
  have hc := specCoeffs_eq g b h var vc mem
  unfold specFilter3d
  unfold specCoeffs at hc
  dsimp only at hc ⊢
  set m0 := specAnalysis1 g b .three vc vc
    (specAnalysis1 g b .two vc vc (specAnalysis1 g b .one var vc mem))
  simp only [aset_self]
  set z := zeroBlock b.d 0 (min nf3 b.d.n3) 0 (min nf2 b.d.n2) nf1 b.d.n1
    (zeroBlock b.d 0 (min nf3 b.d.n3) nf2 b.d.n2 0 b.d.n1
      (zeroBlock b.d nf3 b.d.n3 0 b.d.n2 0 b.d.n1 (m0 vc))) with hz
  have hzz : aset (aset (aset m0 vc (zeroBlock b.d nf3 b.d.n3 0 b.d.n2 0 b.d.n1 (m0 vc))) vc
      (zeroBlock b.d 0 (min nf3 b.d.n3) nf2 b.d.n2 0 b.d.n1
        (zeroBlock b.d nf3 b.d.n3 0 b.d.n2 0 b.d.n1 (m0 vc)))) vc z = aset m0 vc z := by
    funext a
    by_cases ha : a = vc
    · subst ha; rw [aset_self, aset_self]
    · simp only [aset_ne _ _ ha]
  rw [hzz]
  set m1 := aset m0 vc z with hm1
  have h1 := C41_synthesis g b .three (h .three) var vc m1
  have h2 := C41_synthesis g b .two (h .two) var var (specSynthesis1 g b .three var vc m1)
  have h3 := C41_synthesis g b .one (h .one) var var
    (specSynthesis1 g b .two var var (specSynthesis1 g b .three var vc m1))
  refine ⟨fun i j k hb => ?_, fun a ha hav => ?_⟩
  · rw [h3.1 i j k hb]
    refine along_congr (evalOp_local (h .one)) (fun i j k hb => ?_) i j k hb
    rw [h2.1 i j k hb]
    refine along_congr (evalOp_local (h .two)) (fun i j k hb => ?_) i j k hb
    rw [h1.1 i j k hb]
    refine along_congr (evalOp_local (h .three)) (fun i j k hb => ?_) i j k hb
    change m1 vc (b.d.idx i j k) = _
    rw [hm1, aset_self, hz, zeroBlocks_at _ _ _ _ hb]
    unfold cut
    split
    · exact hc.1 i j k hb
    · rfl
  · funext p
    rw [h3.2 a p (Or.inl ha), h2.2 a p (Or.inl ha), h1.2 a p (Or.inl ha), hm1, aset_ne _ _ hav,
      hc.2 a p (Or.inl hav)]

/-- **C39.** `spec_filter3d_inbox` keeps the coefficients with `i<nf1`, `j<nf2`, `k<nf3` and makes all others
zero; with limits not below the numbers of points it changes nothing; applying it twice is the same as
applying it once; other arrays are not changed. -/
theorem C39_filter3d (b : LBox K) (h : ∀ ax, BoxLinear b ax) (hec : EvalCoeffs b) (hce : CoeffsEval b)
    (var vc nf1 nf2 nf3 : Nat) (mem : Arrays K) :
    let mem' := specFilter3d g b var vc nf1 nf2 nf3 mem
    (∀ i j k, Spec.inBox b.d i j k → coeffs3 b (Spec.view b.d mem' var) i j k =
      if i < nf1 ∧ j < nf2 ∧ k < nf3 then coeffs3 b (Spec.view b.d mem var) i j k else 0) ∧
    (b.d.n1 ≤ nf1 → b.d.n2 ≤ nf2 → b.d.n3 ≤ nf3 → ∀ i j k, Spec.inBox b.d i j k →
      Spec.view b.d mem' var i j k = Spec.view b.d mem var i j k) ∧
    (∀ i j k, Spec.inBox b.d i j k →
      Spec.view b.d (specFilter3d g b var vc nf1 nf2 nf3 mem') var i j k =
        Spec.view b.d mem' var i j k) ∧
    ∀ a, a ≠ var → a ≠ vc → mem' a = mem a := by
  intro mem'
  have e := specFilter3d_eq g b h var vc nf1 nf2 nf3 mem
  have e' := specFilter3d_eq g b h var vc nf1 nf2 nf3 mem'
  have hco : ∀ i j k, Spec.inBox b.d i j k → coeffs3 b (Spec.view b.d mem' var) i j k =
      cut nf1 nf2 nf3 (coeffs3 b (Spec.view b.d mem var)) i j k := by
    intro i j k hb
    rw [coeffs3_congr h e.1 i j k hb, coeffs3_eval3 h hce _ i j k hb]
  refine ⟨hco, fun l1 l2 l3 i j k hb => ?_, fun i j k hb => ?_, e.2⟩
  · rw [e.1 i j k hb, eval3_congr h (c' := coeffs3 b (Spec.view b.d mem var)) (fun i j k hb => ?_) i j k hb,
      eval3_coeffs3 h hec _ i j k hb]
    obtain ⟨b1, b2, b3⟩ := hb
    exact if_pos ⟨by omega, by omega, by omega⟩
  · rw [e'.1 i j k hb, e.1 i j k hb]
    refine eval3_congr h (fun i j k hb => ?_) i j k hb
    unfold cut
    split
    · rename_i hh
      rw [hco i j k hb]
      exact if_pos hh
    · rfl

end Sgrid
