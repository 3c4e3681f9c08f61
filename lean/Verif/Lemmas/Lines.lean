import Mathlib.Algebra.BigOperators.Ring.Finset
import Mathlib.Tactic.Ring
import Verif.Props.Matrices
import Verif.Spec.Along

/-!
Loops over grid lines: the result does not depend on the order of the lines.
-/

namespace Sgrid
open Finset
variable {K : Type}

/-! ## Places on lines -/

/-- Different points have different indices. -/
theorem idx_inj {d : Dims} {i j k i' j' k' : Nat} (hi : i < d.n1) (hi' : i' < d.n1) (hj : j < d.n2)
    (hj' : j' < d.n2) (h : d.idx i j k = d.idx i' j' k') : i = i' ∧ j = j' ∧ k = k' := by
  unfold Dims.idx at h
  have a1 : (i + d.n1 * (j + d.n2 * k)) % d.n1 = i := by
    rw [Nat.add_mul_mod_self_left, Nat.mod_eq_of_lt hi]
  have a2 : (i' + d.n1 * (j' + d.n2 * k')) % d.n1 = i' := by
    rw [Nat.add_mul_mod_self_left, Nat.mod_eq_of_lt hi']
  have b1 : (i + d.n1 * (j + d.n2 * k)) / d.n1 = j + d.n2 * k := by
    rw [Nat.add_mul_div_left _ _ (by omega), Nat.div_eq_of_lt hi, Nat.zero_add]
  have b2 : (i' + d.n1 * (j' + d.n2 * k')) / d.n1 = j' + d.n2 * k' := by
    rw [Nat.add_mul_div_left _ _ (by omega), Nat.div_eq_of_lt hi', Nat.zero_add]
  rw [h] at a1 b1
  have hjk : j + d.n2 * k = j' + d.n2 * k' := b1.symm.trans b2
  have c1 : (j + d.n2 * k) % d.n2 = j := by rw [Nat.add_mul_mod_self_left, Nat.mod_eq_of_lt hj]
  have c2 : (j' + d.n2 * k') % d.n2 = j' := by rw [Nat.add_mul_mod_self_left, Nat.mod_eq_of_lt hj']
  have e1 : (j + d.n2 * k) / d.n2 = k := by
    rw [Nat.add_mul_div_left _ _ (by omega), Nat.div_eq_of_lt hj, Nat.zero_add]
  have e2 : (j' + d.n2 * k') / d.n2 = k' := by
    rw [Nat.add_mul_div_left _ _ (by omega), Nat.div_eq_of_lt hj', Nat.zero_add]
  rw [hjk] at c1 e1
  exact ⟨a1.symm.trans a2, c1.symm.trans c2, e1.symm.trans e2⟩

theorem idx_lt {d : Dims} {i j k : Nat} (h : Spec.inBox d i j k) : d.idx i j k < d.n1 * d.n2 * d.n3 := by
  obtain ⟨h1, h2, h3⟩ := h
  unfold Dims.idx
  have e1 : j + d.n2 * k + 1 ≤ d.n2 * d.n3 := by
    have : d.n2 * (k + 1) ≤ d.n2 * d.n3 := Nat.mul_le_mul_left _ h3
    rw [Nat.mul_add] at this
    omega
  have e2 : d.n1 * (j + d.n2 * k + 1) ≤ d.n1 * (d.n2 * d.n3) := Nat.mul_le_mul_left _ e1
  rw [Nat.mul_add, ← Nat.mul_assoc d.n1 d.n2] at e2
  omega

/-- Every index below the number of points belongs to a point. -/
theorem idx_surj (d : Dims) (p : Nat) (h : p < d.n1 * d.n2 * d.n3) :
    ∃ i j k, Spec.inBox d i j k ∧ p = d.idx i j k := by
  have h1 : 0 < d.n1 := by
    rcases Nat.eq_zero_or_pos d.n1 with h' | h'
    · rw [h'] at h; simp at h
    · exact h'
  have h2 : 0 < d.n2 := by
    rcases Nat.eq_zero_or_pos d.n2 with h' | h'
    · rw [h'] at h; simp at h
    · exact h'
  refine ⟨p % d.n1, p / d.n1 % d.n2, p / d.n1 / d.n2, ⟨Nat.mod_lt _ h1, Nat.mod_lt _ h2, ?_⟩, ?_⟩
  · rw [Nat.div_lt_iff_lt_mul h2, Nat.div_lt_iff_lt_mul h1]
    calc p < d.n1 * d.n2 * d.n3 := h
      _ = d.n3 * d.n2 * d.n1 := by ring
  · unfold Dims.idx
    rw [Nat.mod_add_div, Nat.mod_add_div]

theorem place_one (d : Dims) (i1 i2 i : Nat) : d.place .one i1 i2 i = d.idx i i1 i2 := by
  unfold Dims.place Dims.idx; ring

theorem place_two (d : Dims) (i1 i2 i : Nat) : d.place .two i1 i2 i = d.idx i1 i i2 := by
  unfold Dims.place Dims.idx; ring

theorem place_three (d : Dims) (i1 i2 i : Nat) : d.place .three i1 i2 i = d.idx i1 i2 i := by
  unfold Dims.place Dims.idx; ring

theorem place_inj {d : Dims} {ax : Axis} {i1 i2 i j1 j2 j : Nat} (h1 : i1 < d.inner ax)
    (h2 : i2 < d.outer ax) (h3 : i < d.len ax) (g1 : j1 < d.inner ax) (g2 : j2 < d.outer ax)
    (g3 : j < d.len ax) (h : d.place ax i1 i2 i = d.place ax j1 j2 j) : i1 = j1 ∧ i2 = j2 ∧ i = j := by
  cases ax with
  | one =>
    rw [place_one, place_one] at h
    obtain ⟨a, b, c⟩ := idx_inj h3 g3 h1 g1 h
    exact ⟨b, c, a⟩
  | two =>
    rw [place_two, place_two] at h
    obtain ⟨a, b, c⟩ := idx_inj h1 g1 h3 g3 h
    exact ⟨a, c, b⟩
  | three =>
    rw [place_three, place_three] at h
    obtain ⟨a, b, c⟩ := idx_inj h1 g1 h2 g2 h
    exact ⟨a, b, c⟩

/-- Every point of the box is on a line. -/
theorem place_of_box {d : Dims} (ax : Axis) {i j k : Nat} (h : Spec.inBox d i j k) :
    ∃ i1 i2 l, i1 < d.inner ax ∧ i2 < d.outer ax ∧ l < d.len ax ∧ d.idx i j k = d.place ax i1 i2 l := by
  obtain ⟨h1, h2, h3⟩ := h
  cases ax with
  | one => exact ⟨j, k, i, h2, h3, h1, (place_one d j k i).symm⟩
  | two => exact ⟨i, k, j, h1, h3, h2, (place_two d i k j).symm⟩
  | three => exact ⟨i, j, k, h1, h2, h3, (place_three d i j k).symm⟩

theorem place_lt {d : Dims} {ax : Axis} {i1 i2 i : Nat} (h1 : i1 < d.inner ax)
    (h2 : i2 < d.outer ax) (h3 : i < d.len ax) : d.place ax i1 i2 i < d.n1 * d.n2 * d.n3 := by
  cases ax with
  | one => rw [place_one]; exact idx_lt ⟨h3, h1, h2⟩
  | two => rw [place_two]; exact idx_lt ⟨h1, h3, h2⟩
  | three => rw [place_three]; exact idx_lt ⟨h1, h2, h3⟩

/-! ## Reading and writing lines -/

theorem getMemline_eq (d : Dims) (ax : Axis) (u line : Nat → K) (i1 i2 i : Nat) (hi : i < d.len ax) :
    getMemline d ax u line i1 i2 i = u (d.place ax i1 i2 i) := by
  unfold getMemline
  rw [upLoop_fill (fun i => u (d.place ax i1 i2 i)), if_pos ⟨Nat.zero_le _, hi⟩]

theorem putMemline_eq (d : Dims) (ax : Axis) (u line : Nat → K) (i1 i2 : Nat) (h1 : i1 < d.inner ax)
    (h2 : i2 < d.outer ax) :
    (∀ i, i < d.len ax → putMemline d ax u line i1 i2 (d.place ax i1 i2 i) = line i) ∧
    ∀ p, (∀ i, i < d.len ax → p ≠ d.place ax i1 i2 i) → putMemline d ax u line i1 i2 p = u p := by
  have := upLoop_inv (Nat.zero_le (d.len ax))
    (body := fun i (u : Nat → K) => aset u (d.place ax i1 i2 i) (line i)) (s := u)
    (fun m v => m ≤ d.len ax ∧ (∀ i, i < m → v (d.place ax i1 i2 i) = line i) ∧
      ∀ p, (∀ i, i < m → p ≠ d.place ax i1 i2 i) → v p = u p)
    ⟨Nat.zero_le _, by intro i h; omega, fun _ _ => rfl⟩
    (by
      intro m v _ hm ⟨_, g2, g3⟩
      refine ⟨hm, ?_, ?_⟩
      · intro i hi
        by_cases h : i = m
        · subst h; rw [aset_self]
        · rw [aset_ne, g2 i (by omega)]
          intro he
          exact h (place_inj h1 h2 (by omega) h1 h2 hm he).2.2
      · intro p hp
        rw [aset_ne _ _ (hp m (by omega)), g3 p fun i hi => hp i (by omega)])
  exact ⟨this.2.1, this.2.2⟩

/-! ## Loops over lines -/

/-- The part of the arrays on one line. -/
def lineAt (d : Dims) (ax : Axis) (mem : Arrays K) (i1 i2 : Nat) : Arrays K :=
  fun a i => mem a (d.place ax i1 i2 i)

/-- The work `T` on one line changes the entries of this line only, in a way `G` that depends on the
entries of this line only (and not on the buffers). -/
structure LineAct (d : Dims) (ax : Axis) (G : Arrays K → Arrays K)
    (T : Nat → Nat → LState K → LState K) : Prop where
  on : ∀ i1 i2, i1 < d.inner ax → i2 < d.outer ax → ∀ s a i, i < d.len ax →
    (T i1 i2 s).mem a (d.place ax i1 i2 i) = G (lineAt d ax s.mem i1 i2) a i
  off : ∀ i1 i2, i1 < d.inner ax → i2 < d.outer ax → ∀ s a p,
    (∀ i, i < d.len ax → p ≠ d.place ax i1 i2 i) → (T i1 i2 s).mem a p = s.mem a p
  loc : ∀ m m', (∀ a i, i < d.len ax → m a i = m' a i) → ∀ a i, i < d.len ax → G m a i = G m' a i

theorem LineAct.comp {d : Dims} {ax : Axis} {G H : Arrays K → Arrays K}
    {T U : Nat → Nat → LState K → LState K} (hT : LineAct d ax G T) (hU : LineAct d ax H U) :
    LineAct d ax (fun m => H (G m)) (fun i1 i2 s => U i1 i2 (T i1 i2 s)) := by
  refine ⟨?_, ?_, ?_⟩
  · intro i1 i2 h1 h2 s a i hi
    rw [hU.on i1 i2 h1 h2 _ a i hi]
    exact hU.loc _ _ (fun a i hi => hT.on i1 i2 h1 h2 s a i hi) a i hi
  · intro i1 i2 h1 h2 s a p hp
    rw [hU.off i1 i2 h1 h2 _ a p hp, hT.off i1 i2 h1 h2 _ a p hp]
  · intro m m' h a i hi
    exact hU.loc _ _ (fun a i hi => hT.loc m m' h a i hi) a i hi

/-- The lines in `P` are done, the others are as in `mem0`. -/
def Done (d : Dims) (ax : Axis) (G : Arrays K → Arrays K) (mem0 : Arrays K) (P : Nat → Nat → Prop)
    (mem : Arrays K) : Prop :=
  (∀ a i1 i2 i, i1 < d.inner ax → i2 < d.outer ax → i < d.len ax → P i1 i2 →
    mem a (d.place ax i1 i2 i) = G (lineAt d ax mem0 i1 i2) a i) ∧
  ∀ a p, (∀ i1 i2 i, i1 < d.inner ax → i2 < d.outer ax → i < d.len ax → P i1 i2 →
    p ≠ d.place ax i1 i2 i) → mem a p = mem0 a p

theorem done_step {d : Dims} {ax : Axis} {G : Arrays K → Arrays K}
    {T : Nat → Nat → LState K → LState K} (hT : LineAct d ax G T) {mem0 : Arrays K}
    {P Q : Nat → Nat → Prop} {s : LState K} {j k : Nat} (hj : j < d.inner ax) (hk : k < d.outer ax)
    (hP : ¬ P j k) (hQ : ∀ i1 i2, Q i1 i2 ↔ P i1 i2 ∨ (i1 = j ∧ i2 = k))
    (h : Done d ax G mem0 P s.mem) : Done d ax G mem0 Q (T j k s).mem := by
  refine ⟨?_, ?_⟩
  · intro a i1 i2 i h1 h2 hi hq
    by_cases he : i1 = j ∧ i2 = k
    · obtain ⟨rfl, rfl⟩ := he
      rw [hT.on i1 i2 h1 h2 s a i hi]
      refine hT.loc _ _ (fun a l hl => ?_) a i hi
      refine h.2 a _ fun j1 j2 m g1 g2 g3 gp heq => ?_
      obtain ⟨e1, e2, -⟩ := place_inj h1 h2 hl g1 g2 g3 heq
      rw [← e1, ← e2] at gp
      exact hP gp
    · have hp : P i1 i2 := ((hQ i1 i2).1 hq).resolve_right he
      rw [hT.off j k hj hk s a _ fun l hl heq => ?_]
      · exact h.1 a i1 i2 i h1 h2 hi hp
      · obtain ⟨e1, e2, -⟩ := place_inj h1 h2 hi hj hk hl heq
        exact he ⟨e1, e2⟩
  · intro a p hp
    rw [hT.off j k hj hk s a p fun i hi => hp j k i hj hk hi ((hQ j k).2 (Or.inr ⟨rfl, rfl⟩))]
    exact h.2 a p fun i1 i2 i h1 h2 hi hq => hp i1 i2 i h1 h2 hi ((hQ i1 i2).2 (Or.inl hq))

theorem done_congr {d : Dims} {ax : Axis} {G : Arrays K → Arrays K} {mem0 mem : Arrays K}
    {P Q : Nat → Nat → Prop} (hPQ : ∀ i1 i2, i1 < d.inner ax → i2 < d.outer ax → (P i1 i2 ↔ Q i1 i2))
    (h : Done d ax G mem0 P mem) : Done d ax G mem0 Q mem :=
  ⟨fun a i1 i2 i h1 h2 hi hq => h.1 a i1 i2 i h1 h2 hi ((hPQ i1 i2 h1 h2).2 hq),
    fun a p hp => h.2 a p fun i1 i2 i h1 h2 hi hq => hp i1 i2 i h1 h2 hi ((hPQ i1 i2 h1 h2).1 hq)⟩

theorem done_inner {d : Dims} {ax : Axis} {G : Arrays K → Arrays K}
    {T : Nat → Nat → LState K → LState K} (hT : LineAct d ax G T) {mem0 : Arrays K} {s : LState K}
    {k : Nat} (hk : k < d.outer ax) (h : Done d ax G mem0 (fun _ i2 => i2 < k) s.mem) :
    Done d ax G mem0 (fun _ i2 => i2 < k + 1) (upLoop 0 (d.inner ax) (fun j s => T j k s) s).mem := by
  have := upLoop_inv (Nat.zero_le (d.inner ax)) (body := fun j s => T j k s) (s := s)
    (fun m s => Done d ax G mem0 (fun i1 i2 => i2 < k ∨ (i2 = k ∧ i1 < m)) s.mem)
    (done_congr (by intro i1 i2 _ _; omega) h)
    (by
      intro m s _ hm ih
      exact done_step hT hm hk (by omega) (by intro i1 i2; omega) ih)
  exact done_congr (by intro i1 i2 _ _; omega) this

/-- The loops with new buffers for each outer pass finish all lines. -/
theorem forLinesAlloc_done {d : Dims} {ax : Axis} {G : Arrays K → Arrays K}
    {T : Nat → Nat → LState K → LState K} (hT : LineAct d ax G T)
    (g : Nat → (Nat → K) × (Nat → K) × (Nat → K)) (mem : Arrays K) :
    Done d ax G mem (fun _ _ => True) (forLinesAlloc d ax g T mem) := by
  unfold forLinesAlloc
  have := upLoop_inv (Nat.zero_le (d.outer ax))
    (body := fun k mem => (upLoop 0 (d.inner ax) (fun j s => T j k s)
      ⟨mem, (g k).1, (g k).2.1, (g k).2.2⟩).mem) (s := mem)
    (fun m mm => Done d ax G mem (fun _ i2 => i2 < m) mm)
    ⟨by intro a i1 i2 i _ _ _ h; omega, fun _ _ _ => rfl⟩
    (by intro m mm _ hm ih; exact done_inner hT hm ih)
  exact done_congr (by intro i1 i2 _ h; exact ⟨fun _ => trivial, fun _ => h⟩) this

/-- The loops with buffers made once finish all lines. -/
theorem forLinesStatic_done {d : Dims} {ax : Axis} {G : Arrays K → Arrays K}
    {T : Nat → Nat → LState K → LState K} (hT : LineAct d ax G T)
    (g : (Nat → K) × (Nat → K) × (Nat → K)) (mem : Arrays K) :
    Done d ax G mem (fun _ _ => True) (forLinesStatic d ax g T mem) := by
  unfold forLinesStatic
  have := upLoop_inv (Nat.zero_le (d.outer ax))
    (body := fun k s => upLoop 0 (d.inner ax) (fun j s => T j k s) s) (s := ⟨mem, g.1, g.2.1, g.2.2⟩)
    (fun m s => Done d ax G mem (fun _ i2 => i2 < m) s.mem)
    ⟨by intro a i1 i2 i _ _ _ h; omega, fun _ _ _ => rfl⟩
    (by intro m mm _ hm ih; exact done_inner hT hm ih)
  exact done_congr (by intro i1 i2 _ h; exact ⟨fun _ => trivial, fun _ => h⟩) this

/-- Lines worked on in any order, with any buffer contents. -/
theorem done_order {d : Dims} {ax : Axis} {G : Arrays K → Arrays K}
    {T : Nat → Nat → LState K → LState K} (hT : LineAct d ax G T)
    (g : Nat × Nat → (Nat → K) × (Nat → K) × (Nat → K)) (mem : Arrays K) (l : List (Nat × Nat))
    (hl : l.Nodup) (hr : ∀ q ∈ l, q.1 < d.inner ax ∧ q.2 < d.outer ax) :
    Done d ax G mem (fun i1 i2 => (i1, i2) ∈ l)
      (l.foldl (fun m q => (T q.1 q.2 ⟨m, (g q).1, (g q).2.1, (g q).2.2⟩).mem) mem) := by
  induction l using List.reverseRecOn with
  | nil => exact ⟨by intro a i1 i2 i _ _ _ h; simp at h, fun _ _ _ => rfl⟩
  | append_singleton l q ih =>
    rw [List.foldl_append, List.foldl_cons, List.foldl_nil]
    have hnd := List.nodup_append.1 hl
    refine done_step (P := fun i1 i2 => (i1, i2) ∈ l) hT (hr q (by simp)).1 (hr q (by simp)).2 ?_ ?_
      (ih hnd.1 fun p hp => hr p (by simp [hp]))
    · intro h
      exact hnd.2.2 q h q (by simp) rfl
    · intro i1 i2
      rw [List.mem_append, List.mem_singleton]
      constructor
      · rintro (h | h)
        · exact Or.inl h
        · exact Or.inr ⟨congrArg Prod.fst h, congrArg Prod.snd h⟩
      · rintro (h | ⟨h1, h2⟩)
        · exact Or.inl h
        · right; rw [h1, h2]

/-- All lines done determines the arrays. -/
theorem done_unique {d : Dims} {ax : Axis} {G : Arrays K → Arrays K} {mem0 m m' : Arrays K}
    (h : Done d ax G mem0 (fun _ _ => True) m) (h' : Done d ax G mem0 (fun _ _ => True) m') : m = m' := by
  funext a p
  by_cases hp : ∃ i1 i2 i, i1 < d.inner ax ∧ i2 < d.outer ax ∧ i < d.len ax ∧ p = d.place ax i1 i2 i
  · obtain ⟨i1, i2, i, h1, h2, h3, rfl⟩ := hp
    rw [h.1 a i1 i2 i h1 h2 h3 trivial, h'.1 a i1 i2 i h1 h2 h3 trivial]
  · have : ∀ i1 i2 i, i1 < d.inner ax → i2 < d.outer ax → i < d.len ax → True → p ≠ d.place ax i1 i2 i :=
      fun i1 i2 i h1 h2 h3 _ he => hp ⟨i1, i2, i, h1, h2, h3, he⟩
    rw [h.2 a p this, h'.2 a p this]

/-! ## Work on one line -/

/-- `f` from line `src` to line `dst`. -/
def lineG (f : (Nat → K) → Nat → K) (src dst : Nat) (m : Arrays K) : Arrays K :=
  fun a i => if a = dst then f (m src) i else m a i

theorem lineG_dst (f : (Nat → K) → Nat → K) (src dst : Nat) (m : Arrays K) (i : Nat) :
    lineG f src dst m dst i = f (m src) i := if_pos rfl

theorem lineG_ne (f : (Nat → K) → Nat → K) (src dst a : Nat) (h : a ≠ dst) (m : Arrays K) (i : Nat) :
    lineG f src dst m a i = m a i := if_neg h

/-- Local functions on lines of `n` numbers. -/
def LocalFun (f : (Nat → K) → Nat → K) (n : Nat) : Prop :=
  ∀ u v, (∀ j, j < n → u j = v j) → ∀ i, i < n → f u i = f v i

theorem lineG_loc {f : (Nat → K) → Nat → K} {n : Nat} (hf : LocalFun f n) (src dst : Nat)
    (m m' : Arrays K) (h : ∀ a i, i < n → m a i = m' a i) (a i : Nat) (hi : i < n) :
    lineG f src dst m a i = lineG f src dst m' a i := by
  unfold lineG
  split
  · exact hf _ _ (fun j hj => h src j hj) i hi
  · exact h a i hi

theorem LState.put_mem_on (d : Dims) (ax : Axis) (i1 i2 dst : Nat) (line : Nat → K) (s : LState K)
    (h1 : i1 < d.inner ax) (h2 : i2 < d.outer ax) (a i : Nat) (hi : i < d.len ax) :
    (s.put d ax i1 i2 dst line).mem a (d.place ax i1 i2 i) =
      if a = dst then line i else s.mem a (d.place ax i1 i2 i) := by
  unfold LState.put
  by_cases h : a = dst
  · subst h
    rw [if_pos rfl]
    change aset s.mem a _ a _ = _
    rw [aset_self]
    exact (putMemline_eq d ax _ line i1 i2 h1 h2).1 i hi
  · rw [if_neg h]
    change aset s.mem dst _ a _ = _
    rw [aset_ne _ _ h]

theorem LState.put_mem_off (d : Dims) (ax : Axis) (i1 i2 dst : Nat) (line : Nat → K) (s : LState K)
    (h1 : i1 < d.inner ax) (h2 : i2 < d.outer ax) (a p : Nat)
    (hp : ∀ i, i < d.len ax → p ≠ d.place ax i1 i2 i) :
    (s.put d ax i1 i2 dst line).mem a p = s.mem a p := by
  unfold LState.put
  by_cases h : a = dst
  · subst h
    change aset s.mem a _ a _ = _
    rw [aset_self]
    exact (putMemline_eq d ax _ line i1 i2 h1 h2).2 p hp
  · change aset s.mem dst _ a _ = _
    rw [aset_ne _ _ h]

theorem LState.get_ul (d : Dims) (ax : Axis) (i1 i2 a : Nat) (s : LState K) (i : Nat)
    (hi : i < d.len ax) : (s.get d ax i1 i2 a).ul i = lineAt d ax s.mem i1 i2 a i :=
  getMemline_eq d ax _ _ i1 i2 i hi

/-- Work on a line that computes a buffer `B` from what is read and writes it. -/
theorem LineAct.single {d : Dims} {ax : Axis} {f : (Nat → K) → Nat → K} (hf : LocalFun f (d.len ax))
    (src dst : Nat) (T : Nat → Nat → LState K → LState K) (pre : Nat → Nat → LState K → LState K)
    (B : LState K → Nat → K)
    (hT : ∀ i1 i2 s, T i1 i2 s = (pre i1 i2 s).put d ax i1 i2 dst (B (pre i1 i2 s)))
    (hmem : ∀ i1 i2 s, (pre i1 i2 s).mem = s.mem)
    (hB : ∀ i1 i2 s i, i < d.len ax → B (pre i1 i2 s) i = f (s.get d ax i1 i2 src).ul i) :
    LineAct d ax (lineG f src dst) T := by
  refine ⟨?_, ?_, fun m m' h a i hi => lineG_loc hf src dst m m' h a i hi⟩
  · intro i1 i2 h1 h2 s a i hi
    rw [hT, LState.put_mem_on d ax i1 i2 dst _ _ h1 h2 a i hi, hmem]
    unfold lineG
    by_cases h : a = dst
    · rw [if_pos h, if_pos h, hB _ _ _ i hi]
      exact hf _ _ (fun j hj => LState.get_ul d ax i1 i2 src s j hj) i hi
    · rw [if_neg h, if_neg h]; rfl
  · intro i1 i2 h1 h2 s a p hp
    rw [hT, LState.put_mem_off d ax i1 i2 dst _ _ h1 h2 a p hp, hmem]

/-- The result of a loop in terms of the three indices. -/
theorem actsAlong_of_done {d : Dims} {ax : Axis} {f : (Nat → K) → Nat → K} {src dst : Nat}
    {mem mem' : Arrays K} (hf : LocalFun f (d.len ax))
    (h : Done d ax (lineG f src dst) mem (fun _ _ => True) mem') :
    Spec.ActsAlong d ax f src dst mem mem' := by
  refine ⟨?_, ?_⟩
  · intro i j k hb
    have hv : ∀ i j k a, Spec.view d mem a i j k = mem a (d.idx i j k) := fun _ _ _ _ => rfl
    have hv' : Spec.view d mem' dst i j k = mem' dst (d.idx i j k) := rfl
    rw [hv']
    cases ax with
    | one =>
      have := h.1 dst j k i hb.2.1 hb.2.2 hb.1 trivial
      rw [place_one, lineG_dst] at this
      rw [this]
      exact hf _ _ (fun l _ => by unfold lineAt; rw [place_one, hv]) i hb.1
    | two =>
      have := h.1 dst i k j hb.1 hb.2.2 hb.2.1 trivial
      rw [place_two, lineG_dst] at this
      rw [this]
      exact hf _ _ (fun l _ => by unfold lineAt; rw [place_two, hv]) j hb.2.1
    | three =>
      have := h.1 dst i j k hb.1 hb.2.1 hb.2.2 trivial
      rw [place_three, lineG_dst] at this
      rw [this]
      exact hf _ _ (fun l _ => by unfold lineAt; rw [place_three, hv]) k hb.2.2
  · intro a p hap
    by_cases hp : ∃ i1 i2 i, i1 < d.inner ax ∧ i2 < d.outer ax ∧ i < d.len ax ∧ p = d.place ax i1 i2 i
    · obtain ⟨i1, i2, i, h1, h2, h3, rfl⟩ := hp
      have ha : a ≠ dst := hap.resolve_right (by have := place_lt h1 h2 h3; omega)
      rw [h.1 a i1 i2 i h1 h2 h3 trivial, lineG_ne _ _ _ _ ha]
      rfl
    · exact h.2 a p fun i1 i2 i h1 h2 h3 _ he => hp ⟨i1, i2, i, h1, h2, h3, he⟩

end Sgrid
