import Mathlib.Algebra.BigOperators.Ring.Finset
import Mathlib.Algebra.Order.BigOperators.Ring.Finset
import Mathlib.Data.Rat.Defs
import Mathlib.Tactic.Ring
import Mathlib.Tactic.Linarith
import Verif.Model.GridArrays
import Verif.Lemmas.Lines

/-!
C45, C82: variable lists and flat arrays, subboxes, dot products and norms.
-/

namespace Sgrid
open Finset

/-! ## What the copies should do -/

/-- The place `(box b, point i, entry j of the list)` exists and its box is active. -/
def Spec.Slot (g : GShape) (n b i j : Nat) : Prop :=
  b < g.nboxes ∧ g.inactive b = false ∧ i < g.nnodes b ∧ j < n

/-- Number of points in the active boxes before box `b`. -/
def Spec.before (g : GShape) (b : Nat) : Nat :=
  ∑ k ∈ range b, if g.inactive k then 0 else g.nnodes k

/-- The three orders in which the places are put into the array. -/
inductive Spec.Order
  | points
  | sorted
  | outer

/-- The array slot of a place. `points`: all entries of the list at the first point, then all at
the second point and so on. `sorted`: in each box one entry of the list after the other. `outer`:
the first entry of the list in all boxes, then the second entry in all boxes and so on. -/
def Spec.pos (g : GShape) (n : Nat) : Spec.Order → Nat → Nat → Nat → Nat
  | .points, b, i, j => n * before g b + (n * i + j)
  | .sorted, b, i, j => n * before g b + (g.nnodes b * j + i)
  | .outer, b, i, j => before g g.nboxes * j + (before g b + i)

variable {K : Type}

/-- The function of `utility.c` that copies a list into an array in a given order. -/
def intoArray : Spec.Order → GShape → GData K → VIdx → (Nat → K) → Nat → K
  | .points => copyVarlistIntoArray
  | .sorted => copyVarlistIntoArraySorted
  | .outer => copyVlIntoArrayOuter

/-- The function of `utility.c` that copies an array into a list in a given order. -/
def outOfArray : Spec.Order → GShape → (Nat → K) → GData K → VIdx → GData K
  | .points => copyArrayIntoVarlist
  | .sorted => copyArrayIntoVarlistSorted
  | .outer => copyArrayIntoVlOuter

/-! ## Nested loops as lists -/

theorem foldl_flatMap' {α β σ : Type} (L : List α) (f : α → List β) (h : σ → β → σ) (s : σ) :
    (L.flatMap f).foldl h s = L.foldl (fun s a => (f a).foldl h s) s := by
  induction L generalizing s with
  | nil => rfl
  | cons a L ih => rw [List.flatMap_cons, List.foldl_append, List.foldl_cons, ih]

/-- Blocks one after the other. -/
def blocks {β : Type} (f : Nat → List β) (m : Nat) : List β := (List.range' 0 m).flatMap f

theorem blocks_succ {β : Type} (f : Nat → List β) (m : Nat) :
    blocks f (m + 1) = blocks f m ++ f m := by
  simp [blocks, List.range'_concat]

theorem blocks_length {β : Type} (f : Nat → List β) (m : Nat) :
    (blocks f m).length = ∑ k ∈ range m, (f k).length := by
  induction m with
  | zero => rfl
  | succ m ih => rw [blocks_succ, List.length_append, ih, sum_range_succ]

theorem blocks_get {β : Type} (f : Nat → List β) {m m' r : Nat} (hm : m' < m)
    (hr : r < (f m').length) :
    (blocks f m)[∑ k ∈ range m', (f k).length + r]? = (f m')[r]? := by
  induction m with
  | zero => omega
  | succ m ih =>
    rw [blocks_succ]
    rcases Nat.lt_succ_iff_lt_or_eq.mp hm with h | rfl
    · have hlt : ∑ k ∈ range m', (f k).length + r < (blocks f m).length := by
        rw [blocks_length]
        calc _ < ∑ k ∈ range m', (f k).length + (f m').length := by omega
          _ = ∑ k ∈ range (m' + 1), (f k).length := (sum_range_succ _ _).symm
          _ ≤ _ := sum_le_sum_of_subset (by intro a; simp only [mem_range]; omega)
      rw [List.getElem?_append_left hlt, ih h]
    · rw [List.getElem?_append_right (by rw [blocks_length]; omega), blocks_length]
      congr 1; omega

theorem blocks_surj {β : Type} (f : Nat → List β) {m p : Nat} (hp : p < (blocks f m).length) :
    ∃ m' r, m' < m ∧ r < (f m').length ∧ p = ∑ k ∈ range m', (f k).length + r := by
  induction m with
  | zero => simp [blocks] at hp
  | succ m ih =>
    by_cases h : p < (blocks f m).length
    · obtain ⟨m', r, h1, h2, h3⟩ := ih h
      exact ⟨m', r, by omega, h2, h3⟩
    · rw [blocks_succ, List.length_append] at hp
      rw [blocks_length] at h hp
      exact ⟨m, p - ∑ k ∈ range m, (f k).length, by omega, by omega, by omega⟩

/-- The places in the order in which the loops visit them. -/
def slotList (g : GShape) (n : Nat) : Spec.Order → List (Nat × Nat × Nat)
  | .points => blocks (fun b => if g.inactive b then [] else
      blocks (fun i => (List.range' 0 n).map fun j => (b, i, j)) (g.nnodes b)) g.nboxes
  | .sorted => blocks (fun b => if g.inactive b then [] else
      blocks (fun j => (List.range' 0 (g.nnodes b)).map fun i => (b, i, j)) n) g.nboxes
  | .outer => blocks (fun j => blocks (fun b => if g.inactive b then [] else
      (List.range' 0 (g.nnodes b)).map fun i => (b, i, j)) g.nboxes) n

theorem loopPoints_eq {σ : Type} (g : GShape) (n : Nat) (body : Nat → Nat → Nat → σ → σ) (s : σ) :
    loopPoints g n body s = (slotList g n .points).foldl (fun s p => body p.1 p.2.1 p.2.2 s) s := by
  simp only [loopPoints, GShape.forBoxes, GShape.forPoints, upLoop, slotList, blocks, Nat.sub_zero,
    foldl_flatMap']
  congr 1; funext s b
  split
  · rfl
  · rw [foldl_flatMap']; simp only [List.foldl_map]

theorem loopSorted_eq {σ : Type} (g : GShape) (n : Nat) (body : Nat → Nat → Nat → σ → σ) (s : σ) :
    loopSorted g n body s = (slotList g n .sorted).foldl (fun s p => body p.1 p.2.1 p.2.2 s) s := by
  simp only [loopSorted, GShape.forBoxes, GShape.forPoints, upLoop, slotList, blocks, Nat.sub_zero,
    foldl_flatMap']
  congr 1; funext s b
  split
  · rfl
  · rw [foldl_flatMap']; simp only [List.foldl_map]

theorem loopOuter_eq {σ : Type} (g : GShape) (n : Nat) (body : Nat → Nat → Nat → σ → σ) (s : σ) :
    loopOuter g n body s = (slotList g n .outer).foldl (fun s p => body p.1 p.2.1 p.2.2 s) s := by
  simp only [loopOuter, GShape.forBoxes, GShape.forPoints, upLoop, slotList, blocks, Nat.sub_zero,
    foldl_flatMap']
  congr 1; funext s j
  congr 1; funext s b
  split
  · rfl
  · simp only [List.foldl_map]

theorem intoArray_eq (o : Spec.Order) (g : GShape) (v : GData K) (vlx : VIdx) (x : Nat → K) :
    intoArray o g v vlx x =
      ((slotList g vlx.n o).foldl (fun s p => stepInto v vlx p.1 p.2.1 p.2.2 s) (x, 0)).1 := by
  cases o
  · exact congrArg Prod.fst (loopPoints_eq g vlx.n (stepInto v vlx) (x, 0))
  · exact congrArg Prod.fst (loopSorted_eq g vlx.n (stepInto v vlx) (x, 0))
  · exact congrArg Prod.fst (loopOuter_eq g vlx.n (stepInto v vlx) (x, 0))

theorem outOfArray_eq (o : Spec.Order) (g : GShape) (x : Nat → K) (v : GData K) (vlx : VIdx) :
    outOfArray o g x v vlx =
      ((slotList g vlx.n o).foldl (fun s p => stepOut x vlx p.1 p.2.1 p.2.2 s) (v, 0)).1 := by
  cases o
  · exact congrArg Prod.fst (loopPoints_eq g vlx.n (stepOut x vlx) (v, 0))
  · exact congrArg Prod.fst (loopSorted_eq g vlx.n (stepOut x vlx) (v, 0))
  · exact congrArg Prod.fst (loopOuter_eq g vlx.n (stepOut x vlx) (v, 0))

/-! ## The list of places and the slot formulas -/

theorem const_sum (m c : Nat) : ∑ _k ∈ range m, c = c * m := by
  rw [sum_const, card_range, smul_eq_mul, Nat.mul_comm]

theorem len_points (g : GShape) (n b : Nat) :
    (if g.inactive b then [] else
      blocks (fun i => (List.range' 0 n).map fun j => (b, i, j)) (g.nnodes b)).length =
      n * (if g.inactive b then 0 else g.nnodes b) := by
  split
  · rfl
  · rw [blocks_length]; simp [Nat.mul_comm]

theorem len_sorted (g : GShape) (n b : Nat) :
    (if g.inactive b then [] else
      blocks (fun j => (List.range' 0 (g.nnodes b)).map fun i => (b, i, j)) n).length =
      n * (if g.inactive b then 0 else g.nnodes b) := by
  split
  · rfl
  · rw [blocks_length]; simp

theorem len_outer (g : GShape) (b j : Nat) :
    (if g.inactive b then [] else
      (List.range' 0 (g.nnodes b)).map fun i => (b, i, j)).length =
      (if g.inactive b then 0 else g.nnodes b) := by
  split <;> simp

theorem slotList_length (o : Spec.Order) (g : GShape) (n : Nat) :
    (slotList g n o).length = n * Spec.before g g.nboxes := by
  cases o
  · rw [slotList, blocks_length, Spec.before, mul_sum]
    exact sum_congr rfl fun b _ => len_points g n b
  · rw [slotList, blocks_length, Spec.before, mul_sum]
    exact sum_congr rfl fun b _ => len_sorted g n b
  · rw [slotList, blocks_length]
    have : ∀ j : Nat, (blocks (fun b => if g.inactive b then [] else
        (List.range' 0 (g.nnodes b)).map fun i => (b, i, j)) g.nboxes).length =
        Spec.before g g.nboxes := by
      intro j
      rw [blocks_length, Spec.before]
      exact sum_congr rfl fun b _ => len_outer g b j
    simp only [this, const_sum, Nat.mul_comm]

theorem getElem?_map_range' {α : Type} (f : Nat → α) {m i : Nat} (h : i < m) :
    ((List.range' 0 m).map f)[i]? = some (f i) := by
  simp [h]

/-- The place is in the list at its slot. -/
theorem slotList_get (o : Spec.Order) (g : GShape) (n : Nat) {b i j : Nat}
    (h : Spec.Slot g n b i j) : (slotList g n o)[Spec.pos g n o b i j]? = some (b, i, j) := by
  obtain ⟨hb, ha, hi, hj⟩ := h
  cases o
  · have e : n * Spec.before g b = ∑ k ∈ range b, (if g.inactive k then [] else
        blocks (fun i => (List.range' 0 n).map fun j => (k, i, j)) (g.nnodes k)).length := by
      rw [Spec.before, mul_sum]
      exact sum_congr rfl fun b _ => (len_points g n b).symm
    have hr : n * i + j < (if g.inactive b then [] else
        blocks (fun i => (List.range' 0 n).map fun j => (b, i, j)) (g.nnodes b)).length := by
      rw [len_points, ha]
      have : n * (i + 1) ≤ n * g.nnodes b := Nat.mul_le_mul_left _ hi
      rw [Nat.mul_add] at this
      simp only [Bool.false_eq_true, if_false]; omega
    rw [Spec.pos, slotList, e, blocks_get _ hb hr, ha]
    simp only [Bool.false_eq_true, if_false]
    have e2 : n * i = ∑ k ∈ range i, ((List.range' 0 n).map fun j => (b, k, j)).length := by
      simp [Nat.mul_comm]
    rw [e2, blocks_get _ hi (by simpa using hj), getElem?_map_range' _ hj]
  · have e : n * Spec.before g b = ∑ k ∈ range b, (if g.inactive k then [] else
        blocks (fun j => (List.range' 0 (g.nnodes k)).map fun i => (k, i, j)) n).length := by
      rw [Spec.before, mul_sum]
      exact sum_congr rfl fun b _ => (len_sorted g n b).symm
    have hr : g.nnodes b * j + i < (if g.inactive b then [] else
        blocks (fun j => (List.range' 0 (g.nnodes b)).map fun i => (b, i, j)) n).length := by
      rw [len_sorted, ha]
      have : g.nnodes b * (j + 1) ≤ g.nnodes b * n := Nat.mul_le_mul_left _ hj
      rw [Nat.mul_add, Nat.mul_comm _ n] at this
      simp only [Bool.false_eq_true, if_false]; omega
    rw [Spec.pos, slotList, e, blocks_get _ hb hr, ha]
    simp only [Bool.false_eq_true, if_false]
    have e2 : g.nnodes b * j =
        ∑ k ∈ range j, ((List.range' 0 (g.nnodes b)).map fun i => (b, i, k)).length := by
      simp [Nat.mul_comm]
    rw [e2, blocks_get _ hj (by simpa using hi), getElem?_map_range' _ hi]
  · have hl : ∀ m j : Nat, (blocks (fun b => if g.inactive b then [] else
        (List.range' 0 (g.nnodes b)).map fun i => (b, i, j)) m).length = Spec.before g m := by
      intro m j
      rw [blocks_length, Spec.before]
      exact sum_congr rfl fun b _ => len_outer g b j
    have e : Spec.before g g.nboxes * j = ∑ k ∈ range j, (blocks (fun b => if g.inactive b then []
        else (List.range' 0 (g.nnodes b)).map fun i => (b, i, k)) g.nboxes).length := by
      simp only [hl, const_sum]
    have hr : i < (if g.inactive b then [] else
        (List.range' 0 (g.nnodes b)).map fun i => (b, i, j)).length := by
      rw [len_outer, ha]; simpa using hi
    have hle : Spec.before g b + (if g.inactive b then 0 else g.nnodes b) ≤
        Spec.before g g.nboxes := by
      rw [Spec.before, ← sum_range_succ (fun k => if g.inactive k then 0 else g.nnodes k)]
      exact sum_le_sum_of_subset (by intro a; simp only [mem_range]; omega)
    rw [Spec.pos, slotList, e, blocks_get _ hj (by
      rw [hl]; rw [len_outer] at hr; omega)]
    have e2 : Spec.before g b = ∑ k ∈ range b, (if g.inactive k then [] else
        (List.range' 0 (g.nnodes k)).map fun i => (k, i, j)).length := by
      rw [← hl b j, blocks_length]
    rw [e2, blocks_get _ hb hr, ha]
    simp only [Bool.false_eq_true, if_false]
    exact getElem?_map_range' _ hi

/-- Every slot below the number of places belongs to a place. -/
theorem slotPos_surj (o : Spec.Order) (g : GShape) (n : Nat) {p : Nat}
    (hp : p < n * Spec.before g g.nboxes) :
    ∃ b i j, Spec.Slot g n b i j ∧ Spec.pos g n o b i j = p := by
  rw [← slotList_length o] at hp
  cases o
  · rw [slotList] at hp
    obtain ⟨b, r, hb, hr, rfl⟩ := blocks_surj _ hp
    cases ha : g.inactive b with
    | true => rw [ha] at hr; simp at hr
    | false =>
      have hr' := hr
      rw [ha] at hr'
      simp only [Bool.false_eq_true, if_false] at hr'
      obtain ⟨i, j, hi, hj, rfl⟩ := blocks_surj _ hr'
      refine ⟨b, i, j, ⟨hb, ha, hi, by simpa using hj⟩, ?_⟩
      rw [Spec.pos, Spec.before, mul_sum]
      simp only [len_points]
      congr 2
      simp [Nat.mul_comm]
  · rw [slotList] at hp
    obtain ⟨b, r, hb, hr, rfl⟩ := blocks_surj _ hp
    cases ha : g.inactive b with
    | true => rw [ha] at hr; simp at hr
    | false =>
      have hr' := hr
      rw [ha] at hr'
      simp only [Bool.false_eq_true, if_false] at hr'
      obtain ⟨j, i, hj, hi, rfl⟩ := blocks_surj _ hr'
      refine ⟨b, i, j, ⟨hb, ha, by simpa using hi, hj⟩, ?_⟩
      rw [Spec.pos, Spec.before, mul_sum]
      simp only [len_sorted]
      congr 2
      simp [Nat.mul_comm]
  · rw [slotList] at hp
    obtain ⟨j, r, hj, hr, rfl⟩ := blocks_surj _ hp
    obtain ⟨b, i, hb, hi, rfl⟩ := blocks_surj _ hr
    have hl : ∀ m j : Nat, (blocks (fun b => if g.inactive b then [] else
        (List.range' 0 (g.nnodes b)).map fun i => (b, i, j)) m).length = Spec.before g m := by
      intro m j
      rw [blocks_length, Spec.before]
      exact sum_congr rfl fun b _ => len_outer g b j
    rw [len_outer] at hi
    cases ha : g.inactive b with
    | true => rw [ha] at hi; simp at hi
    | false =>
      rw [ha] at hi
      refine ⟨b, i, j, ⟨hb, ha, by simpa using hi, hj⟩, ?_⟩
      simp only [hl, const_sum, Spec.pos, len_outer]
      rfl

theorem slotPos_lt (o : Spec.Order) (g : GShape) (n : Nat) {b i j : Nat} (h : Spec.Slot g n b i j) :
    Spec.pos g n o b i j < n * Spec.before g g.nboxes := by
  rw [← slotList_length o]
  have := slotList_get o g n h
  rw [List.getElem?_eq_some_iff] at this
  exact this.1

theorem slotPos_inj (o : Spec.Order) (g : GShape) (n : Nat) {b i j b' i' j' : Nat}
    (h : Spec.Slot g n b i j) (h' : Spec.Slot g n b' i' j')
    (e : Spec.pos g n o b i j = Spec.pos g n o b' i' j') : b = b' ∧ i = i' ∧ j = j' := by
  have h1 := slotList_get o g n h
  rw [e, slotList_get o g n h'] at h1
  simp only [Option.some.injEq, Prod.mk.injEq] at h1
  exact ⟨h1.1.symm, h1.2.1.symm, h1.2.2.symm⟩

/-- At one point later entries of the list have later slots. -/
theorem slotPos_mono (o : Spec.Order) (g : GShape) (n : Nat) {b i j j' : Nat} (h : j ≤ j') :
    Spec.pos g n o b i j ≤ Spec.pos g n o b i j' := by
  cases o
  · simp only [Spec.pos]; omega
  · have := Nat.mul_le_mul_left (g.nnodes b) h
    simp only [Spec.pos]; omega
  · have := Nat.mul_le_mul_left (Spec.before g g.nboxes) h
    simp only [Spec.pos]; omega

/-! ## Walking along a list -/

theorem walk_into (v : GData K) (vlx : VIdx) (L : List (Nat × Nat × Nat)) (x : Nat → K) (l : Nat)
    (p : Nat) :
    (L.foldl (fun s p => stepInto v vlx p.1 p.2.1 p.2.2 s) (x, l)).1 p =
      if p < l then x p else
        match L[p - l]? with
        | some q => v q.1 (vlx.index q.2.2) q.2.1
        | none => x p := by
  induction L generalizing x l with
  | nil => simp
  | cons q L ih =>
    rw [List.foldl_cons]
    unfold stepInto at ih ⊢
    rw [ih]
    by_cases h1 : p < l
    · rw [if_pos (by omega), if_pos h1, aset_ne _ _ (by omega)]
    · rw [if_neg h1]
      by_cases h2 : p = l
      · subst h2
        rw [if_pos (by omega), aset_self, Nat.sub_self]; rfl
      · rw [if_neg (by omega), aset_ne _ _ h2]
        obtain ⟨k, hk⟩ : ∃ k, p - l = k + 1 := ⟨p - l - 1, by omega⟩
        rw [hk, show p - (l + 1) = k by omega, List.getElem?_cons_succ]

/-- The last write wins. -/
theorem walk_out (x : Nat → K) (vlx : VIdx) (L : List (Nat × Nat × Nat)) (v : GData K) (l : Nat)
    (b y i : Nat) :
    let v' := (L.foldl (fun s p => stepOut x vlx p.1 p.2.1 p.2.2 s) (v, l)).1
    (∀ p q, L[p]? = some q → (q.1 = b ∧ vlx.index q.2.2 = y ∧ q.2.1 = i) →
      (∀ p' q', p < p' → L[p']? = some q' → ¬ (q'.1 = b ∧ vlx.index q'.2.2 = y ∧ q'.2.1 = i)) →
      v' b y i = x (l + p)) ∧
    ((∀ q ∈ L, ¬ (q.1 = b ∧ vlx.index q.2.2 = y ∧ q.2.1 = i)) → v' b y i = v b y i) := by
  induction L generalizing v l with
  | nil => simp
  | cons q L ih =>
    rw [List.foldl_cons]
    have key := ih (stepOut x vlx q.1 q.2.1 q.2.2 (v, l)).1 (l + 1)
    have hst : stepOut x vlx q.1 q.2.1 q.2.2 (v, l) =
      ((stepOut x vlx q.1 q.2.1 q.2.2 (v, l)).1, l + 1) := rfl
    rw [← hst] at key
    refine ⟨?_, ?_⟩
    · intro p r hp hr hlast
      cases p with
      | zero =>
        have hqr : q = r := by simpa using hp
        subst hqr
        rw [key.2 (by
          intro q' hq'
          obtain ⟨p', hp'⟩ := List.getElem?_of_mem hq'
          exact hlast (p' + 1) q' (by omega) (by simpa using hp'))]
        simp only [stepOut, GData.set]
        rw [if_pos ⟨hr.1.symm, hr.2.1.symm, hr.2.2.symm⟩]
        rfl
      | succ p =>
        rw [key.1 p r (by simpa using hp) hr (by
          intro p' q' h1 h2
          exact hlast (p' + 1) q' (by omega) (by simpa using h2))]
        congr 1; omega
    · intro hno
      rw [key.2 fun q' hq' => hno q' (List.mem_cons_of_mem _ hq')]
      simp only [stepOut, GData.set]
      rw [if_neg]
      rintro ⟨h1, h2, h3⟩
      exact hno q List.mem_cons_self ⟨h1.symm, h2.symm, h3.symm⟩

/-! ## C45 -/

/-- Each slot of the array belongs to exactly one place, and each place to a slot. -/
theorem C45_slots (o : Spec.Order) (g : GShape) (n : Nat) :
    (∀ b i j, Spec.Slot g n b i j → Spec.pos g n o b i j < n * Spec.before g g.nboxes) ∧
    ∀ p < n * Spec.before g g.nboxes,
      ∃! s : Nat × Nat × Nat, Spec.Slot g n s.1 s.2.1 s.2.2 ∧ Spec.pos g n o s.1 s.2.1 s.2.2 = p := by
  refine ⟨fun b i j h => slotPos_lt o g n h, fun p hp => ?_⟩
  obtain ⟨b, i, j, h, e⟩ := slotPos_surj o g n hp
  refine ⟨(b, i, j), ⟨h, e⟩, ?_⟩
  rintro ⟨b', i', j'⟩ ⟨h', e'⟩
  obtain ⟨rfl, rfl, rfl⟩ := slotPos_inj o g n h' h (e'.trans e.symm)
  rfl

/-- A list copied into an array: each slot holds the value at its place, and nothing beyond the
last slot is written. -/
theorem C45_into (o : Spec.Order) (g : GShape) (v : GData K) (vlx : VIdx) (x : Nat → K) :
    (∀ b i j, Spec.Slot g vlx.n b i j →
      intoArray o g v vlx x (Spec.pos g vlx.n o b i j) = v b (vlx.index j) i) ∧
    ∀ p, vlx.n * Spec.before g g.nboxes ≤ p → intoArray o g v vlx x p = x p := by
  constructor
  · intro b i j h
    rw [intoArray_eq, walk_into, if_neg (by omega), Nat.sub_zero, slotList_get o g vlx.n h]
  · intro p hp
    rw [intoArray_eq, walk_into, if_neg (by omega), Nat.sub_zero,
      List.getElem?_eq_none (by rw [slotList_length]; exact hp)]

theorem mem_slotList {o : Spec.Order} {g : GShape} {n : Nat} {p : Nat} {q : Nat × Nat × Nat}
    (h : (slotList g n o)[p]? = some q) :
    Spec.Slot g n q.1 q.2.1 q.2.2 ∧ Spec.pos g n o q.1 q.2.1 q.2.2 = p := by
  have hp : p < n * Spec.before g g.nboxes := by
    rw [← slotList_length o]
    exact (List.getElem?_eq_some_iff.mp h).1
  obtain ⟨b, i, j, hs, e⟩ := slotPos_surj o g n hp
  have h2 := slotList_get o g n hs
  rw [e, h] at h2
  obtain rfl : q = (b, i, j) := by simpa using h2
  exact ⟨hs, e⟩

/-- An array copied into a list: the variable gets the value of the slot; if the variable is in the
list several times the last entry counts. All other variables, and all variables in inactive boxes,
keep their values. -/
theorem C45_outof (o : Spec.Order) (g : GShape) (x : Nat → K) (v : GData K) (vlx : VIdx) :
    (∀ b i j, Spec.Slot g vlx.n b i j →
      (∀ j', j < j' → j' < vlx.n → vlx.index j' ≠ vlx.index j) →
      outOfArray o g x v vlx b (vlx.index j) i = x (Spec.pos g vlx.n o b i j)) ∧
    ∀ b y i, (∀ j, Spec.Slot g vlx.n b i j → vlx.index j ≠ y) →
      outOfArray o g x v vlx b y i = v b y i := by
  constructor
  · intro b i j h hlast
    rw [outOfArray_eq]
    rw [(walk_out x vlx (slotList g vlx.n o) v 0 b (vlx.index j) i).1 _ _
      (slotList_get o g vlx.n h) ⟨rfl, rfl, rfl⟩ ?_, Nat.zero_add]
    rintro p' ⟨b', i', j'⟩ hlt hq ⟨rfl, h2, rfl⟩
    obtain ⟨hs, e⟩ := mem_slotList hq
    refine hlast j' ?_ hs.2.2.2 h2
    by_contra hc
    have := slotPos_mono o g vlx.n (b := b') (i := i') (Nat.le_of_not_lt hc)
    simp only at e hlt
    omega
  · intro b y i hno
    rw [outOfArray_eq]
    apply (walk_out x vlx (slotList g vlx.n o) v 0 b y i).2
    rintro ⟨b', i', j'⟩ hq ⟨rfl, h2, rfl⟩
    obtain ⟨p, hp⟩ := List.getElem?_of_mem hq
    exact hno j' (mem_slotList hp).1 h2

/-- Copying a list into an array and back changes nothing, for every list and whatever is in the
array before. -/
theorem C45_list_array_list (o : Spec.Order) (g : GShape) (v : GData K) (vlx : VIdx) (x : Nat → K) :
    outOfArray o g (intoArray o g v vlx x) v vlx = v := by
  funext b y i
  by_cases h : ∃ j, Spec.Slot g vlx.n b i j ∧ vlx.index j = y
  · obtain ⟨j, ⟨hs, e⟩, hmax⟩ : ∃ j, (Spec.Slot g vlx.n b i j ∧ vlx.index j = y) ∧
        ∀ j', j < j' → ¬ (Spec.Slot g vlx.n b i j' ∧ vlx.index j' = y) := by
      classical
      obtain ⟨j0, h0⟩ := h
      have hb : j0 ≤ vlx.n := by have := h0.1.2.2.2; omega
      refine ⟨Nat.findGreatest (fun j => Spec.Slot g vlx.n b i j ∧ vlx.index j = y) vlx.n,
        Nat.findGreatest_spec (P := fun j => Spec.Slot g vlx.n b i j ∧ vlx.index j = y) hb h0, ?_⟩
      intro j' h1 h2
      exact Nat.findGreatest_is_greatest h1 (by have := h2.1.2.2.2; omega) h2
    subst e
    rw [(C45_outof o g _ v vlx).1 b i j hs (fun j' h1 h2 h3 =>
      hmax j' h1 ⟨⟨hs.1, hs.2.1, hs.2.2.1, h2⟩, h3⟩), (C45_into o g v vlx x).1 b i j hs]
  · exact (C45_outof o g _ v vlx).2 b y i fun j hj e => h ⟨j, hj, e⟩

/-- Copying an array into a list whose entries are different and back gives the array. -/
theorem C45_array_list_array (o : Spec.Order) (g : GShape) (x : Nat → K) (v : GData K) (vlx : VIdx)
    (hinj : ∀ j j', j < vlx.n → j' < vlx.n → vlx.index j = vlx.index j' → j = j') :
    intoArray o g (outOfArray o g x v vlx) vlx x = x := by
  funext p
  by_cases hp : p < vlx.n * Spec.before g g.nboxes
  · obtain ⟨b, i, j, hs, rfl⟩ := slotPos_surj o g vlx.n hp
    rw [(C45_into o g _ vlx x).1 b i j hs, (C45_outof o g x v vlx).1 b i j hs]
    intro j' h1 h2 h3
    have := hinj j' j h2 hs.2.2.2 h3
    omega
  · exact (C45_into o g _ vlx x).2 p (Nat.le_of_not_lt hp)

/-- Two boxes of two and three points with an inactive box between them, variables 7 and 4. -/
def exShape : GShape :=
  ⟨3, fun b => if b = 0 then 2 else if b = 1 then 5 else 3, fun b => b == 1⟩

/-- The list of variables 7 and 4. -/
def exList : VIdx := ⟨2, fun j => if j = 0 then 7 else 4⟩

/-- Values that show box, variable and point. -/
def exData : GData ℚ := fun b x i => 100 * b + 10 * x + i

example : (List.range 11).map (intoArray .points exShape exData exList fun _ => -1) =
    [70, 40, 71, 41, 270, 240, 271, 241, 272, 242, -1] := by decide +kernel

example : (List.range 11).map (intoArray .sorted exShape exData exList fun _ => -1) =
    [70, 71, 40, 41, 270, 271, 272, 240, 241, 242, -1] := by decide +kernel

example : (List.range 11).map (intoArray .outer exShape exData exList fun _ => -1) =
    [70, 71, 270, 271, 272, 40, 41, 240, 241, 242, -1] := by decide +kernel

example : let v' := outOfArray .points exShape (fun p => (p : ℚ)) exData exList
    ((List.range 3).map (v' 2 4), (List.range 3).map (v' 1 4)) = ([5, 7, 9], [140, 141, 142]) := by
  decide +kernel

/-! ## C82: dot product and norms -/

theorem foldl_add {α : Type} [AddCommMonoid K] (f : α → K) (L : List α) (s : K) :
    L.foldl (fun s a => s + f a) s = s + (L.map f).sum := by
  induction L generalizing s with
  | nil => simp
  | cons a L ih => rw [List.foldl_cons, ih, List.map_cons, List.sum_cons, add_assoc]

theorem blocks_sum {β : Type} [AddCommMonoid K] (F : Nat → List β) (f : β → K) (m : Nat) :
    ((blocks F m).map f).sum = ∑ k ∈ range m, ((F k).map f).sum := by
  induction m with
  | zero => simp [blocks]
  | succ m ih => rw [blocks_succ, List.map_append, List.sum_append, ih, sum_range_succ]

theorem range'_sum [AddCommMonoid K] (f : Nat → K) (m : Nat) :
    ((List.range' 0 m).map f).sum = ∑ k ∈ range m, f k := by
  induction m with
  | zero => simp
  | succ m ih =>
    rw [List.range'_concat, List.map_append, List.sum_append, ih, sum_range_succ]; simp

/-- Sum over all places. -/
def Spec.sumPlaces [AddCommMonoid K] (g : GShape) (n : Nat) (f : Nat → Nat → Nat → K) : K :=
  ∑ j ∈ range n, ∑ b ∈ range g.nboxes, if g.inactive b then 0 else ∑ i ∈ range (g.nnodes b), f b i j

theorem slotList_outer_sum [AddCommMonoid K] (g : GShape) (n : Nat) (f : Nat × Nat × Nat → K) :
    ((slotList g n .outer).map f).sum = Spec.sumPlaces g n fun b i j => f (b, i, j) := by
  rw [slotList, blocks_sum, Spec.sumPlaces]
  refine sum_congr rfl fun j _ => ?_
  rw [blocks_sum]
  refine sum_congr rfl fun b _ => ?_
  split
  · rfl
  · rw [List.map_map, range'_sum]; rfl

theorem slotList_nodup (o : Spec.Order) (g : GShape) (n : Nat) : (slotList g n o).Nodup := by
  rw [List.nodup_iff_getElem?_ne_getElem?]
  intro p p' h1 h2 h3
  have hp := List.getElem?_eq_getElem (l := slotList g n o) (i := p) (by omega)
  have e1 := (mem_slotList hp).2
  have e2 := (mem_slotList (h3 ▸ hp)).2
  omega

theorem mem_slotList_iff (o : Spec.Order) (g : GShape) (n : Nat) (q : Nat × Nat × Nat) :
    q ∈ slotList g n o ↔ Spec.Slot g n q.1 q.2.1 q.2.2 := by
  constructor
  · intro h
    obtain ⟨p, hp⟩ := List.getElem?_of_mem h
    exact (mem_slotList hp).1
  · intro h
    exact List.mem_of_getElem? (slotList_get o g n h)

/-- All orders sum over the same places. -/
theorem slotList_sum [AddCommMonoid K] (o : Spec.Order) (g : GShape) (n : Nat)
    (f : Nat × Nat × Nat → K) :
    ((slotList g n o).map f).sum = Spec.sumPlaces g n fun b i j => f (b, i, j) := by
  rw [← slotList_outer_sum]
  apply List.Perm.sum_eq
  apply List.Perm.map
  rw [List.perm_ext_iff_of_nodup (slotList_nodup _ _ _) (slotList_nodup _ _ _)]
  intro q
  rw [mem_slotList_iff, mem_slotList_iff]

theorem list_sum_range {α : Type} [AddCommMonoid K] (L : List α) (f : α → K) (F : Nat → K)
    (h : ∀ p q, L[p]? = some q → F p = f q) : (L.map f).sum = ∑ p ∈ range L.length, F p := by
  induction L generalizing F with
  | nil => simp
  | cons a L ih =>
    rw [List.map_cons, List.sum_cons, List.length_cons, sum_range_succ', add_comm,
      ih (fun p => F (p + 1)) fun p q hq => h (p + 1) q (by simpa using hq), h 0 a (by simp)]

/-- A sum over the array slots is the sum over the places. -/
theorem C82_flat [AddCommMonoid K] (o : Spec.Order) (g : GShape) (n : Nat) (F : Nat → K) :
    ∑ p ∈ range (n * Spec.before g g.nboxes), F p =
      Spec.sumPlaces g n fun b i j => F (Spec.pos g n o b i j) := by
  rw [← slotList_length o, ← slotList_sum o g n fun q => F (Spec.pos g n o q.1 q.2.1 q.2.2)]
  symm
  apply list_sum_range
  intro p q hq
  rw [(mem_slotList hq).2]

/-- The dot product is the sum of the products over all entries of the list, active boxes and
points. -/
theorem C82_dot [CommSemiring K] (g : GShape) (v : GData K) (vlu vlv : VIdx) :
    gridDotProduct g v vlu vlv =
      Spec.sumPlaces g vlu.n fun b i j => v b (vlu.index j) i * v b (vlv.index j) i := by
  rw [← slotList_outer_sum g vlu.n
    fun q => v q.1 (vlu.index q.2.2) q.2.1 * v q.1 (vlv.index q.2.2) q.2.1]
  have := loopOuter_eq g vlu.n
    (fun b i j (sum : K) => sum + v b (vlu.index j) i * v b (vlv.index j) i) 0
  rw [foldl_add (fun q : Nat × Nat × Nat =>
    v q.1 (vlu.index q.2.2) q.2.1 * v q.1 (vlv.index q.2.2) q.2.1), zero_add] at this
  exact this

/-- It is the dot product of the arrays into which the lists are copied, in all three orders. -/
theorem C82_dot_arrays [CommSemiring K] (o : Spec.Order) (g : GShape) (v : GData K)
    (vlu vlv : VIdx) (hn : vlu.n = vlv.n) (x y : Nat → K) :
    gridDotProduct g v vlu vlv = ∑ p ∈ range (vlu.n * Spec.before g g.nboxes),
      intoArray o g v vlu x p * intoArray o g v vlv y p := by
  rw [C82_dot, C82_flat o]
  unfold Spec.sumPlaces
  refine sum_congr rfl fun j hj => sum_congr rfl fun b hb => ?_
  split
  · rfl
  · rename_i ha
    refine sum_congr rfl fun i hi => ?_
    have hs : Spec.Slot g vlu.n b i j :=
      ⟨mem_range.mp hb, by simpa using ha, mem_range.mp hi, mem_range.mp hj⟩
    beta_reduce
    rw [(C45_into o g v vlu x).1 b i j hs, hn, (C45_into o g v vlv y).1 b i j (hn ▸ hs)]

theorem sumPlaces_congr [AddCommMonoid K] {g : GShape} {n : Nat} {f f' : Nat → Nat → Nat → K}
    (h : ∀ b i j, Spec.Slot g n b i j → f b i j = f' b i j) :
    Spec.sumPlaces g n f = Spec.sumPlaces g n f' := by
  unfold Spec.sumPlaces
  refine sum_congr rfl fun j hj => sum_congr rfl fun b hb => ?_
  split
  · rfl
  · rename_i ha
    exact sum_congr rfl fun i hi =>
      h b i j ⟨mem_range.mp hb, by simpa using ha, mem_range.mp hi, mem_range.mp hj⟩

/-- The dot product is symmetric. -/
theorem C82_dot_symm [CommSemiring K] (g : GShape) (v : GData K) (vlu vlv : VIdx)
    (hn : vlu.n = vlv.n) : gridDotProduct g v vlu vlv = gridDotProduct g v vlv vlu := by
  rw [C82_dot, C82_dot, hn]
  exact sumPlaces_congr fun b i j _ => mul_comm _ _

/-- The dot product is linear: if at all places of the active boxes `w = c*u + d*u'`, the same holds
for the dot products with a list `z`. -/
theorem C82_dot_linear [CommSemiring K] (g : GShape) (v : GData K) (vlu vlu' vlw vlz : VIdx)
    (c d : K) (hu : vlu.n = vlw.n) (hu' : vlu'.n = vlw.n)
    (h : ∀ b i j, Spec.Slot g vlw.n b i j →
      v b (vlw.index j) i = c * v b (vlu.index j) i + d * v b (vlu'.index j) i) :
    gridDotProduct g v vlw vlz = c * gridDotProduct g v vlu vlz + d * gridDotProduct g v vlu' vlz := by
  simp only [C82_dot, hu, hu']
  rw [sumPlaces_congr fun b i j hs => by rw [h b i j hs]]
  unfold Spec.sumPlaces
  rw [mul_sum, mul_sum, ← sum_add_distrib]
  refine sum_congr rfl fun j _ => ?_
  rw [mul_sum, mul_sum, ← sum_add_distrib]
  refine sum_congr rfl fun b _ => ?_
  split
  · simp
  · rw [mul_sum, mul_sum, ← sum_add_distrib]
    exact sum_congr rfl fun i _ => by ring

theorem sumPlaces_nonneg {g : GShape} {n : Nat} {f : Nat → Nat → Nat → ℝ}
    (h : ∀ b i j, 0 ≤ f b i j) : 0 ≤ Spec.sumPlaces g n f := by
  unfold Spec.sumPlaces
  refine sum_nonneg fun j _ => sum_nonneg fun b _ => ?_
  split
  · exact le_rfl
  · exact sum_nonneg fun i _ => h b i j

theorem sumPlaces_eq_zero {g : GShape} {n : Nat} {f : Nat → Nat → Nat → ℝ}
    (h : ∀ b i j, 0 ≤ f b i j) (h0 : Spec.sumPlaces g n f = 0) :
    ∀ b i j, Spec.Slot g n b i j → f b i j = 0 := by
  intro b i j hs
  rw [← slotList_sum .outer g n fun q => f q.1 q.2.1 q.2.2] at h0
  have hm := (mem_slotList_iff .outer g n (b, i, j)).mpr hs
  have hle := List.single_le_sum (l := (slotList g n .outer).map fun q => f q.1 q.2.1 q.2.2) (by
    intro x hx
    obtain ⟨q, _, rfl⟩ := List.mem_map.mp hx
    exact h _ _ _) (f b i j) (List.mem_map.mpr ⟨(b, i, j), hm, rfl⟩)
  rw [h0] at hle
  exact le_antisymm hle (h b i j)

/-- Number of places. -/
theorem sumPlaces_one (g : GShape) (n : Nat) :
    Spec.sumPlaces g n (fun _ _ _ => (1 : Nat)) = n * Spec.before g g.nboxes := by
  simp [Spec.sumPlaces, Spec.before]

theorem l2_fold [AddCommMonoid K] {α : Type} (f : α → K) (L : List α) (s : K × Nat) :
    L.foldl (fun s a => (s.1 + f a, s.2 + 1)) s = (s.1 + (L.map f).sum, s.2 + L.length) := by
  induction L generalizing s with
  | nil => simp
  | cons a L ih =>
    rw [List.foldl_cons, ih, List.map_cons, List.sum_cons, List.length_cons, add_assoc]
    exact Prod.ext rfl (by simp only; omega)

theorem gridL2Sums_spec [CommSemiring K] (g : GShape) (v : GData K) (vlu : VIdx) :
    gridL2Sums g v vlu =
      (Spec.sumPlaces g vlu.n (fun b i j => v b (vlu.index j) i * v b (vlu.index j) i),
        vlu.n * Spec.before g g.nboxes) := by
  have := loopOuter_eq g vlu.n (fun b i j (s : K × Nat) =>
    (s.1 + v b (vlu.index j) i * v b (vlu.index j) i, s.2 + 1)) (0, 0)
  rw [l2_fold (fun q : Nat × Nat × Nat =>
    v q.1 (vlu.index q.2.2) q.2.1 * v q.1 (vlu.index q.2.2) q.2.1), zero_add, Nat.zero_add,
    slotList_outer_sum, slotList_length] at this
  exact this

/-- The norm is the root of the mean square: its square times the number of places is the dot
product of the list with itself, and it is not negative. -/
theorem C82_norm (g : GShape) (v : GData ℝ) (vlu : VIdx)
    (hN : 0 < vlu.n * Spec.before g g.nboxes) :
    0 ≤ gridL2Norm g v vlu ∧
    gridL2Norm g v vlu ^ 2 * (vlu.n * Spec.before g g.nboxes : ℕ) = gridDotProduct g v vlu vlu := by
  unfold gridL2Norm
  rw [gridL2Sums_spec, C82_dot]
  refine ⟨Real.sqrt_nonneg _, ?_⟩
  simp only
  have hN' : (0 : ℝ) < (vlu.n * Spec.before g g.nboxes : ℕ) := by exact_mod_cast hN
  rw [Real.sq_sqrt (div_nonneg (sumPlaces_nonneg fun b i j => mul_self_nonneg _) hN'.le),
    div_mul_cancel₀ _ hN'.ne']

/-- The norm vanishes only if all values in the active boxes vanish. -/
theorem C82_norm_zero (g : GShape) (v : GData ℝ) (vlu : VIdx) :
    gridL2Norm g v vlu = 0 ↔ ∀ b i j, Spec.Slot g vlu.n b i j → v b (vlu.index j) i = 0 := by
  unfold gridL2Norm
  rw [gridL2Sums_spec]
  simp only
  constructor
  · intro h b i j hs
    have hN : (0 : ℝ) < (vlu.n * Spec.before g g.nboxes : ℕ) := by
      have := slotPos_lt .points g vlu.n hs
      exact_mod_cast lt_of_le_of_lt (Nat.zero_le _) this
    have h2 := (Real.sqrt_eq_zero
      (div_nonneg (sumPlaces_nonneg fun b i j => mul_self_nonneg _) hN.le)).mp h
    rw [div_eq_zero_iff] at h2
    rcases h2 with h2 | h2
    · exact mul_self_eq_zero.mp (sumPlaces_eq_zero (fun b i j => mul_self_nonneg _) h2 b i j hs)
    · exact absurd h2 hN.ne'
  · intro h
    rw [sumPlaces_congr (f' := fun _ _ _ => 0) fun b i j hs => by rw [h b i j hs, mul_zero]]
    simp [Spec.sumPlaces]

/-- The norm does not change if signs do, and multiplying by a number multiplies it by its size. -/
theorem C82_norm_scale (g : GShape) (v : GData ℝ) (vlu vlw : VIdx) (c : ℝ) (hn : vlu.n = vlw.n)
    (h : ∀ b i j, Spec.Slot g vlw.n b i j → v b (vlw.index j) i = c * v b (vlu.index j) i) :
    gridL2Norm g v vlw = |c| * gridL2Norm g v vlu := by
  unfold gridL2Norm
  rw [gridL2Sums_spec, gridL2Sums_spec, hn]
  simp only
  rw [sumPlaces_congr fun b i j hs => by rw [h b i j hs], ← Real.sqrt_sq_eq_abs,
    ← Real.sqrt_mul (sq_nonneg c), mul_div_assoc']
  congr 2
  unfold Spec.sumPlaces
  rw [mul_sum]
  refine sum_congr rfl fun j _ => ?_
  rw [mul_sum]
  refine sum_congr rfl fun b _ => ?_
  split
  · simp
  · rw [mul_sum]
    exact sum_congr rfl fun i _ => by ring

/-- The norm in one box is the norm of the grid that consists of this box only. -/
theorem C82_box_norm (g : GShape) (v : GData ℝ) (b : Nat) (vlu : VIdx) :
    boxL2Norm g v b vlu = gridL2Norm ⟨1, fun _ => g.nnodes b, fun _ => false⟩ (fun _ => v b) vlu := by
  rfl

theorem C82_var_norm (g : GShape) (v : GData ℝ) (b iu : Nat) :
    varBoxL2Norm g v b iu = √((∑ i ∈ range (g.nnodes b), v b iu i ^ 2) / g.nnodes b) := by
  unfold varBoxL2Norm
  rw [C82_box_norm, gridL2Norm, gridL2Sums_spec]
  simp [Spec.sumPlaces, Spec.before, sq]

example : gridDotProduct exShape exData exList ⟨2, fun j => if j = 0 then 4 else 7⟩ =
    2 * (70 * 40 + 71 * 41 + 270 * 240 + 271 * 241 + 272 * 242) := by decide +kernel

example : gridL2Sums exShape (fun b x i => (b : ℚ) + x + i) ⟨1, fun _ => 1⟩ =
    (1 + 4 + 9 + 16 + 25, 5) := by decide +kernel

/-! ## C83: subboxes -/

/-- Every index of a box is in exactly one of the subbox ranges. -/
theorem C83_partition {n nsb i : Nat} (hi : i < n) (hs : 0 < nsb) :
    ∃! sb, sb < nsb ∧ (subboxRange n sb nsb).1 ≤ i ∧ i < (subboxRange n sb nsb).2 := by
  simp only [subboxRange]
  have hmono : ∀ {a b : Nat}, a ≤ b → a * n / nsb ≤ b * n / nsb := fun h =>
    Nat.div_le_div_right (Nat.mul_le_mul_right n h)
  have h0 : (0 : Nat) * n / nsb ≤ i := by simp
  let P : Nat → Prop := fun sb => sb * n / nsb ≤ i
  have hP : P (Nat.findGreatest P (nsb - 1)) := Nat.findGreatest_spec (P := P) (Nat.zero_le _) h0
  have hle : Nat.findGreatest P (nsb - 1) ≤ nsb - 1 := Nat.findGreatest_le _
  have hup : i < (Nat.findGreatest P (nsb - 1) + 1) * n / nsb := by
    by_cases he : Nat.findGreatest P (nsb - 1) + 1 ≤ nsb - 1
    · exact Nat.lt_of_not_le (Nat.findGreatest_is_greatest (P := P) (Nat.lt_succ_self _) he)
    · have : Nat.findGreatest P (nsb - 1) + 1 = nsb := by omega
      rw [this, Nat.mul_div_cancel_left _ hs]; exact hi
  refine ⟨_, ⟨by omega, hP, hup⟩, ?_⟩
  rintro sb ⟨h1, h2, h3⟩
  rcases Nat.lt_trichotomy sb (Nat.findGreatest P (nsb - 1)) with h | h | h
  · have := hmono (show sb + 1 ≤ _ from h)
    have hP' : Nat.findGreatest P (nsb - 1) * n / nsb ≤ i := hP
    omega
  · exact h
  · have := hmono (show Nat.findGreatest P (nsb - 1) + 1 ≤ sb from h)
    omega

/-- The ranges are inside the box, and each begins where the one before ends. -/
theorem C83_ranges (n nsb sb : Nat) (hs : sb < nsb) :
    (subboxRange n sb nsb).1 ≤ (subboxRange n sb nsb).2 ∧ (subboxRange n sb nsb).2 ≤ n ∧
    (subboxRange n 0 nsb).1 = 0 ∧ (subboxRange n (sb + 1) nsb).1 = (subboxRange n sb nsb).2 := by
  simp only [subboxRange]
  refine ⟨Nat.div_le_div_right (Nat.mul_le_mul_right n (Nat.le_succ _)), ?_, by simp, trivial⟩
  exact Nat.div_le_of_le_mul (Nat.mul_le_mul_right n hs)

/-- The point `(i,j,k)` is in the subbox. -/
def Spec.InSub (d : Dims) (sbi sbj sbk nsb1 nsb2 nsb3 i j k : Nat) : Prop :=
  ((subboxRange d.n1 sbi nsb1).1 ≤ i ∧ i < (subboxRange d.n1 sbi nsb1).2) ∧
  ((subboxRange d.n2 sbj nsb2).1 ≤ j ∧ j < (subboxRange d.n2 sbj nsb2).2) ∧
  ((subboxRange d.n3 sbk nsb3).1 ≤ k ∧ k < (subboxRange d.n3 sbk nsb3).2)

/-- Size of the subbox in each direction. -/
def Spec.subDims (d : Dims) (sbi sbj sbk nsb1 nsb2 nsb3 : Nat) : Dims :=
  ⟨(subboxRange d.n1 sbi nsb1).2 - (subboxRange d.n1 sbi nsb1).1,
   (subboxRange d.n2 sbj nsb2).2 - (subboxRange d.n2 sbj nsb2).1,
   (subboxRange d.n3 sbk nsb3).2 - (subboxRange d.n3 sbk nsb3).1⟩

/-- Place of the point in the array of the subbox. -/
def Spec.subIdx (d : Dims) (sbi sbj sbk nsb1 nsb2 nsb3 i j k : Nat) : Nat :=
  (subDims d sbi sbj sbk nsb1 nsb2 nsb3).idx (i - (subboxRange d.n1 sbi nsb1).1)
    (j - (subboxRange d.n2 sbj nsb2).1) (k - (subboxRange d.n3 sbk nsb3).1)

/-- Every point of the box is in exactly one subbox. -/
theorem C83_point {d : Dims} {nsb1 nsb2 nsb3 i j k : Nat} (h1 : 0 < nsb1) (h2 : 0 < nsb2)
    (h3 : 0 < nsb3) (h : Spec.inBox d i j k) :
    ∃! s : Nat × Nat × Nat, (s.1 < nsb1 ∧ s.2.1 < nsb2 ∧ s.2.2 < nsb3) ∧
      Spec.InSub d s.1 s.2.1 s.2.2 nsb1 nsb2 nsb3 i j k := by
  obtain ⟨a, ⟨a1, a2⟩, a3⟩ := C83_partition h.1 h1
  obtain ⟨b, ⟨b1, b2⟩, b3⟩ := C83_partition h.2.1 h2
  obtain ⟨c, ⟨c1, c2⟩, c3⟩ := C83_partition h.2.2 h3
  refine ⟨(a, b, c), ⟨⟨a1, b1, c1⟩, a2, b2, c2⟩, ?_⟩
  rintro ⟨a', b', c'⟩ ⟨⟨e1, e2, e3⟩, e4, e5, e6⟩
  rw [a3 a' ⟨e1, e4⟩, b3 b' ⟨e2, e5⟩, c3 c' ⟨e3, e6⟩]

theorem walk_set {α : Type} (L : List α) (a : α → Nat) (f : α → K) (x : Nat → K)
    (hinj : ∀ s ∈ L, ∀ s' ∈ L, a s = a s' → s = s') :
    (∀ s ∈ L, L.foldl (fun x s => aset x (a s) (f s)) x (a s) = f s) ∧
    ∀ p, (∀ s ∈ L, a s ≠ p) → L.foldl (fun x s => aset x (a s) (f s)) x p = x p := by
  induction L generalizing x with
  | nil => simp
  | cons s L ih =>
    obtain ⟨i1, i2⟩ := ih (aset x (a s) (f s)) fun t ht t' ht' =>
      hinj t (List.mem_cons_of_mem _ ht) t' (List.mem_cons_of_mem _ ht')
    refine ⟨?_, ?_⟩
    · intro t ht
      rw [List.foldl_cons]
      by_cases hm : t ∈ L
      · exact i1 t hm
      · obtain rfl : t = s := by
          rcases List.mem_cons.mp ht with h | h
          · exact h
          · exact absurd h hm
        rw [i2, aset_self]
        intro u hu e
        exact hm (hinj u (List.mem_cons_of_mem _ hu) t List.mem_cons_self e ▸ hu)
    · intro p hp
      rw [List.foldl_cons, i2 p fun t ht => hp t (List.mem_cons_of_mem _ ht), aset_ne]
      exact fun e => hp s List.mem_cons_self e.symm

/-- The points of the subbox in the order of the loops. -/
def subList (d : Dims) (sbi sbj sbk nsb1 nsb2 nsb3 : Nat) : List (Nat × Nat × Nat) :=
  (List.range' (subboxRange d.n3 sbk nsb3).1
    ((subboxRange d.n3 sbk nsb3).2 - (subboxRange d.n3 sbk nsb3).1)).flatMap fun k =>
  (List.range' (subboxRange d.n2 sbj nsb2).1
    ((subboxRange d.n2 sbj nsb2).2 - (subboxRange d.n2 sbj nsb2).1)).flatMap fun j =>
  (List.range' (subboxRange d.n1 sbi nsb1).1
    ((subboxRange d.n1 sbi nsb1).2 - (subboxRange d.n1 sbi nsb1).1)).map fun i => (i, j, k)

theorem loopSubbox_eq {σ : Type} (d : Dims) (sbi sbj sbk nsb1 nsb2 nsb3 : Nat)
    (body : (ijk ix : Nat) → σ → σ) (s : σ) :
    loopSubbox d sbi sbj sbk nsb1 nsb2 nsb3 body s =
      (subList d sbi sbj sbk nsb1 nsb2 nsb3).foldl (fun s p => body (d.idx p.1 p.2.1 p.2.2)
        (Spec.subIdx d sbi sbj sbk nsb1 nsb2 nsb3 p.1 p.2.1 p.2.2) s) s := by
  simp only [loopSubbox, upLoop, subList, foldl_flatMap', List.foldl_map]
  rfl

theorem mem_subList {d : Dims} {sbi sbj sbk nsb1 nsb2 nsb3 : Nat} (p : Nat × Nat × Nat) :
    p ∈ subList d sbi sbj sbk nsb1 nsb2 nsb3 ↔
      Spec.InSub d sbi sbj sbk nsb1 nsb2 nsb3 p.1 p.2.1 p.2.2 := by
  obtain ⟨i, j, k⟩ := p
  simp only [subList, List.mem_flatMap, List.mem_map, List.mem_range'_1, Prod.mk.injEq, Spec.InSub]
  constructor
  · rintro ⟨k', hk, j', hj, i', hi, rfl, rfl, rfl⟩
    omega
  · intro h
    exact ⟨k, by omega, j, by omega, i, by omega, rfl, rfl, rfl⟩

/-- The places of the points of a subbox in its array are different and fill it. -/
theorem C83_slots {d : Dims} {sbi sbj sbk nsb1 nsb2 nsb3 : Nat} :
    let sd := Spec.subDims d sbi sbj sbk nsb1 nsb2 nsb3
    (∀ i j k, Spec.InSub d sbi sbj sbk nsb1 nsb2 nsb3 i j k →
      Spec.subIdx d sbi sbj sbk nsb1 nsb2 nsb3 i j k < sd.n1 * sd.n2 * sd.n3) ∧
    (∀ i j k i' j' k', Spec.InSub d sbi sbj sbk nsb1 nsb2 nsb3 i j k →
      Spec.InSub d sbi sbj sbk nsb1 nsb2 nsb3 i' j' k' →
      Spec.subIdx d sbi sbj sbk nsb1 nsb2 nsb3 i j k =
        Spec.subIdx d sbi sbj sbk nsb1 nsb2 nsb3 i' j' k' → i = i' ∧ j = j' ∧ k = k') ∧
    ∀ p < sd.n1 * sd.n2 * sd.n3, ∃ i j k, Spec.InSub d sbi sbj sbk nsb1 nsb2 nsb3 i j k ∧
      p = Spec.subIdx d sbi sbj sbk nsb1 nsb2 nsb3 i j k := by
  refine ⟨?_, ?_, ?_⟩
  · rintro i j k ⟨h1, h2, h3⟩
    apply idx_lt
    simp only [Spec.inBox, Spec.subDims]
    omega
  · rintro i j k i' j' k' ⟨h1, h2, h3⟩ ⟨h1', h2', h3'⟩ e
    have := idx_inj (d := Spec.subDims d sbi sbj sbk nsb1 nsb2 nsb3) (by
      simp only [Spec.subDims]; omega) (by simp only [Spec.subDims]; omega) (by
      simp only [Spec.subDims]; omega) (by simp only [Spec.subDims]; omega) e
    omega
  · intro p hp
    obtain ⟨i, j, k, ⟨h1, h2, h3⟩, rfl⟩ := idx_surj _ p hp
    simp only [Spec.subDims] at h1 h2 h3
    refine ⟨i + (subboxRange d.n1 sbi nsb1).1, j + (subboxRange d.n2 sbj nsb2).1,
      k + (subboxRange d.n3 sbk nsb3).1, ?_, ?_⟩
    · unfold Spec.InSub; omega
    · simp only [Spec.subIdx, Nat.add_sub_cancel]

theorem inSub_inBox {d : Dims} {sbi sbj sbk nsb1 nsb2 nsb3 i j k : Nat} (h1 : sbi < nsb1)
    (h2 : sbj < nsb2) (h3 : sbk < nsb3)
    (h : Spec.InSub d sbi sbj sbk nsb1 nsb2 nsb3 i j k) : Spec.inBox d i j k := by
  obtain ⟨a, b, c⟩ := h
  have := C83_ranges d.n1 nsb1 sbi h1
  have := C83_ranges d.n2 nsb2 sbj h2
  have := C83_ranges d.n3 nsb3 sbk h3
  unfold Spec.inBox; omega

/-- A subbox copied into an array: each place holds the value at its point, nothing is written
beyond the number of points of the subbox. -/
theorem C83_into (d : Dims) (xp : Nat → K) (sbi sbj sbk nsb1 nsb2 nsb3 : Nat) (x : Nat → K) :
    let sd := Spec.subDims d sbi sbj sbk nsb1 nsb2 nsb3
    let x' := copySubboxIntoArray d xp sbi sbj sbk nsb1 nsb2 nsb3 x
    (∀ i j k, Spec.InSub d sbi sbj sbk nsb1 nsb2 nsb3 i j k →
      x' (Spec.subIdx d sbi sbj sbk nsb1 nsb2 nsb3 i j k) = xp (d.idx i j k)) ∧
    ∀ p, sd.n1 * sd.n2 * sd.n3 ≤ p → x' p = x p := by
  have hs := C83_slots (d := d) (sbi := sbi) (sbj := sbj) (sbk := sbk) (nsb1 := nsb1) (nsb2 := nsb2)
    (nsb3 := nsb3)
  have hw := walk_set (subList d sbi sbj sbk nsb1 nsb2 nsb3)
    (fun p => Spec.subIdx d sbi sbj sbk nsb1 nsb2 nsb3 p.1 p.2.1 p.2.2)
    (fun p => xp (d.idx p.1 p.2.1 p.2.2)) x (by
      rintro ⟨i, j, k⟩ h ⟨i', j', k'⟩ h' e
      obtain ⟨rfl, rfl, rfl⟩ := hs.2.1 i j k i' j' k' ((mem_subList _).mp h) ((mem_subList _).mp h') e
      rfl)
  simp only [copySubboxIntoArray, loopSubbox_eq]
  refine ⟨fun i j k h => hw.1 (i, j, k) ((mem_subList _).mpr h), fun p hp => hw.2 p ?_⟩
  rintro ⟨i, j, k⟩ h e
  have := hs.1 i j k ((mem_subList _).mp h)
  simp only at e this
  omega

/-- An array copied into a subbox: each point of the subbox gets its value, no other point of the
box changes. -/
theorem C83_outof (d : Dims) (x : Nat → K) (sbi sbj sbk nsb1 nsb2 nsb3 : Nat) (xp : Nat → K)
    (h1 : sbi < nsb1) (h2 : sbj < nsb2) (h3 : sbk < nsb3) :
    let xp' := copyArrayIntoSubbox d x sbi sbj sbk nsb1 nsb2 nsb3 xp
    (∀ i j k, Spec.InSub d sbi sbj sbk nsb1 nsb2 nsb3 i j k →
      xp' (d.idx i j k) = x (Spec.subIdx d sbi sbj sbk nsb1 nsb2 nsb3 i j k)) ∧
    ∀ p, (∀ i j k, Spec.InSub d sbi sbj sbk nsb1 nsb2 nsb3 i j k → d.idx i j k ≠ p) →
      xp' p = xp p := by
  have hw := walk_set (subList d sbi sbj sbk nsb1 nsb2 nsb3)
    (fun p => d.idx p.1 p.2.1 p.2.2)
    (fun p => x (Spec.subIdx d sbi sbj sbk nsb1 nsb2 nsb3 p.1 p.2.1 p.2.2)) xp (by
      rintro ⟨i, j, k⟩ h ⟨i', j', k'⟩ h' e
      have a := inSub_inBox h1 h2 h3 ((mem_subList _).mp h)
      have a' := inSub_inBox h1 h2 h3 ((mem_subList _).mp h')
      obtain ⟨rfl, rfl, rfl⟩ := idx_inj a.1 a'.1 a.2.1 a'.2.1 e
      rfl)
  simp only [copyArrayIntoSubbox, loopSubbox_eq]
  exact ⟨fun i j k h => hw.1 (i, j, k) ((mem_subList _).mpr h), fun p hp => hw.2 p fun q hq =>
    hp q.1 q.2.1 q.2.2 ((mem_subList _).mp hq)⟩

/-- Copying a subbox into an array and back changes nothing. -/
theorem C83_sub_array_sub (d : Dims) (x : Nat → K) (sbi sbj sbk nsb1 nsb2 nsb3 : Nat) (xp : Nat → K)
    (h1 : sbi < nsb1) (h2 : sbj < nsb2) (h3 : sbk < nsb3) :
    copyArrayIntoSubbox d (copySubboxIntoArray d xp sbi sbj sbk nsb1 nsb2 nsb3 x)
      sbi sbj sbk nsb1 nsb2 nsb3 xp = xp := by
  funext p
  obtain ⟨a, b⟩ := C83_outof d (copySubboxIntoArray d xp sbi sbj sbk nsb1 nsb2 nsb3 x)
    sbi sbj sbk nsb1 nsb2 nsb3 xp h1 h2 h3
  by_cases h : ∃ i j k, Spec.InSub d sbi sbj sbk nsb1 nsb2 nsb3 i j k ∧ d.idx i j k = p
  · obtain ⟨i, j, k, hin, rfl⟩ := h
    rw [a i j k hin, (C83_into d xp sbi sbj sbk nsb1 nsb2 nsb3 x).1 i j k hin]
  · exact b p fun i j k hin e => h ⟨i, j, k, hin, e⟩

/-- Copying an array into a subbox and back gives the array. -/
theorem C83_array_sub_array (d : Dims) (x : Nat → K) (sbi sbj sbk nsb1 nsb2 nsb3 : Nat)
    (xp : Nat → K) (h1 : sbi < nsb1) (h2 : sbj < nsb2) (h3 : sbk < nsb3) :
    copySubboxIntoArray d (copyArrayIntoSubbox d x sbi sbj sbk nsb1 nsb2 nsb3 xp)
      sbi sbj sbk nsb1 nsb2 nsb3 x = x := by
  funext p
  obtain ⟨a, b⟩ := C83_into d (copyArrayIntoSubbox d x sbi sbj sbk nsb1 nsb2 nsb3 xp)
    sbi sbj sbk nsb1 nsb2 nsb3 x
  by_cases hp : p < (Spec.subDims d sbi sbj sbk nsb1 nsb2 nsb3).n1 *
      (Spec.subDims d sbi sbj sbk nsb1 nsb2 nsb3).n2 *
      (Spec.subDims d sbi sbj sbk nsb1 nsb2 nsb3).n3
  · obtain ⟨i, j, k, hin, rfl⟩ := C83_slots.2.2 p hp
    rw [a i j k hin, (C83_outof d x sbi sbj sbk nsb1 nsb2 nsb3 xp h1 h2 h3).1 i j k hin]
  · exact b p (Nat.le_of_not_lt hp)

example : (List.range 3).map (fun s => subboxRange 10 s 3) = [(0, 3), (3, 6), (6, 10)] := by decide

example : (List.range 5).map (copySubboxIntoArray ⟨3, 4, 2⟩ (fun p => (p : ℚ)) 1 0 1 2 2 2
    fun _ => -1) = [13, 14, 16, 17, -1] := by decide +kernel

end Sgrid
