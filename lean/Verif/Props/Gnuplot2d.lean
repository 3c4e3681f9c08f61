import Verif.Model.Gnuplot2d

/-!
C174: the output of planes for gnuplot.
-/

namespace Sgrid

namespace Spec

/-- Rows of points, each with an empty line after it, and an empty line at the end. -/
def blocks (rows : List (List Nat)) : List (Option Nat) := rows.flatMap (fun r => r.map some ++ [none]) ++ [none]

/-- The three indices of a point. -/
def coordOf (n1 n2 dir q : Nat) : Nat := if dir = 1 then q % n1 else if dir = 2 then q / n1 % n2 else q / n1 / n2

end Spec

/-- A loop that appends something in every pass. -/
theorem upLoop_collect {α : Type} (lo hi : Nat) (f : Nat → List α) (s : List α) :
    upLoop lo hi (fun j s => s ++ f j) s = s ++ (List.range' lo (hi - lo)).flatMap f := by
  unfold upLoop
  generalize List.range' lo (hi - lo) = l
  induction l generalizing s with
  | nil => simp
  | cons a l ih => simp [ih]

theorem flatMap_singleton_map {α β : Type} (l : List α) (f : α → β) : (l.flatMap fun a => [f a]) = l.map f := by
  induction l with
  | nil => rfl
  | cons a l ih => simp [ih]

/-- C174: the rows of each of the three planes. -/
theorem C174_rows (n1 n2 n3 plane : Nat) :
    writePlane n1 n2 n3 1 plane = Spec.blocks ((List.range n3).map fun k => (List.range n2).map fun j =>
      planeIndex n1 n2 plane j k) ∧
    writePlane n1 n2 n3 2 plane = Spec.blocks ((List.range n3).map fun k => (List.range n1).map fun i =>
      planeIndex n1 n2 i plane k) ∧
    writePlane n1 n2 n3 3 plane = Spec.blocks ((List.range n2).map fun j => (List.range n1).map fun i =>
      planeIndex n1 n2 i j plane) := by
  refine ⟨?_, ?_, ?_⟩
  · simp only [writePlane, Spec.blocks]
    simp [upLoop_collect, List.range_eq_range', flatMap_singleton_map, List.flatMap_map, Function.comp_def]
  · simp only [writePlane, Spec.blocks]
    simp [upLoop_collect, List.range_eq_range', flatMap_singleton_map, List.flatMap_map, Function.comp_def]
  · simp only [writePlane, Spec.blocks]
    simp [upLoop_collect, List.range_eq_range', flatMap_singleton_map, List.flatMap_map, Function.comp_def]

theorem planeIndex_coords {n1 n2 i j k : Nat} (hi : i < n1) (hj : j < n2) :
    Spec.coordOf n1 n2 1 (planeIndex n1 n2 i j k) = i ∧ Spec.coordOf n1 n2 2 (planeIndex n1 n2 i j k) = j ∧
    Spec.coordOf n1 n2 3 (planeIndex n1 n2 i j k) = k := by
  have p1 : 0 < n1 := by omega
  have p2 : 0 < n2 := by omega
  have d1 : (i + n1 * (j + n2 * k)) / n1 = j + n2 * k := by
    rw [Nat.add_mul_div_left _ _ p1, Nat.div_eq_of_lt hi, Nat.zero_add]
  refine ⟨?_, ?_, ?_⟩
  · simp only [Spec.coordOf, planeIndex, if_true, Nat.add_mul_mod_self_left, Nat.mod_eq_of_lt hi]
  · simp only [Spec.coordOf, planeIndex, d1, Nat.add_mul_mod_self_left, Nat.mod_eq_of_lt hj]
    rfl
  · simp only [Spec.coordOf, planeIndex, d1, Nat.add_mul_div_left _ _ p2, Nat.div_eq_of_lt hj, Nat.zero_add]
    rfl

theorem planeIndex_surj {n1 n2 n3 q : Nat} (h : q < n1 * n2 * n3) :
    Spec.coordOf n1 n2 1 q < n1 ∧ Spec.coordOf n1 n2 2 q < n2 ∧ Spec.coordOf n1 n2 3 q < n3 ∧
    q = planeIndex n1 n2 (Spec.coordOf n1 n2 1 q) (Spec.coordOf n1 n2 2 q) (Spec.coordOf n1 n2 3 q) := by
  have p1 : 0 < n1 := Nat.pos_of_ne_zero fun e => by subst e; simp at h
  have p2 : 0 < n2 := Nat.pos_of_ne_zero fun e => by subst e; simp at h
  have e1 : Spec.coordOf n1 n2 1 q = q % n1 := rfl
  have e2 : Spec.coordOf n1 n2 2 q = q / n1 % n2 := rfl
  have e3 : Spec.coordOf n1 n2 3 q = q / n1 / n2 := rfl
  rw [e1, e2, e3]
  refine ⟨Nat.mod_lt _ p1, Nat.mod_lt _ p2, ?_, ?_⟩
  · rw [Nat.div_div_eq_div_mul]
    exact Nat.div_lt_of_lt_mul h
  · unfold planeIndex
    rw [Nat.mod_add_div (q / n1) n2, Nat.mod_add_div q n1]

theorem planeIndex_lt {n1 n2 n3 i j k : Nat} (hi : i < n1) (hj : j < n2) (hk : k < n3) :
    planeIndex n1 n2 i j k < n1 * n2 * n3 := by
  unfold planeIndex
  have a : j + n2 * k + 1 ≤ n2 * (k + 1) := by rw [Nat.mul_add]; omega
  have b : n2 * (k + 1) ≤ n2 * n3 := Nat.mul_le_mul_left _ hk
  have c : n1 * (j + n2 * k + 1) ≤ n1 * (n2 * n3) := Nat.mul_le_mul_left _ (a.trans b)
  rw [Nat.mul_assoc]
  rw [Nat.mul_add n1 (j + n2 * k) 1] at c
  omega

theorem blocks_points (rows : List (List Nat)) : (Spec.blocks rows).filterMap id = rows.flatten := by
  unfold Spec.blocks
  induction rows with
  | nil => rfl
  | cons r rows ih =>
    simp only [List.flatMap_cons, List.append_assoc, List.filterMap_append, List.flatten_cons] at ih ⊢
    rw [ih]
    simp

theorem rows_nodup {A B : Nat} {f : Nat → Nat → Nat}
    (h : ∀ a b a' b', a < A → b < B → a' < A → b' < B → f a b = f a' b' → a = a' ∧ b = b') :
    (((List.range B).map fun b => (List.range A).map fun a => f a b).flatten).Nodup := by
  have key : ∀ n, n ≤ B → (((List.range n).map fun b => (List.range A).map fun a => f a b).flatten).Nodup := by
    intro n
    induction n with
    | zero => intro _; simp
    | succ n ih =>
      intro hn
      rw [List.range_succ, List.map_append, List.flatten_append, List.nodup_append]
      refine ⟨ih (by omega), ?_, ?_⟩
      · simp only [List.map_cons, List.map_nil, List.flatten_cons, List.flatten_nil, List.append_nil]
        refine List.pairwise_map.2 ?_
        refine List.Pairwise.imp_of_mem ?_ (List.nodup_range (n := A))
        intro a a' ha ha' hne e
        exact hne (h a n a' n (List.mem_range.1 ha) (by omega) (List.mem_range.1 ha') (by omega) e).1
      · intro x hx y hy e
        subst e
        simp only [List.mem_flatten, List.mem_map, List.mem_range, List.map_cons, List.map_nil,
          List.mem_singleton] at hx hy
        obtain ⟨_, ⟨b, hb, rfl⟩, hx⟩ := hx
        obtain ⟨_, rfl, hy⟩ := hy
        simp only [List.mem_map, List.mem_range] at hx hy
        obtain ⟨a, ha, e1⟩ := hx
        obtain ⟨a', ha', e2⟩ := hy
        have := (h a b a' n ha (by omega) ha' (by omega) (e1.trans e2.symm)).2
        omega
  exact key B (Nat.le_refl _)

/-- C174: the points of a plane of the box are written, each of them once, and no other points. -/
theorem C174_points {n1 n2 n3 normal plane : Nat} (hn : normal = 1 ∨ normal = 2 ∨ normal = 3)
    (hp : plane < if normal = 1 then n1 else if normal = 2 then n2 else n3) :
    ((writePlane n1 n2 n3 normal plane).filterMap id).Nodup ∧
    ∀ q, some q ∈ writePlane n1 n2 n3 normal plane ↔ q < n1 * n2 * n3 ∧ Spec.coordOf n1 n2 normal q = plane := by
  obtain ⟨r1, r2, r3⟩ := C174_rows n1 n2 n3 plane
  have mem : ∀ (l : List (Option Nat)) (q : Nat), some q ∈ l ↔ q ∈ l.filterMap id := by
    intro l q
    simp
  rcases hn with rfl | rfl | rfl
  · have hp' : plane < n1 := by simpa using hp
    rw [r1]
    simp only [mem, blocks_points]
    constructor
    · refine rows_nodup fun j k j' k' hj _ hj' _ e => ?_
      have a := planeIndex_coords (k := k) hp' hj
      have b := planeIndex_coords (k := k') hp' hj'
      rw [e] at a
      exact ⟨a.2.1.symm.trans b.2.1, a.2.2.symm.trans b.2.2⟩
    · intro q
      simp only [List.mem_flatten, List.mem_map, List.mem_range]
      constructor
      · rintro ⟨_, ⟨k, hk, rfl⟩, hq⟩
        simp only [List.mem_map, List.mem_range] at hq
        obtain ⟨j, hj, rfl⟩ := hq
        exact ⟨planeIndex_lt hp' hj hk, (planeIndex_coords hp' hj).1⟩
      · rintro ⟨hq, he⟩
        obtain ⟨_, h2, h3, h4⟩ := planeIndex_surj hq
        rw [he] at h4
        exact ⟨_, ⟨_, h3, rfl⟩, List.mem_map.2 ⟨_, List.mem_range.2 h2, h4.symm⟩⟩
  · have hp' : plane < n2 := by simpa using hp
    rw [r2]
    simp only [mem, blocks_points]
    constructor
    · refine rows_nodup fun i k i' k' hi _ hi' _ e => ?_
      have a := planeIndex_coords (k := k) hi hp'
      have b := planeIndex_coords (k := k') hi' hp'
      rw [e] at a
      exact ⟨a.1.symm.trans b.1, a.2.2.symm.trans b.2.2⟩
    · intro q
      simp only [List.mem_flatten, List.mem_map, List.mem_range]
      constructor
      · rintro ⟨_, ⟨k, hk, rfl⟩, hq⟩
        simp only [List.mem_map, List.mem_range] at hq
        obtain ⟨i, hi, rfl⟩ := hq
        exact ⟨planeIndex_lt hi hp' hk, (planeIndex_coords hi hp').2.1⟩
      · rintro ⟨hq, he⟩
        obtain ⟨h1, _, h3, h4⟩ := planeIndex_surj hq
        rw [he] at h4
        exact ⟨_, ⟨_, h3, rfl⟩, List.mem_map.2 ⟨_, List.mem_range.2 h1, h4.symm⟩⟩
  · have hp' : plane < n3 := by simpa using hp
    rw [r3]
    simp only [mem, blocks_points]
    constructor
    · refine rows_nodup fun i j i' j' hi hj hi' hj' e => ?_
      have a := planeIndex_coords (k := plane) hi hj
      have b := planeIndex_coords (k := plane) hi' hj'
      rw [e] at a
      exact ⟨a.1.symm.trans b.1, a.2.1.symm.trans b.2.1⟩
    · intro q
      simp only [List.mem_flatten, List.mem_map, List.mem_range]
      constructor
      · rintro ⟨_, ⟨j, hj, rfl⟩, hq⟩
        simp only [List.mem_map, List.mem_range] at hq
        obtain ⟨i, hi, rfl⟩ := hq
        exact ⟨planeIndex_lt hi hj hp', (planeIndex_coords hi hj).2.2⟩
      · rintro ⟨hq, he⟩
        obtain ⟨h1, h2, _, h4⟩ := planeIndex_surj hq
        rw [he] at h4
        exact ⟨_, ⟨_, h2, rfl⟩, List.mem_map.2 ⟨_, List.mem_range.2 h1, h4.symm⟩⟩

/-- The plane Y = Y1 of a box with 2 * 3 * 2 points. -/
example : writePlane 2 3 2 2 1 = [some 2, some 3, none, some 8, some 9, none, none] := by decide +kernel

end Sgrid
