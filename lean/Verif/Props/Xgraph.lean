import Verif.Model.Xgraph
import Verif.Props.Gnuplot2d

/-!
C175: the output of lines for xgraph.
-/

namespace Sgrid

/-- C175: the points of each of the three lines, in the order in which they are on the line. -/
theorem C175_line (n1 n2 n3 i0 j0 k0 : Nat) :
    writeLine n1 n2 n3 1 i0 j0 k0 = ((List.range n1).map fun i => some (planeIndex n1 n2 i j0 k0)) ++ [none] ∧
    writeLine n1 n2 n3 2 i0 j0 k0 = ((List.range n2).map fun j => some (planeIndex n1 n2 i0 j k0)) ++ [none] ∧
    writeLine n1 n2 n3 3 i0 j0 k0 = ((List.range n3).map fun k => some (planeIndex n1 n2 i0 j0 k)) ++ [none] := by
  refine ⟨?_, ?_, ?_⟩ <;>
  · simp only [writeLine]
    simp [upLoop_collect, List.range_eq_range', flatMap_singleton_map]

/-- C175: a point of the box is written if its two indices across the line are those of the line, and no other point
is written. -/
theorem C175_points {n1 n2 n3 i0 j0 k0 : Nat} (hi : i0 < n1) (hj : j0 < n2) (hk : k0 < n3) {line : Nat}
    (hl : line = 1 ∨ line = 2 ∨ line = 3) (q : Nat) :
    some q ∈ writeLine n1 n2 n3 line i0 j0 k0 ↔ q < n1 * n2 * n3 ∧
      (line ≠ 1 → Spec.coordOf n1 n2 1 q = i0) ∧ (line ≠ 2 → Spec.coordOf n1 n2 2 q = j0) ∧
      (line ≠ 3 → Spec.coordOf n1 n2 3 q = k0) := by
  obtain ⟨r1, r2, r3⟩ := C175_line n1 n2 n3 i0 j0 k0
  rcases hl with rfl | rfl | rfl
  · rw [r1]
    simp only [List.mem_append, List.mem_map, List.mem_range, List.mem_singleton, Option.some.injEq, reduceCtorEq,
      or_false]
    constructor
    · rintro ⟨i, h, rfl⟩
      have c := planeIndex_coords (k := k0) h hj
      exact ⟨planeIndex_lt h hj hk, fun h => absurd rfl h, fun _ => c.2.1, fun _ => c.2.2⟩
    · rintro ⟨hq, _, e2, e3⟩
      obtain ⟨h1, _, _, h4⟩ := planeIndex_surj hq
      rw [e2 (by decide), e3 (by decide)] at h4
      exact ⟨_, h1, h4.symm⟩
  · rw [r2]
    simp only [List.mem_append, List.mem_map, List.mem_range, List.mem_singleton, Option.some.injEq, reduceCtorEq,
      or_false]
    constructor
    · rintro ⟨j, h, rfl⟩
      have c := planeIndex_coords (k := k0) hi h
      exact ⟨planeIndex_lt hi h hk, fun _ => c.1, fun h => absurd rfl h, fun _ => c.2.2⟩
    · rintro ⟨hq, e1, _, e3⟩
      obtain ⟨_, h2, _, h4⟩ := planeIndex_surj hq
      rw [e1 (by decide), e3 (by decide)] at h4
      exact ⟨_, h2, h4.symm⟩
  · rw [r3]
    simp only [List.mem_append, List.mem_map, List.mem_range, List.mem_singleton, Option.some.injEq, reduceCtorEq,
      or_false]
    constructor
    · rintro ⟨k, h, rfl⟩
      have c := planeIndex_coords (k := k) hi hj
      exact ⟨planeIndex_lt hi hj h, fun _ => c.1, fun _ => c.2.1, fun h => absurd rfl h⟩
    · rintro ⟨hq, e1, e2, _⟩
      obtain ⟨_, _, h3, h4⟩ := planeIndex_surj hq
      rw [e1 (by decide), e2 (by decide)] at h4
      exact ⟨_, h3, h4.symm⟩

/-- The line through the second point in X and the first one in Z of a box with 2 * 3 * 2 points. -/
example : writeLine 2 3 2 2 1 0 0 = [some 1, some 3, some 5, none] := by decide +kernel

end Sgrid
