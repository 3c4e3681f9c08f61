import Verif.Lemmas.NextEntry

/-!
Property C05: NextEntry enumerates the entries of a list.
-/

namespace Sgrid

open Spec

/-- **C05**, for lists that do not start with a blank (the missing case is
`C05_leading_blank`): from any state in which no enumeration is in progress, every round of
(number of entries + 1) calls returns all entries in order and then NULL, for any number
of rounds. -/
theorem C05_nextEntry_partial (list : CStr) (hne : list ≠ []) (h0 : '\x00' ∉ list)
    (hb : list.head? ≠ some ' ') (rounds : Nat) (st : NE) (hst : st.i = 0) :
    (nextEntries list (rounds * ((entries list).length + 1)) st).2 =
      (List.replicate rounds ((entries list).map some ++ [none])).flatten := by
  have one : ∀ st : NE, st.i = 0 →
      (nextEntries list ((entries list).length + 1) st).2 =
        (entries list).map some ++ [none] ∧
      (nextEntries list ((entries list).length + 1) st).1.i = 0 := by
    intro st hst
    obtain ⟨w, hw, ⟨h1, h2⟩ | ⟨r', h1, h2⟩⟩ := split_first list
    · obtain ⟨a1, a2⟩ := (nextEntry_first hst h0 hw (by rw [← h1]; exact hne)).1 h1
      obtain ⟨b1, b2⟩ := nextEntry_end a2 list
      rw [h2]
      simp [nextEntries, a1, b1, b2]
    · have hwne : w ≠ [] := by
        rintro rfl; rw [h1] at hb; simp at hb
      obtain ⟨a1, a2⟩ := (nextEntry_first hst h0 hw hwne).2 r' h1
      obtain ⟨c1, c2⟩ := nextEntries_at r' (fun h => h0 (by rw [h1]; simp [h])) a2 hne
      rw [h2]
      simp only [List.length_cons, List.map_cons, List.cons_append]
      rw [nextEntries]
      simp only [a1]
      exact ⟨by rw [← c1], c2⟩
  induction rounds generalizing st with
  | zero => simp [nextEntries]
  | succ k ih =>
    obtain ⟨o1, o2⟩ := one st hst
    rw [show (k + 1) * ((entries list).length + 1) =
      ((entries list).length + 1) + k * ((entries list).length + 1) by
        rw [Nat.succ_mul]; omega, nextEntries_append]
    simp only [List.replicate_succ, List.flatten_cons]
    rw [ih _ o2, o1]

example : "a bc d".toList ≠ [] ∧ '\x00' ∉ "a bc d".toList ∧
    "a bc d".toList.head? ≠ some ' ' ∧
    (nextEntries "a bc d".toList 4 NE.init).2 =
      [some "a".toList, some "bc".toList, some "d".toList, none] := by
  decide +kernel

/-- **C05** is false for lists with a leading blank: NextEntry returns the empty string for
ever and never reaches the end of the list. -/
theorem C05_leading_blank (t : CStr) (n : Nat) (st : NE) (hst : st.i = 0) :
    (nextEntries (' ' :: t) n st).2 = List.replicate n (some []) := by
  have one : ∀ st : NE, st.i = 0 → (nextEntry st (some (' ' :: t))).2 = some [] ∧
      (nextEntry st (some (' ' :: t))).1.i = 0 := by
    intro st hst
    have hs : skipTo (' ' :: t ++ ['\x00']) 0 (' ' :: t).length = 0 := by
      rw [skipTo]; simp
    unfold nextEntry
    simp only
    rw [if_neg (by simp [hst]), if_pos hst]
    simp only [hs]
    simp [strAt]
  induction n generalizing st with
  | zero => rfl
  | succ n ih =>
    obtain ⟨o1, o2⟩ := one st hst
    simp only [nextEntries, List.replicate_succ]
    rw [o1, ih _ o2]

end Sgrid
