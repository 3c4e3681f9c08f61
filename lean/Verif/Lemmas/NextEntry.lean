import Verif.Model.NextEntry
import Verif.Lemmas.Entries

/-! Helper lemmas about `nextEntry`. -/

namespace Sgrid

open Spec

theorem skipTo_spec (pre w rest : List Char) (l : Nat) (hw : ' ' ∉ w)
    (hl : pre.length + w.length ≤ l)
    (he : pre.length + w.length = l ∨ ∃ r, rest = ' ' :: r) :
    skipTo (pre ++ w ++ rest) pre.length l = pre.length + w.length := by
  induction w generalizing pre with
  | nil =>
    rw [skipTo]
    simp only [List.append_nil, List.length_nil, Nat.add_zero] at *
    rcases he with he | ⟨r, rfl⟩
    · simp [he]
    · simp
  | cons c t ih =>
    simp only [List.mem_cons, not_or] at hw
    simp only [List.length_cons] at hl he ⊢
    rw [skipTo]
    have h1 : (pre ++ (c :: t) ++ rest)[pre.length]? = some c := by simp
    rw [h1, if_pos ⟨by omega, by simp [Ne.symm hw.1]⟩]
    have := ih (pre ++ [c]) hw.2 (by simp; omega) (by
      rcases he with he | he
      · left; simp; omega
      · right; exact he)
    simp only [List.append_assoc, List.cons_append, List.nil_append, List.length_append,
      List.length_cons, List.length_nil] at this ⊢
    rw [show pre.length + (0 + 1) = pre.length + 1 by omega] at this
    rw [this]
    omega

/-- First entry of a string and what follows. -/
theorem split_first (r : CStr) : ∃ w, ' ' ∉ w ∧
    ((r = w ∧ entries r = [w]) ∨ ∃ r', r = w ++ ' ' :: r' ∧ entries r = w :: entries r') := by
  induction r with
  | nil => exact ⟨[], by simp, .inl ⟨rfl, rfl⟩⟩
  | cons c t ih =>
    by_cases hc : c = ' '
    · subst hc
      exact ⟨[], by simp, .inr ⟨t, rfl, by simp [entries]⟩⟩
    · obtain ⟨w, hw, h⟩ := ih
      refine ⟨c :: w, by simp [hw, Ne.symm hc], ?_⟩
      rcases h with ⟨rfl, he⟩ | ⟨r', rfl, he⟩
      · left; refine ⟨rfl, ?_⟩; simp only [entries, hc, if_false]; rw [he]
      · right; refine ⟨r', rfl, ?_⟩; simp only [entries, hc, if_false]; rw [he]

theorem strAt_spec (pre w rest : List Char) (hw : '\x00' ∉ w) :
    strAt (pre ++ w ++ '\x00' :: rest) pre.length = w := by
  unfold strAt
  rw [List.append_assoc, List.drop_left]
  induction w with
  | nil => simp
  | cons c t ih =>
    simp only [List.mem_cons, not_or] at hw
    have hc : c ≠ '\x00' := fun h => hw.1 h.symm
    simpa [List.takeWhile_cons, hc] using ih hw.2

/-- NextEntry stands before the remaining list `r` (behind a separator). -/
def NE.At (st : NE) (r : CStr) : Prop :=
  ∃ pre x, st.copy = pre ++ x :: (r ++ ['\x00']) ∧ st.i = pre.length ∧ st.i ≠ 0 ∧
    st.l = pre.length + 1 + r.length

/-- NextEntry has returned the last entry. -/
def NE.AtEnd (st : NE) : Prop := st.i ≠ 0 ∧ st.i = st.l

theorem nextEntry_end {st : NE} (h : st.AtEnd) (list : CStr) :
    (nextEntry st (some list)).2 = none ∧ (nextEntry st (some list)).1.i = 0 := by
  unfold nextEntry
  simp only
  rw [if_pos (.inr h)]
  exact ⟨rfl, rfl⟩

/-- The part of NextEntry behind the copy, applied at offset `pre.length`. -/
theorem core_step (pre w rest : List Char) (l : Nat) (r : CStr) (hr0 : '\x00' ∉ r)
    (hr : rest = r ++ ['\x00']) (hl : l = pre.length + r.length)
    (hw : ' ' ∉ w) (copy : List Char) (hc : copy = pre ++ rest)
    (hsplit : r = w ∨ ∃ r', r = w ++ ' ' :: r') :
    let i := skipTo copy pre.length l
    let copy' := if copy[i]? = some ' ' then copy.set i '\x00' else copy
    i = pre.length + w.length ∧ strAt copy' pre.length = w ∧
    (r = w → i = l) ∧
    (∀ r', r = w ++ ' ' :: r' → i < l ∧ copy' = (pre ++ w) ++ '\x00' :: (r' ++ ['\x00']) ∧
      l = (pre ++ w).length + 1 + r'.length) := by
  subst hr hc hl
  rcases hsplit with rfl | ⟨r', rfl⟩
  · have hs : skipTo (pre ++ (r ++ ['\x00'])) pre.length (pre.length + r.length)
        = pre.length + r.length := by
      have := skipTo_spec pre r ['\x00'] (pre.length + r.length) hw (by omega) (.inl rfl)
      rwa [List.append_assoc] at this
    simp only [hs]
    refine ⟨trivial, ?_, fun _ => trivial, ?_⟩
    · have : (pre ++ (r ++ ['\x00']))[pre.length + r.length]? = some '\x00' := by
        rw [← List.append_assoc, List.getElem?_append_right (by simp)]; simp
      rw [this, if_neg (by decide), ← List.append_assoc]
      exact strAt_spec pre r [] hr0
    · intro r' h
      have := congrArg List.length h
      simp at this
  · have hw0 : '\x00' ∉ w := fun h => hr0 (by simp [h])
    have hs : skipTo (pre ++ (w ++ ' ' :: r' ++ ['\x00'])) pre.length
        (pre.length + (w ++ ' ' :: r').length) = pre.length + w.length := by
      have := skipTo_spec pre w (' ' :: r' ++ ['\x00'])
        (pre.length + (w ++ ' ' :: r').length) hw (by simp) (.inr ⟨r' ++ ['\x00'], rfl⟩)
      simpa [List.append_assoc] using this
    simp only [hs]
    have hget : (pre ++ (w ++ ' ' :: r' ++ ['\x00']))[pre.length + w.length]? = some ' ' := by
      rw [show pre ++ (w ++ ' ' :: r' ++ ['\x00']) = (pre ++ w) ++ (' ' :: r' ++ ['\x00'])
        by simp, List.getElem?_append_right (by simp)]
      simp
    have hset : (pre ++ (w ++ ' ' :: r' ++ ['\x00'])).set (pre.length + w.length) '\x00'
        = (pre ++ w) ++ '\x00' :: (r' ++ ['\x00']) := by
      rw [show pre ++ (w ++ ' ' :: r' ++ ['\x00']) = (pre ++ w) ++ (' ' :: r' ++ ['\x00'])
        by simp, List.set_append_right _ _ (by simp)]
      simp
    rw [if_pos hget, hset]
    refine ⟨trivial, strAt_spec pre w _ hw0, ?_, ?_⟩
    · intro h
      have := congrArg List.length h
      simp at this
    · intro r'' h
      have : r' = r'' := by simpa using h
      subst this
      refine ⟨by simp, rfl, by simp; omega⟩

theorem nextEntry_at {st : NE} {r : CStr} (hr0 : '\x00' ∉ r) (h : st.At r) (list : CStr)
    (hne : list ≠ []) {w : CStr} (hw : ' ' ∉ w) :
    (r = w → (nextEntry st (some list)).2 = some w ∧ (nextEntry st (some list)).1.AtEnd) ∧
    (∀ r', r = w ++ ' ' :: r' → (nextEntry st (some list)).2 = some w ∧
      (nextEntry st (some list)).1.At r') := by
  obtain ⟨pre, x, h1, h2, h3, h4⟩ := h
  have hstep : nextEntry st (some list) =
      let i := skipTo st.copy (st.i + 1) st.l
      let copy := if st.copy[i]? = some ' ' then st.copy.set i '\x00' else st.copy
      ({ copy := copy, i := i, l := st.l }, some (strAt copy (st.i + 1))) := by
    unfold nextEntry
    simp only
    rw [if_neg (by simp [hne]; omega), if_neg h3]
  have hcore : (r = w ∨ ∃ r', r = w ++ ' ' :: r') → _ := fun hs =>
    core_step (pre ++ [x]) w (r ++ ['\x00']) st.l r hr0 rfl (by simp [h4]) hw st.copy
    (by simp [h1]) hs
  have hlen : (pre ++ [x]).length = st.i + 1 := by simp [h2]
  constructor
  · intro hrw
    obtain ⟨c1, c2, c3, c4⟩ := hcore (.inl hrw)
    rw [hlen] at c1 c2 c3 c4
    rw [hstep]
    refine ⟨by simp only [c2], ?_, ?_⟩
    · simp only [c1]; omega
    · exact c3 hrw
  · intro r' hrw
    obtain ⟨c1, c2, c3, c4⟩ := hcore (.inr ⟨r', hrw⟩)
    rw [hlen] at c1 c2 c3 c4
    rw [hstep]
    refine ⟨by simp only [c2], pre ++ [x] ++ w, '\x00', ?_, ?_, ?_, ?_⟩
    · simp only; exact (c4 r' hrw).2.1
    · simp only [c1]; simp [h2]; omega
    · simp only [c1]; omega
    · simp only; exact (c4 r' hrw).2.2

theorem nextEntry_first {st : NE} (h0 : st.i = 0) {list : CStr} (hr0 : '\x00' ∉ list)
    {w : CStr} (hw : ' ' ∉ w) (hwne : w ≠ []) :
    (list = w → (nextEntry st (some list)).2 = some w ∧ (nextEntry st (some list)).1.AtEnd) ∧
    (∀ r', list = w ++ ' ' :: r' → (nextEntry st (some list)).2 = some w ∧
      (nextEntry st (some list)).1.At r') := by
  have hstep : list ≠ [] → nextEntry st (some list) =
      let c := list ++ ['\x00']
      let i := skipTo c 0 list.length
      let copy := if c[i]? = some ' ' then c.set i '\x00' else c
      ({ copy := copy, i := i, l := list.length }, some (strAt copy 0)) := by
    intro hne
    unfold nextEntry
    simp only
    rw [if_neg (by simp [hne, h0]), if_pos h0]
  have hwl : w.length ≠ 0 := by simpa using hwne
  have hcore := core_step [] w (list ++ ['\x00']) list.length list hr0 rfl (by simp) hw
    (list ++ ['\x00']) (by simp)
  constructor
  · intro hrw
    obtain ⟨c1, c2, c3, c4⟩ := hcore (.inl hrw)
    simp only [List.length_nil, Nat.zero_add] at c1 c2 c3 c4
    rw [hstep (by rw [hrw]; exact hwne)]
    refine ⟨by simp only [c2], ?_, ?_⟩
    · simp only [c1]; exact hwl
    · exact c3 hrw
  · intro r' hrw
    obtain ⟨c1, c2, c3, c4⟩ := hcore (.inr ⟨r', hrw⟩)
    simp only [List.length_nil, Nat.zero_add] at c1 c2 c3 c4
    rw [hstep (by rw [hrw]; simp)]
    refine ⟨by simp only [c2], w, '\x00', ?_, ?_, ?_, ?_⟩
    · simp only; exact (c4 r' hrw).2.1
    · simp only [c1]
    · simp only [c1]; exact hwl
    · simp only; exact (c4 r' hrw).2.2

theorem nextEntries_append (list : CStr) (m n : Nat) (st : NE) :
    nextEntries list (m + n) st =
      let (st1, a) := nextEntries list m st
      let (st2, b) := nextEntries list n st1
      (st2, a ++ b) := by
  induction m generalizing st with
  | zero => simp [nextEntries]
  | succ m ih =>
    rw [show m + 1 + n = (m + n) + 1 by omega]
    simp only [nextEntries, ih]
    rfl

/-- From a position before `r` the remaining entries and NULL are returned. -/
theorem nextEntries_at (r : CStr) : ∀ {st : NE}, '\x00' ∉ r → st.At r → ∀ {list : CStr},
    list ≠ [] →
    (nextEntries list ((entries r).length + 1) st).2 = (entries r).map some ++ [none] ∧
    (nextEntries list ((entries r).length + 1) st).1.i = 0 := by
  induction hn : r.length using Nat.strongRecOn generalizing r with
  | _ n ih =>
    intro st hr0 hat list hne
    obtain ⟨w, hw, ⟨h1, h2⟩ | ⟨r', h1, h2⟩⟩ := split_first r
    · obtain ⟨a1, a2⟩ := (nextEntry_at hr0 hat list hne hw).1 h1
      obtain ⟨b1, b2⟩ := nextEntry_end a2 list
      rw [h2]
      simp [nextEntries, a1, b1, b2]
    · obtain ⟨a1, a2⟩ := (nextEntry_at hr0 hat list hne hw).2 r' h1
      have hlt : r'.length < n := by rw [← hn, h1]; simp; omega
      obtain ⟨c1, c2⟩ := ih _ hlt r' rfl (fun h => hr0 (by rw [h1]; simp [h])) a2 hne
      rw [h2]
      simp only [List.length_cons, List.map_cons, List.cons_append]
      rw [nextEntries]
      simp only [a1]
      exact ⟨by rw [← c1], c2⟩

end Sgrid
