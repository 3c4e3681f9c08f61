import Verif.Lemmas.IntList

/-! C20: the list container acts like a list. C63: what happens if the same list is passed
twice. -/

namespace Sgrid
open CList
variable {α : Type} [DecidableEq α]

/-- Append if absent. -/
def Spec.addNew (l : List α) (x : α) : List α := if x ∈ l then l else l ++ [x]

/-- C20, in: membership. -/
theorem C20_mem {c : CList α} (h : c.WF) (x : α) : c.mem x = .ok (decide (x ∈ c.abs)) := by
  rw [mem, search0 _ h, Res.map_ok]
  congr 1
  by_cases hx : x ∈ c.abs
  · cases hf : c.abs.findIdx? (fun y => decide (y = x)) with
    | none => exact absurd hx (findIdx?_none_iff.1 hf)
    | some i => simp [hx]
  · rw [findIdx?_none_iff.2 hx]; simp [hx]

/-- C20, index: position of the first occurrence. -/
theorem C20_index {c : CList α} (h : c.WF) (x : α) :
    ∃ r, c.index x = .ok r ∧ (r = none ↔ x ∉ c.abs) ∧
      ∀ i, r = some i ↔ c.abs[i]? = some x ∧ ∀ j, j < i → c.abs[j]? ≠ some x := by
  refine ⟨_, search0 _ h, findIdx?_none_iff, ?_⟩
  intro i
  rw [List.findIdx?_eq_some_iff_getElem]
  constructor
  · rintro ⟨hi, h1, h2⟩
    refine ⟨by simpa [hi] using h1, ?_⟩
    intro j hj he
    have hjl : j < c.abs.length := by omega
    have := h2 j hj
    rw [List.getElem?_eq_getElem hjl] at he
    simp [Option.some.inj he] at this
  · rintro ⟨h1, h2⟩
    obtain ⟨hi, h1⟩ := List.getElem?_eq_some_iff.1 h1
    refine ⟨hi, by simp [h1], ?_⟩
    intro j hj
    have := h2 j hj
    rw [List.getElem?_eq_getElem (by omega)] at this
    simpa using this

omit [DecidableEq α] in
/-- C20, index_prop: position of the first entry from place `i0` on that has the property. -/
theorem C20_index_prop {c : CList α} (h : c.WF) (i0 : Int) (p : α → Bool) :
    ∃ r, c.indexProp i0 p = .ok r ∧
      (∀ (i : Nat), r = some i → i0 ≤ (i : Int) ∧ ∃ x, c.abs[i]? = some x ∧ p x) ∧
      (∀ (i : Nat) (x : α) (j : Nat), r = some i → i0 ≤ (j : Int) → j < i → c.abs[j]? = some x → p x = false) ∧
      (r = none → ∀ (j : Nat) (x : α), i0 ≤ (j : Int) → c.abs[j]? = some x → p x = false) := by
  unfold WF at h
  have habs : ∀ j x, c.abs[j]? = some x → j < c.n ∧ c.e[j]? = some x := by
    intro j x hj
    rw [CList.abs, List.getElem?_take] at hj
    by_cases hjn : j < c.n
    · simpa [hjn] using hj
    · simp [hjn] at hj
  by_cases hle : i0.toNat ≤ c.n
  · rw [indexProp, search_eq p c.e _ _ (by omega)]
    set L := (c.e.drop i0.toNat).take (c.n - i0.toNat) with hL
    have hget : ∀ k, L[k]? = c.abs[i0.toNat + k]? := by
      intro k
      simp only [hL, CList.abs, List.getElem?_take, List.getElem?_drop]
      by_cases hk : k < c.n - i0.toNat
      · have : i0.toNat + k < c.n := by omega
        simp [hk, this]
      · have : ¬ i0.toNat + k < c.n := by omega
        simp [hk, this]
    refine ⟨_, rfl, ?_, ?_, ?_⟩
    · intro i hi
      obtain ⟨k, hk, rfl⟩ := Option.map_eq_some_iff.1 hi
      obtain ⟨hk1, hk2, _⟩ := List.findIdx?_eq_some_iff_getElem.1 hk
      refine ⟨by push_cast; omega, L[k], ?_, hk2⟩
      rw [← hget, List.getElem?_eq_getElem hk1]
    · intro i x j hi hj1 hj2 hx
      obtain ⟨k, hk, rfl⟩ := Option.map_eq_some_iff.1 hi
      obtain ⟨hk1, hk2, hk3⟩ := List.findIdx?_eq_some_iff_getElem.1 hk
      have := hk3 (j - i0.toNat) (by omega)
      have hj' := hget (j - i0.toNat)
      rw [show i0.toNat + (j - i0.toNat) = j by omega, hx,
        List.getElem?_eq_getElem (by omega)] at hj'
      rw [Option.some.inj hj'] at this
      simpa using this
    · intro hn j x hj hx
      have hn' := Option.map_eq_none_iff.1 hn
      rw [List.findIdx?_eq_none_iff] at hn'
      refine hn' x ?_
      have hj' := hget (j - i0.toNat)
      rw [show i0.toNat + (j - i0.toNat) = j by omega, hx] at hj'
      exact List.mem_of_getElem? hj'
  · refine ⟨none, ?_, by simp, by simp, ?_⟩
    · rw [indexProp, show c.n - i0.toNat = 0 by omega]; rfl
    · intro _ j x hj hx
      have := (habs j x hx).1
      omega

omit [DecidableEq α] in
/-- C20, duplicate: a container with the same list. -/
theorem C20_duplicate (junk : α) {c : CList α} (h : c.WF) :
    ∃ c', c.duplicate junk = .ok c' ∧ c'.WF ∧ c'.abs = c.abs := by
  obtain ⟨c', h1, h2, h3⟩ := fold_spec h (fun u x => u.push junk x) (fun l x => l ++ [x])
    (fun c x hc => push_spec junk hc x) (v := alloc) (by simp [WF, alloc])
  refine ⟨c', h1, h2, ?_⟩
  rw [h3]
  have : ∀ (l a : List α), l.foldl (fun l x => l ++ [x]) a = a ++ l := by
    intro l
    induction l with
    | nil => simp
    | cons x t ih => intro a; simp [ih]
  rw [this]; simp [alloc, CList.abs]

/-- The operations that change a list. -/
inductive ListOp (α : Type) where
  | clear
  | push (x : α)
  | pushlist (u : CList α)
  | unionpush (x : α)
  | unionpushlist (u : CList α)
  | dropindex (i : Int)
  | drop (x : α)
  | droplastn (n : Int)
  | droplist (u : CList α)

/-- One call. -/
def ListOp.step (junk : α) (c : CList α) : ListOp α → Res (CList α)
  | .clear => .ok c.clear
  | .push x => c.push junk x
  | .pushlist u => c.pushlist junk u
  | .unionpush x => c.unionpush junk x
  | .unionpushlist u => c.unionpushlist junk u
  | .dropindex i => c.dropindex i
  | .drop x => c.drop x
  | .droplastn n => .ok (c.droplastn n)
  | .droplist u => c.droplist u

/-- A history of calls. -/
def ListOp.run (junk : α) : List (ListOp α) → CList α → Res (CList α)
  | [], c => .ok c
  | o :: os, c => (o.step junk c).bind (ListOp.run junk os)

/-- The other list of a call is a proper container. -/
def ListOp.Ok : ListOp α → Prop
  | .pushlist u => u.WF
  | .unionpushlist u => u.WF
  | .droplist u => u.WF
  | _ => True

/-- What each call means for lists. `droplist` removes one occurrence per entry. -/
def Spec.listStep (l : List α) : ListOp α → List α
  | .clear => []
  | .push x => l ++ [x]
  | .pushlist u => l ++ u.abs
  | .unionpush x => Spec.addNew l x
  | .unionpushlist u => u.abs.foldl Spec.addNew l
  | .dropindex i => if i < 0 then l else l.eraseIdx i.toNat
  | .drop x => l.erase x
  | .droplastn n => l.take (l.length - n.toNat)
  | .droplist u => u.abs.foldl List.erase l

/-- C20 for one call: no access outside the memory, and the result stands for the right list. -/
theorem C20_step (junk : α) {c : CList α} (h : c.WF) (o : ListOp α) (ho : o.Ok) :
    ∃ c', o.step junk c = .ok c' ∧ c'.WF ∧ c'.abs = Spec.listStep c.abs o := by
  cases o with
  | clear => exact ⟨_, rfl, by simp [WF, CList.clear], by simp [CList.clear, CList.abs, Spec.listStep]⟩
  | push x => exact push_spec junk h x
  | pushlist u => exact pushlist_spec junk h ho
  | unionpush x => exact unionpush_spec junk h x
  | unionpushlist u => exact fold_spec ho _ _ (fun c x hc => unionpush_spec junk hc x) h
  | dropindex i => exact dropindex_spec h i
  | drop x => exact drop_spec h x
  | droplastn n => exact ⟨_, rfl, droplastn_spec h n⟩
  | droplist u => exact fold_spec ho _ _ (fun c x hc => drop_spec hc x) h

/-- C20: after every history of calls on a new list the container stands for the list the calls
describe, whatever the content of newly allocated memory. -/
theorem C20_history (junk : α) (os : List (ListOp α)) (hos : ∀ o ∈ os, o.Ok) :
    ∃ c, ListOp.run junk os alloc = .ok c ∧ c.WF ∧ c.abs = os.foldl Spec.listStep [] := by
  suffices ∀ (c : CList α), c.WF → ∃ c', ListOp.run junk os c = .ok c' ∧ c'.WF ∧
      c'.abs = os.foldl Spec.listStep c.abs by
    simpa [alloc, CList.abs, WF] using this alloc (by simp [WF, alloc])
  induction os with
  | nil => intro c h; exact ⟨c, rfl, h, rfl⟩
  | cons o os ih =>
    intro c h
    obtain ⟨c1, h1, h2, h3⟩ := C20_step junk h o (hos o List.mem_cons_self)
    obtain ⟨c2, h4, h5, h6⟩ := ih (fun o ho => hos o (List.mem_cons_of_mem _ ho)) c1 h2
    exact ⟨c2, by rw [ListOp.run, h1, Res.bind_ok, h4], h5, by rw [h6, h3]; rfl⟩

/-- C20: the unions never create duplicates, and contain exactly the elements of both lists. -/
theorem C20_union (l u : List α) (hl : l.Nodup) :
    (u.foldl Spec.addNew l).Nodup ∧ ∀ x, x ∈ u.foldl Spec.addNew l ↔ x ∈ l ∨ x ∈ u := by
  induction u generalizing l with
  | nil => simpa using hl
  | cons a t ih =>
    have hn : (Spec.addNew l a).Nodup := by
      unfold Spec.addNew
      by_cases ha : a ∈ l
      · simpa [ha] using hl
      · simp only [ha, if_false]
        exact List.nodup_append.2 ⟨hl, by simp, by
          intro x hx y hy he
          simp only [List.mem_singleton] at hy
          subst hy; subst he; exact ha hx⟩
    obtain ⟨h1, h2⟩ := ih _ hn
    refine ⟨h1, fun x => ?_⟩
    rw [List.foldl_cons, h2 x]
    unfold Spec.addNew
    by_cases ha : a ∈ l
    · simp only [ha, if_true, List.mem_cons]
      constructor
      · rintro (h | h)
        · exact .inl h
        · exact .inr (.inr h)
      · rintro (h | rfl | h)
        · exact .inl h
        · exact .inl ha
        · exact .inr h
    · simp only [ha, if_false, List.mem_append, List.mem_cons, List.not_mem_nil,
        or_false]
      rw [or_assoc]

/-- C20: on a list without duplicates droplist removes exactly the entries of the other
list. -/
theorem C20_droplist (l u : List α) (hl : l.Nodup) :
    (u.foldl List.erase l).Nodup ∧ ∀ x, x ∈ u.foldl List.erase l ↔ x ∈ l ∧ x ∉ u := by
  induction u generalizing l with
  | nil => simpa using hl
  | cons a t ih =>
    obtain ⟨h1, h2⟩ := ih _ (hl.erase a)
    refine ⟨h1, fun x => ?_⟩
    rw [List.foldl_cons, h2 x, hl.mem_erase_iff, List.mem_cons]
    constructor
    · rintro ⟨⟨h3, h4⟩, h5⟩; exact ⟨h4, fun h => h.elim h3 h5⟩
    · rintro ⟨h3, h4⟩; exact ⟨⟨fun h => h4 (.inl h), h3⟩, fun h => h4 (.inr h)⟩

example : (ListOp.run (99 : Int) [.push 4, .push 5, .unionpush 4, .unionpush 6, .dropindex 0,
    .pushlist ⟨[7, 8, 9], 2⟩, .drop 7, .droplastn 1, .unionpushlist ⟨[5, 1], 2⟩] alloc).map abs
    = .ok [5, 6, 1] := by decide +kernel
example : (CList.index (⟨[4, 5, 4, 6], 3⟩ : CList Int) 6, CList.index (⟨[4, 5, 4], 3⟩ : CList Int) 4,
    CList.indexProp (⟨[4, 5, 4], 3⟩ : CList Int) 1 (fun x => decide (x = 4)))
    = (.ok none, .ok (some 0), .ok (some 2)) := by decide +kernel

/-- C63: pushlist with the same list twice does not double the list; the new half is whatever
the memory contained. -/
theorem C63_pushlist_self_counterexample (junk : Int) :
    (CList.pushlistSelf junk ⟨[1, 2], 2⟩).map abs = .ok [1, 2, junk, junk] := rfl

/-- C63: droplist with the same list twice should empty the list, but leaves every second
entry. -/
theorem C63_droplist_self_counterexample :
    (CList.droplistSelf 4 0 (⟨[1, 2, 3, 4], 4⟩ : CList Int)).map abs = .ok [2, 4] := by
  decide +kernel

end Sgrid
