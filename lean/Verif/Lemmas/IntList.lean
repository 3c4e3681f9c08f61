import Mathlib.Tactic.Linarith
import Mathlib.Data.List.Basic
import Verif.Model.IntList

/-! Lemmas about the list container. -/

namespace Sgrid

section
variable {α : Type}

theorem aget_ok {e : List α} {i : Nat} (h : i < e.length) : aget e i = .ok e[i] := by
  simp [aget, h]

theorem aput_ok {e : List α} {i : Nat} (x : α) (h : i < e.length) : aput e i x = .ok (e.set i x) := by
  simp [aput, h]

@[simp] theorem reallocTo_length (junk : α) (e : List α) (m : Nat) :
    (reallocTo junk e m).length = m := by
  simp [reallocTo]; omega

theorem reallocTo_get (junk : α) (e : List α) {m j : Nat} (hj : j < m) (he : j < e.length) :
    (reallocTo junk e m)[j]? = e[j]? := by
  simp [reallocTo, hj, List.getElem?_append_left he]

/-- The search loop finds the first entry that passes the test. -/
theorem search_eq (test : α → Bool) (e : List α) : ∀ left i, i + left ≤ e.length →
    CList.search test e left i
      = .ok ((((e.drop i).take left).findIdx? test).map (i + ·)) := by
  intro left
  induction left with
  | zero => intro i _; simp [CList.search]
  | succ left ih =>
    intro i hi
    have hlt : i < e.length := by omega
    rw [CList.search, aget_ok hlt, Res.bind_ok, List.drop_eq_getElem_cons hlt, List.take_succ_cons,
      List.findIdx?_cons]
    by_cases h : test e[i]
    · simp [h]
    · rw [if_neg h, if_neg h, ih (i + 1) (by omega)]
      cases (List.findIdx? test (List.take left (List.drop (i + 1) e))) <;> simp; omega

/-- The shift loop removes place `i` from the first `n+1` entries. -/
theorem shift_spec (e : List α) (n i : Nat) (hi : i ≤ n) (hn : n < e.length) :
    ∃ e', CList.shift n i e = .ok e' ∧ e'.length = e.length ∧
      e'.take n = (e.take (n + 1)).eraseIdx i := by
  obtain ⟨e', h1, h2, h3⟩ := forN_inv (n := n - i) (s := e)
    (body := fun k e => (aget e (i + k + 1)).bind fun x => aput e (i + k) x)
    (fun k (t : List α) => t.length = e.length ∧
      ∀ j, t[j]? = if j < i then e[j]? else if j < i + k then e[j + 1]? else e[j]?)
    ⟨rfl, by intro j; by_cases h : j < i <;> simp [h]⟩
    (by
      rintro k hk t ⟨h1, h2⟩
      have a : i + k + 1 < t.length := by omega
      refine ⟨t.set (i + k) t[i + k + 1], ?_, by simpa using h1, ?_⟩
      · rw [aget_ok a, Res.bind_ok, aput_ok _ (by omega)]
      · intro j
        rw [List.getElem?_set]
        by_cases hj : i + k = j
        · subst hj
          have := h2 (i + k + 1)
          rw [List.getElem?_eq_getElem a] at this
          rw [if_pos rfl, if_pos (by omega), this]
          have e1 : ¬ i + k + 1 < i := by omega
          have e2 : ¬ i + k + 1 < i + k := by omega
          have e3 : ¬ i + k < i := by omega
          have e4 : i + k < i + (k + 1) := by omega
          simp only [e1, e2, e3, e4, if_false, if_true]
        · rw [if_neg hj, h2 j]
          by_cases h : j < i
          · simp [h]
          · have : j < i + (k + 1) ↔ j < i + k := by omega
            simp [h, this])
  refine ⟨e', h1, h2, ?_⟩
  apply List.ext_getElem?
  intro j
  rw [List.getElem?_take, List.getElem?_eraseIdx, List.getElem?_take, List.getElem?_take, h3]
  by_cases h : j < i
  · have : j < n := by omega
    have h'' : j < n + 1 := by omega
    simp [h, this, h'']
  · by_cases h' : j < n
    · have e1 : j < i + (n - i) := by omega
      simp [h, h', e1]
    · simp [h, h']

end

namespace CList
variable {α : Type}

/-- The list a container stands for. -/
def abs (c : CList α) : List α := c.e.take c.n

/-- The counted entries lie inside the allocated array. -/
def WF (c : CList α) : Prop := c.n ≤ c.e.length

theorem abs_length {c : CList α} (h : c.WF) : c.abs.length = c.n := by
  simp only [abs, List.length_take]; unfold WF at h; omega

theorem search0 (test : α → Bool) {c : CList α} (h : c.WF) :
    search test c.e c.n 0 = .ok (c.abs.findIdx? test) := by
  rw [search_eq test c.e c.n 0 (by unfold WF at h; omega)]
  simp [abs]

theorem push_spec (junk : α) {c : CList α} (h : c.WF) (x : α) :
    ∃ c', c.push junk x = .ok c' ∧ c'.WF ∧ c'.abs = c.abs ++ [x] := by
  refine ⟨⟨(reallocTo junk c.e (c.n + 1)).set c.n x, c.n + 1⟩, ?_, by simp [WF], ?_⟩
  · simp [push, aput]
  · apply List.ext_getElem?
    intro j
    unfold WF at h
    simp only [abs, List.getElem?_take, List.getElem?_set, reallocTo_length]
    by_cases hj : j < c.n
    · have h1 : ¬ c.n = j := by omega
      have h2 : j < c.n + 1 := by omega
      rw [List.getElem?_append_left (by simp; omega)]
      rw [if_pos h2, if_neg h1, reallocTo_get junk c.e h2 (by omega), List.getElem?_take,
        if_pos hj]
    · rw [List.getElem?_append_right (by simp; omega)]
      have hl : (List.take c.n c.e).length = c.n := by simp; omega
      rw [hl]
      by_cases hj' : j = c.n
      · subst hj'; simp
      · have h1 : ¬ j < c.n + 1 := by omega
        have h2 : ∃ k, j - c.n = k + 1 := ⟨j - c.n - 1, by omega⟩
        obtain ⟨k, hk⟩ := h2
        simp [h1, hk]

theorem pushlist_spec (junk : α) {v u : CList α} (hv : v.WF) (hu : u.WF) :
    ∃ c', v.pushlist junk u = .ok c' ∧ c'.WF ∧ c'.abs = v.abs ++ u.abs := by
  unfold WF at hv hu
  obtain ⟨e', h1, h2, h3⟩ := forN_inv (n := u.n) (s := reallocTo junk v.e (v.n + u.n))
    (body := fun i e => (aget u.e i).bind fun x => aput e (v.n + u.n - u.n + i) x)
    (fun k (t : List α) => t.length = v.n + u.n ∧
      ∀ j, j < v.n + k → t[j]? = if j < v.n then v.e[j]? else u.e[j - v.n]?)
    ⟨by simp, by
      intro j hj
      have hj' : j < v.n := by omega
      rw [if_pos hj', reallocTo_get _ _ (by omega) (by omega)]⟩
    (by
      rintro k hk t ⟨h1, h2⟩
      have a : k < u.e.length := by omega
      refine ⟨t.set (v.n + k) u.e[k], ?_, by simpa using h1, ?_⟩
      · rw [aget_ok a, Res.bind_ok]
        have : v.n + u.n - u.n + k = v.n + k := by omega
        rw [this, aput_ok _ (by omega)]
      · intro j hj
        rw [List.getElem?_set]
        by_cases hj' : v.n + k = j
        · subst hj'
          have e1 : v.n + k < t.length := by omega
          simp [e1, a]
        · rw [if_neg hj', h2 j (by omega)])
  refine ⟨⟨e', v.n + u.n⟩, ?_, by simp [WF, h2], ?_⟩
  · rw [pushlist, h1, Res.bind_ok]
  · apply List.ext_getElem?
    intro j
    simp only [abs, List.getElem?_take]
    by_cases hj : j < v.n + u.n
    · rw [if_pos hj, h3 j hj]
      by_cases hj' : j < v.n
      · rw [List.getElem?_append_left (by simp; omega)]
        simp [hj']
      · rw [List.getElem?_append_right (by simp; omega)]
        have hl : (List.take v.n v.e).length = v.n := by simp; omega
        have : j - v.n < u.n := by omega
        simp [hl, hj', this]
    · rw [if_neg hj, List.getElem?_append_right (by simp; omega)]
      have hl : (List.take v.n v.e).length = v.n := by simp; omega
      have : ¬ j - v.n < u.n := by omega
      simp [hl, this]

theorem dropindex_spec {c : CList α} (h : c.WF) (ind : Int) :
    ∃ c', c.dropindex ind = .ok c' ∧ c'.WF ∧
      c'.abs = if ind < 0 then c.abs else c.abs.eraseIdx ind.toNat := by
  unfold WF at h
  by_cases h0 : ind < 0 ∨ ind ≥ c.n
  · refine ⟨c, by simp [dropindex, h0], h, ?_⟩
    by_cases h1 : ind < 0
    · simp [h1]
    · rw [if_neg h1, List.eraseIdx_of_length_le]
      rw [abs_length h]; omega
  · push Not at h0
    obtain ⟨e', h1, h2, h3⟩ := shift_spec c.e (c.n - 1) ind.toNat (by omega) (by omega)
    refine ⟨⟨e', c.n - 1⟩, ?_, ?_, ?_⟩
    · have : ¬ (ind < 0 ∨ ind ≥ c.n) := by omega
      rw [dropindex, if_neg this, h1, Res.bind_ok]
    · simp only [WF, h2]; omega
    · have : c.n - 1 + 1 = c.n := by omega
      rw [this] at h3
      have h4 : ¬ ind < 0 := by omega
      simp only [abs, h3, h4, if_false]

theorem droplastn_spec {c : CList α} (h : c.WF) (n : Int) :
    (c.droplastn n).WF ∧ (c.droplastn n).abs = c.abs.take (c.abs.length - n.toNat) := by
  unfold WF at h
  rw [abs_length h]
  unfold droplastn
  by_cases h0 : n ≤ 0
  · have : n.toNat = 0 := by omega
    simp [h0, this, WF, abs, h, List.take_take]
  · rw [if_neg h0]
    by_cases h1 : n ≥ c.n
    · have : c.n - n.toNat = 0 := by omega
      simp [h1, this, WF, abs]
    · rw [if_neg h1]
      refine ⟨by simp only [WF]; omega, ?_⟩
      simp only [abs, List.take_take]
      congr 1; omega

variable [DecidableEq α]

theorem findIdx?_none_iff {l : List α} {x : α} :
    l.findIdx? (fun y => decide (y = x)) = none ↔ x ∉ l := by
  rw [List.findIdx?_eq_none_iff]
  simp only [decide_eq_false_iff_not]
  exact ⟨fun h hx => h x hx rfl, fun h y hy he => h (he ▸ hy)⟩

theorem unionpush_spec (junk : α) {c : CList α} (h : c.WF) (x : α) :
    ∃ c', c.unionpush junk x = .ok c' ∧ c'.WF ∧
      c'.abs = if x ∈ c.abs then c.abs else c.abs ++ [x] := by
  rw [unionpush, search0 _ h, Res.bind_ok]
  cases hf : c.abs.findIdx? (fun y => decide (y = x)) with
  | none =>
    rw [findIdx?_none_iff] at hf
    simpa [hf] using push_spec junk h x
  | some i =>
    have hx : x ∈ c.abs := by
      by_contra hc
      rw [findIdx?_none_iff.2 hc] at hf; cases hf
    exact ⟨c, rfl, h, by simp [hx]⟩

theorem eraseIdx_find {l : List α} {x : α} {i : Nat}
    (h : l.findIdx? (fun y => decide (y = x)) = some i) : l.eraseIdx i = l.erase x := by
  induction l generalizing i with
  | nil => simp at h
  | cons a t ih =>
    rw [List.findIdx?_cons] at h
    by_cases ha : a = x
    · subst ha; simp at h; subst h; simp
    · simp only [ha, decide_false, Bool.false_eq_true, if_false, Option.map_eq_some_iff] at h
      obtain ⟨j, hj, rfl⟩ := h
      rw [List.eraseIdx_cons_succ, ih hj, List.erase_cons_tail (by simpa using ha)]

theorem drop_spec {c : CList α} (h : c.WF) (x : α) :
    ∃ c', c.drop x = .ok c' ∧ c'.WF ∧ c'.abs = c.abs.erase x := by
  rw [drop, search0 _ h, Res.bind_ok]
  cases hf : c.abs.findIdx? (fun y => decide (y = x)) with
  | none =>
    rw [findIdx?_none_iff] at hf
    exact ⟨c, rfl, h, by rw [List.erase_of_not_mem hf]⟩
  | some i =>
    have hi : i < c.n := by
      rw [← abs_length h]
      obtain ⟨hlt, -⟩ := List.findIdx?_eq_some_iff_getElem.1 hf
      exact hlt
    unfold WF at h
    obtain ⟨e', h1, h2, h3⟩ := shift_spec c.e (c.n - 1) i (by omega) (by omega)
    refine ⟨⟨e', c.n - 1⟩, by simp only [h1, Res.bind_ok], by simp only [WF, h2]; omega, ?_⟩
    have : c.n - 1 + 1 = c.n := by omega
    rw [this] at h3
    rw [← eraseIdx_find hf]
    exact h3

omit [DecidableEq α] in
/-- A loop over the entries of `u`, given what one pass does. -/
theorem fold_spec {u : CList α} (hu : u.WF) (f : CList α → α → Res (CList α))
    (g : List α → α → List α)
    (hf : ∀ c x, c.WF → ∃ c', f c x = .ok c' ∧ c'.WF ∧ c'.abs = g c.abs x)
    {v : CList α} (hv : v.WF) :
    ∃ c', forN u.n (fun i v => (aget u.e i).bind fun x => f v x) v = .ok c' ∧ c'.WF ∧
      c'.abs = u.abs.foldl g v.abs := by
  unfold WF at hu
  have := forN_inv (n := u.n) (s := v) (body := fun i v => (aget u.e i).bind fun x => f v x)
    (fun k (c : CList α) => c.WF ∧ c.abs = (u.e.take k).foldl g v.abs) ⟨hv, by simp⟩
    (by
      rintro i hi c ⟨h1, h2⟩
      have a : i < u.e.length := by omega
      obtain ⟨c', e1, e2, e3⟩ := hf c u.e[i] h1
      refine ⟨c', by rw [aget_ok a, Res.bind_ok, e1], e2, ?_⟩
      rw [e3, h2, List.take_add_one, List.getElem?_eq_getElem a, Option.toList_some,
        List.foldl_append]
      rfl)
  obtain ⟨c, h1, h2, h3⟩ := this
  exact ⟨c, h1, h2, h3⟩

end CList
end Sgrid
