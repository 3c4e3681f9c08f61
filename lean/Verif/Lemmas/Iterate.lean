import Verif.Lemmas.NextEntry
import Mathlib.Data.List.Forall2

/-! Helper lemmas about `iterateParameters`. -/

namespace Sgrid

open Spec

/-- What the counter in the value loop selects. -/
def pickFrom : List CStr → Int → Int → Option CStr → Option CStr
  | [], _, _, nv => nv
  | v :: vs, i, n, nv => pickFrom vs (i + 1) n (if i = n then some v else nv)

theorem pickFrom_past (vs : List CStr) (i n : Int) (nv : Option CStr) (h : n < i) :
    pickFrom vs i n nv = nv := by
  induction vs generalizing i with
  | nil => rfl
  | cons v vs ih =>
    simp only [pickFrom]
    rw [if_neg (by omega), ih (i + 1) (by omega)]

theorem pickFrom_eq (vs : List CStr) (i k : Nat) :
    pickFrom vs i ((i + k : Nat) : Int) none = vs[k]? := by
  induction vs generalizing i k with
  | nil => simp [pickFrom]
  | cons v vs ih =>
    simp only [pickFrom]
    cases k with
    | zero => simp; rw [pickFrom_past _ _ _ _ (by omega)]
    | succ k =>
      rw [if_neg (by omega)]
      have := ih (i + 1) k
      simp only [List.getElem?_cons_succ]
      rw [← this]
      congr 1
      omega

theorem valueLoop_end {st : NE} (h : st.AtEnd) (list : CStr) (n : Int) (fuel : Nat) (w : CStr)
    (i : Int) (nv : Option CStr) : ∃ st', valueLoop list n (fuel + 1) st (some w) i nv =
      some (st', if i = n then some w else nv) ∧ st'.i = 0 := by
  obtain ⟨b1, b2⟩ := nextEntry_end h list
  refine ⟨_, ?_, b2⟩
  simp only [valueLoop]
  rw [b1]
  cases fuel <;> simp [valueLoop]

theorem valueLoop_at (r : CStr) : ∀ {st : NE}, '\x00' ∉ r → st.At r → ∀ {list : CStr},
    list ≠ [] → ∀ (n : Int) (fuel : Nat) (w : CStr) (i : Int) (nv : Option CStr),
    (entries r).length < fuel → ∃ st', valueLoop list n fuel st (some w) i nv =
      some (st', pickFrom (w :: entries r) i n nv) ∧ st'.i = 0 := by
  induction hn : r.length using Nat.strongRecOn generalizing r with
  | _ m ih =>
    intro st hr0 hat list hne n fuel w i nv hfuel
    obtain ⟨x, hx, ⟨h1, h2⟩ | ⟨r', h1, h2⟩⟩ := split_first r
    · obtain ⟨a1, a2⟩ := (nextEntry_at hr0 hat list hne hx).1 h1
      rw [h2] at hfuel ⊢
      obtain ⟨f, rfl⟩ : ∃ f, fuel = f + 2 := ⟨fuel - 2, by simp at hfuel; omega⟩
      obtain ⟨st', e1, e2⟩ := valueLoop_end a2 list n f x (i + 1) (if i = n then some w else nv)
      refine ⟨st', ?_, e2⟩
      rw [valueLoop]
      simp only [a1]
      rw [e1]
      simp [pickFrom]
    · obtain ⟨a1, a2⟩ := (nextEntry_at hr0 hat list hne hx).2 r' h1
      rw [h2] at hfuel ⊢
      have hlt : r'.length < m := by rw [← hn, h1]; simp; omega
      obtain ⟨f, rfl⟩ : ∃ f, fuel = f + 1 := ⟨fuel - 1, by simp at hfuel; omega⟩
      obtain ⟨st', e1, e2⟩ := ih _ hlt r' rfl (fun h => hr0 (by rw [h1]; simp [h])) a2 hne n f x
        (i + 1) (if i = n then some w else nv) (by simp at hfuel; omega)
      refine ⟨st', ?_, e2⟩
      rw [valueLoop]
      simp only [a1]
      rw [e1]
      simp [pickFrom]

theorem entries_length_le (r : CStr) : (entries r).length ≤ r.length + 1 := by
  induction r with
  | nil => simp [entries]
  | cons c t ih =>
    simp only [entries]
    split
    · simp; omega
    · split
      · simp
      · rename_i h; rw [h] at ih; simp at ih ⊢; omega

/-- A usable string iterate_parameterN: a name of a parameter and at least one value. -/
structure IterOk (isPar : CStr → Bool) (list : CStr) (name : CStr) (vals : List CStr) :
    Prop where
  noNul : '\x00' ∉ list
  noBlank : list.head? ≠ some ' '
  ents : entries list = name :: vals
  nonempty : name ≠ []
  par : isPar name = true
  vals : vals ≠ []

theorem iterList_ok {isPar : CStr → Bool} {list name : CStr} {vals : List CStr}
    (h : IterOk isPar list name vals) {st : NE} (hst : st.i = 0) (k : Nat) :
    ∃ st', iterList isPar k st list = some (.ok (st', name, vals[k]?)) ∧ st'.i = 0 := by
  have hne : list ≠ [] := by
    intro h0
    have := h.ents
    rw [h0] at this
    simp [entries] at this
    exact h.nonempty this.1
  obtain ⟨w, hw, ⟨h1, h2⟩ | ⟨r, h1, h2⟩⟩ := split_first list
  · rw [h.ents] at h2
    simp at h2
    exact absurd h2.2 h.vals
  · have hwn : w = name ∧ entries r = vals := by
      rw [h.ents] at h2; simp at h2; exact ⟨h2.1.symm, h2.2.symm⟩
    obtain ⟨rfl, hr⟩ := hwn
    obtain ⟨a1, a2⟩ := (nextEntry_first hst h.noNul hw h.nonempty).2 r h1
    have hr0 : '\x00' ∉ r := fun hx => h.noNul (by rw [h1]; simp [hx])
    have hlen : (entries r).length ≤ list.length := by
      have := entries_length_le r
      rw [h1]; simp; omega
    unfold iterList
    simp only [a1, h.par, Bool.true_eq_false, if_false]
    obtain ⟨x, hx, ⟨g1, g2⟩ | ⟨r', g1, g2⟩⟩ := split_first r
    · obtain ⟨b1, b2⟩ := (nextEntry_at hr0 a2 list hne hx).1 g1
      obtain ⟨st', e1, e2⟩ := valueLoop_end b2 list k (list.length + 1) x 0 none
      refine ⟨st', ?_, e2⟩
      simp only [b1]
      rw [e1, ← hr, g2]
      cases k with
      | zero => simp
      | succ k => simp; omega
    · obtain ⟨b1, b2⟩ := (nextEntry_at hr0 a2 list hne hx).2 r' g1
      have hr0' : '\x00' ∉ r' := fun hx => hr0 (by rw [g1]; simp [hx])
      obtain ⟨st', e1, e2⟩ := valueLoop_at r' hr0' b2 hne k (list.length + 2) x 0 none (by
        rw [g2] at hlen; simp at hlen; omega)
      refine ⟨st', ?_, e2⟩
      simp only [b1]
      rw [e1, ← hr, g2]
      have := pickFrom_eq (x :: entries r') 0 k
      simp only [Nat.zero_add] at this
      simp [← this]

/-- The assignments of call number `k`. -/
def asgOf (spec : List (CStr × List CStr)) (k : Nat) : List (CStr × CStr) :=
  spec.filterMap fun (n, vs) => vs[k]?.map fun v => (n, v)

theorem iterLoop_ok {isPar : CStr → Bool} (k : Nat) :
    ∀ {lists : List CStr} {spec : List (CStr × List CStr)} {st : NE} (last : Option CStr),
    List.Forall₂ (fun l (s : CStr × List CStr) => IterOk isPar l s.1 s.2) lists spec →
    st.i = 0 →
    ∃ st', iterLoop isPar k st lists last =
      some (.ok (st', asgOf spec k, match spec.getLast? with
        | none => last
        | some (_, vs) => vs[k]?)) ∧ st'.i = 0 := by
  intro lists spec st last h
  induction h generalizing st last with
  | nil => intro hst; exact ⟨st, by simp [iterLoop, asgOf], hst⟩
  | @cons l s ls ss hls _ ih =>
    intro hst
    obtain ⟨st1, e1, e2⟩ := iterList_ok hls hst k
    obtain ⟨st2, f1, f2⟩ := ih (s.2[k]?) e2
    refine ⟨st2, ?_, f2⟩
    simp only [iterLoop, e1, f1]
    have ha : (Option.map (fun v => (s.1, v)) s.2[k]?).toList ++ asgOf ss k = asgOf (s :: ss) k := by
      simp only [asgOf, List.filterMap_cons]
      cases h : s.2[k]? <;> simp
    rw [ha]
    cases ss with
    | nil => simp
    | cons t ts =>
      simp only [List.getLast?_cons_cons]
      cases h : (t :: ts).getLast? with
      | none => simp at h
      | some x => rfl

end Sgrid
