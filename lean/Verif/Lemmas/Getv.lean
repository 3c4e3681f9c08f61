import Verif.Model.Params

/-! Helper lemmas about `strstr` and `getv`. -/

namespace Sgrid

theorem strstr_some {hay needle : CStr} {o : Nat} (h : strstr hay needle = some o) :
    needle <+: hay.drop o ∧ o ≤ hay.length ∧ ∀ j < o, ¬ needle <+: hay.drop j := by
  induction hay generalizing o with
  | nil =>
    unfold strstr at h
    split at h
    · rename_i hp
      cases h
      exact ⟨by simpa using List.isPrefixOf_iff_prefix.1 hp, by simp, by simp⟩
    · simp at h
  | cons c t ih =>
    unfold strstr at h
    split at h
    · rename_i hp
      cases h
      exact ⟨by simpa using List.isPrefixOf_iff_prefix.1 hp, by simp, by simp⟩
    · rename_i hp
      rw [List.isPrefixOf_iff_prefix] at hp
      simp only [Option.map_eq_some_iff] at h
      obtain ⟨o', ho', rfl⟩ := h
      obtain ⟨h1, h2, h3⟩ := ih ho'
      refine ⟨by simpa using h1, by simp; omega, ?_⟩
      intro j hj
      cases j with
      | zero => simpa using hp
      | succ j => simpa using h3 j (by omega)

theorem strstr_none {hay needle : CStr} (h : strstr hay needle = none) :
    ∀ j, ¬ (j ≤ hay.length ∧ needle <+: hay.drop j) := by
  induction hay with
  | nil =>
    unfold strstr at h
    split at h
    · simp at h
    · rename_i hp
      rw [List.isPrefixOf_iff_prefix] at hp
      rintro j ⟨hj, hpre⟩
      simp at hpre
      exact hp (by simp [hpre])
  | cons c t ih =>
    unfold strstr at h
    split at h
    · simp at h
    · rename_i hp
      rw [List.isPrefixOf_iff_prefix] at hp
      simp only [Option.map_eq_none_iff] at h
      rintro j ⟨hj, hpre⟩
      cases j with
      | zero => exact hp (by simpa using hpre)
      | succ j => exact ih h j ⟨by simpa using hj, by simpa using hpre⟩

/-- An occurrence of `v` in `p` at offset `s` that is followed by a blank or the end. -/
def EndOk (v p : CStr) (s : Nat) : Prop :=
  s ≤ p.length ∧ v <+: p.drop s ∧ (p[s + v.length]? = none ∨ p[s + v.length]? = some ' ')

theorem getvLoop_some {v p : CStr} {start s : Nat} (hs : start ≤ p.length)
    (h : getvLoop v p start = some s) :
    start ≤ s ∧ EndOk v p s ∧ ∀ j, start ≤ j → j < s → ¬ EndOk v p j := by
  induction start using getvLoop.induct v p with
  | case1 start hn => rw [getvLoop] at h; simp [hn] at h
  | case2 start o ho hd =>
    rw [getvLoop] at h
    simp only [ho] at h
    obtain ⟨h1, h2, h3⟩ := strstr_some ho
    simp only [List.length_drop, List.drop_drop] at h1 h2 h3
    split at h
    · cases h
      refine ⟨by omega, ⟨by omega, h1, .inl ?_⟩, ?_⟩
      · simpa using hd
      · intro j hj hj2 hE
        have := h3 (j - start) (by omega)
        rw [show start + (j - start) = j by omega] at this
        exact this hE.2.1
    · rename_i c t hc; rw [hd] at hc; cases hc
  | case3 start o ho t hd =>
    rw [getvLoop] at h
    simp only [ho] at h
    obtain ⟨h1, h2, h3⟩ := strstr_some ho
    simp only [List.length_drop, List.drop_drop] at h1 h2 h3
    have hget : p[start + o + v.length]? = some ' ' := by
      have : (p.drop (start + o + v.length))[0]? = some ' ' := by rw [hd]; simp
      simpa using this
    split at h
    · rename_i hc'; rw [hd] at hc'; cases hc'
    · rename_i c' t' hc'
      rw [hd] at hc'; cases hc'
      simp only [if_true] at h
      cases h
      refine ⟨by omega, ⟨by omega, h1, .inr (hget)⟩, ?_⟩
      intro j hj hj2 hE
      have := h3 (j - start) (by omega)
      rw [show start + (j - start) = j by omega] at this
      exact this hE.2.1
  | case4 start o ho c t hd hc ih =>
    rw [getvLoop] at h
    simp only [ho] at h
    obtain ⟨h1, h2, h3⟩ := strstr_some ho
    simp only [List.length_drop, List.drop_drop] at h1 h2 h3
    have hget : p[start + o + v.length]? = some c := by
      have : (p.drop (start + o + v.length))[0]? = some c := by rw [hd]; simp
      simpa using this
    have hlen : start + o + v.length < p.length := by
      obtain ⟨hl, -⟩ := List.getElem?_eq_some_iff.1 hget; exact hl
    split at h
    · rename_i hc'; rw [hd] at hc'; cases hc'
    · rename_i c' t' hc'
      rw [hd] at hc'; cases hc'
      simp only [hc, if_false] at h
      obtain ⟨i1, i2, i3⟩ := ih (by omega) h
      refine ⟨by omega, i2, ?_⟩
      intro j hj hj2 hE
      rcases Nat.lt_trichotomy j (start + o) with hlt | heq | hgt
      · have := h3 (j - start) (by omega)
        rw [show start + (j - start) = j by omega] at this
        exact this hE.2.1
      · subst heq
        rcases hE.2.2 with hx | hx <;> rw [hget] at hx
        · cases hx
        · cases hx; exact hc rfl
      · exact i3 j (by omega) hj2 hE

theorem getvLoop_none {v p : CStr} {start : Nat} (hs : start ≤ p.length)
    (h : getvLoop v p start = none) : ∀ j, start ≤ j → ¬ EndOk v p j := by
  induction start using getvLoop.induct v p with
  | case1 start hn =>
    intro j hj hE
    have := strstr_none hn (j - start)
    simp only [List.length_drop, List.drop_drop, not_and] at this
    rw [show start + (j - start) = j by omega] at this
    exact this (by have := hE.1; omega) hE.2.1
  | case2 start o ho hd =>
    rw [getvLoop] at h
    simp only [ho] at h
    split at h
    · cases h
    · rename_i c t hc; rw [hd] at hc; cases hc
  | case3 start o ho t hd =>
    rw [getvLoop] at h
    simp only [ho] at h
    split at h
    · cases h
    · rename_i c' t' hc'
      rw [hd] at hc'; cases hc'
      simp at h
  | case4 start o ho c t hd hc ih =>
    rw [getvLoop] at h
    simp only [ho] at h
    obtain ⟨h1, h2, h3⟩ := strstr_some ho
    simp only [List.length_drop, List.drop_drop] at h1 h2 h3
    have hget : p[start + o + v.length]? = some c := by
      have : (p.drop (start + o + v.length))[0]? = some c := by rw [hd]; simp
      simpa using this
    have hlen : start + o + v.length < p.length := by
      obtain ⟨hl, -⟩ := List.getElem?_eq_some_iff.1 hget; exact hl
    split at h
    · rename_i hc'; rw [hd] at hc'; cases hc'
    · rename_i c' t' hc'
      rw [hd] at hc'; cases hc'
      simp only [hc, if_false] at h
      have i3 := ih (by omega) h
      intro j hj hE
      rcases Nat.lt_trichotomy j (start + o) with hlt | heq | hgt
      · have := h3 (j - start) (by omega)
        rw [show start + (j - start) = j by omega] at this
        exact this hE.2.1
      · subst heq
        rcases hE.2.2 with hx | hx <;> rw [hget] at hx
        · cases hx
        · cases hx; exact hc rfl
      · exact i3 j (by omega) hE

/-- Offset `s` is the beginning of the string or follows a blank. -/
def StartOk (p : CStr) (s : Nat) : Prop := s = 0 ∨ ∃ k, s = k + 1 ∧ p[k]? = some ' '

theorem getv_iff {p v : CStr} :
    getv p v = true ↔ ∃ s, EndOk v p s ∧ StartOk p s ∧ ∀ j < s, ¬ EndOk v p j := by
  unfold getv
  cases hl : getvLoop v p 0 with
  | none =>
    simp only [Bool.false_eq_true, false_iff, not_exists]
    rintro s ⟨h1, -, -⟩
    exact getvLoop_none (Nat.zero_le _) hl s (Nat.zero_le _) h1
  | some s =>
    obtain ⟨h0, h1, h2⟩ := getvLoop_some (Nat.zero_le _) hl
    have huniq : ∀ s', EndOk v p s' ∧ StartOk p s' ∧ (∀ j < s', ¬ EndOk v p j) → s' = s := by
      rintro s' ⟨a, b, c⟩
      rcases Nat.lt_trichotomy s' s with h | h | h
      · exact absurd a (h2 s' (Nat.zero_le _) h)
      · exact h
      · exact absurd h1 (c s h)
    cases s with
    | zero =>
      simp only [true_iff]
      exact ⟨0, h1, .inl rfl, by simp⟩
    | succ s =>
      simp only [decide_eq_true_eq]
      constructor
      · intro hb
        exact ⟨s + 1, h1, .inr ⟨s, rfl, hb⟩, fun j hj => h2 j (Nat.zero_le _) hj⟩
      · rintro ⟨s', hs'⟩
        have := huniq s' hs'
        subst this
        rcases hs'.2.1 with h | ⟨k, hk, hb⟩
        · omega
        · cases hk; exact hb

end Sgrid
