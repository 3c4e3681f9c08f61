import Verif.Spec.Strings
import Verif.Lemmas.Getv

/-! Helper lemmas about `Spec.entries`. -/

namespace Sgrid

open Spec

theorem entries_ne_nil (p : CStr) : entries p ≠ [] := by
  cases p with
  | nil => simp [entries]
  | cons c t =>
    simp only [entries]
    split
    · simp
    · split <;> simp

/-- Splitting off everything up to a blank. -/
theorem entries_append_blank (a b : CStr) :
    entries (a ++ ' ' :: b) = entries a ++ entries b := by
  induction a with
  | nil => simp [entries]
  | cons c t ih =>
    simp only [List.cons_append, entries]
    split
    · simp [ih]
    · rw [ih]
      cases h : entries t with
      | nil => exact absurd h (entries_ne_nil t)
      | cons e es => simp

theorem entries_of_not_mem {v : CStr} (h : ' ' ∉ v) : entries v = [v] := by
  induction v with
  | nil => rfl
  | cons c t ih =>
    simp only [List.mem_cons, not_or] at h
    simp [entries, Ne.symm h.1, ih h.2]

theorem not_mem_of_mem_entries {p v : CStr} (h : v ∈ entries p) : ' ' ∉ v := by
  induction p generalizing v with
  | nil => simp [entries] at h; subst h; simp
  | cons c t ih =>
    simp only [entries] at h
    split at h
    · rcases List.mem_cons.1 h with rfl | h
      · simp
      · exact ih h
    · rename_i hc
      split at h
      · simp at h; subst h; simp [Ne.symm hc]
      · rename_i e es he
        rcases List.mem_cons.1 h with rfl | h
        · have := ih (v := e) (by rw [he]; simp)
          simp [this, Ne.symm hc]
        · exact ih (by rw [he]; simp [h])

/-- `a` is empty or ends in a blank. -/
def LeftOk (a : CStr) : Prop := a = [] ∨ ∃ a', a = a' ++ [' ']
/-- `b` is empty or starts with a blank. -/
def RightOk (b : CStr) : Prop := b = [] ∨ ∃ b', b = ' ' :: b'

theorem mem_entries_iff {p v : CStr} :
    v ∈ entries p ↔ ' ' ∉ v ∧ ∃ a b, p = a ++ v ++ b ∧ LeftOk a ∧ RightOk b := by
  constructor
  · intro h
    refine ⟨not_mem_of_mem_entries h, ?_⟩
    induction p generalizing v with
    | nil => simp [entries] at h; subst h; exact ⟨[], [], rfl, .inl rfl, .inl rfl⟩
    | cons c t ih =>
      simp only [entries] at h
      split at h
      · rename_i hc; subst hc
        rcases List.mem_cons.1 h with rfl | h
        · exact ⟨[], ' ' :: t, rfl, .inl rfl, .inr ⟨t, rfl⟩⟩
        · obtain ⟨a, b, rfl, h1, h2⟩ := ih h
          refine ⟨' ' :: a, b, rfl, ?_, h2⟩
          rcases h1 with rfl | ⟨a', rfl⟩
          · exact .inr ⟨[], rfl⟩
          · exact .inr ⟨' ' :: a', rfl⟩
      · rename_i hc
        split at h
        · rename_i he; exact absurd he (entries_ne_nil t)
        · rename_i e es he
          rcases List.mem_cons.1 h with rfl | h
          · -- first entry: it is a prefix of the string
            have key : ∀ t e es, entries t = e :: es → ∃ b, t = e ++ b ∧ RightOk b := by
              intro t
              induction t with
              | nil => intro e es he; simp [entries] at he; exact ⟨[], by simp [he.1], .inl rfl⟩
              | cons d u ihu =>
                intro e es he
                simp only [entries] at he
                split at he
                · rename_i hd; subst hd
                  cases he
                  exact ⟨' ' :: u, rfl, .inr ⟨u, rfl⟩⟩
                · split at he
                  · rename_i hx; exact absurd hx (entries_ne_nil u)
                  · rename_i e' es' he'
                    cases he
                    obtain ⟨b, hb, hr⟩ := ihu _ _ he'
                    exact ⟨b, by simp [hb], hr⟩
            obtain ⟨b, hb, hr⟩ := key t e es he
            exact ⟨[], b, by simp [hb], .inl rfl, hr⟩
          · -- a later entry: it is not the first one of t, so something precedes it
            have key : ∀ t e es, entries t = e :: es → ∀ v ∈ es,
                ∃ a b, t = a ++ v ++ b ∧ (∃ a', a = a' ++ [' ']) ∧ RightOk b := by
              intro t
              induction t with
              | nil => intro e es he v hv; simp [entries] at he; simp [he.2] at hv
              | cons d u ihu =>
                intro e es he v hv
                simp only [entries] at he
                split at he
                · rename_i hd; subst hd
                  cases he
                  -- v ∈ entries u
                  cases hu : entries u with
                  | nil => exact absurd hu (entries_ne_nil u)
                  | cons f fs =>
                    rw [hu] at hv
                    rcases List.mem_cons.1 hv with rfl | hv
                    · -- first entry of u
                      have key1 : ∀ t e es, entries t = e :: es → ∃ b, t = e ++ b ∧ RightOk b := by
                        intro t
                        induction t with
                        | nil =>
                          intro e es he; simp [entries] at he
                          exact ⟨[], by simp [he.1], .inl rfl⟩
                        | cons d u ihu =>
                          intro e es he
                          simp only [entries] at he
                          split at he
                          · rename_i hd; subst hd
                            cases he
                            exact ⟨' ' :: u, rfl, .inr ⟨u, rfl⟩⟩
                          · split at he
                            · rename_i hx; exact absurd hx (entries_ne_nil u)
                            · rename_i e' es' he'
                              cases he
                              obtain ⟨b, hb, hr⟩ := ihu _ _ he'
                              exact ⟨b, by simp [hb], hr⟩
                      obtain ⟨b, hb, hr⟩ := key1 u _ _ hu
                      exact ⟨[' '], b, by simp [hb], ⟨[], rfl⟩, hr⟩
                    · obtain ⟨a, b, hab, ⟨a', ha'⟩, hr⟩ := ihu _ _ hu v hv
                      exact ⟨' ' :: a, b, by simp [hab], ⟨' ' :: a', by simp [ha']⟩, hr⟩
                · split at he
                  · rename_i hx; exact absurd hx (entries_ne_nil u)
                  · rename_i e' es' he'
                    cases he
                    obtain ⟨a, b, hab, ⟨a', ha'⟩, hr⟩ := ihu _ _ he' v hv
                    exact ⟨d :: a, b, by simp [hab], ⟨d :: a', by simp [ha']⟩, hr⟩
            obtain ⟨a, b, hab, ⟨a', ha'⟩, hr⟩ := key t e es he v h
            exact ⟨c :: a, b, by simp [hab], .inr ⟨c :: a', by simp [ha']⟩, hr⟩
  · rintro ⟨hv, a, b, rfl, h1, h2⟩
    have hvb : v ∈ entries (v ++ b) := by
      rcases h2 with rfl | ⟨b', rfl⟩
      · simp [entries_of_not_mem hv]
      · rw [entries_append_blank, entries_of_not_mem hv]; simp
    rcases h1 with rfl | ⟨a', rfl⟩
    · simpa using hvb
    · rw [show a' ++ [' '] ++ v ++ b = a' ++ ' ' :: (v ++ b) by simp, entries_append_blank]
      exact List.mem_append_right _ hvb

/-- Decomposition of an occurrence given by an offset. -/
theorem endOk_iff {v p : CStr} {s : Nat} :
    EndOk v p s ↔ ∃ a b, p = a ++ v ++ b ∧ a.length = s ∧ RightOk b := by
  constructor
  · rintro ⟨h1, ⟨b, hb⟩, h3⟩
    refine ⟨p.take s, b, ?_, by simp; omega, ?_⟩
    · rw [List.append_assoc, hb, List.take_append_drop]
    · have hlen : p[s + v.length]? = b[0]? := by
        have : p = p.take s ++ (v ++ b) := by rw [hb, List.take_append_drop]
        conv => lhs; rw [this]
        rw [List.getElem?_append_right (by simp; omega)]
        rw [List.getElem?_append_right (by simp; omega)]
        congr 1; simp; omega
      rw [hlen] at h3
      cases b with
      | nil => exact .inl rfl
      | cons c t =>
        simp at h3
        subst h3
        exact .inr ⟨t, rfl⟩
  · rintro ⟨a, b, rfl, rfl, hr⟩
    refine ⟨by simp, by simp, ?_⟩
    rw [List.append_assoc, List.getElem?_append_right (by simp),
      List.getElem?_append_right (by simp)]
    rcases hr with rfl | ⟨b', rfl⟩
    · left; simp
    · right; simp

theorem startOk_iff {a c : CStr} : StartOk (a ++ c) a.length ↔ LeftOk a := by
  unfold StartOk LeftOk
  rcases List.eq_nil_or_concat a with rfl | ⟨a', x, rfl⟩
  · simp
  · simp

theorem leftOk_total (a : CStr) (h : ¬ LeftOk a) :
    ∃ a' w, w ≠ [] ∧ ' ' ∉ w ∧ LeftOk a' ∧ a = a' ++ w := by
  have key : ∀ r : CStr, ∃ a' w, ' ' ∉ w ∧ LeftOk a' ∧ r.reverse = a' ++ w := by
    intro r
    induction r with
    | nil => exact ⟨[], [], by simp, .inl rfl, rfl⟩
    | cons c t ih =>
      by_cases hc : c = ' '
      · subst hc
        exact ⟨t.reverse ++ [' '], [], by simp, .inr ⟨t.reverse, rfl⟩, by simp⟩
      · obtain ⟨a', w, h1, h2, h3⟩ := ih
        exact ⟨a', w ++ [c], by simp [h1, Ne.symm hc], h2, by simp [h3]⟩
  obtain ⟨a', w, h1, h2, h3⟩ := key a.reverse
  simp only [List.reverse_reverse] at h3
  refine ⟨a', w, ?_, h1, h2, h3⟩
  rintro rfl
  simp at h3
  subst h3
  exact h h2

end Sgrid
