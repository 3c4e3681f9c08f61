import Verif.Model.Wolfio
import Mathlib.Data.List.Basic

/-! Lemmas about reading words, parameters and lines. -/

namespace Sgrid.Wolfio

/-- A nonempty string without white space. -/
def IsWord (w : CStr) : Prop := w ≠ [] ∧ ∀ c ∈ w, isSpace c = false

/-- A string of white space. -/
def IsBlank (s : CStr) : Prop := ∀ c ∈ s, isSpace c = true

instance (w : CStr) : Decidable (IsWord w) := inferInstanceAs (Decidable (_ ∧ _))
instance (w : CStr) : Decidable (IsBlank w) := inferInstanceAs (Decidable (∀ _ ∈ _, _))

theorem dropWhile_blank {sp : CStr} (h : IsBlank sp) (s : CStr) :
    (sp ++ s).dropWhile isSpace = s.dropWhile isSpace := by
  induction sp with
  | nil => rfl
  | cons a sp ih =>
    rw [List.cons_append, List.dropWhile_cons, if_pos (h a List.mem_cons_self)]
    exact ih fun c hc => h c (List.mem_cons_of_mem _ hc)

theorem takeWhile_word {p : Char → Bool} {w : CStr} (h : ∀ c ∈ w, p c = true) {c : Char} (hc : p c = false)
    (r : CStr) : (w ++ c :: r).takeWhile p = w ∧ (w ++ c :: r).dropWhile p = c :: r := by
  induction w with
  | nil => simp [hc]
  | cons a w ih =>
    have ha := h a List.mem_cons_self
    obtain ⟨h1, h2⟩ := ih fun c hc => h c (List.mem_cons_of_mem _ hc)
    simp only [List.cons_append, List.takeWhile_cons, List.dropWhile_cons, ha, if_true, h1, h2, and_self]

/-- Reading a word that is preceded by white space and followed by a white space character. -/
theorem word_eq {sp w : CStr} (hs : IsBlank sp) (hw : IsWord w) {c : Char} (hc : isSpace c = true)
    (r : CStr) : word (sp ++ (w ++ c :: r)) = some (w, c :: r) := by
  obtain ⟨a, t, rfl⟩ := List.exists_cons_of_ne_nil hw.1
  have ha := hw.2 a List.mem_cons_self
  unfold word
  rw [dropWhile_blank hs, List.cons_append, List.dropWhile_cons, if_neg (by simp [ha])]
  have := takeWhile_word (p := fun x => !isSpace x) (w := a :: t)
    (fun c hc => by simp [hw.2 c hc]) (c := c) (by simp [hc]) r
  simp only [List.cons_append] at this
  simp only [this.1, this.2]

theorem word_blank {s : CStr} (hs : IsBlank s) : word s = none := by
  have := dropWhile_blank hs []
  rw [List.append_nil] at this
  unfold word
  rw [this]; rfl

theorem fgotonext_hit {sp w : CStr} (hs : IsBlank sp) (hw : IsWord w) {c : Char}
    (hc : isSpace c = true) (r : CStr) : fgotonext (sp ++ (w ++ c :: r)) w = some (c :: r) := by
  rw [fgotonext]
  split
  · rename_i h; rw [word_eq hs hw hc] at h; cases h
  · rename_i h; rw [word_eq hs hw hc] at h; cases h; simp

theorem fgotonext_skip {sp w l : CStr} (hs : IsBlank sp) (hw : IsWord w) {c : Char}
    (hc : isSpace c = true) (r : CStr) (hl : w ≠ l) :
    fgotonext (sp ++ (w ++ c :: r)) l = fgotonext (c :: r) l := by
  rw [fgotonext]
  split
  · rename_i h; rw [word_eq hs hw hc] at h; cases h
  · rename_i h; rw [word_eq hs hw hc] at h; cases h; rw [if_neg hl]

theorem fgetparameter_skip {sp w par : CStr} (hs : IsBlank sp) (hw : IsWord w) {c : Char}
    (hc : isSpace c = true) (r : CStr) (hp : par.isPrefixOf w = false) :
    fgetparameter (sp ++ (w ++ c :: r)) par = fgetparameter (c :: r) par := by
  rw [fgetparameter]
  split
  · rename_i h; rw [word_eq hs hw hc] at h; cases h
  · rename_i h; rw [word_eq hs hw hc] at h; cases h; rw [if_neg (by simp [hp])]

theorem fgetparameter_blank {s par : CStr} (hs : IsBlank s) : fgetparameter s par = none := by
  rw [fgetparameter]
  split
  · rfl
  · rename_i h; rw [word_blank hs] at h; cases h

/-- `par = value` is read as such. -/
theorem fgetparameter_hit {sp par v : CStr} (hs : IsBlank sp) (hp : IsWord par) (hv : IsWord v)
    {c : Char} (hc : isSpace c = true) (r : CStr) :
    fgetparameter (sp ++ (par ++ (" = ".toList ++ (v ++ c :: r)))) par = some (v, c :: r) := by
  have e : (" = ".toList ++ (v ++ c :: r)) = ' ' :: (['='] ++ ' ' :: (v ++ c :: r)) := rfl
  have h1 := word_eq hs hp (c := ' ') (by decide) (['='] ++ ' ' :: (v ++ c :: r))
  have h2 : word (' ' :: (['='] ++ ' ' :: (v ++ c :: r))) = some (['='], ' ' :: (v ++ c :: r)) :=
    word_eq (sp := [' ']) (by decide) (w := ['=']) (by decide) (by decide) _
  have h3 : word (' ' :: (v ++ c :: r)) = some (v, c :: r) :=
    word_eq (sp := [' ']) (by decide) hv hc r
  rw [e, fgetparameter]
  split
  · rename_i h; rw [h1] at h; cases h
  · rename_i h
    rw [h1] at h
    cases h
    rw [if_pos (by simp), if_pos rfl, h2]
    simp [h3]

/-- A line that fits into the buffer. -/
theorem fscanline_eq {size : Nat} {l : CStr} (hn : '\n' ∉ l) (h0 : Char.ofNat 0 ∉ l)
    (hl : l.length < size) (r : CStr) :
    fscanline size (l ++ '\n' :: r) = .ok (some l.length, l, r) := by
  obtain ⟨h1, h2⟩ := takeWhile_word (p := fun c => decide (c ≠ '\n')) (w := l)
    (fun c hc => by simp; rintro rfl; exact hn hc) (c := '\n') (by simp) r
  have h3 : l.filter (fun c => decide (c ≠ Char.ofNat 0)) = l := by
    rw [List.filter_eq_self]
    intro c hc
    simp only [ne_eq, decide_eq_true_eq]
    rintro rfl; exact h0 hc
  unfold fscanline
  simp only [h1, h2, h3]
  rw [if_neg (by omega)]
  simp

theorem digit_props : ∀ d : Fin 10, (Char.ofNat (48 + d.val)).isDigit = true ∧
    (Char.ofNat (48 + d.val)).toNat = 48 + d.val ∧ isSpace (Char.ofNat (48 + d.val)) = false ∧
    Char.ofNat (48 + d.val) ≠ '-' ∧ Char.ofNat (48 + d.val) ≠ '+' := by decide

theorem digit_props' {n : Nat} (h : n < 10) : (Char.ofNat (48 + n)).isDigit = true ∧
    (Char.ofNat (48 + n)).toNat = 48 + n ∧ isSpace (Char.ofNat (48 + n)) = false ∧
    Char.ofNat (48 + n) ≠ '-' ∧ Char.ofNat (48 + n) ≠ '+' := digit_props ⟨n, h⟩

theorem fmtNat_props (n : Nat) :
    fmtNat n ≠ [] ∧ ∀ c ∈ fmtNat n, c.isDigit = true ∧ isSpace c = false ∧ c ≠ '-' ∧ c ≠ '+' := by
  induction n using Nat.strongRecOn with
  | _ n ih =>
    rw [fmtNat]
    split
    · rename_i h
      have := digit_props' h
      refine ⟨by simp, fun c hc => ?_⟩
      simp only [List.mem_singleton] at hc
      subst hc
      exact ⟨this.1, this.2.2⟩
    · rename_i h
      have := digit_props' (show n % 10 < 10 by omega)
      refine ⟨by simp, fun c hc => ?_⟩
      simp only [List.mem_append, List.mem_singleton] at hc
      rcases hc with hc | rfl
      · exact (ih (n / 10) (by omega)).2 c hc
      · exact ⟨this.1, this.2.2⟩

theorem atoiDigits_append (s t : CStr) (acc : Nat) (hs : ∀ c ∈ s, c.isDigit = true) :
    atoiDigits (s ++ t) acc = atoiDigits t (atoiDigits s acc) := by
  induction s generalizing acc with
  | nil => rfl
  | cons a s ih =>
    rw [List.cons_append, atoiDigits, atoiDigits, if_pos (hs a List.mem_cons_self),
      if_pos (hs a List.mem_cons_self)]
    exact ih _ fun c hc => hs c (List.mem_cons_of_mem _ hc)

theorem atoiDigits_fmtNat (n : Nat) : atoiDigits (fmtNat n) 0 = n := by
  induction n using Nat.strongRecOn with
  | _ n ih =>
    rw [fmtNat]
    split
    · rename_i h
      have := digit_props' h
      simp [atoiDigits, this.1, this.2.1]
    · rename_i h
      have := digit_props' (show n % 10 < 10 by omega)
      rw [atoiDigits_append _ _ _ fun c hc => ((fmtNat_props _).2 c hc).1, ih (n / 10) (by omega)]
      simp only [atoiDigits, this.1, this.2.1, if_true]
      omega

theorem fmtInt_word (i : Int) : IsWord (fmtInt i) := by
  unfold fmtInt
  obtain ⟨h1, h2⟩ := fmtNat_props i.natAbs
  split
  · refine ⟨by simp, fun c hc => ?_⟩
    simp only [List.mem_cons] at hc
    rcases hc with rfl | hc
    · decide
    · exact (h2 c hc).2.1
  · exact ⟨h1, fun c hc => (h2 c hc).2.1⟩

/-- `atoi` reads what `%d` prints. -/
theorem atoi_fmtInt (i : Int) : atoi (fmtInt i) = i := by
  have hd : (fmtInt i).dropWhile isSpace = fmtInt i := by
    obtain ⟨h1, h2⟩ := fmtInt_word i
    obtain ⟨a, t, ht⟩ := List.exists_cons_of_ne_nil h1
    rw [ht] at h2 ⊢
    rw [List.dropWhile_cons, if_neg (by simp [h2 a List.mem_cons_self])]
  unfold atoi
  rw [hd]
  unfold fmtInt
  split
  · rename_i h heq
    split at heq
    · simp only [List.cons.injEq, true_and] at heq
      subst heq
      rw [atoiDigits_fmtNat]; omega
    · exact absurd rfl ((fmtNat_props i.natAbs).2 '-' (by rw [heq]; simp)).2.2.1
  · rename_i h heq
    split at heq
    · cases heq
    · exact absurd rfl ((fmtNat_props i.natAbs).2 '+' (by rw [heq]; simp)).2.2.2
  · rename_i h1 h2
    split
    · rename_i hlt
      rw [if_pos hlt] at h1
      exact absurd rfl (h1 _)
    · rw [atoiDigits_fmtNat]; omega

end Sgrid.Wolfio
