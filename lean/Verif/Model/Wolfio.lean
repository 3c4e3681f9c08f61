import Verif.Model.Basic

/-!
Text input of wolfio.c. A file is the list of the characters not yet read. Buffers are large
enough, except in `fscanline`, where the size is a parameter. Words contain no NUL.
-/

namespace Sgrid.Wolfio

/-- fscan_str_using_getc (wolfio.c:309-333), used by fscanf1 (wolfio.c:336-345): the next word
and the rest of the file; `none` is EOF, after which nothing is left. -/
def word (s : CStr) : Option (CStr × CStr) :=
  match s.dropWhile isSpace with
  | [] => none
  | c :: t => some ((c :: t).takeWhile (fun x => !isSpace x), (c :: t).dropWhile (fun x => !isSpace x))

theorem dropWhile_length_le (p : Char → Bool) (s : CStr) : (s.dropWhile p).length ≤ s.length := by
  induction s with
  | nil => simp
  | cons a s ih =>
    rw [List.dropWhile_cons]
    split
    · simp only [List.length_cons]; omega
    · simp

theorem dropWhile_head (p : Char → Bool) {s t : CStr} {c : Char} (h : s.dropWhile p = c :: t) :
    p c = false := by
  induction s with
  | nil => simp at h
  | cons a s ih =>
    rw [List.dropWhile_cons] at h
    split at h
    · exact ih h
    · rename_i hp; cases h; simpa using hp

theorem word_rest_lt {s w r : CStr} (h : word s = some (w, r)) : r.length < s.length := by
  unfold word at h
  cases hd : s.dropWhile isSpace with
  | nil => rw [hd] at h; cases h
  | cons c t =>
    rw [hd] at h
    simp only [Option.some.injEq, Prod.mk.injEq] at h
    have hc := dropWhile_head isSpace hd
    have h1 := dropWhile_length_le isSpace s
    rw [hd] at h1
    have h2 : r = t.dropWhile fun x => !isSpace x := by
      rw [← h.2, List.dropWhile_cons]; simp [hc]
    have h3 := dropWhile_length_le (fun x => !isSpace x) t
    rw [← h2] at h3
    simp only [List.length_cons] at h1
    omega

/-- fgotonext (wolfio.c:72-83): the file behind the label; `none` is EOF. -/
def fgotonext (s : CStr) (label : CStr) : Option CStr :=
  match _h : word s with
  | none => none
  | some (w, r) => if w = label then some r else fgotonext r label
termination_by s.length
decreasing_by exact word_rest_lt _h

/-- extrstr_before_after_EQ (wolfio.c:157-177): the parts before and after the first `=`. -/
def beforeAfterEQ (s : CStr) : CStr × CStr :=
  (s.takeWhile (· ≠ '='), (s.dropWhile (· ≠ '=')).drop 1)

/-- fgetparameter (wolfio.c:90-134): the value and the rest of the file; `none` is EOF. If the
file ends behind the name, the buffer keeps the last word. extract_after_EQ (wolfio.c:138-153) is
the second part of `beforeAfterEQ`. -/
def fgetparameter (s : CStr) (par : CStr) : Option (CStr × CStr) :=
  match _h : word s with
  | none => none
  | some (w, r) =>
    if par.isPrefixOf w then
      if w.length = par.length then
        match word r with
        | none => some (w, [])
        | some (w2, r2) =>
          if w2.length = 1 ∧ w2.head? = some '=' then
            match word r2 with
            | none => some (w2, [])
            | some (w3, r3) => some (w3, r3)
          else if w2.length > 1 ∧ w2.head? = some '=' then some ((beforeAfterEQ w2).2, r2)
          else some (w2, r2)
      else if w.length > par.length + 1 then some ((beforeAfterEQ w).2, r)
      else match word r with
        | none => some (w, [])
        | some (w2, r2) => some (w2, r2)
    else fgetparameter r par
termination_by s.length
decreasing_by exact word_rest_lt _h

/-- fscanline (wolfio.c:185-198) into a buffer of `size` bytes: the line and the rest; the first
component is `none` at the end of the file. A NUL character is counted, but not stored. -/
def fscanline (size : Nat) (s : CStr) : Res (Option Nat × CStr × CStr) :=
  let l := s.takeWhile (· ≠ '\n')
  let stored := l.filter (· ≠ Char.ofNat 0)
  if stored.length ≥ size then .ub
  else
    let rest := s.dropWhile (· ≠ '\n')
    if rest = [] ∧ l = [] then .ok (none, [], [])
    else .ok (some l.length, stored, rest.drop 1)

/-- `sscanf(s, "%s", buf)`: the first word; without a word the buffer keeps its contents. -/
def sscanWord (s buf : CStr) : CStr :=
  match word s with
  | none => buf
  | some (w, _) => w

/-- Digits of a number, most significant first (`%d`). -/
def fmtNat (n : Nat) : CStr :=
  if n < 10 then [Char.ofNat (48 + n)] else fmtNat (n / 10) ++ [Char.ofNat (48 + n % 10)]
termination_by n

/-- `%d`. -/
def fmtInt (i : Int) : CStr := if i < 0 then '-' :: fmtNat i.natAbs else fmtNat i.natAbs

/-- Digits of `atoi`. -/
def atoiDigits : CStr → Nat → Nat
  | [], acc => acc
  | c :: t, acc => if c.isDigit then atoiDigits t (acc * 10 + (c.toNat - 48)) else acc

/-- `atoi` of the C library. -/
def atoi (s : CStr) : Int :=
  match s.dropWhile isSpace with
  | '-' :: t => -(atoiDigits t 0 : Int)
  | '+' :: t => atoiDigits t 0
  | t => atoiDigits t 0

end Sgrid.Wolfio
