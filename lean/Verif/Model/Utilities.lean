import Mathlib.Order.Defs.LinearOrder
import Verif.Model.Basic
import Verif.Model.PureLoop

/-! Small utilities: src/main/main/utilities.c and src/utility/Spectral/spec_coeffs.c:588-598. -/

namespace Sgrid

/-! ## Extreme values -/

section
variable {K : Type} [LinearOrder K]

/-- min_in_1d_array (utilities.c:96-109): value and position. Reads `f[0]` even if `n` is 0. -/
def minIn1d (f : Nat → K) (n : Nat) : K × Nat :=
  upLoop 1 n (fun i s => if f i < s.1 then (f i, i) else s) (f 0, 0)

/-- max_in_1d_array (utilities.c:111-124). -/
def maxIn1d (f : Nat → K) (n : Nat) : K × Nat :=
  upLoop 1 n (fun i s => if f i > s.1 then (f i, i) else s) (f 0, 0)

/-- min2_in_1d_array (utilities.c:128-140): value, number of the array, position. -/
def min2In1d (f0 : Nat → K) (n0 : Nat) (f1 : Nat → K) (n1 : Nat) : K × Nat × Nat :=
  let m0 := minIn1d f0 n0
  let m1 := minIn1d f1 n1
  if m1.1 < m0.1 then (m1.1, 1, m1.2) else (m0.1, 0, m0.2)

/-- max2_in_1d_array (utilities.c:144-156). -/
def max2In1d (f0 : Nat → K) (n0 : Nat) (f1 : Nat → K) (n1 : Nat) : K × Nat × Nat :=
  let m0 := maxIn1d f0 n0
  let m1 := maxIn1d f1 n1
  if m1.1 > m0.1 then (m1.1, 1, m1.2) else (m0.1, 0, m0.2)

/-- min3_in_1d_array (utilities.c:160-169). -/
def min3In1d (f0 : Nat → K) (n0 : Nat) (f1 : Nat → K) (n1 : Nat) (f2 : Nat → K) (n2 : Nat) :
    K × Nat × Nat :=
  let r := min2In1d f1 n1 f2 n2
  if r.2.1 = 1 then
    let s := min2In1d f0 n0 f2 n2
    (s.1, s.2.1 * 2, s.2.2)
  else min2In1d f0 n0 f1 n1

/-- max3_in_1d_array (utilities.c:173-182). -/
def max3In1d (f0 : Nat → K) (n0 : Nat) (f1 : Nat → K) (n1 : Nat) (f2 : Nat → K) (n2 : Nat) :
    K × Nat × Nat :=
  let r := max2In1d f1 n1 f2 n2
  if r.2.1 = 1 then
    let s := max2In1d f0 n0 f2 n2
    (s.1, s.2.1 * 2, s.2.2)
  else max2In1d f0 n0 f1 n1

end

/-! ## Bits -/

/-- `while(nn >>= 1) ng++;` (spec_coeffs.c:595) from `ng = 0`. -/
def shiftCount (nn : Nat) : Nat :=
  if _h : nn / 2 = 0 then 0 else shiftCount (nn / 2) + 1
  decreasing_by omega

/-- is_power_of_two (spec_coeffs.c:589-598) for an `int` `N` of 32 bits; `nn` is `N` converted to
`unsigned int`. The shift count is at most 31 and `long` has 64 bits. -/
def isPowerOfTwo (N : Int) : Nat :=
  let nn := (N % 2 ^ 32).toNat
  if N = 2 ^ shiftCount nn then 1 else 0

/-- finit (utilities.c:186-204) of the 64 bits of a double. -/
def finit (bits : BitVec 64) : Nat :=
  if bits ||| 0x800FFFFFFFFFFFFF#64 = 0xFFFFFFFFFFFFFFFF#64 then 0 else 1

/-! ## Strings -/

/-- The terminating zero. -/
def nulChar : Char := Char.ofNat 0

/-- `for(f=len-1; f>=0; f--) if(!isspace(str[f])) break; len=f+1;` (utilities.c:217-218). -/
def trimEnd (str : Nat → Char) : Nat → Nat
  | 0 => 0
  | n + 1 => if isSpace (str n) then trimEnd str n else n + 1

/-- `for(f=0; f<len; f++) if(!isspace(str[f])) break;` (utilities.c:223) with `k` passes to go. -/
def firstNonSpace (str : Nat → Char) (f : Nat) : Nat → Nat
  | 0 => f
  | k + 1 => if isSpace (str f) then firstNonSpace str (f + 1) k else f

/-- trim_whitespace (utilities.c:207-229) on the memory that holds a string of length `len`. -/
def trimWhitespace (str : Nat → Char) (len : Nat) : Nat → Char :=
  let len := trimEnd str len
  let str := aset str len nulChar
  let f := firstNonSpace str 0 len
  let len := len - f
  if f ≠ 0 then upLoop 0 (len + 1) (fun i str => aset str i (str (i + f))) str else str

/-- `strtok_r` with one separator `d`: the token and the rest of the string behind the separator that ended
it; `none` is NULL. C standard library. -/
def strtok (d : Char) (s : CStr) : Option (CStr × CStr) :=
  match s.dropWhile (· == d) with
  | [] => none
  | c :: t => some ((c :: t).takeWhile (· != d), ((c :: t).dropWhile (· != d)).tail)

theorem strtok_shorter {d : Char} {s tok rest : CStr} (h : strtok d s = some (tok, rest)) :
    rest.length < s.length := by
  unfold strtok at h
  have h1 : (s.dropWhile (· == d)).length ≤ s.length := (List.dropWhile_sublist _).length_le
  cases hd : s.dropWhile (· == d) with
  | nil => rw [hd] at h; cases h
  | cons c t =>
    rw [hd] at h h1
    have h2 : ((c :: t).dropWhile (· != d)).length ≤ (c :: t).length :=
      (List.dropWhile_sublist _).length_le
    simp only [Option.some.injEq, Prod.mk.injEq] at h
    rw [← h.2, List.length_tail]
    simp only [List.length_cons] at h1 h2 ⊢
    omega

/-- construct_argv (utilities.c:410-426): all tokens until `strtok_r` gives NULL. -/
def constructArgv (s : CStr) : List CStr :=
  match _h : strtok ' ' s with
  | none => []
  | some (tok, rest) => tok :: constructArgv rest
  termination_by s.length
  decreasing_by exact strtok_shorter (by assumption)

/-- First loop of extrstr_before_after_EQ (wolfio.c:164-168) from position `i` on: the array `before` and
`EQpos`. -/
def copyBefore (str before : Nat → Char) (len i : Nat) : (Nat → Char) × Nat :=
  if i ≤ len ∧ str i ≠ '=' then copyBefore str (aset before i (str i)) len (i + 1) else (before, i)
termination_by len + 1 - i

/-- extrstr_before_after_EQ (wolfio.c:157-177) on memory; `len` is strlen(str), EOF is -1. -/
def extrstrBeforeAfterEQ (str : Nat → Char) (len : Nat) (before after : Nat → Char) :
    (Nat → Char) × (Nat → Char) × Int :=
  let before := aset before 0 nulChar
  let after := aset after 0 nulChar
  let (before, eqPos) := copyBefore str before len 0
  let before := aset before eqPos nulChar
  let after := upLoop (eqPos + 1) (len + 1) (fun i a => aset a (i - eqPos - 1) (str i)) after
  (before, after, if eqPos ≥ len then -1 else eqPos)

/-- What trim_whitespace makes of a string held in memory. -/
def trimStr (s : CStr) : CStr :=
  let str := trimWhitespace (fun i => s.getD i nulChar) s.length
  ((List.range s.length).map str).takeWhile (· != nulChar)

/-- get_par_from_str (utilities.c:233-264) for one separator and names and values shorter than `n`.
`none` stands for the return value 0. The program looks at `*nam` without asking whether `nam` is NULL.
`strlen(str2)` is still `strlen(str)` if and only if `strtok_r` did not find a separator behind the first
token, where it would have written a zero. -/
def getParFromStr (d : Char) (str : CStr) : Res (Option (CStr × CStr)) :=
  match strtok d str with
  | none => .ub
  | some (nam, rest) =>
    let behind := ((str.dropWhile (· == d)).dropWhile (· != d))
    if behind = [] then .ok none
    else match strtok d rest with
      | none => .ok (some (trimStr nam, []))
      | some (val, _) => .ok (some (trimStr nam, trimStr val))

end Sgrid
