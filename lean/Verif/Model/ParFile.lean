import Verif.Model.Params
import Verif.Model.NextEntry

/-!
The parameter file reader parse_parameter_file, src/main/main/parameters.c:37-149.
-/

namespace Sgrid

/-- Reading the file with one blank before and after it (parameters.c:55-78). Files of
1000997 or more characters end the program. A NUL in the file ends the buffer
(`strlen`, line 78). -/
def padFile (file : CStr) : Res CStr :=
  if file.length ≥ 1000997 then .abort
  else .ok ((' ' :: file ++ [' ']).takeWhile (fun c => c ≠ '\x00'))

/-- White out comments and quotes (parameters.c:82-89). The flag says that the inner
`while` is running. -/
def whiteout : (inComment : Bool) → CStr → CStr
  | _, [] => []
  | true, c :: t => if c = '\n' then c :: whiteout false t else ' ' :: whiteout true t
  | false, c :: t =>
    if c = '#' then ' ' :: whiteout true t
    else (if c = '"' then ' ' else c) :: whiteout false t

/-- Collapse white space (parameters.c:91-96), from index 1 on. The flag is
`isspace(buffer[j-1])` for the last character written. -/
def collapseGo : (lastSpace : Bool) → CStr → CStr
  | _, [] => []
  | b, c :: t =>
    if isSpace c = false then c :: collapseGo false t
    else if b = false then ' ' :: collapseGo true t
    else collapseGo b t

/-- The whole pass (parameters.c:91-96); `buffer[0]` stays. -/
def collapse : CStr → CStr
  | [] => []
  | c :: t => c :: collapseGo (isSpace c) t

/-- Put a '#' in front of each parameter name (parameters.c:101-109): the loop from index
`i` on, with the position `j` of the newest blank. The loop condition `i < nbuffer-2` is
the first test. -/
def markLoop (buf : CStr) (i j : Nat) : CStr :=
  if i + 2 < buf.length then
    let j := if buf[i]? = some ' ' then i else j
    if buf[i + 1]? = some '=' ∨ buf[i + 2]? = some '=' then markLoop (buf.set j '#') (i + 2) j
    else markLoop buf (i + 1) j
  else buf
termination_by buf.length - i

/-- Remove blanks next to '=' (parameters.c:113-116), from index 1 on; `prev` is
`buffer[i-1]`. The loop writes at `j ≤ i` only, so that `buffer[i-1]`, `buffer[i]` and
`buffer[i+1]` still are the characters from before the loop. -/
def dropAroundEq : (prev : Char) → CStr → CStr
  | _, [] => []
  | prev, c :: t =>
    if c ≠ ' ' ∨ (prev ≠ '=' ∧ t.head? ≠ some '=') then c :: dropAroundEq c t
    else dropAroundEq c t

/-- The pass with the removal of one final blank (parameters.c:112-119). -/
def unblank : CStr → CStr
  | [] => []
  | c :: t =>
    let r := c :: dropAroundEq c t
    if r.getLast? = some ' ' then r.dropLast else r

/-- Replace '#' and '=' by NUL (parameters.c:127-131). -/
def nulls (buf : CStr) : CStr := buf.map fun c => if c = '#' ∨ c = '=' then '\x00' else c

/-- The loop over parameter/value pairs (parameters.c:134-139), from index `i` on. If there
is no NUL behind the name the value would be read behind the end of the string: `ub`. -/
def pairsFrom (buf : CStr) (i : Nat) : Res (List (CStr × CStr)) :=
  if i < buf.length then
    let par := strAt buf i
    if i + par.length ≥ buf.length then .ub
    else
      let val := strAt buf (i + par.length + 1)
      (pairsFrom buf (i + par.length + val.length + 2)).map fun ps => (par, val) :: ps
  else .ok []
termination_by buf.length - i

/-- All passes: the name/value pairs of a file (parameters.c:37-139). -/
def parsePairs (file : CStr) : Res (List (CStr × CStr)) :=
  (padFile file).bind fun b0 =>
    let b1 := whiteout false b0
    let b2 := collapse b1
    let b3 := markLoop b2 0 b2.length
    pairsFrom (nulls (unblank b3)) 1

/-- Storing the pairs (parameters.c:141-145). -/
def storePairs {ν : Type} (C : Conv ν) : PDB ν → List (CStr × CStr) → Res (PDB ν)
  | db, [] => .ok db
  | db, (par, val) :: ps =>
    (match db.findIdx par with
      | none => db.make C par val "not in libs".toList
      | some _ => db.set C par val).bind fun db' => storePairs C db' ps

/-- parse_parameter_file (parameters.c:37-149). -/
def parseParameterFile {ν : Type} (C : Conv ν) (db : PDB ν) (file : CStr) : Res (PDB ν) :=
  (parsePairs file).bind fun ps => storePairs C db ps

end Sgrid
