import Verif.Model.Basic

/-!
NextEntry and iterate_parameters, src/main/main/parameters.c.
-/

namespace Sgrid

/-- The static variables of NextEntry (parameters.c:465-466): the private copy of the list
(with its NUL), the position `i` and the length `l`. -/
structure NE where
  copy : List Char
  i : Nat
  l : Nat

/-- Static variables at program start. -/
def NE.init : NE := ⟨[], 0, 0⟩

/-- `for (; i < l && copyoflist[i] != ' '; i++);` (parameters.c:484). -/
def skipTo (copy : List Char) (i l : Nat) : Nat :=
  if i < l ∧ copy[i]? ≠ some ' ' then skipTo copy (i + 1) l else i
termination_by l - i

/-- The C string that starts at offset `s` of a buffer. -/
def strAt (buf : List Char) (s : Nat) : CStr := (buf.drop s).takeWhile (fun c => c ≠ '\x00')

/-- NextEntry (parameters.c:463-488). `none` as argument or result is the NULL pointer.
The result is the string that the returned pointer shows when the call returns. -/
def nextEntry (st : NE) (list : Option CStr) : NE × Option CStr :=
  match list with
  | none => ({ st with i := 0, l := 0 }, none)
  | some list =>
    if list = [] ∨ (st.i ≠ 0 ∧ st.i = st.l) then ({ st with i := 0, l := 0 }, none)
    else
      let st := if st.i = 0 then { copy := list ++ ['\x00'], i := 0, l := list.length }
        else { st with i := st.i + 1 }
      let s := st.i
      let i := skipTo st.copy st.i st.l
      let copy := if st.copy[i]? = some ' ' then st.copy.set i '\x00' else st.copy
      ({ st with copy := copy, i := i }, some (strAt copy s))

/-- `n` calls in a row with the same list, and what they return. -/
def nextEntries (list : CStr) : Nat → NE → NE × List (Option CStr)
  | 0, st => (st, [])
  | n + 1, st =>
    let (st', r) := nextEntry st (some list)
    let (st'', rs) := nextEntries list n st'
    (st'', r :: rs)

/-- The `while (value)` loop of iterate_parameters (parameters.c:597-601). `none`: the loop
has not ended within `fuel` rounds. -/
def valueLoop (list : CStr) (ncall : Int) :
    (fuel : Nat) → NE → (value : Option CStr) → (i : Int) → (newvalue : Option CStr) →
    Option (NE × Option CStr)
  | _, st, none, _, newvalue => some (st, newvalue)
  | 0, _, some _, _, _ => none
  | fuel + 1, st, some value, i, newvalue =>
    let newvalue := if i = ncall then some value else newvalue
    let (st', value') := nextEntry st (some list)
    valueLoop list ncall fuel st' value' (i + 1) newvalue

/-- The body of `while (p)` in iterate_parameters for one string iterate_parameterN
(parameters.c:581-610): the name of the iterated parameter and its new value, if any.
`isPar` tells which parameters exist. -/
def iterList (isPar : CStr → Bool) (ncall : Int) (st : NE) (list : CStr) :
    Option (Res (NE × CStr × Option CStr)) :=
  let (st1, name) := nextEntry st (some list)
  match name with
  | none => some .abort      -- findparameter(NULL) ends the program
  | some name =>
    if isPar name = false then some .abort
    else
      let (st2, value) := nextEntry st1 (some list)
      match value with
      | none => some .abort
      | some value =>
        (valueLoop list ncall (list.length + 2) st2 (some value) 0 none).map
          fun (st3, newvalue) => .ok (st3, name, newvalue)

/-- The loop over iterate_parameter1, iterate_parameter2, ... (parameters.c:579-617). The
result has the assignments made and the last `newvalue`. Simplification: the strings are
given as a list; that an assignment could change one of these strings during the loop is
not modelled, nor is the renaming of the output directory. -/
def iterLoop (isPar : CStr → Bool) (ncall : Int) :
    NE → List CStr → Option CStr → Option (Res (NE × List (CStr × CStr) × Option CStr))
  | st, [], last => some (.ok (st, [], last))
  | st, list :: lists, _ =>
    match iterList isPar ncall st list with
    | none => none
    | some .abort => some .abort
    | some .ub => some .ub
    | some (.ok (st1, name, newvalue)) =>
      match iterLoop isPar ncall st1 lists newvalue with
      | some (.ok (st2, asg, last)) =>
        some (.ok (st2, (newvalue.map fun v => (name, v)).toList ++ asg, last))
      | r => r

/-- Static state of the run control: `ncall` (parameters.c:549) and NextEntry's. -/
structure IterState where
  ncall : Int
  ne : NE

/-- iterate_parameters(1) (parameters.c:559-634): assignments made and return value.
`on` is Getv("iterate_parameters", "yes"). `none`: does not return. -/
def iterateParameters (on : Bool) (isPar : CStr → Bool) (lists : List CStr) (st : IterState) :
    Option (Res (IterState × List (CStr × CStr) × Bool)) :=
  if on = false then
    if st.ncall < 0 then some (.ok (st, [], false))
    else some (.ok ({ st with ncall := -1 }, [], true))
  else
    let ncall := if st.ncall < 0 then 0 else st.ncall
    if lists = [] then some .abort
    else match iterLoop isPar ncall st.ne lists none with
      | none => none
      | some .abort => some .abort
      | some .ub => some .ub
      | some (.ok (ne, asg, some _)) => some (.ok (⟨ncall + 1, ne⟩, asg, true))
      | some (.ok (ne, asg, none)) => some (.ok (⟨ncall, ne⟩, asg, false))

/-- `iterate_parameters(0); while(iterate_parameters(1)) { run }` (main.c:88-106): the
assignments in force in each run. `none`: more than `fuel` runs, or no return. -/
def iterateRuns (on : Bool) (isPar : CStr → Bool) (lists : List CStr) :
    (fuel : Nat) → IterState → Option (Res (List (List (CStr × CStr))))
  | 0, _ => none
  | fuel + 1, st =>
    match iterateParameters on isPar lists st with
    | none => none
    | some .abort => some .abort
    | some .ub => some .ub
    | some (.ok (_, _, false)) => some (.ok [])
    | some (.ok (st', asg, true)) =>
      match iterateRuns on isPar lists fuel st' with
      | some (.ok rs) => some (.ok (asg :: rs))
      | r => r

end Sgrid
