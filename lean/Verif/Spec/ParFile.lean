import Verif.Model.Basic

/-!
What a parameter file looks like, independent of how it is read: a list of entries
`name = value value ...`, laid out with gaps.
-/

namespace Sgrid.Spec

/-- A piece of a gap between tokens. -/
inductive GapItem where
  | ws (c : Char)             -- a white space character
  | quote                     -- a double quote
  | comment (text : CStr)     -- '#', any text, end of line

abbrev Gap := List GapItem

def GapItem.render : GapItem → CStr
  | .ws c => [c]
  | .quote => ['"']
  | .comment t => '#' :: t ++ ['\n']

def GapItem.Ok : GapItem → Prop
  | .ws c => isSpace c = true
  | .quote => True
  | .comment t => '\n' ∉ t ∧ '\x00' ∉ t

def renderGap (g : Gap) : CStr := g.flatMap GapItem.render

/-- Names and values: nonempty, without white space and without `# " =` and NUL. -/
def Word (w : CStr) : Prop :=
  w ≠ [] ∧ ∀ c ∈ w, isSpace c = false ∧ c ≠ '#' ∧ c ≠ '"' ∧ c ≠ '=' ∧ c ≠ '\x00'

/-- One entry with its layout: the gaps before and behind '=', and the values, each with
the gap behind it. -/
structure Entry where
  name : CStr
  g1 : Gap
  g2 : Gap
  vals : List (CStr × Gap)

def Entry.render (e : Entry) : CStr :=
  e.name ++ renderGap e.g1 ++ '=' :: renderGap e.g2 ++
    e.vals.flatMap fun v => v.1 ++ renderGap v.2

/-- The gap that ends the entry. -/
def Entry.lastGap (e : Entry) : Gap :=
  match e.vals.getLast? with
  | none => e.g2
  | some v => v.2

structure Entry.Ok (e : Entry) : Prop where
  name : Word e.name
  g1 : ∀ x ∈ e.g1, x.Ok
  g2 : ∀ x ∈ e.g2, x.Ok
  vals : ∀ v ∈ e.vals, Word v.1 ∧ ∀ x ∈ v.2, x.Ok
  /-- values are separated -/
  sep : ∀ v ∈ e.vals.dropLast, v.2 ≠ []

/-- A whole file: a gap, entries, and perhaps a comment that ends with the file. -/
structure File where
  lead : Gap
  entries : List Entry
  tail : Option CStr

def File.render (f : File) : CStr :=
  renderGap f.lead ++ f.entries.flatMap Entry.render ++
    match f.tail with
    | none => []
    | some t => '#' :: t

structure File.Ok (f : File) : Prop where
  lead : ∀ x ∈ f.lead, x.Ok
  entries : ∀ e ∈ f.entries, e.Ok
  /-- entries are separated -/
  sep : ∀ e ∈ f.entries.dropLast, e.lastGap ≠ []
  tail : ∀ t, f.tail = some t → '\n' ∉ t ∧ '\x00' ∉ t

/-- Values joined by one blank. -/
def joinBlank : List CStr → CStr
  | [] => []
  | [v] => v
  | v :: vs => v ++ ' ' :: joinBlank vs

/-- What the file says. -/
def File.pairs (f : File) : List (CStr × CStr) :=
  f.entries.map fun e => (e.name, joinBlank (e.vals.map (·.1)))

end Sgrid.Spec
