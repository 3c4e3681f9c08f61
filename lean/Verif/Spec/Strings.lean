/-! Specification vocabulary for strings that hold lists. -/

namespace Sgrid.Spec

/-- The entries of a list whose entries are separated by single blanks. The empty string
has one empty entry. -/
def entries : List Char → List (List Char)
  | [] => [[]]
  | c :: t =>
    if c = ' ' then [] :: entries t
    else match entries t with
      | [] => [[c]]
      | e :: es => (c :: e) :: es

example : entries "a bc  d".toList = ["a".toList, "bc".toList, [], "d".toList] := by decide

end Sgrid.Spec
