import Verif.Model.Loop
import Verif.Model.NextEntry
import Verif.Model.Params
import Verif.Model.Wolfio

/-!
src/utility/checkpoint/read_other_checkpoints.c:51-96: the parameters that are taken from another checkpoint.
-/

namespace Sgrid

/-- What `snprintf(str, 999, " box%d_...", b)` writes (read_other_checkpoints.c:62-80). -/
def boxParStr (b : Nat) (tail : String) : CStr := (" box".toList ++ Wolfio.fmtNat b ++ tail.toList).take 998

/-- `strcpy` or `strcat` to a buffer of `size` bytes that holds `s`; `add` is shorter than 999 characters where
strncat is used. -/
def appendTo (size : Nat) (s add : CStr) : Res CStr :=
  if s.length + add.length + 1 ≤ size then .ok (s ++ add) else .ub

/-- The list of the names (read_other_checkpoints.c:55-81).  The allocation does not fail. -/
def buildParlist (parlist1 : CStr) (nboxes : Nat) : Res CStr :=
  let size := parlist1.length + nboxes * 8 * 14
  (appendTo size [] parlist1).bind fun l =>
  forN nboxes (fun b l =>
    (appendTo size l (boxParStr b "_min1")).bind fun l =>
    (appendTo size l (boxParStr b "_max1")).bind fun l =>
    (appendTo size l (boxParStr b "_min2")).bind fun l =>
    (appendTo size l (boxParStr b "_max2")).bind fun l =>
    (appendTo size l (boxParStr b "_min3")).bind fun l =>
    (appendTo size l (boxParStr b "_max3")).bind fun l =>
    (appendTo size l (boxParStr b "_CI_s")).bind fun l =>
    appendTo size l (boxParStr b "_CI_xc")) l

/-- The loop over the names (read_other_checkpoints.c:86-96).  `db` is pdb and `db2` is pdb2; the code swaps the two
pointers for the call of Gets.  Both have npdb entries.  `none`: the loop has not ended within `fuel` rounds. -/
def takePars {ν : Type} (C : Conv ν) (parlist : CStr) (db2 : PDB ν) : (fuel : Nat) → NE → PDB ν → Option (Res (PDB ν))
  | 0, _, _ => none
  | fuel + 1, st, db =>
    match nextEntry st (some parlist) with
    | (_, none) => some (.ok db)
    | (st', some par) =>
      match db2.gets par with
      | .ok val =>
        match db.set C par val with
        | .ok db' => takePars C parlist db2 fuel st' db'
        | .abort => some .abort
        | .ub => some .ub
      | .abort => some .abort
      | .ub => some .ub

/-- Both parts, with `NextEntry(0)` between them (read_other_checkpoints.c:85). -/
def getOtherPars {ν : Type} (C : Conv ν) (parlist1 : CStr) (nboxes fuel : Nat) (st : NE) (db db2 : PDB ν) :
    Option (Res (PDB ν)) :=
  match buildParlist parlist1 nboxes with
  | .ok l => takePars C l db2 fuel (nextEntry st none).1 db
  | .abort => some .abort
  | .ub => some .ub

end Sgrid
