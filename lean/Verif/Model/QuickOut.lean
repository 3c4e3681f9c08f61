import Verif.Model.Loop
import Verif.Model.Params

/-!
src/utility/output/quick_out.c:22-73, 93-110: output of some variables right now.
-/

namespace Sgrid

/-- The parameters that are changed (quick_out.c:29-37). -/
def quickPars : List CStr :=
  ["0doutput", "1doutput", "2doutput", "3doutput", "3dformat", "0doutiter", "1doutiter", "2doutiter", "3doutiter"].map
    String.toList

/-- The copies of the values (quick_out.c:29-37).  strdup does not fail. -/
def getAll {ν : Type} (db : PDB ν) : List CStr → Res (List (CStr × CStr))
  | [] => .ok []
  | n :: l => (db.gets n).bind fun v => (getAll db l).bind fun r => .ok ((n, v) :: r)

/-- Calls of Sets one after the other (quick_out.c:40-48, 55-63). -/
def setAll {ν : Type} (C : Conv ν) : List (CStr × CStr) → PDB ν → Res (PDB ν)
  | [], db => .ok db
  | (n, v) :: l, db => (db.set C n v).bind fun db => setAll C l db

/-- What is set before the output (quick_out.c:40-48). -/
def quickValues (names : CStr) : List (CStr × CStr) :=
  [("0doutput".toList, names), ("1doutput".toList, names), ("2doutput".toList, names), ("3doutput".toList, names),
    ("3dformat".toList, "vtk text double arrange_as_1d".toList),
    ("0doutiter".toList, "1".toList), ("1doutiter".toList, "1".toList), ("2doutiter".toList, "1".toList),
    ("3doutiter".toList, "1".toList)]

/-- Data base, `grid->time` and `grid->iteration`. -/
structure QuickState (ν : Type) where
  db : PDB ν
  time : ν
  iteration : Int

/-- quick_Vars_output (quick_out.c:24-73).  `write` is write_grid; it may change anything. -/
def quickVarsOutput {ν : Type} (C : Conv ν) (write : QuickState ν → Res (QuickState ν)) (names : CStr) (fakeT : ν)
    (fakeI : Int) (s : QuickState ν) : Res (QuickState ν) :=
  let t := s.time
  let it := s.iteration
  (getAll s.db quickPars).bind fun saved =>
  (setAll C (quickValues names) s.db).bind fun db =>
  (write { db := db, time := fakeT, iteration := fakeI }).bind fun s =>
  (setAll C saved s.db).bind fun db =>
  .ok { db := db, time := t, iteration := it }

/-- The list of the names in quick_VarList_output (quick_out.c:96-107): `nl` and `names`.  realloc does not fail. -/
def quickNames (vars : List CStr) : Res (Nat × CStr) :=
  forN vars.length (fun vind (s : Nat × CStr) =>
    let varname := vars.getD vind []
    let nl := s.1 + (varname.length + 2)
    let add := fun (a : CStr) (names : CStr) => if names.length + a.length + 1 ≤ nl then Res.ok (names ++ a) else .ub
    (if vind > 0 then add [' '] s.2 else .ok s.2).bind fun names =>
    (add varname names).bind fun names => .ok (nl, names)) (3, [])

end Sgrid
