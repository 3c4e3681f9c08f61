import Verif.Model.Wolfio
import Verif.Model.Params
import Verif.Model.Endian

/-!
Writing and reading checkpoint files (checkpoint_write.c, checkpoint_read.c), on one processor.

The text and the binary part are one list of characters. The time is a value of an arbitrary type
with its conversions `%g` and `atof`; the rest of the grid is modelled as far as the file is
concerned. Messages on the screen are left out.
-/

namespace Sgrid.Checkpoint
open Wolfio

/-- A byte as a character of the file. -/
def chr (b : Endian.Byte) : Char := Char.ofNat b.toNat

/-- A character of the file as a byte. -/
def unchr (c : Char) : Endian.Byte := BitVec.ofNat 8 c.toNat

/-- `%g` and `atof`. -/
structure TimeFmt (T : Type) where
  fmtG : T → CStr
  atof : CStr → T

/-- `"%s = "` and `"%s\n"` for one parameter (checkpoint_write.c:93-97). -/
def parLine {ν : Type} (p : Par ν) : CStr := p.name ++ " = ".toList ++ p.value ++ "\n".toList

/-- The header (checkpoint_write.c:82-86). -/
def writeHeader {T : Type} (F : TimeFmt T) (nboxes : Int) (time : T) (iteration : Int) : CStr :=
  "$BEGIN_checkpoint_header:  ".toList ++ "$bmin = ".toList ++ fmtInt 0 ++ " , $bmax = ".toList ++
  fmtInt (nboxes - 1) ++ " , ".toList ++ "$time = ".toList ++ F.fmtG time ++ " , ".toList ++
  "$iteration = ".toList ++ fmtInt iteration ++ "\n".toList ++ "$END_checkpoint_header\n\n".toList

/-- The parameters (checkpoint_write.c:91-98). -/
def writePars {ν : Type} (pars : List (Par ν)) : CStr :=
  "$BEGIN_parameter_database:  ".toList ++ "$number_of_parameters = ".toList ++
  fmtInt pars.length ++ "\n".toList ++ pars.flatMap parLine ++
  "$END_parameter_database\n\n".toList

/-- The number of characters of the line buffers (checkpoint_read.c:87). -/
def bufSize : Nat := 10000

/-- What is done with one line of the parameter section (checkpoint_read.c:125-156). If there
is no word before the `=`, the buffer `name` keeps what extrstr_before_after_EQ wrote. -/
def readParLine {ν : Type} (C : Conv ν) (db : PDB ν) (str : CStr) : Res (PDB ν) :=
  let ba := beforeAfterEQ str
  let name := sscanWord ba.1 ba.1
  let value := match ba.2 with
    | ' ' :: v => v
    | v => v
  match db.getsLax name with
  | none => .ok db
  | some cur =>
    if value ≠ cur then
      (db.getv "checkpoint_no_read_parlist".toList name).bind fun keep =>
        if keep then .ok db else db.set C name value
    else .ok db

/-- The loops over lines (checkpoint_read.c:119-157); empty lines are passed over. `fuel` bounds
the number of lines, of which there are not more than characters. -/
def readParLines {ν : Type} (C : Conv ν) : Nat → PDB ν → CStr → Res (PDB ν × CStr)
  | 0, _, _ => .ub
  | fuel + 1, db, s =>
    (fscanline bufSize s).bind fun (ret, str, rest) =>
      match ret with
      | none => .ok (db, rest)
      | some 0 => readParLines C fuel db rest
      | some _ =>
        if str = "$END_parameter_database".toList then .ok (db, rest)
        else (readParLine C db str).bind fun db' => readParLines C fuel db' rest

/-- checkpoint_read_ParsAndIterations_local (checkpoint_read.c:85-160): data base, time, iteration
and the rest of the file. -/
def readPars {ν T : Type} (C : Conv ν) (F : TimeFmt T) (db : PDB ν) (s : CStr) :
    Res (PDB ν × T × Int × CStr) :=
  match fgotonext s "$BEGIN_checkpoint_header:".toList with
  | none => .abort
  | some s =>
    let get := fun (s : CStr) (par : CStr) => (fgetparameter s par).getD ([], [])
    let a := get s "$bmin".toList
    let b := get a.2 "$bmax".toList
    let t := get b.2 "$time".toList
    let i := get t.2 "$iteration".toList
    match fgotonext i.2 "$BEGIN_parameter_database:".toList with
    | none => .abort
    | some s =>
      let n := get s "$number_of_parameters".toList
      (readParLines C (n.2.length + 1) db n.2).bind fun (db', rest) =>
        .ok (db', F.atof t.1, atoi i.1, rest)

/-- The parameters as written by parameterio_write_current_pars (parameterio.c:27-31). -/
def writeCurrentPars {ν : Type} (pars : List (Par ν)) : CStr := pars.flatMap parLine

/-- What parameterio_update_pars does with one line (parameterio.c:64-91). -/
def updateLine {ν : Type} (C : Conv ν) (db : PDB ν) (str : CStr) : Res (PDB ν) :=
  let ba := beforeAfterEQ str
  let name := sscanWord ba.1 ba.1
  let value := match ba.2 with
    | ' ' :: v => v
    | v => v
  match db.getsLax name with
  | none => .ok db
  | some cur => if value ≠ cur then db.set C name value else .ok db

/-- The loops of parameterio_update_pars (parameterio.c:58-92), with `fuel` as in
`readParLines`. -/
def updatePars {ν : Type} (C : Conv ν) : Nat → PDB ν → CStr → Res (PDB ν)
  | 0, _, _ => .ub
  | fuel + 1, db, s =>
    (fscanline bufSize s).bind fun (ret, str, rest) =>
      match ret with
      | none => .ok db
      | some 0 => updatePars C fuel db rest
      | some _ => (updateLine C db str).bind fun db' => updatePars C fuel db' rest

/-- A box: number of points and memory of the variables, 8 bytes per point (`none` is NULL). -/
structure CBox where
  nnodes : Nat
  v : List (Option (List Endian.Byte))

/-- One variable of one box (checkpoint_write.c:114-127, 142-155) on a machine with byte order
`m`. -/
def writeVar (m : Bool) (names : List CStr) (b : Nat) (box : CBox) (i : Nat) (out : CStr) :
    Res CStr :=
  (aget box.v i).bind fun mem =>
    match mem with
    | none => .ok out
    | some mem =>
      (aget names i).bind fun name =>
      (Endian.fwriteDoubleLittle m 0 mem box.nnodes []).bind fun data =>
      .ok (out ++ "$variable = ".toList ++ name ++ " : box = ".toList ++ fmtInt b ++
        " , box->nnodes = ".toList ++ fmtInt box.nnodes ++ "\n".toList ++ data.1.map chr ++
        "\n".toList)

/-- The variables (checkpoint_write.c:101-163). `idx` is the list of variables written: all of
them, or those of checkpoint_varlist. -/
def writeVars (m : Bool) (names : List CStr) (boxes : List CBox) (idx : List Nat) : Res CStr :=
  (forN boxes.length (fun b out => (aget boxes b).bind fun box =>
    forN idx.length (fun j out => (aget idx j).bind fun i => writeVar m names b box i out) out)
    "$BEGIN_variables:\n".toList).bind fun out =>
  .ok (out ++ "$END_variables\n\n".toList)

/-- checkpoint_write_local (checkpoint_write.c:74-169). -/
def writeLocal {ν T : Type} (F : TimeFmt T) (m : Bool) (names : List CStr) (boxes : List CBox)
    (idx : List Nat) (pars : List (Par ν)) (time : T) (iteration : Int) : Res CStr :=
  (writeVars m names boxes idx).map fun vars =>
    writeHeader F boxes.length time iteration ++ writePars pars ++ vars

/-- Reading or skipping the data of one variable (checkpoint_read.c:186-231): the grid and the
rest of the file. `ind` is IndLax. -/
def readVar (m : Bool) (ind : CStr → Option Nat) (boxes : List CBox) (varname s : CStr) :
    Res (List CBox × CStr) :=
  let get := fun (s : CStr) (par : CStr) => (fgetparameter s par).getD ([], [])
  let b := get s "box".toList
  let l := atoi b.1
  if l < 0 then .ub
  else
    (aget boxes l.toNat).bind fun box =>
    let n := get b.2 "box->nnodes".toList
    if atoi n.1 ≠ box.nnodes then .abort
    else
      (fscanline bufSize n.2).bind fun (_, _, s) =>
      let skip := Res.ok (boxes, s.drop (8 * box.nnodes))
      match ind varname with
      | none => skip
      | some i =>
        (aget box.v i).bind fun mem =>
          match mem with
          | none => skip
          | some mem =>
            (Endian.freadDoubleLittle m 0 mem box.nnodes (s.map unchr)).bind fun r =>
            (aput box.v i (some r.1)).bind fun v =>
            (aput boxes l.toNat { box with v := v }).bind fun boxes' =>
            .ok (boxes', s.drop (8 * box.nnodes))

/-- The loop over the variables (checkpoint_read.c:184-232). -/
def readVarsLoop (m : Bool) (ind : CStr → Option Nat) : Nat → List CBox → CStr → Res (List CBox)
  | 0, _, _ => .ub
  | fuel + 1, boxes, s =>
    match fgetparameter s "$variable".toList with
    | none => .ok boxes
    | some (name, s) =>
      (readVar m ind boxes name s).bind fun (boxes', s) => readVarsLoop m ind fuel boxes' s

/-- checkpoint_read_Vars_local (checkpoint_read.c:165-241). -/
def readVars (m : Bool) (ind : CStr → Option Nat) (boxes : List CBox) (s : CStr) :
    Res (List CBox) :=
  match fgotonext s "$BEGIN_variables:".toList with
  | none => .abort
  | some s => readVarsLoop m ind (s.length + 1) boxes s

end Sgrid.Checkpoint
