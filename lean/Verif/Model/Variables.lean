import Verif.Model.Tensors

/-!
Variable data base and variable lists, src/main/main/variables.c.
-/

namespace Sgrid

/-- One record of the variable data base (`tVar`, variables.c:18-31). The field `io` is
never used there and left out; `bnd` holds farlimit, falloff, propspeed. -/
structure VRec (ν : Type) where
  name : CStr
  ti : CStr
  descr : CStr
  index : Nat
  ncomp : Nat
  comp : Nat
  sym : List Int
  bnd : ν × ν × ν
  const : Bool
  deriving DecidableEq

/-- `vdb[0..nvdb-1]`, `vdb_iStart` (variables.c:33-34; `globalnvariables` always equals
`nvdb`) and the restart counter `sgrid_restarts` of main.c:12. -/
structure VDB (ν : Type) where
  vars : List (VRec ν)
  iStart : Nat
  restarts : Nat
  deriving DecidableEq

def VDB.init (ν : Type) : VDB ν := ⟨[], 0, 0⟩

variable {ν : Type} [Zero ν]

/-- IndLax (variables.c:142-163): two loops returning at the first match; `none` is -1. -/
def VDB.indLax {ν : Type} (db : VDB ν) (name : CStr) : Option Nat :=
  let iS := if db.iStart ≥ db.vars.length then 0 else db.iStart
  match (db.vars.drop iS).find? (fun v => v.name = name) with
  | some v => some v.index
  | none => ((db.vars.take iS).find? (fun v => v.name = name)).map (·.index)

/-- Ind (variables.c:166-171). -/
def VDB.ind {ν : Type} (db : VDB ν) (name : CStr) : Res Nat :=
  match db.indLax name with
  | some i => .ok i
  | none => .abort

/-- Set_vdb_iStart_AtPar (variables.c:185-191). -/
def VDB.setStart {ν : Type} (db : VDB ν) (name : CStr) : Res (VDB ν) :=
  (db.ind name).bind fun i => .ok { db with iStart := i }

/-- VarName (variables.c:195-201). -/
def VDB.varName {ν : Type} (db : VDB ν) (i : Int) : Res CStr :=
  if i < 0 ∨ i ≥ db.vars.length then .abort
  else match db.vars[i.toNat]? with
    | some v => .ok v.name
    | none => .ub

/-- `vdb[i]` without a range check. -/
def VDB.raw {ν : Type} (db : VDB ν) (i : Int) : Res (VRec ν) :=
  if i < 0 then .ub
  else match db.vars[i.toNat]? with
    | some v => .ok v
    | none => .ub

/-- IndComponent0 (variables.c:223-226). -/
def VDB.indComponent0 {ν : Type} (db : VDB ν) (i : Int) : Res Int :=
  (db.raw i).bind fun v => .ok (i - v.comp)

/-- VarNComponents (variables.c:204-214). -/
def VDB.varNComponents {ν : Type} (db : VDB ν) (i : Int) : Res Nat :=
  if i < 0 ∨ i ≥ db.vars.length then .abort
  else (db.raw i).bind fun v =>
    if v.comp ≠ 0 then (db.indComponent0 i).bind fun i0 =>
      (db.raw i0).bind fun w => .ok w.ncomp
    else .ok v.ncomp

/-- Pass `j` of the loop in AddVar (variables.c:58-95). `snprintf` into `fullname[100]`
keeps at most 99 characters. -/
def VDB.addComp (db : VDB ν) (name ti descr : CStr) (ncomp j : Nat) (cname : CStr)
    (sym : List Int) : Res (VDB ν) :=
  let fullname := (name ++ cname).take 99
  if db.vars.any (fun v => v.name = fullname) then
    if db.restarts = 0 then .abort else .ok db
  else .ok { db with vars := db.vars ++
    [{ name := fullname, ti := ti, descr := descr, index := db.vars.length, ncomp := ncomp,
       comp := j, sym := (sym.drop (3 * j)).take 3, bnd := (0, 0, 0), const := false }] }

/-- The loop in AddVar from pass `j` on; `cs` are the remaining component names. -/
def VDB.addComps (name ti descr : CStr) (ncomp : Nat) (sym : List Int) :
    VDB ν → Nat → List CStr → Res (VDB ν)
  | db, _, [] => .ok db
  | db, j, c :: cs => (db.addComp name ti descr ncomp j c sym).bind fun db' =>
      VDB.addComps name ti descr ncomp sym db' (j + 1) cs

/-- AddVar (variables.c:41-97). -/
def VDB.addVar (db : VDB ν) (name ti descr : CStr) : Res (VDB ν) :=
  (tensorIndexList ti).bind fun r =>
    VDB.addComps name ti descr r.1.length r.2 db 0 r.1

/-- The loop `for(i = 0; i < n; i++) vdb[i+i0].constant = 1` (variables.c:257-260). -/
def VDB.flagLoop {ν : Type} : VDB ν → Int → Nat → Res (VDB ν)
  | db, _, 0 => .ok db
  | db, i0, n + 1 => (db.raw i0).bind fun _ =>
      VDB.flagLoop { db with vars := db.vars.modify i0.toNat fun v => { v with const := true } }
        (i0 + 1) n

/-- VarNameSetConstantFlag (variables.c:252-262). -/
def VDB.setConstantFlag {ν : Type} (db : VDB ν) (name : CStr) : Res (VDB ν) :=
  (db.ind name).bind fun i => (db.indComponent0 i).bind fun i0 =>
    (db.varNComponents i0).bind fun n => db.flagLoop i0 n

/-- AddConstantVar (variables.c:105-109): the flag is set for the variable with the name
`vdb[nvdb-1].name`. -/
def VDB.addConstantVar (db : VDB ν) (name ti descr : CStr) : Res (VDB ν) :=
  (db.addVar name ti descr).bind fun db' =>
    (db'.raw ((db'.vars.length : Int) - 1)).bind fun v => db'.setConstantFlag v.name

/-- VarNameSetBoundaryInfo (variables.c:241-249). -/
def VDB.setBoundaryInfo {ν : Type} (db : VDB ν) (name : CStr) (b : ν × ν × ν) : Res (VDB ν) :=
  (db.ind name).bind fun i =>
    .ok { db with vars := db.vars.modify i fun v => { v with bnd := b } }

/-- One pass of the loop in AddDuplicate (variables.c:495-531): the new data base and the
entry of the new list. The buffer `name` has 1000 bytes. -/
def VDB.dupOne (db : VDB ν) (post : CStr) (vi : Nat) : Res (VDB ν × Nat) :=
  (db.raw vi).bind fun var =>
    let name := (var.name ++ post).take 999
    match db.indLax name with
    | some j => .ok (db, j)
    | none =>
      (db.addVar name [] var.descr).bind fun db1 =>
      (db1.ind name).bind fun k =>
      (db1.raw vi).bind fun var =>
      .ok ({ db1 with vars := db1.vars.modify k fun v =>
        { v with ti := var.ti, comp := var.comp, ncomp := var.ncomp, bnd := var.bnd,
                 const := var.const, sym := var.sym } }, k)

/-- AddDuplicate (variables.c:483-543), without the reallocation of the grid's variable
arrays: the new data base and the index array of the new list. -/
def VDB.addDuplicate (post : CStr) : VDB ν → List Nat → Res (VDB ν × List Nat)
  | db, [] => .ok (db, [])
  | db, vi :: rest => (db.dupOne post vi).bind fun r =>
      (VDB.addDuplicate post r.1 rest).bind fun s => .ok (s.1, r.2 :: s.2)

/-- Calls changing the variable data base. -/
inductive VarOp (ν : Type) where
  | addVar (name ti descr : CStr)
  | addConstantVar (name ti descr : CStr)
  | addDuplicate (vl : List Nat) (post : CStr)
  | setBoundaryInfo (name : CStr) (b : ν × ν × ν)
  | setConstantFlag (name : CStr)
  | setStart (name : CStr)
  | restart            -- main.c:105, sgrid_restarts++

def VDB.step (db : VDB ν) : VarOp ν → Res (VDB ν)
  | .addVar n t d => db.addVar n t d
  | .addConstantVar n t d => db.addConstantVar n t d
  | .addDuplicate vl p => (VDB.addDuplicate p db vl).map (·.1)
  | .setBoundaryInfo n b => db.setBoundaryInfo n b
  | .setConstantFlag n => db.setConstantFlag n
  | .setStart n => db.setStart n
  | .restart => .ok { db with restarts := db.restarts + 1 }

def VDB.run (db : VDB ν) : List (VarOp ν) → Res (VDB ν)
  | [] => .ok db
  | op :: ops => (db.step op).bind fun db' => db'.run ops

end Sgrid
