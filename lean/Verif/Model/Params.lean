import Verif.Model.Basic

/-!
Parameter data base, src/main/main/parameters.c.
-/

namespace Sgrid

/-- One record of the data base (`tParameter`, src/main/main/sgrid_main.h; fields name,
value, description, numericalvalue, booleanvalue). `ν` is the type of `double`s. -/
structure Par (ν : Type) where
  name : CStr
  value : CStr
  descr : CStr
  num : ν
  bool : Int

/-- The C library conversions `atof` and `atoi`. They are parameters of the model. -/
structure Conv (ν : Type) where
  atof : CStr → ν
  atoi : CStr → Int

/-- The global data base: `pdb[0..npdb-1]` and `pdb_iStart` (parameters.c:23-24). -/
structure PDB (ν : Type) where
  pars : List (Par ν)
  iStart : Int

/-- Data base of a freshly started program (parameters.c:23-24). -/
def PDB.init (ν : Type) : PDB ν := ⟨[], 0⟩

/-- `npdbmax` (parameters.c:24). -/
def npdbmax : Nat := 10000

/-- translatevalue (parameters.c:252-269). `sprintf("%.18e", x)` of the six possible
values is written out. -/
def translate (v : CStr) : CStr :=
  if v = "pi".toList then "3.141592653589793116e+00".toList
  else if v = "-pi".toList then "-3.141592653589793116e+00".toList
  else if v = "pi/2".toList then "1.570796326794896558e+00".toList
  else if v = "-pi/2".toList then "-1.570796326794896558e+00".toList
  else if v = "2*pi".toList then "6.283185307179586232e+00".toList
  else if v = "-2*pi".toList then "-6.283185307179586232e+00".toList
  else v

/-- The boolean cache entry (set_booleanvalue_byIndex, parameters.c:287-310). -/
def boolOf (atoi : CStr → Int) (v : CStr) : Int :=
  if ["yes", "Yes", "YES", "on", "On", "ON", "true", "True", "TRUE"].any
      (fun w => (strstr v w.toList).isSome) then 1
  else atoi v

/-- A record with freshly computed value and caches: the common part of makeparameter
(parameters.c:175-182) and setparameter (parameters.c:203-207). -/
def mkPar {ν : Type} (C : Conv ν) (name value descr : CStr) : Par ν :=
  let v := translate value
  { name := name, value := v, descr := descr, num := C.atof v, bool := boolOf C.atoi v }

/-- `for(i = i0; i < stop; i++) if(!strcmp(pdb[i].name, name)) return i;`
(parameters.c:222-224 and 226-228). Reading past the end of the array is not possible
for `stop ≤ npdb`. -/
def scanFor {ν : Type} (pars : List (Par ν)) (name : CStr) (i stop : Nat) : Option Nat :=
  if i < stop then
    match pars[i]? with
    | some p => if p.name = name then some i else scanFor pars name (i + 1) stop
    | none => none
  else none
termination_by stop - i

/-- findparameterindex (parameters.c:214-234) without the `fatal` exit; `none` is -1. -/
def PDB.findIdx {ν : Type} (db : PDB ν) (name : CStr) : Option Nat :=
  let n := db.pars.length
  let iS : Nat := if db.iStart < 0 ∨ db.iStart ≥ n then 0 else db.iStart.toNat
  match scanFor db.pars name iS n with
  | some i => some i
  | none => scanFor db.pars name 0 iS

/-- findparameter (parameters.c:237-244) together with the access to the record. -/
def PDB.find {ν : Type} (db : PDB ν) (name : CStr) : Option (Par ν) :=
  (db.findIdx name).bind fun i => db.pars[i]?

/-- makeparameter (parameters.c:159-193): a new record is appended; of an existing one
only the description changes. Filling the last slot ends the program. -/
def PDB.make {ν : Type} (C : Conv ν) (db : PDB ν) (name value descr : CStr) : Res (PDB ν) :=
  let pars := match db.findIdx name with
    | none => db.pars ++ [mkPar C name value descr]
    | some i => db.pars.modify i (fun p => { p with descr := descr })
  if pars.length ≥ npdbmax then .abort else .ok { db with pars := pars }

/-- setparameter (parameters.c:199-208). The value passed is a string that is not the
stored one itself; see `Model/ParamAlias.lean` for that case. -/
def PDB.set {ν : Type} (C : Conv ν) (db : PDB ν) (name value : CStr) : Res (PDB ν) :=
  match db.findIdx name with
  | none => .abort
  | some i => .ok { db with pars := db.pars.modify i (fun p => mkPar C p.name value p.descr) }

/-- Gets (parameters.c:392-396). -/
def PDB.gets {ν : Type} (db : PDB ν) (name : CStr) : Res CStr :=
  match db.find name with
  | none => .abort
  | some p => .ok p.value

/-- GetsLax (parameters.c:398-402). -/
def PDB.getsLax {ν : Type} (db : PDB ν) (name : CStr) : Option CStr :=
  (db.find name).map (·.value)

/-- AddPar (parameters.c:338-342): makeparameter, then a print of Gets(name). -/
def PDB.addPar {ν : Type} (C : Conv ν) (db : PDB ν) (name value descr : CStr) :
    Res (PDB ν) :=
  (db.make C name value descr).bind fun db' => (db'.gets name).bind fun _ => .ok db'

/-- AddOrModifyPar (parameters.c:344-351), including the print of Gets(name). -/
def PDB.addOrModify {ν : Type} (C : Conv ν) (db : PDB ν) (name value descr : CStr) :
    Res (PDB ν) :=
  (match db.findIdx name with
    | none => db.make C name value descr
    | some _ => db.set C name value).bind fun db' => (db'.gets name).bind fun _ => .ok db'

/-- The `while( (s = strstr(parval, value)) )` loop of GetvFlag (parameters.c:428-434).
`start` is `parval - p->value`, the result is `s - p->value`. -/
def getvLoop (v p : CStr) (start : Nat) : Option Nat :=
  match strstr (p.drop start) v with
  | none => none
  | some o =>
    match h : (p.drop (start + o + v.length)) with
    | [] => some (start + o)
    | c :: _ => if c = ' ' then some (start + o) else getvLoop v p (start + o + 1)
termination_by p.length - start
decreasing_by
  have : (p.drop (start + o + v.length)).length ≠ 0 := by rw [h]; simp
  simp only [List.length_drop] at this
  omega

/-- GetvFlag on a given value string (parameters.c:427-440). The second test `endok`
compares `s+strlen(s)` with the end of the string and is always true. -/
def getv (p v : CStr) : Bool :=
  match getvLoop v p 0 with
  | none => false
  | some 0 => true
  | some (s + 1) => p[s]? = some ' '

/-- Getv (parameters.c:448-451). -/
def PDB.getv {ν : Type} (db : PDB ν) (name v : CStr) : Res Bool :=
  (db.gets name).map fun p => Sgrid.getv p v

/-- Appends (parameters.c:375-386). -/
def PDB.appends {ν : Type} (C : Conv ν) (db : PDB ν) (name v : CStr) : Res (PDB ν) :=
  (db.gets name).bind fun old =>
    if Sgrid.getv old v then .ok db else db.set C name (old ++ ' ' :: v)

/-- Set_pdb_iStart_AtPar (parameters.c:539-543). -/
def PDB.setStart {ν : Type} (db : PDB ν) (name : CStr) : Res (PDB ν) :=
  match db.findIdx name with
  | none => .abort
  | some i => .ok { db with iStart := i }

/-- The calls that change the data base. `Seti` and `Setd` (parameters.c:361-373) are
`sets` of a formatted number. -/
inductive ParOp where
  | addPar (name value descr : CStr)
  | addOrModify (name value descr : CStr)
  | sets (name value : CStr)
  | appends (name value : CStr)
  | setStart (name : CStr)

/-- One call. -/
def PDB.step {ν : Type} (C : Conv ν) (db : PDB ν) : ParOp → Res (PDB ν)
  | .addPar n v d => db.addPar C n v d
  | .addOrModify n v d => db.addOrModify C n v d
  | .sets n v => db.set C n v
  | .appends n v => db.appends C n v
  | .setStart n => db.setStart n

/-- A history of calls. -/
def PDB.run {ν : Type} (C : Conv ν) (db : PDB ν) : List ParOp → Res (PDB ν)
  | [] => .ok db
  | op :: ops => (db.step C op).bind fun db' => db'.run C ops

/-- GetCachedNumValByParIndex(GetParIndex(name)) (parameters.c:521-524, 533-536). -/
def PDB.cachedNum {ν : Type} (db : PDB ν) (name : CStr) : Res ν :=
  match db.findIdx name with
  | none => .abort
  | some i => match db.pars[i]? with
    | none => .ub
    | some p => .ok p.num

/-- GetCachedBoolValByParIndex(GetParIndex(name)) (parameters.c:527-536). -/
def PDB.cachedBool {ν : Type} (db : PDB ν) (name : CStr) : Res Int :=
  match db.findIdx name with
  | none => .abort
  | some i => match db.pars[i]? with
    | none => .ub
    | some p => .ok p.bool

end Sgrid
