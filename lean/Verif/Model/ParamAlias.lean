import Verif.Model.Params

/-!
Parameter values as pointers into the heap, src/main/main/parameters.c: what the data base
of `Model/Params.lean` hides. Only the value strings are followed; names are compared by
content and caches are left out.
-/

namespace Sgrid

/-- Heap of strings: `none` is memory that is not allocated (never was, or freed). -/
structure Heap where
  cell : Nat → Option CStr
  next : Nat

/-- Parameter records with value pointers (`p->value`). -/
structure HDB where
  heap : Heap
  pars : List (CStr × Nat)

/-- malloc and fill a new string (calloc+strcpy, parameters.c:175-179; strdup,
parameters.c:204). Fresh memory is never memory in use. -/
def Heap.new (h : Heap) (s : CStr) : Heap × Nat :=
  ({ cell := fun a => if a = h.next then some s else h.cell a, next := h.next + 1 }, h.next)

/-- free(ptr): freeing what is not allocated is undefined behaviour. -/
def Heap.free (h : Heap) (a : Nat) : Res Heap :=
  match h.cell a with
  | none => .ub
  | some _ => .ok { h with cell := fun b => if b = a then none else h.cell b }

/-- Reading a string through a pointer. -/
def Heap.read (h : Heap) (a : Nat) : Res CStr :=
  match h.cell a with
  | none => .ub
  | some s => .ok s

/-- translatevalue (parameters.c:252-269) on a pointer. -/
def Heap.translate (h : Heap) (a : Nat) : Res (Heap × Nat) :=
  (h.read a).bind fun s =>
    if Sgrid.translate s = s then .ok (h, a)
    else (h.free a).bind fun h' => .ok (h'.new (Sgrid.translate s))

/-- findparameter (parameters.c:237-244); records have different names. -/
def HDB.ptr (db : HDB) (n : CStr) : Option Nat := (db.pars.find? (fun p => p.1 = n)).map (·.2)

/-- Gets (parameters.c:392-396): the pointer itself is returned. -/
def HDB.gets (db : HDB) (n : CStr) : Res Nat :=
  match db.ptr n with
  | none => .abort
  | some a => .ok a

/-- setparameter(name, value) (parameters.c:199-208): free, then strdup of the argument. -/
def HDB.set (db : HDB) (n : CStr) (value : Nat) : Res HDB :=
  match db.ptr n with
  | none => .abort
  | some a =>
    (db.heap.free a).bind fun h1 =>
    (h1.read value).bind fun s =>
    ((h1.new s).1.translate (h1.new s).2).bind fun hc =>
    .ok { heap := hc.1, pars := db.pars.map fun p => if p.1 = n then (p.1, hc.2) else p }

/-- makeparameter (parameters.c:159-193) with a string owned by the caller. -/
def HDB.make (db : HDB) (n v : CStr) : Res HDB :=
  match db.ptr n with
  | some _ => .ok db
  | none =>
    ((db.heap.new v).1.translate (db.heap.new v).2).bind fun hb =>
    .ok { heap := hb.1, pars := db.pars ++ [(n, hb.2)] }

/-- Sets(n, "literal"): the argument lives in memory of the caller. The caller's copy is put
at a fresh address for the duration of the call. -/
def HDB.setLit (db : HDB) (n v : CStr) : Res HDB :=
  ({ db with heap := (db.heap.new v).1 } : HDB).set n (db.heap.new v).2

/-- The calls considered: AddPar, Sets with a string of the caller, Sets(n, Gets(m)). -/
inductive HOp where
  | add (n v : CStr)
  | setLit (n v : CStr)
  | setFrom (n m : CStr)

/-- One call. -/
def HDB.step (db : HDB) : HOp → Res HDB
  | .add n v => db.make n v
  | .setLit n v => db.setLit n v
  | .setFrom n m => (db.gets m).bind fun a => db.set n a

/-- A history. -/
def HDB.run (db : HDB) : List HOp → Res HDB
  | [] => .ok db
  | op :: ops => (db.step op).bind fun db' => db'.run ops

/-- Program start. -/
def HDB.init : HDB := ⟨⟨fun _ => none, 0⟩, []⟩

/-- The string a parameter holds. -/
def HDB.value (db : HDB) (n : CStr) : Option CStr := (db.ptr n).bind db.heap.cell

end Sgrid
