import Verif.Model.IntList

/-!
Storage of variables, src/main/MemoryMan/storage.c:358-571.

Simplifications: one grid, with the global counter `nenabled` counting its arrays only; memory
does not run out and boxes have at least one point (`calloc` of zero bytes may return NULL,
which the code takes for lack of memory); the number of components of a variable is a
parameter of enablevar and disablevar (it comes from the variable data base,
Model/Variables.lean).
-/

namespace Sgrid

/-- Number of points of a box and its table of `nvariables` data pointers, `none` being
NULL. -/
structure SBox (K : Type) where
  nnodes : Nat
  v : List (Option (List K))
  deriving DecidableEq

/-- The boxes of a grid and the counter `nenabled` (storage.c:364). -/
structure SGrid (K : Type) where
  boxes : List (SBox K)
  nenabled : Int
  deriving DecidableEq

namespace SGrid
variable {K : Type}

/-- Replace the pointer `v[i]` of box `b`. -/
def setPtr (g : SGrid K) (b i : Nat) (p : Option (List K)) (dn : Int) : SGrid K :=
  { boxes := g.boxes.modify b fun box => { box with v := box.v.set i p }
    nenabled := g.nenabled + dn }

/-- `grid->box[b]->v[i]` with the box, undefined outside the tables. -/
def ptr (g : SGrid K) (b i : Nat) : Res (SBox K × Option (List K)) :=
  (aget g.boxes b).bind fun box => (aget box.v i).bind fun p => .ok (box, p)

/-- enablevarcomp_inbox (storage.c:368-386). -/
def enableIn [Zero K] (g : SGrid K) (b i : Nat) : Res (SGrid K) :=
  (g.ptr b i).bind fun r =>
    match r.2 with
    | some _ => .ok g
    | none => .ok (g.setPtr b i (some (List.replicate r.1.nnodes 0)) 1)

/-- disablevarcomp_inbox (storage.c:390-404). -/
def disableIn (g : SGrid K) (b i : Nat) : Res (SGrid K) :=
  (g.ptr b i).bind fun r =>
    match r.2 with
    | some _ => .ok (g.setPtr b i none (-1))
    | none => .ok g

/-- enablevarcomp (storage.c:430-441): all boxes, active or not. -/
def enablevarcomp [Zero K] (g : SGrid K) (i : Nat) : Res (SGrid K) :=
  forN g.boxes.length (fun b g => g.enableIn b i) g

/-- disablevarcomp (storage.c:446-457). -/
def disablevarcomp (g : SGrid K) (i : Nat) : Res (SGrid K) :=
  forN g.boxes.length (fun b g => g.disableIn b i) g

/-- enablevar_inbox (storage.c:408-414) for a variable with `n` components. -/
def enablevarIn [Zero K] (g : SGrid K) (b i n : Nat) : Res (SGrid K) :=
  forN n (fun j g => g.enableIn b (i + j)) g

/-- disablevar_inbox (storage.c:418-424). -/
def disablevarIn (g : SGrid K) (b i n : Nat) : Res (SGrid K) :=
  forN n (fun j g => g.disableIn b (i + j)) g

/-- enablevar (storage.c:463-469). -/
def enablevar [Zero K] (g : SGrid K) (i n : Nat) : Res (SGrid K) :=
  forN n (fun j g => g.enablevarcomp (i + j)) g

/-- disablevar (storage.c:475-481). -/
def disablevar (g : SGrid K) (i n : Nat) : Res (SGrid K) :=
  forN n (fun j g => g.disablevarcomp (i + j)) g

/-- enablevarlist (storage.c:487-494). -/
def enablevarlist [Zero K] (g : SGrid K) (l : List Nat) : Res (SGrid K) :=
  forN l.length (fun n g => (aget l n).bind fun i => g.enablevarcomp i) g

/-- disablevarlist (storage.c:500-507). -/
def disablevarlist (g : SGrid K) (l : List Nat) : Res (SGrid K) :=
  forN l.length (fun n g => (aget l n).bind fun i => g.disablevarcomp i) g

/-- realloc_gridvariables with realloc_boxvariables (storage.c:542-571): the tables get `m`
places, new ones are NULL. -/
def reallocVars (g : SGrid K) (m : Nat) : SGrid K :=
  { g with boxes := g.boxes.map fun box => { box with v := reallocTo none box.v m } }

/-- Any computation that writes into existing arrays of variable `i` in box `b`. -/
def writeData (g : SGrid K) (b i : Nat) (f : Nat → K) : SGrid K :=
  { g with boxes := g.boxes.modify b fun box =>
      { box with v := box.v.modify i fun p => p.map fun a => a.mapIdx fun k _ => f k } }

end SGrid

/-- Calls that appear in a history. -/
inductive SOp (K : Type) where
  | enableIn (b i : Nat)
  | disableIn (b i : Nat)
  | enablevarIn (b i n : Nat)
  | disablevarIn (b i n : Nat)
  | enablecomp (i : Nat)
  | disablecomp (i : Nat)
  | enablevar (i n : Nat)
  | disablevar (i n : Nat)
  | enablelist (l : List Nat)
  | disablelist (l : List Nat)
  | realloc (m : Nat)
  | write (b i : Nat) (f : Nat → K)

/-- One call. -/
def SOp.step {K : Type} [Zero K] (g : SGrid K) : SOp K → Res (SGrid K)
  | .enableIn b i => g.enableIn b i
  | .disableIn b i => g.disableIn b i
  | .enablevarIn b i n => g.enablevarIn b i n
  | .disablevarIn b i n => g.disablevarIn b i n
  | .enablecomp i => g.enablevarcomp i
  | .disablecomp i => g.disablevarcomp i
  | .enablevar i n => g.enablevar i n
  | .disablevar i n => g.disablevar i n
  | .enablelist l => g.enablevarlist l
  | .disablelist l => g.disablevarlist l
  | .realloc m => .ok (g.reallocVars m)
  | .write b i f => .ok (g.writeData b i f)

/-- A history of calls. -/
def SOp.run {K : Type} [Zero K] : List (SOp K) → SGrid K → Res (SGrid K)
  | [], g => .ok g
  | o :: os, g => (o.step g).bind (SOp.run os)

end Sgrid
