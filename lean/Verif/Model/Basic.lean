/-!
Shared vocabulary of the model: outcomes of C code and C strings.
-/

namespace Sgrid

/-- Outcome of a piece of C code: a result, a call of `errorexit` (which ends the
program, src/main/main/sgrid_main.h:176-178), or undefined behaviour. -/
inductive Res (α : Type u) where
  | ok (a : α)
  | abort
  | ub
  deriving Repr, DecidableEq

namespace Res

/-- Sequential composition: `abort` and `ub` end the computation. -/
def bind {α : Type u} {β : Type v} : Res α → (α → Res β) → Res β
  | ok a, f => f a
  | abort, _ => abort
  | ub, _ => ub

/-- Apply a function to a successful result. -/
def map {α : Type u} {β : Type v} (f : α → β) : Res α → Res β
  | ok a => ok (f a)
  | abort => abort
  | ub => ub

instance : Monad Res where
  pure := ok
  bind := bind

@[simp] theorem bind_ok {α : Type u} {β : Type v} (a : α) (f : α → Res β) :
    (ok a).bind f = f a := rfl
@[simp] theorem bind_abort {α : Type u} {β : Type v} (f : α → Res β) :
    (abort : Res α).bind f = abort := rfl
@[simp] theorem bind_ub {α : Type u} {β : Type v} (f : α → Res β) :
    (ub : Res α).bind f = ub := rfl
@[simp] theorem map_ok {α : Type u} {β : Type v} (a : α) (f : α → β) :
    (ok a).map f = ok (f a) := rfl
@[simp] theorem map_abort {α : Type u} {β : Type v} (f : α → β) :
    (abort : Res α).map f = abort := rfl
@[simp] theorem map_ub {α : Type u} {β : Type v} (f : α → β) :
    (ub : Res α).map f = ub := rfl

theorem bind_eq_ok {α : Type u} {β : Type v} {x : Res α} {f : α → Res β} {b : β} :
    x.bind f = ok b ↔ ∃ a, x = ok a ∧ f a = ok b := by
  cases x <;> simp [bind]

end Res

/-- A C string without its terminating NUL. -/
abbrev CStr := List Char

/-- `strstr(hay, needle)` as an offset: position of the first match, `none` for NULL.
C standard library. -/
def strstr (hay needle : CStr) : Option Nat :=
  if needle.isPrefixOf hay then some 0
  else match hay with
    | [] => none
    | _ :: t => (strstr t needle).map (· + 1)

/-- `isspace` in the C locale: blank, \t \n \v \f \r. -/
def isSpace (c : Char) : Bool :=
  c = ' ' || c = '\t' || c = '\n' || c = Char.ofNat 11 || c = Char.ofNat 12 || c = '\r'

end Sgrid
