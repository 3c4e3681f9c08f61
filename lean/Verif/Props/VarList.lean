import Verif.Model.VarList
import Verif.Props.Variables
import Mathlib.Data.List.Basic

/-!
Property C13: variable lists are edited like lists.
-/

namespace Sgrid

variable {ν : Type}

theorem pushLoop_spec (vi n : Nat) (v : List Nat) (left : Nat) (hl : left ≤ n) :
    pushLoop vi n left (v ++ (List.range (n - left)).map (vi + ·) ++ List.replicate left 0) =
      v ++ (List.range n).map (vi + ·) := by
  induction left with
  | zero => simp [pushLoop]
  | succ m ih =>
    rw [pushLoop]
    have h1 : (v ++ (List.range (n - (m + 1))).map (vi + ·) ++ List.replicate (m + 1) 0).length - n
        + (n - (m + 1)) = (v ++ (List.range (n - (m + 1))).map (vi + ·)).length := by
      simp; omega
    rw [h1, List.set_append_right _ _ (Nat.le_refl _), Nat.sub_self, List.replicate_succ,
      List.set_cons_zero, ← ih (by omega)]
    congr 1
    rw [show n - m = (n - (m + 1)) + 1 by omega, List.range_succ]
    simp

/-- The components of the variable with first component `vi`. -/
def Spec.components (vi n : Nat) : List Nat := (List.range n).map (vi + ·)

/-- **C13**, vlpush appends all components in order, and refuses an index that is not that of
a first component or not that of a variable. -/
theorem C13_vlpush (db : VDB ν) (v : List Nat) (vi : Nat) :
    (∀ r, db.vars[vi]? = some r → r.comp = 0 →
      vlpush db v vi = .ok (v ++ Spec.components vi r.ncomp)) ∧
    (∀ w, vlpush db v vi = .ok w → ∃ r, db.vars[vi]? = some r ∧ r.comp = 0) := by
  constructor
  · intro r hr hc
    have hlt := (List.getElem?_eq_some_iff.1 hr).1
    have h1 : db.varNComponents (vi : Int) = .ok r.ncomp := by
      unfold VDB.varNComponents
      rw [if_neg (by omega), raw_nat, hr]
      simp [hc]
    have h2 : db.indComponent0 (vi : Int) = .ok (vi : Int) := by
      unfold VDB.indComponent0
      rw [raw_nat, hr]; simp [hc]
    unfold vlpush
    rw [h1, h2]
    simp only [Res.bind_ok, ne_eq, not_true_eq_false, if_false]
    have := pushLoop_spec vi r.ncomp v r.ncomp (Nat.le_refl _)
    simpa [Spec.components] using this
  · intro w hw
    simp only [vlpush, Res.bind_eq_ok] at hw
    obtain ⟨n, _, i0, h2, h3⟩ := hw
    unfold VDB.indComponent0 at h2
    rw [raw_nat] at h2
    cases hr : db.vars[vi]? with
    | none => rw [hr] at h2; simp at h2
    | some r =>
      refine ⟨r, rfl, ?_⟩
      rw [hr] at h2
      simp only [Res.bind_ok, Res.ok.injEq] at h2
      split at h3
      · cases h3
      · rename_i hne; simp only [ne_eq, not_not] at hne; omega

theorem pushvlLoop_distinct (u : List Nat) (left i : Nat) (hi : i + left = u.length)
    (pre : List (Option Nat)) (hp : pre.length = base + i) :
    pushvlLoop false u base left i (pre ++ List.replicate left none) =
      pre ++ (u.drop i).map some := by
  induction left generalizing i pre with
  | zero =>
    have : u.drop i = [] := by rw [List.drop_eq_nil_iff]; omega
    simp [pushvlLoop, this]
  | succ m ih =>
    rw [pushvlLoop]
    have hlt : i < u.length := by omega
    simp only [Bool.false_eq_true, if_false]
    rw [List.set_append_right _ _ (by omega), hp, Nat.sub_self, List.replicate_succ,
      List.set_cons_zero, List.getElem?_eq_getElem hlt]
    have := ih (i + 1) (by omega) (pre ++ [some u[i]]) (by simp [hp]; omega)
    rw [List.append_assoc] at this
    simp only [List.cons_append, List.nil_append] at this
    rw [this, List.drop_eq_getElem_cons hlt, List.map_cons, List.append_assoc]
    rfl

/-- **C13**, vlpushvl appends a (different) list. -/
theorem C13_vlpushvl (v u : List Nat) : vlpushvl false v u = (v ++ u).map some := by
  unfold vlpushvl
  simp only [Bool.false_eq_true, if_false, Nat.add_sub_cancel]
  rw [pushvlLoop_distinct u u.length 0 (by simp) (v.map some) (by simp)]
  simp

/-- Appending a list to itself leaves the second half uninitialised: the copy loop copies
every place onto itself. -/
theorem C13_vlpushvl_self (v : List Nat) :
    vlpushvl true v v = v.map some ++ List.replicate v.length none := by
  unfold vlpushvl
  simp only [if_true, Nat.sub_self]
  generalize v.map some ++ List.replicate v.length none = a
  generalize v.length + v.length = k
  have : ∀ (left i : Nat), pushvlLoop true v 0 left i a = a := by
    intro left
    induction left with
    | zero => intro i; rfl
    | succ m ih =>
      intro i
      rw [pushvlLoop]
      have : a.set (0 + i) (if true = true then (a[i]?).getD none else v[i]?) = a := by
        simp only [if_true, Nat.zero_add]
        by_cases hl : i < a.length
        · rw [List.getElem?_eq_getElem hl, Option.getD_some, List.set_getElem_self]
        · rw [List.set_eq_of_length_le (by omega)]
      rw [this]; exact ih (i + 1)
  exact this k 0

theorem shiftLoop_spec {α : Type} (pre : List α) (x : α) (t : List α) (fuel : Nat)
    (hf : t.length ≤ fuel) :
    (shiftLoop (pre.length + t.length) fuel pre.length (pre ++ x :: t)).take
      (pre.length + t.length) = pre ++ t := by
  induction t generalizing pre x fuel with
  | nil =>
    cases fuel with
    | zero => simp [shiftLoop]
    | succ f => rw [shiftLoop, if_neg (by simp)]; simp
  | cons y t ih =>
    cases fuel with
    | zero => simp at hf
    | succ f =>
      rw [shiftLoop, if_pos (by simp)]
      have h1 : (pre ++ x :: y :: t)[pre.length + 1]? = some y := by
        rw [List.getElem?_append_right (by omega)]; simp
      rw [h1]
      simp only
      have h2 : (pre ++ x :: y :: t).set pre.length y = (pre ++ [y]) ++ y :: t := by
        rw [List.set_append_right _ _ (Nat.le_refl _)]; simp
      rw [h2]
      have := ih (pre ++ [y]) y f (by simpa using hf)
      simp only [List.length_append, List.length_cons, List.length_nil] at this ⊢
      rw [show pre.length + (t.length + 1) = pre.length + (0 + 1) + t.length by omega]
      rw [this]; simp

theorem dropOneLoop_spec (vi : Nat) (pre t : List Nat) (hpre : vi ∉ pre) (fuel : Nat)
    (hf : t.length ≤ fuel) :
    dropOneLoop vi (pre ++ t) fuel pre.length = pre ++ t.erase vi := by
  induction t generalizing pre fuel with
  | nil => cases fuel <;> simp [dropOneLoop]
  | cons x t ih =>
    cases fuel with
    | zero => simp at hf
    | succ f =>
      rw [dropOneLoop]
      have h1 : (pre ++ x :: t)[pre.length]? = some x := by simp
      rw [h1]
      simp only
      split
      · rename_i hx
        subst hx
        have := shiftLoop_spec pre x t (pre ++ x :: t).length (by simp; omega)
        have hl : (pre ++ x :: t).length - 1 = pre.length + t.length := by simp
        rw [hl, this]
        simp
      · rename_i hx
        have := ih (pre ++ [x]) (by simp [hpre, Ne.symm hx]) f (by simpa using hf)
        rw [List.erase_cons_tail (by simpa using hx)]
        simpa using this

/-- **C13**, vldropone removes exactly the first occurrence. -/
theorem C13_vldropone (v : List Nat) (vi : Nat) : vldropone v vi = v.erase vi := by
  have := dropOneLoop_spec vi [] v (by simp) v.length (Nat.le_refl _)
  simpa [vldropone] using this

/-- **C13**, vldrop called with the index of a first component removes the first occurrence
of each component of this variable and nothing else. -/
theorem C13_vldrop_partial (db : VDB ν) (v : List Nat) (vi : Nat) (r : VRec ν)
    (hr : db.vars[vi]? = some r) (hc : r.comp = 0) :
    vldrop db v vi = .ok (v.diff (Spec.components vi r.ncomp)) := by
  have hlt := (List.getElem?_eq_some_iff.1 hr).1
  have h1 : db.varNComponents (vi : Int) = .ok r.ncomp := by
    unfold VDB.varNComponents
    rw [if_neg (by omega), raw_nat, hr]
    simp [hc]
  unfold vldrop
  rw [h1, Res.bind_ok]
  congr 1
  have : ∀ (left i : Nat) (v : List Nat), vldropLoop vi left i v =
      v.diff ((List.range left).map fun k => vi + (i + k)) := by
    intro left
    induction left with
    | zero => intro i v; simp [vldropLoop]
    | succ m ih =>
      intro i v
      rw [vldropLoop, ih, C13_vldropone, List.range_succ_eq_map, List.map_cons, List.diff_cons,
        List.map_map]
      congr 1
      apply List.map_congr_left
      intro k _
      simp; omega
  rw [this]
  simp [Spec.components]

/-- vldrop with a later component removes components of another variable: dropping the last
component of the vector `b` (index 2) from the list [b, c] also drops both components of `c`
that follow. -/
theorem C13_vldrop_counterexample :
    ((VDB.init Int).run [.addVar "b".toList "I".toList [], .addVar "c".toList "I".toList []]).bind
      (fun db => vldrop db [0, 1, 2, 3, 4, 5] 2) = .ok [0, 1, 5] := by decide +kernel

/-- **C13**, vldropn removes the last `n`. -/
theorem C13_vldropn (v : List Nat) (n : Nat) :
    vldropn v n = v.take (v.length - n) ∧ ∀ m : Int, m ≤ 0 → vldropn v m = v := by
  constructor
  · unfold vldropn
    split
    · have : n = 0 := by omega
      subst this; simp
    · split
      · rw [show v.length - n = 0 by omega]
      · simp
  · intro m hm; unfold vldropn; rw [if_pos hm]

/-- **C13**, vlduplicate yields an equal list; the model returns a new value, so later edits of
one do not touch the other. -/
theorem C13_vlduplicate {γ τ : Type} (v : VList γ τ) : vlduplicate v = v := by
  have : ∀ (left i : Nat) (u : List Nat), i + left = v.index.length →
      dupLoop v.index left i u = u ++ v.index.drop i := by
    intro left
    induction left with
    | zero =>
      intro i u h
      have : v.index.drop i = [] := by rw [List.drop_eq_nil_iff]; omega
      simp [dupLoop, this]
    | succ m ih =>
      intro i u h
      have hlt : i < v.index.length := by omega
      rw [dupLoop, ih (i + 1) _ (by omega), vlpushone, List.drop_eq_getElem_cons hlt]
      simp [List.getElem?_eq_getElem hlt]
  unfold vlduplicate
  rw [this _ 0 [] (by simp)]
  simp

example : vldropone [4, 7, 2, 7] 7 = [4, 2, 7] ∧ vldropn [1, 2, 3] 2 = [1] ∧
    vlpushvl false [1, 2] [3] = [some 1, some 2, some 3] := by decide

end Sgrid
