import Mathlib.Data.List.Forall2
import Verif.Model.Tensors

/-!
Properties C10 and C11: parities and completeness of tensor component lists.
-/

namespace Sgrid

namespace Spec

/-- Does an index with this coordinate name change sign under reflection of direction `d`
(0, 1, 2)? The two coordinates of 2d tensors count as directions 0 and 1, as in the code
(which marks this with FIXME). -/
def along (d : Nat) (c : Char) : Bool :=
  match d with
  | 0 => c = 'x' || c = '1'
  | 1 => c = 'y' || c = '2'
  | _ => c = 'z'

/-- Parity of a component under reflection: -1 for each index along the direction. -/
def parity (d : Nat) (comp : CStr) : Int :=
  (comp.map fun c => if along d c then (-1 : Int) else 1).foldl (· * ·) 1

/-- A declared tensor type: coordinate names for each index, and the pairs of index
positions with a symmetry (`false`) or antisymmetry (`true`). -/
structure Decl where
  alpha : List (List Char)
  pairs : List (Nat × Nat × Bool)
deriving DecidableEq

/-- Coordinates an index letter runs over: i,j,k,l are spatial, a,b,c space-time,
q,r,s,t two dimensional. -/
def alphaOf (c : Char) : Option (List Char) :=
  if c ∈ ['i', 'j', 'k', 'l'] then some ['x', 'y', 'z']
  else if c ∈ ['a', 'b', 'c'] then some ['t', 'x', 'y', 'z']
  else if c ∈ ['q', 'r', 's', 't'] then some ['1', '2']
  else none

/-- Reading of the bracket notation: `(ij)` is a symmetric pair, `[ij]` an antisymmetric
one. -/
def parseDecl (s : CStr) (n : Nat) : Option Decl :=
  match s with
  | [] => some ⟨[], []⟩
  | '(' :: c :: d :: ')' :: t => do
    let a ← alphaOf c
    let b ← alphaOf d
    let r ← parseDecl t (n + 2)
    pure ⟨a :: b :: r.alpha, (n, n + 1, false) :: r.pairs⟩
  | '[' :: c :: d :: ']' :: t => do
    let a ← alphaOf c
    let b ← alphaOf d
    let r ← parseDecl t (n + 2)
    pure ⟨a :: b :: r.alpha, (n, n + 1, true) :: r.pairs⟩
  | c :: t => do
    let a ← alphaOf c
    let r ← parseDecl t (n + 1)
    pure ⟨a :: r.alpha, r.pairs⟩
  termination_by s.length
  decreasing_by all_goals simp_wf <;> omega

/-- The sum notation and the bracket notation it stands for (the closing parenthesis of the
longest ones is part of the string the code compares with). -/
def sumNotation : List (String × String) := [
  ("ij+ji", "(ij)"), ("ij-ji", "[ij]"), ("ijk+ikj", "i(jk)"), ("ijk+jik", "(ij)k"),
  ("ijk-jik", "[ij]k"), ("ijkl+ijlk+jikl+jilk)", "(ij)(kl)"), ("ab+ba", "(ab)"),
  ("abc+acb", "a(bc)"), ("aij+aji", "a(ij)"), ("abc+bac", "(ab)c"), ("abi+bai", "(ab)i"),
  ("abij+abji+baij+baji)", "(ab)(ij)"), ("qr+rq", "(qr)"), ("qrs+rqs", "(qr)s"),
  ("qrst+qrts+rqst+rqts)", "(qr)(st)"), ("iqr+irq", "i(qr)")]

/-- Declared symmetries of an index string. -/
def declOf (s : CStr) : Option Decl :=
  match sumNotation.find? (fun p => p.1.toList = s) with
  | some p => parseDecl p.2.toList 0
  | none => parseDecl s 0

/-- A word assigning a coordinate to every index. -/
def Assign (D : Decl) (w : CStr) : Prop := List.Forall₂ (fun c al => c ∈ al) w D.alpha

/-- Exchange of two letters. -/
def swapAt (p q : Nat) (w : CStr) : CStr :=
  match w[p]?, w[q]? with
  | some a, some b => (w.set p b).set q a
  | _, _ => w

/-- All words obtained from `w` by the declared exchanges. -/
def orbit (D : Decl) (w : CStr) : List CStr :=
  D.pairs.foldl (fun ws p => ws ++ ws.map (swapAt p.1 p.2.1)) [w]

/-- Components forced to vanish by an antisymmetry. -/
def vanishes (D : Decl) (w : CStr) : Bool :=
  D.pairs.any fun p => p.2.2 && w[p.1]? == w[p.2.1]?

/-- All assignments, as a list. -/
def words : List (List Char) → List CStr
  | [] => [[]]
  | al :: rest => al.flatMap fun c => (words rest).map (c :: ·)

theorem mem_words {al : List (List Char)} {w : CStr} :
    w ∈ words al ↔ List.Forall₂ (fun c a => c ∈ a) w al := by
  induction al generalizing w with
  | nil => simp [words]
  | cons a t ih =>
    simp only [words, List.mem_flatMap, List.mem_map]
    constructor
    · rintro ⟨c, hc, u, hu, rfl⟩
      exact .cons hc (ih.1 hu)
    · intro h
      cases h with
      | cons h1 h2 => exact ⟨_, h1, _, ih.2 h2, rfl⟩

end Spec

open Spec

/-- The index strings the code knows. -/
def tensorKeys : List String := tensorCases.flatMap (·.keys)

theorem tensor_accept {t : CStr} {r : List CStr × List Int} (h : tensorIndexList t = .ok r) :
    ∃ k ∈ tensorKeys, k.toList = t.map toLowerC := by
  by_contra hc
  have hn : ∀ c ∈ tensorCases, c.keys.any (fun k => k.toList = t.map toLowerC) = false := by
    intro c hcm
    rw [Bool.eq_false_iff]
    intro ha
    obtain ⟨k, hk, he⟩ := List.any_eq_true.1 ha
    exact hc ⟨k, List.mem_flatMap.2 ⟨c, hcm, hk⟩, by simpa using he⟩
  have : ∀ (cs : List TCase) s, (∀ c ∈ cs, c.keys.any (fun k => k.toList = t.map toLowerC) = false)
      → runCases (t.map toLowerC) cs s = .ok s := by
    intro cs
    induction cs with
    | nil => intro s _; rfl
    | cons c cs ih =>
      intro s h
      simp only [runCases, h c (by simp), Bool.false_eq_true, if_false, Res.bind_ok]
      exact ih s fun x hx => h x (by simp [hx])
  simp [tensorIndexList, this _ _ hn] at h

/-- Result for a known string (already lower case). -/
def tensorResult (k : String) : Res (List CStr × List Int) :=
  (runCases k.toList tensorCases ([], List.replicate (3 * nIndexList) 1)).bind fun s =>
    if s.1 = [] then .abort else .ok s

theorem tensorResult_eq {t : CStr} {k : String} (h : k.toList = t.map toLowerC) :
    tensorIndexList t = tensorResult k := by
  unfold tensorIndexList tensorResult; rw [h]

def parityOk (r : List CStr × List Int) : Bool :=
  (List.range r.1.length).all fun n => (List.range 3).all fun d =>
    r.2[3 * n + d]? == some (parity d (r.1.getD n []))

def tableOk (P : String → List CStr × List Int → Bool) : Bool :=
  tensorKeys.all fun k => match tensorResult k with
    | .ok r => P k r
    | _ => false

theorem table_lift {P : String → List CStr × List Int → Bool} (h : tableOk P = true) {t : CStr} {r : List CStr × List Int}
    (hr : tensorIndexList t = .ok r) :
    ∃ k, k.toList = t.map toLowerC ∧ P k r = true := by
  obtain ⟨k, hk, he⟩ := tensor_accept hr
  refine ⟨k, he, ?_⟩
  have := List.all_eq_true.1 h k hk
  rw [← tensorResult_eq he, hr] at this
  exact this

/-- The two spellings of the index type with wrong parities. -/
def badKeys : List String := ["(ab)(ij)", "abij+abji+baij+baji)"]

def compOk (k : String) (r : List CStr × List Int) : Bool :=
  match declOf k.toList with
  | none => false
  | some D => decide r.1.Nodup &&
    r.1.all (fun w => (words D.alpha).contains w && !vanishes D w) &&
    (words D.alpha).all fun w => vanishes D w ||
      (r.1.filter fun u => (orbit D w).contains u).length == 1

/-- Complete check of the finite table of index strings. -/
theorem tensor_table : tableOk (fun k r => compOk k r && (badKeys.contains k || parityOk r)) =
    true := by decide +kernel

/-- **C10** (all index types but one). For every accepted index string other than
"(ab)(ij)" (in any mixture of cases and also in its sum notation), the parity stored for
component `n` and direction `d` is the product over the component's indices. -/
theorem C10_parity_partial (t : CStr) (r : List CStr × List Int)
    (h : tensorIndexList t = .ok r)
    (h1 : t.map toLowerC ≠ "(ab)(ij)".toList)
    (h2 : t.map toLowerC ≠ "abij+abji+baij+baji)".toList)
    (n : Nat) (hn : n < r.1.length) (d : Nat) (hd : d < 3) :
    r.2[3 * n + d]? = some (parity d r.1[n]) := by
  obtain ⟨k, he, hp⟩ := table_lift tensor_table h
  have hg : badKeys.contains k = false := by
    simp only [badKeys, List.contains_eq_mem, decide_eq_false_iff_not,
      List.mem_cons, List.not_mem_nil, or_false, not_or]
    constructor
    · rintro rfl; exact h1 he.symm
    · rintro rfl; exact h2 he.symm
  rw [hg, Bool.false_or, Bool.and_eq_true] at hp
  have := hp.2
  simp only [parityOk, List.all_eq_true, List.mem_range, beq_iff_eq] at this
  have := this n hn d hd
  rwa [List.getD_eq_getElem?_getD, List.getElem?_eq_getElem hn, Option.getD_some] at this

/-- **C10** fails for "(ab)(ij)": component "txxx" (number 6), which is odd in direction x,
is stored as even. -/
theorem C10_counterexample : ∃ r, tensorIndexList "(ab)(ij)".toList = .ok r ∧
    r.1[6]? = some "txxx".toList ∧ r.2[3 * 6 + 0]? = some 1 ∧
    parity 0 "txxx".toList = -1 := by
  have h : (match tensorIndexList "(ab)(ij)".toList with
    | .ok r => decide (r.1[6]? = some "txxx".toList ∧ r.2[3 * 6 + 0]? = some 1 ∧
        parity 0 "txxx".toList = -1)
    | _ => false) = true := by decide +kernel
  split at h
  · rename_i r hr; exact ⟨r, hr, by simpa using h⟩
  · exact absurd h (by simp)

example : (tensorIndexList "I(Jk)".toList).map (fun r => (r.1.length, r.1[10]?, r.2[31]?)) =
    .ok (18, some "yyz".toList, some 1) := by decide +kernel

/-- **C11**. Every accepted index string has declared symmetries `D`; the component list
has no repetition, consists of index assignments not forced to vanish, and every index
assignment that is not forced to vanish has exactly one representative under the declared
exchanges. -/
theorem C11_components (t : CStr) (r : List CStr × List Int)
    (h : tensorIndexList t = .ok r) :
    ∃ D, declOf (t.map toLowerC) = some D ∧ r.1.Nodup ∧
      (∀ w ∈ r.1, Assign D w ∧ vanishes D w = false) ∧
      ∀ w, Assign D w → vanishes D w = false →
        ∃! u, u ∈ r.1 ∧ u ∈ orbit D w := by
  obtain ⟨k, he, hp⟩ := table_lift tensor_table h
  rw [Bool.and_eq_true] at hp
  have := hp.1
  unfold compOk at this
  rw [he] at this
  split at this
  · exact absurd this (by simp)
  · rename_i D hD
    refine ⟨D, hD, ?_⟩
    simp only [Bool.and_eq_true, decide_eq_true_eq, List.all_eq_true, Bool.or_eq_true,
      beq_iff_eq, Bool.not_eq_true', List.contains_iff_mem] at this
    obtain ⟨⟨h1, h2⟩, h3⟩ := this
    refine ⟨h1, fun w hw => ⟨mem_words.1 (h2 w hw).1, (h2 w hw).2⟩, fun w hw hv => ?_⟩
    have h4 := h3 w (mem_words.2 hw)
    rw [hv] at h4
    simp only [Bool.false_eq_true, false_or] at h4
    obtain ⟨u, hu⟩ := List.length_eq_one_iff.1 h4
    have hmem : ∀ v, v ∈ r.1 ∧ v ∈ orbit D w ↔ v = u := by
      intro v
      have : v ∈ r.1.filter (fun u => decide (u ∈ orbit D w)) ↔ v = u := by
        rw [show r.1.filter (fun u => decide (u ∈ orbit D w)) = [u] from by
          simpa [List.contains_eq_mem] using hu]
        simp
      simpa using this
    exact ⟨u, (hmem u).2 rfl, fun v hv => (hmem v).1 hv⟩

example : declOf "i(jk)".toList = some ⟨[['x', 'y', 'z'], ['x', 'y', 'z'], ['x', 'y', 'z']],
    [(1, 2, false)]⟩ := by decide +kernel
example : (orbit ⟨[['x', 'y', 'z'], ['x', 'y', 'z'], ['x', 'y', 'z']], [(1, 2, false)]⟩
    "xzy".toList) = ["xzy".toList, "xyz".toList] := by decide +kernel

/-- Exactly the listed strings (any case) are accepted, the others stop the program: nothing
runs off the arrays. -/
theorem C11_accepted (t : CStr) :
    ((∃ r, tensorIndexList t = .ok r) ↔ ∃ k ∈ tensorKeys, k.toList = t.map toLowerC) ∧
    tensorIndexList t ≠ .ub := by
  have tab := tensor_table
  have fwd : (∃ k ∈ tensorKeys, k.toList = t.map toLowerC) → ∃ r, tensorIndexList t = .ok r := by
    rintro ⟨k, hk, he⟩
    have := List.all_eq_true.1 tab k hk
    rw [← tensorResult_eq he] at this
    cases hr : tensorIndexList t with
    | ok r => exact ⟨r, rfl⟩
    | abort => rw [hr] at this; simp at this
    | ub => rw [hr] at this; simp at this
  refine ⟨⟨fun ⟨r, hr⟩ => tensor_accept hr, fwd⟩, fun hub => ?_⟩
  by_cases hk : ∃ k ∈ tensorKeys, k.toList = t.map toLowerC
  · obtain ⟨r, hr⟩ := fwd hk
    rw [hr] at hub; cases hub
  · have hn : ∀ c ∈ tensorCases, c.keys.any (fun k => k.toList = t.map toLowerC) = false := by
      intro c hcm
      rw [Bool.eq_false_iff]
      intro ha
      obtain ⟨k, hk', he⟩ := List.any_eq_true.1 ha
      exact hk ⟨k, List.mem_flatMap.2 ⟨c, hcm, hk'⟩, by simpa using he⟩
    have : ∀ (cs : List TCase) s,
        (∀ c ∈ cs, c.keys.any (fun k => k.toList = t.map toLowerC) = false)
        → runCases (t.map toLowerC) cs s = .ok s := by
      intro cs
      induction cs with
      | nil => intro s _; rfl
      | cons c cs ih =>
        intro s h
        simp only [runCases, h c (by simp), Bool.false_eq_true, if_false, Res.bind_ok]
        exact ih s fun x hx => h x (by simp [hx])
    simp [tensorIndexList, this _ _ hn] at hub

end Sgrid
