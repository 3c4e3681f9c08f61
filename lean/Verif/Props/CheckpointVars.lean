import Verif.Props.CheckpointPars
import Verif.Props.Endian

/-! C64: variables survive a checkpoint bit by bit. -/

namespace Sgrid
open Wolfio Checkpoint Endian

/-- The memory of variable `j` in box `b`: outer `none` if there is no such place, inner `none`
if the variable has no storage. -/
def Spec.memOf (boxes : List CBox) (b j : Nat) : Option (Option (List Byte)) :=
  boxes[b]?.bind fun box => box.v[j]?

/-- The grid of a program on a machine with byte order `m`, where variable `i` of box `b` has the
64-bit values `vals b i` if it has storage. -/
structure Spec.Grid (m : Bool) (boxes : List CBox) (vals : Nat → Nat → List Nat) : Prop where
  mem : ∀ b box i mem, boxes[b]? = some box → box.v[i]? = some (some mem) →
    mem = Spec.array m 8 (vals b i) ∧ (vals b i).length = box.nnodes

open Spec

/-- An entry of the file: box, name of the variable and values. -/
structure VEntry where
  b : Nat
  name : CStr
  vs : List Nat

/-- Its text behind the name. -/
def VEntry.tail (e : VEntry) : CStr :=
  " : box = ".toList ++ (fmtInt e.b ++ (" , box->nnodes = ".toList ++ (fmtInt e.vs.length ++
    ('\n' :: ((array true 8 e.vs).map chr ++ "\n".toList)))))

/-- Its text. -/
def VEntry.text (e : VEntry) : CStr := "$variable = ".toList ++ (e.name ++ e.tail)

theorem VEntry.text_eq (e : VEntry) (out : CStr) : out ++ e.text =
    out ++ "$variable = ".toList ++ e.name ++ " : box = ".toList ++ fmtInt e.b ++
      " , box->nnodes = ".toList ++ fmtInt e.vs.length ++ "\n".toList ++
      (array true 8 e.vs).map chr ++ "\n".toList := by
  have hnl : "\n".toList = ['\n'] := by decide +kernel
  unfold VEntry.text VEntry.tail
  rw [hnl]
  generalize "$variable = ".toList = g1
  generalize " : box = ".toList = g2
  generalize " , box->nnodes = ".toList = g3
  simp only [List.append_assoc, List.cons_append, List.nil_append]

theorem VEntry.text_split (e : VEntry) (R : CStr) :
    e.text ++ R = "$variable".toList ++ (" = ".toList ++ (e.name ++ (e.tail ++ R))) := by
  have e1 : "$variable = ".toList = "$variable".toList ++ " = ".toList := by decide +kernel
  unfold VEntry.text
  rw [e1]
  simp only [List.append_assoc]

theorem VEntry.text_pos (e : VEntry) : 1 ≤ e.text.length := by
  unfold VEntry.text
  rw [List.length_append]
  exact Nat.le_trans (by decide +kernel : 1 ≤ ("$variable = ".toList).length) (Nat.le_add_right _ _)

theorem VEntry.tail_eq (e : VEntry) (rest : CStr) : e.tail ++ rest = " : box = ".toList ++
    (fmtInt e.b ++ (" , box->nnodes = ".toList ++
      (fmtInt e.vs.length ++ ('\n' :: ((array true 8 e.vs).map chr ++ '\n' :: rest))))) := by
  have hnl : "\n".toList = ['\n'] := by decide +kernel
  unfold VEntry.tail
  rw [hnl]
  generalize " : box = ".toList = g2
  generalize " , box->nnodes = ".toList = g3
  simp only [List.append_assoc, List.cons_append, List.nil_append]

theorem unchr_chr (b : Byte) : unchr (chr b) = b := by
  have : ∀ n : Fin 256, unchr (chr (BitVec.ofNat 8 n.val)) = BitVec.ofNat 8 n.val := by
    decide +kernel
  have h := this ⟨b.toNat, b.isLt⟩
  simpa using h

theorem map_unchr_chr (l : List Byte) : (l.map chr).map unchr = l := by
  simp [List.map_map, Function.comp_def, unchr_chr]

theorem forN_flatMap {n : Nat} {body : Nat → CStr → Res CStr} {t : Nat → CStr}
    (h : ∀ j, j < n → ∀ out, body j out = .ok (out ++ t j)) (s : CStr) :
    forN n body s = .ok (s ++ (List.range n).flatMap t) := by
  induction n with
  | zero => simp [forN]
  | succ n ih =>
    rw [forN, ih (fun j hj => h j (by omega)), Res.bind_ok, h n (by omega), List.range_succ]
    simp

/-- The entry for place `i` of the list in box `b`, if there is one. -/
def entryOf (names : List CStr) (boxes : List CBox) (idx : List Nat) (vals : Nat → Nat → List Nat)
    (b j : Nat) : Option VEntry :=
  idx[j]?.bind fun i => (memOf boxes b i).bind fun mem => mem.bind fun _ =>
    names[i]?.map fun name => ⟨b, name, vals b i⟩

/-- All entries. -/
def entriesOf (names : List CStr) (boxes : List CBox) (idx : List Nat)
    (vals : Nat → Nat → List Nat) : List VEntry :=
  (List.range boxes.length).flatMap fun b => (List.range idx.length).flatMap fun j =>
    (entryOf names boxes idx vals b j).toList

theorem writeVars_spec {m : Bool} {names : List CStr} {boxes : List CBox} {idx : List Nat}
    {vals : Nat → Nat → List Nat} (hg : Grid m boxes vals)
    (hidx : ∀ i ∈ idx, i < names.length ∧ ∀ box ∈ boxes, i < box.v.length) :
    writeVars m names boxes idx = .ok ("$BEGIN_variables:\n".toList ++
      (entriesOf names boxes idx vals).flatMap VEntry.text ++ "$END_variables\n\n".toList) := by
  unfold writeVars
  rw [forN_flatMap (t := fun b => (List.range idx.length).flatMap fun j =>
    ((entryOf names boxes idx vals b j).toList).flatMap VEntry.text), Res.bind_ok]
  · simp only [entriesOf, List.flatMap_assoc]
  intro b hb out
  have hbox : boxes[b]? = some boxes[b] := by simp [hb]
  rw [aget_ok hb, Res.bind_ok]
  refine forN_flatMap ?_ out
  intro j hj out
  obtain ⟨h1, h2⟩ := hidx idx[j] (List.getElem_mem hj)
  have h3 := h2 boxes[b] (List.getElem_mem hb)
  rw [aget_ok hj, Res.bind_ok, writeVar, aget_ok h3, Res.bind_ok]
  have hi : idx[j]? = some idx[j] := by simp [hj]
  have hv : boxes[b].v[idx[j]]? = some boxes[b].v[idx[j]] := by simp [h3]
  have hn : names[idx[j]]? = some names[idx[j]] := by simp [h1]
  cases hm : boxes[b].v[idx[j]] with
  | none => simp [entryOf, hi, memOf, hbox, hv, hm]
  | some mem =>
    rw [hm] at hv
    obtain ⟨e1, e2⟩ := hg.mem b _ _ _ hbox hv
    simp only
    rw [aget_ok h1, Res.bind_ok, e1, ← e2, fwriteDoubleLittle,
      C23_write_little m 0 8 (by decide +kernel), Res.bind_ok]
    have he : entryOf names boxes idx vals b j = some ⟨b, names[idx[j]], vals b idx[j]⟩ := by
      simp only [entryOf, hi, memOf, hbox, hv, hn, Option.bind_some, Option.map_some]
    rw [he, Option.toList_some, List.flatMap_cons, List.flatMap_nil, List.append_nil,
      VEntry.text_eq]
    rfl

/-- The effect of reading an entry. -/
def applyE (m : Bool) (ind : CStr → Option Nat) (boxes : List CBox) (e : VEntry) : List CBox :=
  match ind e.name with
  | none => boxes
  | some j => boxes.modify e.b fun box =>
      { box with v := box.v.modify j fun mem => mem.map fun _ => array m 8 e.vs }

/-- What the reading program needs: the variables have places, and arrays have the size of the
box. -/
structure Spec.Sound (ind : CStr → Option Nat) (boxes : List CBox) : Prop where
  place : ∀ n j, ind n = some j → ∀ box : CBox, box ∈ boxes → j < box.v.length
  size : ∀ (b : Nat) (box : CBox) (j : Nat) (mem : List Byte), boxes[b]? = some box → box.v[j]? = some (some mem) →
    mem.length = 8 * box.nnodes

theorem set_eq_modify {α : Type} {l : List α} {i : Nat} {x : α} (f : α → α) (h : l[i]? = some x) :
    l.set i (f x) = l.modify i f := by
  apply List.ext_getElem?
  intro k
  rw [List.getElem?_set, List.getElem?_modify]
  by_cases hk : i = k
  · subst hk
    obtain ⟨hl, hx⟩ := List.getElem?_eq_some_iff.1 h
    simp [hl, hx]
  · simp [hk]

theorem fgetparameter_box (b n : Nat) (X : CStr) :
    fgetparameter (" : box = ".toList ++ (fmtInt b ++ (" , box->nnodes = ".toList ++
      (fmtInt n ++ ('\n' :: X))))) "box".toList =
    some (fmtInt b, " , box->nnodes = ".toList ++ (fmtInt n ++ ('\n' :: X))) := by
  have e1 : " : box = ".toList = [' '] ++ ([':'] ++ ' ' :: ("box".toList ++ " = ".toList)) := by
    decide +kernel
  have e2 : " , box->nnodes = ".toList = ' ' :: ", box->nnodes = ".toList := by decide +kernel
  rw [e1, e2]
  have h := fgetparameter_skip (sp := [' ']) (by decide +kernel) (w := [':']) (par := "box".toList)
    (by decide +kernel) (c := ' ') (by decide +kernel) ("box".toList ++ (" = ".toList ++ (fmtInt b ++ ' ' ::
      (", box->nnodes = ".toList ++ (fmtInt n ++ ('\n' :: X)))))) (by decide +kernel)
  have h2 := fgetparameter_hit (sp := [' ']) (by decide +kernel) (par := "box".toList) (by decide +kernel)
    (fmtInt_word b) (c := ' ') (by decide +kernel) (", box->nnodes = ".toList ++ (fmtInt n ++ ('\n' :: X)))
  simp only [List.append_assoc, List.cons_append, List.nil_append] at h h2 ⊢
  rw [h, h2]

theorem fgetparameter_nnodes (n : Nat) (X : CStr) :
    fgetparameter (" , box->nnodes = ".toList ++ (fmtInt n ++ ('\n' :: X))) "box->nnodes".toList =
    some (fmtInt n, '\n' :: X) := by
  have e1 : " , box->nnodes = ".toList =
    [' '] ++ ([','] ++ ' ' :: ("box->nnodes".toList ++ " = ".toList)) := by decide +kernel
  rw [e1]
  have h := fgetparameter_skip (sp := [' ']) (by decide +kernel) (w := [',']) (par := "box->nnodes".toList)
    (by decide +kernel) (c := ' ') (by decide +kernel) ("box->nnodes".toList ++ (" = ".toList ++ (fmtInt n ++
      ('\n' :: X)))) (by decide +kernel)
  have h2 := fgetparameter_hit (sp := [' ']) (by decide +kernel) (par := "box->nnodes".toList) (by decide +kernel)
    (fmtInt_word n) (c := '\n') (by decide +kernel) X
  simp only [List.append_assoc, List.cons_append, List.nil_append] at h h2 ⊢
  rw [h, h2]

theorem readVar_spec {m : Bool} {ind : CStr → Option Nat} {boxes : List CBox} (hs : Sound ind boxes)
    (e : VEntry) {box : CBox} (hb : boxes[e.b]? = some box) (hn : box.nnodes = e.vs.length)
    (rest : CStr) :
    readVar m ind boxes e.name (e.tail ++ rest) = .ok (applyE m ind boxes e, '\n' :: rest) := by
  have hl : e.b < boxes.length := (List.getElem?_eq_some_iff.1 hb).1
  have hbe : boxes[e.b] = box := (List.getElem?_eq_some_iff.1 hb).2
  have hsc := fscanline_eq (size := bufSize) (l := []) (by simp) (by simp) (by decide +kernel)
    ((array true 8 e.vs).map chr ++ '\n' :: rest)
  rw [List.nil_append] at hsc
  have hd : ((array true 8 e.vs).map chr ++ '\n' :: rest).drop (8 * box.nnodes) = '\n' :: rest := by
    rw [List.drop_append_of_le_length (by simp [hn, Nat.mul_comm]), List.drop_of_length_le, List.nil_append]
    simp [hn, Nat.mul_comm]
  unfold readVar
  rw [VEntry.tail_eq]
  simp only [fgetparameter_box, Option.getD_some, fgetparameter_nnodes, atoi_fmtInt]
  rw [if_neg (by simp), Int.toNat_natCast, aget_ok hl, Res.bind_ok, hbe,
    if_neg (by simp [hn]), hsc, Res.bind_ok]
  unfold applyE
  cases hi : ind e.name with
  | none => simp only [hd]
  | some j =>
    have hj : j < box.v.length := hs.place _ _ hi box (hbe ▸ List.getElem_mem hl)
    have hjv : box.v[j]? = some box.v[j] := by simp [hj]
    simp only
    rw [aget_ok hj, Res.bind_ok]
    cases hm : box.v[j] with
    | none =>
      simp only [hd]
      congr 2
      apply List.ext_getElem?
      intro k
      rw [List.getElem?_modify]
      by_cases hk : e.b = k
      · subst hk
        rw [hb]
        simp only [if_true, Option.map_eq_map, Option.map_some, Option.some.injEq]
        obtain ⟨nn, v⟩ := box
        simp only [CBox.mk.injEq, true_and]
        apply List.ext_getElem?
        intro l
        rw [List.getElem?_modify]
        by_cases hl : j = l
        · subst hl; simp only at hjv hm; rw [hjv, hm]; simp
        · simp [hl]
      · simp [hk]
    | some mem =>
      rw [hm] at hjv
      have hsz := hs.size _ _ _ _ hb hjv
      obtain ⟨file, f1, f2⟩ := C23_doubles true m 0 0 e.vs mem ((('\n' :: rest)).map unchr)
        (by rw [hsz, hn, Nat.mul_comm])
      rw [fwriteDoubleLittle, C23_write_little true 0 8 (by decide +kernel), List.nil_append] at f1
      cases f1
      simp only
      rw [List.map_append, map_unchr_chr, hn, f2, Res.bind_ok, ← hn, hd]
      simp only
      rw [List.drop_of_length_le (by rw [hsz, hn, Nat.mul_comm]), List.append_nil, aput_ok _ hj,
        Res.bind_ok, aput_ok _ hl, Res.bind_ok]
      congr 2
      rw [← set_eq_modify _ hb, ← set_eq_modify _ hjv]
      rfl

theorem applyE_length (m : Bool) (ind : CStr → Option Nat) (boxes : List CBox) (e : VEntry) :
    (applyE m ind boxes e).length = boxes.length := by
  unfold applyE; split <;> simp

theorem applyE_nnodes (m : Bool) (ind : CStr → Option Nat) (boxes : List CBox) (e : VEntry)
    (b : Nat) : (applyE m ind boxes e)[b]?.map (·.nnodes) = boxes[b]?.map (·.nnodes) := by
  unfold applyE
  split
  · rfl
  · rw [List.getElem?_modify]
    split
    · rename_i h; subst h; simp [Function.comp_def]
    · simp

theorem applyE_memOf (m : Bool) (ind : CStr → Option Nat) (boxes : List CBox) (e : VEntry)
    (b j : Nat) : memOf (applyE m ind boxes e) b j =
      if e.b = b ∧ ind e.name = some j then
        (memOf boxes b j).map fun mem => mem.map fun _ => array m 8 e.vs
      else memOf boxes b j := by
  unfold applyE
  cases hi : ind e.name with
  | none => simp
  | some k =>
    simp only [memOf, List.getElem?_modify, Option.some.injEq]
    by_cases hb : e.b = b
    · subst hb
      cases h1 : boxes[e.b]? with
      | none => simp
      | some box =>
        simp only [if_true, Option.bind_some, true_and]
        by_cases hk : k = j
        · subst hk; simp
        · simp [hk]
    · simp [hb]

theorem applyE_sound {m : Bool} {ind : CStr → Option Nat} {boxes : List CBox}
    (hs : Sound ind boxes) (e : VEntry) {box : CBox} (hb : boxes[e.b]? = some box)
    (hn : box.nnodes = e.vs.length) : Sound ind (applyE m ind boxes e) := by
  constructor
  · intro n j hj box hbox
    unfold applyE at hbox
    split at hbox
    · exact hs.place n j hj box hbox
    · rcases mem_modify hbox with h | ⟨q, hq, rfl⟩
      · exact hs.place n j hj box h
      · simpa using hs.place n j hj q hq
  · intro b box' j mem h1 h2
    have h3 : memOf (applyE m ind boxes e) b j = some (some mem) := by simp [memOf, h1, h2]
    have hnn := applyE_nnodes m ind boxes e b
    rw [h1] at hnn
    cases hq : boxes[b]? with
    | none => rw [hq] at hnn; cases hnn
    | some q =>
      rw [hq] at hnn
      simp only [Option.map_some, Option.some.injEq] at hnn
      rw [applyE_memOf] at h3
      split at h3
      · rename_i hc
        obtain ⟨rfl, -⟩ := hc
        rw [hb] at hq; cases hq
        cases hm : memOf boxes e.b j with
        | none => rw [hm] at h3; cases h3
        | some o =>
          cases o with
          | none => rw [hm] at h3; cases h3
          | some old =>
            rw [hm] at h3
            simp only [Option.map_some, Option.some.injEq] at h3
            rw [← h3, array_length, hnn, hn, Nat.mul_comm]
      · simp only [memOf, hq, Option.bind_some] at h3
        rw [hnn]
        exact hs.size b q j mem hq h3

/-- Reading a list of entries. -/
theorem readVarsLoop_spec {m : Bool} {ind : CStr → Option Nat} (es : List VEntry)
    {boxes : List CBox} (hs : Sound ind boxes)
    (hes : ∀ e ∈ es, IsWord e.name ∧ boxes[e.b]?.map (·.nnodes) = some e.vs.length)
    {fuel : Nat} (hf : es.length < fuel) :
    readVarsLoop m ind fuel boxes ('\n' :: (es.flatMap VEntry.text ++ "$END_variables\n\n".toList)) =
      .ok (es.foldl (applyE m ind) boxes) := by
  induction es generalizing boxes fuel with
  | nil =>
    obtain ⟨fuel, rfl⟩ : ∃ k, fuel = k + 1 := ⟨fuel - 1, by simp at hf; omega⟩
    have h : fgetparameter ('\n' :: (([] : List VEntry).flatMap VEntry.text ++
        "$END_variables\n\n".toList)) "$variable".toList = none := by
      have h1 := fgetparameter_skip (sp := ['\n']) (by decide +kernel) (w := "$END_variables".toList)
        (par := "$variable".toList) (by decide +kernel) (c := '\n') (by decide +kernel) ['\n'] (by decide +kernel)
      have e : "$END_variables\n\n".toList = "$END_variables".toList ++ ['\n', '\n'] := by decide +kernel
      rw [e]
      exact h1.trans (fgetparameter_blank (by decide +kernel))
    rw [readVarsLoop, h]
    rfl
  | cons e es ih =>
    obtain ⟨fuel, rfl⟩ : ∃ k, fuel = k + 1 := ⟨fuel - 1, by simp at hf; omega⟩
    obtain ⟨hw, hn⟩ := hes e List.mem_cons_self
    obtain ⟨box, hb, hn⟩ := Option.map_eq_some_iff.1 hn
    have h : fgetparameter ('\n' :: ((e :: es).flatMap VEntry.text ++ "$END_variables\n\n".toList))
        "$variable".toList = some (e.name, e.tail ++ (es.flatMap VEntry.text ++
          "$END_variables\n\n".toList)) := by
      obtain ⟨X, hX⟩ : ∃ X, e.tail ++ (es.flatMap VEntry.text ++ "$END_variables\n\n".toList) =
          ' ' :: X := by
        have e2 : " : box = ".toList = ' ' :: ": box = ".toList := by decide +kernel
        rw [VEntry.tail_eq, e2, List.cons_append]
        exact ⟨_, rfl⟩
      have := fgetparameter_hit (sp := ['\n']) (by decide +kernel) (par := "$variable".toList) (by decide +kernel)
        hw (c := ' ') (by decide +kernel) X
      have e3 : (e :: es).flatMap VEntry.text ++ "$END_variables\n\n".toList =
          "$variable".toList ++ (" = ".toList ++ (e.name ++ ' ' :: X)) := by
        rw [List.flatMap_cons, List.append_assoc, VEntry.text_split, hX]
      rw [e3, hX]
      exact this
    rw [readVarsLoop, h]
    simp only
    rw [readVar_spec hs e hb hn, Res.bind_ok]
    refine ih (applyE_sound hs e hb hn) ?_ (by simp at hf; omega)
    intro e' he'
    obtain ⟨a1, a2⟩ := hes e' (List.mem_cons_of_mem _ he')
    exact ⟨a1, by rw [applyE_nnodes]; exact a2⟩

theorem foldl_nnodes (m : Bool) (ind : CStr → Option Nat) (es : List VEntry) (boxes : List CBox) :
    (es.foldl (applyE m ind) boxes).map (·.nnodes) = boxes.map (·.nnodes) := by
  induction es generalizing boxes with
  | nil => rfl
  | cons e es ih =>
    rw [List.foldl_cons, ih]
    apply List.ext_getElem?
    intro k
    simpa using applyE_nnodes m ind boxes e k

theorem foldl_memOf_other (m : Bool) (ind : CStr → Option Nat) (es : List VEntry)
    (boxes : List CBox) (b j : Nat) (h : ∀ e ∈ es, ¬ (e.b = b ∧ ind e.name = some j)) :
    memOf (es.foldl (applyE m ind) boxes) b j = memOf boxes b j := by
  induction es generalizing boxes with
  | nil => rfl
  | cons e es ih =>
    rw [List.foldl_cons, ih _ fun e' he' => h e' (List.mem_cons_of_mem _ he'), applyE_memOf,
      if_neg (h e List.mem_cons_self)]

theorem foldl_memOf_hit (m : Bool) (ind : CStr → Option Nat) (es : List VEntry)
    (boxes : List CBox) (b j : Nat) (vs : List Nat)
    (h : ∀ e ∈ es, e.b = b ∧ ind e.name = some j → e.vs = vs)
    (hx : ∃ e ∈ es, e.b = b ∧ ind e.name = some j) :
    memOf (es.foldl (applyE m ind) boxes) b j =
      (memOf boxes b j).map fun mem => mem.map fun _ => array m 8 vs := by
  induction es generalizing boxes with
  | nil => obtain ⟨e, he, -⟩ := hx; cases he
  | cons e es ih =>
    rw [List.foldl_cons]
    have hrest := fun e' he' => h e' (List.mem_cons_of_mem _ he')
    by_cases hx' : ∃ e ∈ es, e.b = b ∧ ind e.name = some j
    · rw [ih _ hrest hx', applyE_memOf]
      split
      · cases memOf boxes b j with
        | none => rfl
        | some o => cases o <;> rfl
      · rfl
    · rw [foldl_memOf_other _ _ _ _ _ _ fun e' he' hc => hx' ⟨e', he', hc⟩, applyE_memOf]
      obtain ⟨e', he', hc⟩ := hx
      rcases List.mem_cons.1 he' with rfl | he'
      · rw [if_pos hc, h _ List.mem_cons_self hc]
      · exact absurd ⟨e', he', hc⟩ hx'

theorem mem_entriesOf {names : List CStr} {boxes : List CBox} {idx : List Nat}
    {vals : Nat → Nat → List Nat} {e : VEntry} :
    e ∈ entriesOf names boxes idx vals ↔ ∃ i ∈ idx, ∃ mem, memOf boxes e.b i = some (some mem) ∧
      names[i]? = some e.name ∧ e.vs = vals e.b i := by
  simp only [entriesOf, List.mem_flatMap, List.mem_range, Option.mem_toList]
  constructor
  · rintro ⟨b, hb, j, hj, h⟩
    simp only [entryOf, Option.bind_eq_some_iff, Option.map_eq_some_iff] at h
    obtain ⟨i, hi, o, ho, mem, rfl, n, hn, rfl⟩ := h
    exact ⟨i, List.mem_of_getElem? hi, mem, ho, hn, rfl⟩
  · rintro ⟨i, hi, mem, hm, hn, hv⟩
    obtain ⟨j, hj, hji⟩ := List.getElem_of_mem hi
    obtain ⟨b, name, vs⟩ := e
    simp only at hm hn hv
    subst hv
    have hb : b < boxes.length := by
      unfold memOf at hm
      cases h : boxes[b]? with
      | none => rw [h] at hm; cases hm
      | some box => exact (List.getElem?_eq_some_iff.1 h).1
    exact ⟨b, hb, j, hj, by simp [entryOf, List.getElem?_eq_getElem hj, hji, hm, hn]⟩

/-- C64: the variables written by a program with byte order `mW` are read by one with byte order
`mR`: after reading, a variable that was written and has storage here has exactly the values it
had when the checkpoint was written, and everything else is as before. Variables are identified by
their names; `idx` is the list of variables written. The grids have the same number of points in
each box with written variables. `sp` is the white space left by the parameter section. -/
theorem C64_roundtrip (mW mR : Bool) (names : List CStr) (boxesW boxesR : List CBox)
    (idx : List Nat) (vals : Nat → Nat → List Nat) (ind : CStr → Option Nat) (sp : CStr)
    (hsp : IsBlank sp) (hg : Grid mW boxesW vals)
    (hidx : ∀ i ∈ idx, i < names.length ∧ ∀ box ∈ boxesW, i < box.v.length)
    (hwords : ∀ n ∈ names, IsWord n) (hnd : names.Nodup) (hs : Sound ind boxesR)
    (hind : ∀ n n' j, ind n = some j → ind n' = some j → n = n')
    (hnn : ∀ b, b < boxesW.length → boxesR[b]?.map (·.nnodes) = boxesW[b]?.map (·.nnodes)) :
    ∃ text boxes', writeVars mW names boxesW idx = .ok text ∧
      readVars mR ind boxesR (sp ++ text) = .ok boxes' ∧
      boxes'.map (·.nnodes) = boxesR.map (·.nnodes) ∧
      (∀ b i n j, i ∈ idx → names[i]? = some n → ind n = some j →
        (∃ mem, memOf boxesW b i = some (some mem)) →
        ∀ old, memOf boxesR b j = some (some old) →
        memOf boxes' b j = some (some (array mR 8 (vals b i)))) ∧
      (∀ b j, (memOf boxesR b j = none ∨ memOf boxesR b j = some none ∨
          ∀ i ∈ idx, ∀ n mem, names[i]? = some n → ind n = some j →
            memOf boxesW b i ≠ some (some mem)) →
        memOf boxes' b j = memOf boxesR b j) := by
  set es := entriesOf names boxesW idx vals with hes
  have hesn : ∀ e ∈ es, IsWord e.name ∧ boxesR[e.b]?.map (·.nnodes) = some e.vs.length := by
    intro e he
    obtain ⟨i, hi, mem, hm, hn, hv⟩ := mem_entriesOf.1 he
    refine ⟨hwords _ (List.mem_of_getElem? hn), ?_⟩
    unfold memOf at hm
    obtain ⟨box, hb, hb2⟩ := Option.bind_eq_some_iff.1 hm
    have hl := (List.getElem?_eq_some_iff.1 hb).1
    rw [hnn e.b hl, hb, hv, (hg.mem _ _ _ _ hb hb2).2]
    rfl
  have huniq : ∀ (b i : Nat) (n : CStr) (j : Nat), names[i]? = some n → ind n = some j →
      ∀ e ∈ es, e.b = b ∧ ind e.name = some j → e.vs = vals b i := by
    rintro b i n j hn hj e he ⟨rfl, hej⟩
    obtain ⟨i', hi', mem, hm, hn', hv⟩ := mem_entriesOf.1 he
    have := hind _ _ _ hej hj
    rw [this] at hn'
    obtain ⟨l1, g1⟩ := List.getElem?_eq_some_iff.1 hn
    obtain ⟨l2, g2⟩ := List.getElem?_eq_some_iff.1 hn'
    have : i = i' := (List.getElem_inj hnd).1 (g1.trans g2.symm)
    rw [hv, this]
  refine ⟨_, es.foldl (applyE mR ind) boxesR, writeVars_spec hg hidx, ?_, foldl_nnodes _ _ _ _,
    ?_, ?_⟩
  · have e1 : "$BEGIN_variables:\n".toList = "$BEGIN_variables:".toList ++ ['\n'] := by decide +kernel
    have h1 := fgotonext_hit hsp (w := "$BEGIN_variables:".toList) (by decide +kernel) (c := '\n')
      (by decide +kernel) (es.flatMap VEntry.text ++ "$END_variables\n\n".toList)
    unfold readVars
    rw [e1, ← hes]
    rw [List.append_assoc, List.append_assoc, List.singleton_append, h1]
    refine readVarsLoop_spec es hs hesn ?_
    have : ∀ l : List VEntry, l.length ≤ (l.flatMap VEntry.text).length := by
      intro l
      induction l with
      | nil => simp
      | cons e l ih =>
        rw [List.flatMap_cons, List.length_append, List.length_cons]
        have := e.text_pos
        omega
    have := this es
    rw [List.length_cons, List.length_append]
    omega
  · rintro b i n j hi hn hj ⟨mem, hm⟩ old hold
    have he : (⟨b, n, vals b i⟩ : VEntry) ∈ es := mem_entriesOf.2 ⟨i, hi, mem, hm, hn, rfl⟩
    rw [foldl_memOf_hit mR ind es boxesR b j (vals b i) (huniq b i n j hn hj) ⟨_, he, rfl, hj⟩, hold]
    rfl
  · intro b j h
    by_cases hx : ∃ e ∈ es, e.b = b ∧ ind e.name = some j
    · obtain ⟨e, he, rfl, hej⟩ := hx
      obtain ⟨i, hi, mem, hm, hn, hv⟩ := mem_entriesOf.1 he
      rw [foldl_memOf_hit mR ind es boxesR e.b j (vals e.b i) (huniq e.b i e.name j hn hej)
        ⟨e, he, rfl, hej⟩]
      rcases h with h | h | h
      · rw [h]; rfl
      · rw [h]; rfl
      · exact absurd hm (h i hi _ _ hn hej)
    · exact foldl_memOf_other _ _ _ _ _ _ fun e he hc => hx ⟨e, he, hc⟩

/-- C64: a variable of a box with another number of points ends the program. -/
theorem C64_nnodes (m : Bool) (ind : CStr → Option Nat) (boxes : List CBox) (e : VEntry) (box : CBox)
    (hb : boxes[e.b]? = some box) (hn : box.nnodes ≠ e.vs.length) (rest : CStr) :
    readVar m ind boxes e.name (e.tail ++ rest) = .abort := by
  have hl : e.b < boxes.length := (List.getElem?_eq_some_iff.1 hb).1
  have hbe : boxes[e.b] = box := (List.getElem?_eq_some_iff.1 hb).2
  unfold readVar
  rw [VEntry.tail_eq]
  simp only [fgetparameter_box, Option.getD_some, fgetparameter_nnodes, atoi_fmtInt]
  rw [if_neg (by simp), Int.toNat_natCast, aget_ok hl, Res.bind_ok, hbe,
    if_pos (by exact_mod_cast Ne.symm hn)]

/-- Two boxes written on a big-endian machine and read on a little-endian one; variable `u` has
got another number, `w` is new and `q` gone. -/
def exWritten : List CBox :=
  [⟨2, [some (array false 8 [1, 258]), none, some (array false 8 [7, 8])]⟩,
   ⟨1, [some (array false 8 [2 ^ 63]), some (array false 8 [5]), none]⟩]

def exTarget : List CBox :=
  [⟨2, [some (array true 8 [0, 0]), some (array true 8 [9, 9])]⟩,
   ⟨1, [some (array true 8 [3]), some (array true 8 [4])]⟩]

example : ((writeVars false ["u".toList, "q".toList, "r".toList] exWritten [0, 1, 2]).bind fun t =>
    (readVars true (fun n => if n = "w".toList then some 0 else if n = "u".toList then some 1
      else none) exTarget ('\n' :: t)).map fun g => g.map (·.v)) =
    .ok [[some (array true 8 [0, 0]), some (array true 8 [1, 258])],
      [some (array true 8 [3]), some (array true 8 [2 ^ 63])]] := by decide +kernel

end Sgrid
