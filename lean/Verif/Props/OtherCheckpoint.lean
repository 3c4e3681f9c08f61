import Verif.Model.OtherCheckpoint
import Verif.Lemmas.Wolfio
import Verif.Props.Params
import Verif.Props.NextEntry

/-!
C172: the parameters that are taken from another checkpoint.
-/

namespace Sgrid
open Spec

namespace Spec

/-- The parameters of box b that decide where it is. -/
def boxNames (b : Nat) : List CStr :=
  ["_min1", "_max1", "_min2", "_max2", "_min3", "_max3", "_CI_s", "_CI_xc"].map fun t =>
    "box".toList ++ Wolfio.fmtNat b ++ t.toList

/-- The parameters of all boxes. -/
def allBoxNames (n : Nat) : List CStr := (List.range n).flatMap boxNames

end Spec

theorem fmtNat_len {n : Nat} (h : n < 10000) : (Wolfio.fmtNat n).length ≤ 4 := by
  rw [Wolfio.fmtNat]
  split
  · simp
  · rw [Wolfio.fmtNat]
    split
    · simp
    · rw [Wolfio.fmtNat]
      split
      · simp
      · rw [Wolfio.fmtNat, if_pos (by omega)]
        simp

theorem fmtNat_clean (n : Nat) : ' ' ∉ Wolfio.fmtNat n ∧ '\x00' ∉ Wolfio.fmtNat n := by
  have h := (Wolfio.fmtNat_props n).2
  constructor
  · intro hc
    have := (h _ hc).1
    revert this; decide
  · intro hc
    have := (h _ hc).1
    revert this; decide

/-- The list as one string. -/
def joinNames (l : CStr) (names : List CStr) : CStr := l ++ names.flatMap (fun s => ' ' :: s)

theorem joinNames_append (l : CStr) (a b : List CStr) : joinNames (joinNames l a) b = joinNames l (a ++ b) := by
  simp [joinNames]

theorem joinNames_entries (l : CStr) (names : List CStr) (h : ∀ s ∈ names, ' ' ∉ s) :
    entries (joinNames l names) = entries l ++ names := by
  induction names generalizing l with
  | nil => simp [joinNames]
  | cons s names ih =>
    have e : joinNames l (s :: names) = joinNames (l ++ ' ' :: s) names := by simp [joinNames]
    rw [e, ih _ (fun t ht => h t (List.mem_cons_of_mem _ ht)), entries_append_blank,
      entries_of_not_mem (h s List.mem_cons_self)]
    simp

theorem boxNames_clean {b : Nat} {s : CStr} (h : s ∈ Spec.boxNames b) : ' ' ∉ s ∧ '\x00' ∉ s := by
  simp only [Spec.boxNames, List.mem_map] at h
  obtain ⟨t, ht, rfl⟩ := h
  have key : ∀ t ∈ ["_min1", "_max1", "_min2", "_max2", "_min3", "_max3", "_CI_s", "_CI_xc"],
      ' ' ∉ t.toList ∧ '\x00' ∉ t.toList := by decide
  obtain ⟨k1, k2⟩ := key t ht
  obtain ⟨f1, f2⟩ := fmtNat_clean b
  constructor
  · intro hc
    simp only [List.mem_append, f1, k1, or_false] at hc
    revert hc; decide
  · intro hc
    simp only [List.mem_append, f2, k2, or_false] at hc
    revert hc; decide

theorem allBoxNames_clean {n : Nat} {s : CStr} (h : s ∈ Spec.allBoxNames n) : ' ' ∉ s ∧ '\x00' ∉ s := by
  simp only [Spec.allBoxNames, List.mem_flatMap] at h
  obtain ⟨b, _, hb⟩ := h
  exact boxNames_clean hb

theorem boxParStr_eq {b : Nat} (hb : b < 10000) (t : String) (ht : t.toList.length ≤ 6) :
    boxParStr b t = ' ' :: ("box".toList ++ Wolfio.fmtNat b ++ t.toList) := by
  have h1 : boxParStr b t = " box".toList ++ Wolfio.fmtNat b ++ t.toList := by
    unfold boxParStr
    apply List.take_of_length_le
    have := fmtNat_len hb
    have e : " box".toList.length = 4 := by decide
    simp only [List.length_append, e]
    omega
  rw [h1]
  have e : " box".toList = ' ' :: "box".toList := by decide
  rw [e]
  simp

theorem appendTo_ok {size : Nat} {s add : CStr} (h : s.length + add.length + 1 ≤ size) :
    appendTo size s add = .ok (s ++ add) := if_pos h

/-- C172: with 1 to 10000 boxes the list has room in its buffer and contains the names. -/
theorem C172_list (parlist1 : CStr) {nboxes : Nat} (h1 : 1 ≤ nboxes) (h2 : nboxes ≤ 10000) :
    ∃ l, buildParlist parlist1 nboxes = .ok l ∧ l = joinNames parlist1 (Spec.allBoxNames nboxes) ∧
      entries l = entries parlist1 ++ Spec.allBoxNames nboxes := by
  unfold buildParlist
  dsimp only
  rw [appendTo_ok (by simp; omega)]
  simp only [Res.bind_ok, List.nil_append]
  have := forN_inv (n := nboxes) (s := parlist1) (body := fun b l =>
    (appendTo (parlist1.length + nboxes * 8 * 14) l (boxParStr b "_min1")).bind fun l =>
    (appendTo (parlist1.length + nboxes * 8 * 14) l (boxParStr b "_max1")).bind fun l =>
    (appendTo (parlist1.length + nboxes * 8 * 14) l (boxParStr b "_min2")).bind fun l =>
    (appendTo (parlist1.length + nboxes * 8 * 14) l (boxParStr b "_max2")).bind fun l =>
    (appendTo (parlist1.length + nboxes * 8 * 14) l (boxParStr b "_min3")).bind fun l =>
    (appendTo (parlist1.length + nboxes * 8 * 14) l (boxParStr b "_max3")).bind fun l =>
    (appendTo (parlist1.length + nboxes * 8 * 14) l (boxParStr b "_CI_s")).bind fun l =>
    appendTo (parlist1.length + nboxes * 8 * 14) l (boxParStr b "_CI_xc"))
    (fun b l => l.length ≤ parlist1.length + b * 105 ∧ l = joinNames parlist1 (Spec.allBoxNames b))
    ⟨by simp, by simp [joinNames, Spec.allBoxNames]⟩ (by
      rintro b hb l ⟨hl, he⟩
      have hd := fmtNat_len (show b < 10000 by omega)
      have L : ∀ t : String, t.toList.length ≤ 6 → (boxParStr b t).length = 4 + (Wolfio.fmtNat b).length + t.toList.length := by
        intro t ht
        rw [boxParStr_eq (by omega) t ht]
        have e : "box".toList.length = 3 := by decide
        simp only [List.length_cons, List.length_append, e]
        omega
      have c1 := L "_min1" (by decide)
      have c2 := L "_max1" (by decide)
      have c3 := L "_min2" (by decide)
      have c4 := L "_max2" (by decide)
      have c5 := L "_min3" (by decide)
      have c6 := L "_max3" (by decide)
      have c7 := L "_CI_s" (by decide)
      have c8 := L "_CI_xc" (by decide)
      rw [show "_min1".toList.length = 5 by decide] at c1
      rw [show "_max1".toList.length = 5 by decide] at c2
      rw [show "_min2".toList.length = 5 by decide] at c3
      rw [show "_max2".toList.length = 5 by decide] at c4
      rw [show "_min3".toList.length = 5 by decide] at c5
      rw [show "_max3".toList.length = 5 by decide] at c6
      rw [show "_CI_s".toList.length = 5 by decide] at c7
      rw [show "_CI_xc".toList.length = 6 by decide] at c8
      rw [appendTo_ok (by omega), Res.bind_ok,
        appendTo_ok (by simp only [List.length_append]; omega), Res.bind_ok,
        appendTo_ok (by simp only [List.length_append]; omega), Res.bind_ok,
        appendTo_ok (by simp only [List.length_append]; omega), Res.bind_ok,
        appendTo_ok (by simp only [List.length_append]; omega), Res.bind_ok,
        appendTo_ok (by simp only [List.length_append]; omega), Res.bind_ok,
        appendTo_ok (by simp only [List.length_append]; omega), Res.bind_ok,
        appendTo_ok (by simp only [List.length_append]; omega)]
      refine ⟨_, rfl, by simp only [List.length_append]; omega, ?_⟩
      have ea : Spec.allBoxNames (b + 1) = Spec.allBoxNames b ++ Spec.boxNames b := by
        simp [Spec.allBoxNames, List.range_succ]
      rw [ea, ← joinNames_append, ← he]
      have hb' : b < 10000 := by omega
      simp only [boxParStr_eq hb' "_min1" (by decide), boxParStr_eq hb' "_max1" (by decide),
        boxParStr_eq hb' "_min2" (by decide), boxParStr_eq hb' "_max2" (by decide),
        boxParStr_eq hb' "_min3" (by decide), boxParStr_eq hb' "_max3" (by decide),
        boxParStr_eq hb' "_CI_s" (by decide), boxParStr_eq hb' "_CI_xc" (by decide)]
      simp only [joinNames, Spec.boxNames, List.map_cons, List.map_nil, List.flatMap_cons, List.flatMap_nil,
        List.append_assoc, List.append_nil, List.cons_append])
  obtain ⟨l, hl, -, he⟩ := this
  exact ⟨l, hl, he, by rw [he, joinNames_entries _ _ fun s hs => (allBoxNames_clean hs).1]⟩

/-- C172: without boxes the buffer has no room for the end of the string. -/
theorem C172_no_boxes_counterexample (parlist1 : CStr) : buildParlist parlist1 0 = .ub := by
  have : appendTo (parlist1.length + 0 * 8 * 14) [] parlist1 = .ub := if_neg (by simp)
  unfold buildParlist
  dsimp only
  rw [this]
  rfl

/-- The values are taken one after the other. -/
theorem takePars_entries {ν : Type} (C : Conv ν) {parlist : CStr} {db2 : PDB ν} {f : CStr → CStr} :
    ∀ (es : List CStr) (st : NE) (db : PDB ν), db.Inv C →
      (nextEntries parlist (es.length + 1) st).2 = es.map some ++ [none] →
      (∀ n ∈ es, db2.gets n = .ok (f n)) → (∀ n ∈ es, (db.find n).isSome) →
      ∃ db', takePars C parlist db2 (es.length + 1) st db = some (.ok db') ∧ db'.Inv C ∧
        (∀ n ∈ es, db'.gets n = .ok (translate (f n))) ∧ ∀ n, n ∉ es → db'.find n = db.find n := by
  intro es
  induction es with
  | nil =>
    intro st db hi hne _ _
    refine ⟨db, ?_, hi, by simp, fun _ _ => rfl⟩
    have h : (nextEntry st (some parlist)).2 = none := by simpa [nextEntries] using hne
    rw [List.length_nil, takePars]
    rcases e : nextEntry st (some parlist) with ⟨a, _ | b⟩
    · rfl
    · rw [e] at h; cases h
  | cons n es ih =>
    intro st db hi hne hg hf
    rw [List.length_cons, nextEntries] at hne
    rcases e : nextEntry st (some parlist) with ⟨a, b⟩
    rw [e] at hne
    simp only [List.map_cons, List.cons_append, List.cons.injEq] at hne
    obtain ⟨rfl, hrest⟩ := hne
    obtain ⟨p, hp⟩ := Option.isSome_iff_exists.1 (hf n List.mem_cons_self)
    obtain ⟨db1, e1, i1, -, f1⟩ := PDB.set_spec (v := f n) hi hp
    obtain ⟨db', e2, i2, g2, k2⟩ := ih a db1 i1 hrest (fun m hm => hg m (List.mem_cons_of_mem _ hm)) (fun m hm => by
      rw [f1 m]
      split
      · rfl
      · exact hf m (List.mem_cons_of_mem _ hm))
    refine ⟨db', ?_, i2, ?_, ?_⟩
    · rw [List.length_cons, takePars, e]
      simp only [hg n List.mem_cons_self, e1]
      exact e2
    · intro m hm
      by_cases h : m ∈ es
      · exact g2 m h
      · have hmn : m = n := by
          rcases List.mem_cons.1 hm with h' | h'
          · exact h'
          · exact absurd h' h
        subst hmn
        unfold PDB.gets
        rw [k2 m h, f1 m, if_pos rfl]
        rfl
    · intro m hm
      rw [List.mem_cons, not_or] at hm
      rw [k2 m hm.2, f1 m, if_neg hm.1]

/-- C172: the parameters of the list and those of the boxes get the values of the other checkpoint, all others
keep theirs. -/
theorem C172_values {ν : Type} (C : Conv ν) {parlist1 : CStr} (hne : parlist1 ≠ []) (h0 : '\x00' ∉ parlist1)
    (hb : parlist1.head? ≠ some ' ') {nboxes : Nat} (h1 : 1 ≤ nboxes) (h2 : nboxes ≤ 10000) (st : NE) {db db2 : PDB ν}
    (hi : db.Inv C) (f : CStr → CStr)
    (hg : ∀ n ∈ entries parlist1 ++ Spec.allBoxNames nboxes, db2.gets n = .ok (f n))
    (hf : ∀ n ∈ entries parlist1 ++ Spec.allBoxNames nboxes, (db.find n).isSome) :
    ∃ fuel db', getOtherPars C parlist1 nboxes fuel st db db2 = some (.ok db') ∧ db'.Inv C ∧
      (∀ n ∈ entries parlist1 ++ Spec.allBoxNames nboxes, db'.gets n = .ok (translate (f n))) ∧
      ∀ n, n ∉ entries parlist1 ++ Spec.allBoxNames nboxes → db'.gets n = db.gets n := by
  obtain ⟨l, e, hl, he⟩ := C172_list parlist1 h1 h2
  have l1 : l ≠ [] := by
    rw [hl]; simp [joinNames, hne]
  have l2 : '\x00' ∉ l := by
    rw [hl]
    simp only [joinNames, List.mem_append, h0, false_or, List.mem_flatMap, List.mem_cons, not_exists, not_and, not_or]
    intro s hs
    exact ⟨by decide, (allBoxNames_clean hs).2⟩
  have l3 : l.head? ≠ some ' ' := by
    rw [hl]
    cases parlist1 with
    | nil => exact absurd rfl hne
    | cons c t => simpa [joinNames] using hb
  have hn := C05_nextEntry_partial l l1 l2 l3 1 (nextEntry st none).1 rfl
  simp only [Nat.one_mul, List.replicate_one, List.flatten_cons, List.flatten_nil, List.append_nil] at hn
  rw [he] at hn
  obtain ⟨db', t, i, g, k⟩ := takePars_entries C _ _ db hi hn hg hf
  refine ⟨(entries parlist1 ++ Spec.allBoxNames nboxes).length + 1, db', ?_, i, g, fun n hn => by unfold PDB.gets; rw [k n hn]⟩
  unfold getOtherPars
  rw [e]
  exact t

/-- C172: with an empty list of parameters the list begins with a blank, and the program stops at the first entry. -/
theorem C172_empty_counterexample {ν : Type} (C : Conv ν) {nboxes : Nat} (h1 : 1 ≤ nboxes) (h2 : nboxes ≤ 10000) (st : NE)
    (db : PDB ν) {db2 : PDB ν} (h : db2.find [] = none) (fuel : Nat) :
    getOtherPars C [] nboxes (fuel + 1) st db db2 = some .abort := by
  obtain ⟨l, e, hl, -⟩ := C172_list [] h1 h2
  have : ∃ t, l = ' ' :: t := by
    obtain ⟨k, rfl⟩ := Nat.exists_eq_add_of_le h1
    rw [hl, Nat.add_comm]
    simp [joinNames, Spec.allBoxNames, List.range_succ_eq_map, Spec.boxNames]
  obtain ⟨t, rfl⟩ := this
  have hn := C05_leading_blank t 1 (nextEntry st none).1 rfl
  simp only [nextEntries, List.replicate_one, List.cons.injEq, and_true] at hn
  unfold getOtherPars
  rw [e]
  simp only
  rw [takePars]
  rcases e2 : nextEntry (nextEntry st none).1 (some (' ' :: t)) with ⟨a, b⟩
  rw [e2] at hn
  simp only at hn
  subst hn
  simp [PDB.gets, h]

/-- The list for one box. -/
example : buildParlist "a b".toList 1 =
    .ok "a b box0_min1 box0_max1 box0_min2 box0_max2 box0_min3 box0_max3 box0_CI_s box0_CI_xc".toList := by
  decide +kernel

end Sgrid
