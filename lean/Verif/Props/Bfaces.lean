import Verif.Props.PointList

/-! C18: boundary faces. C19: active boxes. -/

namespace Sgrid
open CList

namespace Spec

/-- A face: number of the box side (-1 if several) and its points (`none`: no list yet). -/
abbrev Face := Int × Option (List Int)

/-- Calls on the faces of a box. -/
inductive FaceOp where
  | addEmpty (f : Int)
  | addPoint (fi ijk f : Int)
  | remove (fi : Int)
  | removeNull

/-- What the calls do to the list of faces. -/
def FaceOp.act (l : List Face) : FaceOp → List Face
  | .addEmpty f => l ++ [(f, none)]
  | .addPoint fi ijk f =>
    if 0 ≤ fi ∧ fi < l.length then
      l.modify fi.toNat fun a => (if a.1 = f then a.1 else -1, some (a.2.getD [] ++ [ijk]))
    else l ++ [(f, some [ijk])]
  | .remove fi => if 0 ≤ fi ∧ fi < l.length then l.eraseIdx fi.toNat else l
  | .removeNull => l.filter fun a => a.2.isSome

end Spec

/-- One call of the program (`nb` boxes, faces of box `b`). -/
def FaceOp.step (nb b : Nat) (bf : List Bface) : Spec.FaceOp → Res (List Bface)
  | .addEmpty f => .ok (Bfaces.addEmpty bf f)
  | .addPoint fi ijk f => (Bfaces.addPoint nb b bf fi ijk f).map Prod.fst
  | .remove fi => (Bfaces.remove bf fi).map Prod.fst
  | .removeNull => (Bfaces.removeNull (bf.length + 1) 0 0 bf).map Prod.fst

/-- A history of calls. -/
def FaceOp.run (nb b : Nat) : List Spec.FaceOp → List Bface → Res (List Bface)
  | [], bf => .ok bf
  | o :: os, bf => (FaceOp.step nb b bf o).bind (FaceOp.run nb b os)

/-- A stored face agrees with an abstract one, leaving out its number. -/
def Bface.Is (nb b : Nat) (x : Bface) (a : Spec.Face) : Prop :=
  x.f = a.1 ∧ match a.2 with
    | none => x.fpts = none
    | some l => ∃ pl, x.fpts = some pl ∧ pl.Rep (fun b' => if b' = b then l else []) [b] nb

/-- The stored faces agree with the abstract ones and each face's number is its position. -/
def BfRep (nb b : Nat) (bf : List Bface) (l : List Spec.Face) : Prop :=
  bf.length = l.length ∧
  ∀ (i : Nat) (x : Bface) (a : Spec.Face), bf[i]? = some x → l[i]? = some a →
    x.fi = i ∧ x.Is nb b a

theorem Bface.Is.setFi {nb b : Nat} {x : Bface} {a : Spec.Face} (h : x.Is nb b a) (k : Nat) :
    Bface.Is nb b { x with fi := k } a := h

theorem BfRep.append {nb b : Nat} {bf : List Bface} {l : List Spec.Face} (h : BfRep nb b bf l)
    {x : Bface} {a : Spec.Face} (hx : x.fi = bf.length) (hi : x.Is nb b a) :
    BfRep nb b (bf ++ [x]) (l ++ [a]) := by
  refine ⟨by simp [h.1], fun i y c hy hc => ?_⟩
  by_cases hil : i < bf.length
  · rw [List.getElem?_append_left hil] at hy
    rw [List.getElem?_append_left (by rw [← h.1]; exact hil)] at hc
    exact h.2 i y c hy hc
  · rw [List.getElem?_append_right (by omega)] at hy
    rw [List.getElem?_append_right (by rw [← h.1]; omega)] at hc
    have hz : i - bf.length = 0 := by
      by_contra hz
      rw [List.getElem?_eq_none (by simp; omega)] at hy; cases hy
    rw [← h.1, hz] at hc
    rw [hz] at hy
    simp only [List.getElem?_cons_zero, Option.some.injEq] at hy hc
    subst hy; subst hc
    exact ⟨by omega, hi⟩

theorem BfRep.set {nb b : Nat} {bf : List Bface} {l : List Spec.Face} (h : BfRep nb b bf l)
    {k : Nat} {x : Bface} {a : Spec.Face} (hx : x.fi = k) (hi : x.Is nb b a) :
    BfRep nb b (bf.set k x) (l.set k a) := by
  refine ⟨by simp [h.1], fun i y c hy hc => ?_⟩
  rw [List.getElem?_set] at hy hc
  by_cases hk : k = i
  · rw [if_pos hk] at hy hc
    split at hy
    · rw [if_pos (by rw [← h.1]; assumption)] at hc
      cases hy; cases hc
      exact ⟨by omega, hi⟩
    · cases hy
  · rw [if_neg hk] at hy hc
    exact h.2 i y c hy hc

/-- C18: removing a face removes exactly this face, keeps the order and renumbers. -/
theorem C18_remove {nb b : Nat} {bf : List Bface} {l : List Spec.Face} (h : BfRep nb b bf l)
    {fi : Nat} (hfi : fi < l.length) :
    ∃ bf', Bfaces.remove bf fi = .ok (bf', 1) ∧ BfRep nb b bf' (l.eraseIdx fi) := by
  have hlen := h.1
  obtain ⟨t, h1, h2, h3, h4⟩ := forN_inv (n := bf.length - 1 - fi) (s := bf)
    (body := fun k a => (aget a (fi + k + 1)).bind fun x => aput a (fi + k) { x with fi := fi + k })
    (fun k (t : List Bface) => t.length = bf.length ∧
      (∀ i : Nat, i < fi ∨ fi + k ≤ i → t[i]? = bf[i]?) ∧
      ∀ i : Nat, fi ≤ i → i < fi + k →
        t[i]? = (bf[i + 1]?).map fun x => { x with fi := i })
    ⟨rfl, fun _ _ => rfl, fun i _ _ => by omega⟩
    (by
      rintro k hk t ⟨h1, h2, h3⟩
      have hk1 : fi + k + 1 < t.length := by omega
      refine ⟨t.set (fi + k) { t[fi + k + 1] with fi := fi + k }, by
        rw [aget_ok hk1, Res.bind_ok, aput_ok _ (by omega)], by simpa using h1, ?_, ?_⟩
      · intro i hi
        rw [List.getElem?_set, if_neg (by omega)]
        exact h2 i (by omega)
      · intro i hi1 hi2
        rw [List.getElem?_set]
        by_cases he : fi + k = i
        · subst he
          have := h2 (fi + k + 1) (by omega)
          rw [List.getElem?_eq_getElem hk1] at this
          rw [if_pos rfl, if_pos (by omega), ← this]; rfl
        · rw [if_neg he]; exact h3 i hi1 (by omega))
  refine ⟨t.take (bf.length - 1), ?_, ?_⟩
  · have hc : ¬ (((fi : Nat) : Int) < 0 ∨ ((fi : Nat) : Int) ≥ bf.length) := by omega
    simp only [Bfaces.remove, hc, if_false, Int.toNat_natCast, h1, Res.bind_ok]
  · refine ⟨?_, fun i x a hx ha => ?_⟩
    · rw [List.length_take, h2, List.length_eraseIdx, if_pos hfi]; omega
    · rw [List.getElem?_take] at hx
      split at hx
      case isFalse => cases hx
      rename_i hi
      rw [List.getElem?_eraseIdx] at ha
      by_cases hif : i < fi
      · rw [if_pos hif] at ha
        rw [h3 i (.inl hif)] at hx
        exact h.2 i x a hx ha
      · rw [if_neg hif] at ha
        rw [h4 i (by omega) (by omega)] at hx
        cases hy : bf[i + 1]? with
        | none => rw [hy] at hx; cases hx
        | some y =>
          rw [hy] at hx; cases hx
          exact ⟨rfl, (h.2 (i + 1) y a hy ha).2.setFi i⟩

theorem Bface.Is.null {nb b : Nat} {x : Bface} {a : Spec.Face} (h : x.Is nb b a) :
    x.fpts = none ↔ a.2.isSome = false := by
  rcases a with ⟨f, _ | l⟩
  · have : x.fpts = none := h.2
    simp [this]
  · obtain ⟨pl, hp, _⟩ := h.2
    simp [hp]

/-- C18: `remove_bfaces_with_NULL_fpts` removes exactly the faces without points and returns
their number. -/
theorem C18_removeNull {nb b : Nat} {bf : List Bface} {l : List Spec.Face} (h : BfRep nb b bf l) :
    ∃ bf', Bfaces.removeNull (bf.length + 1) 0 0 bf =
        .ok (bf', (l.filter fun a => !a.2.isSome).length) ∧
      BfRep nb b bf' (l.filter fun a => a.2.isSome) := by
  suffices ∀ fuel (pre rest : List Spec.Face) (bf : List Bface) n,
      BfRep nb b bf (pre ++ rest) → rest.length < fuel →
      ∃ bf', Bfaces.removeNull fuel pre.length n bf =
          .ok (bf', n + (rest.filter fun a => !a.2.isSome).length) ∧
        BfRep nb b bf' (pre ++ rest.filter fun a => a.2.isSome) by
    have := this (bf.length + 1) [] l bf 0 h (by rw [h.1]; omega)
    simpa using this
  intro fuel
  induction fuel with
  | zero => intro _ _ _ _ _ hf; omega
  | succ fuel ih =>
    intro pre rest bf n hr hf
    have hlen := hr.1
    cases rest with
    | nil =>
      refine ⟨bf, ?_, by simpa using hr⟩
      rw [Bfaces.removeNull, if_neg (by simp at hlen; omega)]; simp
    | cons a rest =>
      simp only [List.length_append, List.length_cons] at hlen hf
      have hp : pre.length < bf.length := by omega
      have ha := (hr.2 pre.length _ a (List.getElem?_eq_getElem hp) (by simp)).2
      rw [Bfaces.removeNull, if_pos hp, aget_ok hp, Res.bind_ok]
      by_cases hs : a.2.isSome
      · rw [if_neg (by rw [ha.null]; simp [hs])]
        have := ih (pre ++ [a]) rest bf n (by simpa using hr) (by omega)
        rw [List.filter_cons_of_neg (by simp [hs]), List.filter_cons_of_pos (by simp [hs])]
        simpa [List.length_append] using this
      · rw [if_pos (ha.null.2 (by simpa using hs))]
        obtain ⟨bf', h1, h2⟩ := C18_remove hr (fi := pre.length) (by simp)
        rw [h1, Res.bind_ok]
        have he : (pre ++ a :: rest).eraseIdx pre.length = pre ++ rest := by
          rw [List.eraseIdx_append_of_length_le (le_refl _)]; simp
        rw [he] at h2
        obtain ⟨bf'', h3, h4⟩ := ih pre rest bf' (n + 1) h2 (by omega)
        refine ⟨bf'', ?_, ?_⟩
        · rw [show pre.length + 1 - (bf', 1).2 = pre.length from rfl, h3]
          rw [List.filter_cons_of_pos (by simpa using hs), List.length_cons,
            Nat.add_right_comm, Nat.add_assoc]
        · rw [List.filter_cons_of_neg (by simpa using hs)]; exact h4

/-- A point list of one box. -/
theorem alloc_rep (nb b : Nat) : (PL.alloc nb).Rep (fun b' => if b' = b then [] else []) [] nb := by
  refine ⟨by simp [PL.alloc], ?_, by simp [PL.alloc, WF], by simp [PL.alloc, CList.abs]⟩
  intro b' c hc
  simp only [PL.alloc, List.getElem?_replicate] at hc
  by_cases hb : b' < nb
  · simp only [hb, if_true, Option.some.injEq] at hc
    subst hc; simp [WF, CList.abs]
  · simp [hb] at hc

theorem add_rep {nb b : Nat} (hb : b < nb) {pl : PL} {l : List Int} {boxes : List Nat}
    (hbx : boxes = [] ∨ boxes = [b])
    (h : pl.Rep (fun b' => if b' = b then l else []) boxes nb) (p : Int) :
    ∃ pl', pl.add b p = .ok pl' ∧ pl'.Rep (fun b' => if b' = b then l ++ [p] else []) [b] nb := by
  obtain ⟨pl', h1, h2⟩ := h.step (.add b p) hb
  refine ⟨pl', h1, ?_⟩
  convert h2 using 1
  · funext b'
    by_cases h : b' = b <;> simp [PLOp.box, Spec.plPoints, h]
  · rcases hbx with rfl | rfl <;> simp

/-- C18: one call has its meaning on the list of faces and keeps the numbering. -/
theorem C18_step {nb b : Nat} (hb : b < nb) {bf : List Bface} {l : List Spec.Face}
    (h : BfRep nb b bf l) (o : Spec.FaceOp) :
    ∃ bf', FaceOp.step nb b bf o = .ok bf' ∧ BfRep nb b bf' (o.act l) := by
  have hlen := h.1
  cases o with
  | addEmpty f => exact ⟨_, rfl, h.append rfl ⟨rfl, rfl⟩⟩
  | addPoint fi ijk f =>
    by_cases hfi : 0 ≤ fi ∧ fi < l.length
    · have hc : ¬ (fi < 0 ∨ fi ≥ bf.length) := by omega
      have hk : fi.toNat < bf.length := by omega
      have hk' : fi.toNat < l.length := by omega
      obtain ⟨hn, hf, hp⟩ := h.2 _ _ _ (List.getElem?_eq_getElem hk) (List.getElem?_eq_getElem hk')
      have hpl : ∃ pl, (bf[fi.toNat].fpts.getD (PL.alloc nb)).add b ijk = .ok pl ∧
          pl.Rep (fun b' => if b' = b then l[fi.toNat].2.getD [] ++ [ijk] else []) [b] nb := by
        cases hq : l[fi.toNat].2 with
        | none =>
          rw [hq] at hp
          rw [hp]
          exact add_rep hb (.inl rfl) (alloc_rep nb b) ijk
        | some q =>
          rw [hq] at hp
          obtain ⟨pl, hp1, hp2⟩ := hp
          rw [hp1]
          exact add_rep hb (.inr rfl) hp2 ijk
      obtain ⟨pl, h1, h2⟩ := hpl
      refine ⟨bf.set fi.toNat { bf[fi.toNat] with
        fpts := some pl, f := if bf[fi.toNat].f ≠ f then -1 else bf[fi.toNat].f }, by
        simp only [FaceOp.step, Bfaces.addPoint, hc, decide_false, if_false, Bool.false_eq_true,
          aget_ok hk, Res.bind_ok, h1, aput_ok _ hk, Res.map], ?_⟩
      rw [Spec.FaceOp.act, if_pos hfi, List.modify_eq_set, List.getElem?_eq_getElem hk']
      refine h.set hn ⟨?_, pl, rfl, h2⟩
      show (if bf[fi.toNat].f ≠ f then -1 else bf[fi.toNat].f) = if l[fi.toNat].1 = f then _ else _
      rw [hf]
      by_cases he : l[fi.toNat].1 = f <;> simp [he]
    · have hc : fi < 0 ∨ fi ≥ bf.length := by omega
      have hk : bf.length < (Bfaces.addEmpty bf f).length := by simp [Bfaces.addEmpty]
      have hx : (Bfaces.addEmpty bf f)[bf.length] = ⟨f, bf.length, none⟩ := by
        simp [Bfaces.addEmpty]
      obtain ⟨pl, h1, h2⟩ := add_rep hb (.inl rfl) (alloc_rep nb b) ijk
      refine ⟨bf ++ [⟨f, bf.length, some pl⟩], ?_, ?_⟩
      · simp only [FaceOp.step, Bfaces.addPoint, hc, decide_true, if_true,
          aget_ok hk, Res.bind_ok, hx, Option.getD_none, h1, aput_ok _ hk, Res.map]
        simp [Bfaces.addEmpty]
      · rw [Spec.FaceOp.act, if_neg hfi]
        exact h.append rfl ⟨rfl, pl, rfl, h2⟩
  | remove fi =>
    by_cases hfi : 0 ≤ fi ∧ fi < l.length
    · obtain ⟨bf', h1, h2⟩ := C18_remove h (fi := fi.toNat) (by omega)
      rw [Int.toNat_of_nonneg hfi.1] at h1
      refine ⟨bf', by rw [FaceOp.step, h1]; rfl, ?_⟩
      rw [Spec.FaceOp.act, if_pos hfi]; exact h2
    · have hc : fi < 0 ∨ fi ≥ bf.length := by omega
      refine ⟨bf, by rw [FaceOp.step, Bfaces.remove, if_pos hc]; rfl, ?_⟩
      rw [Spec.FaceOp.act, if_neg hfi]; exact h
  | removeNull =>
    obtain ⟨bf', h1, h2⟩ := C18_removeNull h
    exact ⟨bf', by rw [FaceOp.step, h1]; rfl, h2⟩

/-- C18: after every history of calls the faces are those the abstract calls leave, in order, and
each face's number is its position. -/
theorem C18_history {nb b : Nat} (hb : b < nb) (os : List Spec.FaceOp) :
    ∃ bf, FaceOp.run nb b os [] = .ok bf ∧ BfRep nb b bf (os.foldl Spec.FaceOp.act []) := by
  suffices ∀ (bf : List Bface) l, BfRep nb b bf l →
      ∃ bf', FaceOp.run nb b os bf = .ok bf' ∧ BfRep nb b bf' (os.foldl Spec.FaceOp.act l) from
    this [] [] ⟨rfl, by simp⟩
  induction os with
  | nil => intro bf l h; exact ⟨bf, rfl, h⟩
  | cons o os ih =>
    intro bf l h
    obtain ⟨bf1, h1, h2⟩ := C18_step hb h o
    obtain ⟨bf2, h3, h4⟩ := ih bf1 _ h2
    exact ⟨bf2, by rw [FaceOp.run, h1, Res.bind_ok, h3], h4⟩

example : ([.addEmpty 3, .addPoint 5 70 1, .addEmpty 2, .addPoint 1 71 4, .removeNull,
    .addPoint 0 72 1] : List Spec.FaceOp).foldl Spec.FaceOp.act [] =
    [(-1, some [70, 71, 72])] := by decide
example : (FaceOp.run 1 0 [.addEmpty 3, .addPoint 5 70 1, .addEmpty 2, .remove 0] []).map
    (fun l => l.map fun x => (x.f, x.fi)) = .ok [(1, 0), (2, 1)] := by decide +kernel

/-! ### C19 -/

namespace Spec

/-- The numbers of the active boxes in increasing order. -/
def active (fl : List Bool) : List Nat :=
  (List.range fl.length).filter fun b => fl[b]? == some false

end Spec

namespace ActGrid

/-- The counter agrees with the flags. -/
def Good (g : ActGrid) : Prop := g.ninactive = g.inactive.count true

theorem countActive_eq (l : List Bool) : countActive l = l.count false := by
  induction l with
  | nil => rfl
  | cons a l ih => cases a <;> simp [countActive, ih]; omega

theorem count_add (l : List Bool) : l.count false + l.count true = l.length := by
  induction l with
  | nil => rfl
  | cons a l ih => cases a <;> simp <;> omega

theorem setNinactive_good (g : ActGrid) : (setNinactive g).Good := by
  have := count_add g.inactive
  simp only [Good, setNinactive, countActive_eq]
  omega

theorem visited_eq (l : List Bool) (b : Nat) :
    visited l b = (Spec.active l).map (· + b) := by
  induction l generalizing b with
  | nil => simp [visited, Spec.active]
  | cons a l ih =>
    have h : Spec.active (a :: l) =
        (if a then [] else [0]) ++ (Spec.active l).map (· + 1) := by
      simp only [Spec.active, List.length_cons, List.range_succ_eq_map, List.filter_cons,
        List.filter_map]
      cases a
      · simp [Function.comp_def]
      · simp [Function.comp_def]
    rw [h, visited, ih]
    cases a <;> simp [Function.comp_def, Nat.add_comm, Nat.add_left_comm]

end ActGrid

/-- C19: the loop over active boxes visits exactly the active boxes in increasing order. -/
theorem C19_visited (l : List Bool) : ActGrid.visited l 0 = Spec.active l := by
  rw [ActGrid.visited_eq]; simp

/-- C19: switching boxes of a list on or off sets exactly their flags and updates the counter. -/
theorem C19_setFlags (g : ActGrid) (l : List Nat) (fl : Bool)
    (hl : ∀ b ∈ l, b < g.inactive.length) :
    ∃ g', g.setFlags l fl = .ok g' ∧ g'.Good ∧ g'.inactive.length = g.inactive.length ∧
      ∀ (b : Nat), b < g.inactive.length →
        g'.inactive[b]? = if b ∈ l then some fl else g.inactive[b]? := by
  obtain ⟨t, h1, h2, h3⟩ := forN_inv (n := l.length) (s := g.inactive)
    (body := fun i a => (aget l i).bind fun b => aput a b fl)
    (fun k (t : List Bool) => t.length = g.inactive.length ∧
      ∀ (b : Nat), b < g.inactive.length →
        t[b]? = if b ∈ l.take k then some fl else g.inactive[b]?)
    ⟨rfl, by simp⟩
    (by
      rintro k hk t ⟨h1, h2⟩
      have hb := hl _ (List.getElem_mem hk)
      refine ⟨t.set l[k] fl, by rw [aget_ok hk, Res.bind_ok, aput_ok _ (by omega)],
        by simpa using h1, fun b hb' => ?_⟩
      rw [List.getElem?_set, h2 b hb', List.take_add_one, List.getElem?_eq_getElem hk]
      simp only [List.mem_append, Option.mem_toList, Option.some.injEq]
      by_cases he : l[k] = b
      · subst he; simp [h1, hb']
      · simp [he])
  refine ⟨ActGrid.setNinactive { g with inactive := t }, ?_, ActGrid.setNinactive_good _, h2, ?_⟩
  · rw [ActGrid.setFlags, h1, Res.bind_ok]
  · intro b hb
    have := h3 b hb
    simpa [ActGrid.setNinactive] using this

/-- C19: switching all boxes. -/
theorem C19_setAll (g : ActGrid) (fl : Bool) :
    ∃ g', g.setAll fl = .ok g' ∧ g'.Good ∧
      g'.inactive = List.replicate g.inactive.length fl := by
  obtain ⟨t, h1, h2, h3⟩ := forN_inv (n := g.inactive.length) (s := g.inactive)
    (body := fun b a => aput a b fl)
    (fun k (t : List Bool) => t.length = g.inactive.length ∧
      t.take k = List.replicate k fl)
    ⟨rfl, by simp⟩
    (by
      rintro k hk t ⟨h1, h2⟩
      refine ⟨t.set k fl, by rw [aput_ok _ (by omega)], by simpa using h1, ?_⟩
      rw [List.take_add_one, List.take_set_of_le (le_refl k), h2]
      simp [h1, hk, List.replicate_succ'])
  refine ⟨ActGrid.setNinactive { g with inactive := t }, ?_, ActGrid.setNinactive_good _, ?_⟩
  · rw [ActGrid.setAll, h1, Res.bind_ok]
  · rw [List.take_of_length_le (by omega)] at h3
    exact h3

/-- C19: `IndexOf_ith_ActiveBox` gives the i-th active box, and -1 if there is none. -/
theorem C19_indexOfIth (g : ActGrid) (hg : g.Good) (i : Int) :
    g.indexOfIth i =
      if 0 ≤ i then (((Spec.active g.inactive)[i.toNat]?).map fun b : Nat => (b : Int)).getD (-1)
      else -1 := by
  have key : ∀ (l : List Bool) b (nn : Int), 0 ≤ nn →
      (if ActGrid.indexLoop i l b nn < b + l.length then (ActGrid.indexLoop i l b nn : Int) else -1)
      = if nn ≤ i then (((ActGrid.visited l b)[(i - nn).toNat]?).map fun b : Nat => (b : Int)).getD (-1)
        else -1 := by
    intro l
    induction l with
    | nil => intro b nn _; simp [ActGrid.indexLoop, ActGrid.visited]
    | cons fl l ih =>
      intro b nn hnn
      rw [ActGrid.indexLoop, ActGrid.visited]
      cases fl
      · simp only [Bool.false_eq_true, if_false]
        by_cases hi : nn = i
        · subst hi
          simp
        · have := ih (b + 1) (nn + 1) (by omega)
          simp only [hi, if_false, List.length_cons]
          rw [show b + (l.length + 1) = b + 1 + l.length by omega, this]
          by_cases hle : nn ≤ i
          · rw [if_pos hle, if_pos (by omega), show (i - nn).toNat = (i - (nn + 1)).toNat + 1 by omega,
              List.getElem?_cons_succ]
          · rw [if_neg hle, if_neg (by omega)]
      · simp only [if_true, List.length_cons]
        rw [show b + (l.length + 1) = b + 1 + l.length by omega]
        exact ih (b + 1) nn hnn
  unfold ActGrid.indexOfIth
  by_cases hn : g.ninactive = 0
  · rw [if_pos hn]
    have hall : Spec.active g.inactive = List.range g.inactive.length := by
      rw [hg] at hn
      have hz : g.inactive.count true = 0 := by exact_mod_cast hn
      rw [List.count_eq_zero] at hz
      rw [Spec.active, List.filter_eq_self]
      intro b hb
      rw [List.mem_range] at hb
      rw [List.getElem?_eq_getElem hb]
      have : g.inactive[b] ≠ true := fun h => hz (h ▸ List.getElem_mem hb)
      simpa using this
    rw [hall]
    by_cases h0 : 0 ≤ i
    · by_cases h1 : i < g.inactive.length
      · have : i.toNat < g.inactive.length := by omega
        simp [h0, h1, this]
      · have : ¬ i.toNat < g.inactive.length := by omega
        rw [if_neg (by omega), if_pos h0, List.getElem?_eq_none (by simpa using this)]
        rfl
    · rw [if_neg (by omega), if_neg h0]
  · rw [if_neg hn]
    have := key g.inactive 0 0 (le_refl 0)
    rw [C19_visited] at this
    simpa using this

/-- C19: the boxes given for the admissible numbers are different and active. -/
theorem C19_active (fl : List Bool) :
    (Spec.active fl).Pairwise (· < ·) ∧ (Spec.active fl).length = fl.count false ∧
    ∀ b, b ∈ Spec.active fl ↔ fl[b]? = some false := by
  refine ⟨List.Pairwise.filter _ List.pairwise_lt_range, ?_, ?_⟩
  · rw [← C19_visited]
    suffices ∀ b, (ActGrid.visited fl b).length = fl.count false from this 0
    induction fl with
    | nil => intro b; rfl
    | cons a l ih => intro b; cases a <;> simp [ActGrid.visited, ih]
  · intro b
    simp only [Spec.active, List.mem_filter, List.mem_range, beq_iff_eq]
    constructor
    · exact fun h => h.2
    · intro h
      exact ⟨(List.getElem?_eq_some_iff.1 h).1, h⟩

example : (ActGrid.mk [true, false, true, false] 2).indexOfIth 1 = 3 ∧
    (ActGrid.mk [true, false, true, false] 2).indexOfIth 2 = -1 ∧
    Spec.active [true, false, true, false] = [1, 3] := by decide

end Sgrid
