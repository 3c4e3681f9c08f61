import Verif.Model.BoxLists
import Verif.Props.IntList

/-!
Property C153: the lists of boxes hold exactly the boxes they are meant to hold.
-/

namespace Sgrid

open CList

namespace Spec

/-- Box `b` has the value `val` of the attribute. -/
def hasAttr (grid : List NbBox) (iAttr : Nat) (val b : Int) : Bool :=
  (grid[b.toNat]?.bind fun box => box.attr[iAttr]?) == some val

/-- `nb` is the number of a box behind one of the faces of `box`. -/
def Neighbor (box : NbBox) (nb : Int) : Prop := 0 ≤ nb ∧ nb ∈ box.ob

/-- `x` is a neighbour of box `b`. -/
def NeighborOf (grid : List NbBox) (b x : Int) : Prop := 0 ≤ b ∧ ∃ box, grid[b.toNat]? = some box ∧ Neighbor box x

end Spec

/-- A loop over the entries of a list. -/
theorem forN_foldl {σ : Type} {n : Nat} {get : Nat → Res Int} {l : List Int} (hl : l.length = n)
    (hget : ∀ i x, l[i]? = some x → get i = .ok x) {f : σ → Int → Res σ} (R : σ → List Int → Prop)
    (g : List Int → Int → List Int)
    (hf : ∀ s a x, x ∈ l → R s a → ∃ s', f s x = .ok s' ∧ R s' (g a x)) {s : σ} {a : List Int} (h0 : R s a) :
    ∃ s', forN n (fun i s => (get i).bind fun x => f s x) s = .ok s' ∧ R s' (l.foldl g a) := by
  have := forN_inv (n := n) (s := s) (body := fun i s => (get i).bind fun x => f s x)
    (fun k s => R s ((l.take k).foldl g a)) (by simpa using h0) (by
      intro i hi t ht
      have hi' : i < l.length := by omega
      obtain ⟨s', h1, h2⟩ := hf _ _ l[i] (List.getElem_mem hi') ht
      refine ⟨s', ?_, ?_⟩
      · rw [hget i l[i] (List.getElem?_eq_getElem hi')]
        exact h1
      · rw [List.take_add_one, List.foldl_append, List.getElem?_eq_getElem hi']
        exact h2)
  rwa [← hl, List.take_length, hl] at this

theorem aget_some {α : Type} {e : List α} {i : Nat} {x : α} (h : e[i]? = some x) : aget e i = .ok x := by
  simp [aget, h]

theorem abs_get {c : CList Int} {i : Nat} {x : Int} (h : c.abs[i]? = some x) : aget c.e i = .ok x := by
  refine aget_some ?_
  rw [CList.abs, List.getElem?_take] at h
  split at h
  · exact h
  · simp at h

theorem abs_len {c : CList Int} (h : c.WF) : c.abs.length = c.n := by
  unfold CList.WF at h
  simp [CList.abs, h]

theorem foldl_filter (p : Int → Bool) (l a : List Int) :
    l.foldl (fun a x => if p x then a ++ [x] else a) a = a ++ l.filter p := by
  induction l generalizing a with
  | nil => simp
  | cons x t ih =>
    rw [List.foldl_cons, ih, List.filter_cons]
    split <;> simp

theorem pushIf_spec (junk : Int) (want : Bool) (grid : List NbBox) (iAttr : Nat) (val : Int)
    (hA : ∀ box ∈ grid, iAttr < box.attr.length) {b : Int} (h0 : 0 ≤ b) (h1 : b < grid.length) {c : CList Int}
    (hc : c.WF) : ∃ c', pushIf junk want grid iAttr val b c = .ok c' ∧ c'.WF ∧
      c'.abs = if Spec.hasAttr grid iAttr val b == want then c.abs ++ [b] else c.abs := by
  have hb : b.toNat < grid.length := by omega
  have hi := hA _ (List.getElem_mem hb)
  have e1 : grid[b.toNat]? = some grid[b.toNat] := List.getElem?_eq_getElem hb
  have e2 := List.getElem?_eq_getElem hi
  obtain ⟨c', p1, p2, p3⟩ := push_spec junk hc b
  have e3 : Spec.hasAttr grid iAttr val b = decide ((grid[b.toNat]).attr[iAttr] = val) := by
    simp [Spec.hasAttr, e1, e2]
    rfl
  simp only [pushIf, if_neg (not_lt.2 h0), aget_some e1, aget_some e2, Res.bind_ok, e3, beq_iff_eq]
  split
  · exact ⟨c', p1, p2, p3⟩
  · exact ⟨c, rfl, hc, rfl⟩

/-- **C153.** `bladd_ifAttrib` appends the numbers of all boxes with the given value of the attribute, in
increasing order, and `bladd_ifnotAttrib` those of all other boxes. The result is the length of the list. -/
theorem C153_if (junk : Int) (want : Bool) (grid : List NbBox) (iAttr : Nat) (val : Int)
    (hA : ∀ box ∈ grid, iAttr < box.attr.length) {c : CList Int} (hc : c.WF) :
    ∃ c', bladdIf junk want grid iAttr val c = .ok (c', c'.abs.length) ∧ c'.WF ∧
      c'.abs = c.abs ++ ((List.range grid.length).map Int.ofNat).filter
        fun b => Spec.hasAttr grid iAttr val b == want := by
  obtain ⟨c', h1, h2, h3⟩ := forN_foldl (σ := CList Int) (n := grid.length) (get := fun i => .ok (i : Int))
    (l := (List.range grid.length).map Int.ofNat) (by simp)
    (by
      intro i x h
      simp only [List.getElem?_map, Option.map_eq_some_iff, List.getElem?_eq_some_iff] at h
      obtain ⟨a, ⟨h1, h2⟩, h3⟩ := h
      simp at h2
      subst h2 h3
      rfl)
    (f := fun bl b => pushIf junk want grid iAttr val b bl) (fun s a => s.WF ∧ s.abs = a)
    (fun a x => if Spec.hasAttr grid iAttr val x == want then a ++ [x] else a)
    (by
      rintro s a x hx ⟨hs, rfl⟩
      simp only [List.mem_map, List.mem_range] at hx
      obtain ⟨k, hk, rfl⟩ := hx
      exact pushIf_spec junk want grid iAttr val hA (Int.natCast_nonneg k) (by simpa using hk) hs)
    ⟨hc, rfl⟩
  refine ⟨c', ?_, h2, by rw [h3, foldl_filter]⟩
  rw [abs_len h2, bladdIf]
  rw [show forN grid.length (fun b bl => pushIf junk want grid iAttr val b bl) c = .ok c' from h1]
  rfl

/-- **C153.** `bl2_ifAttrib` appends to `bl2` those boxes of `bl1` that have the given value of the attribute, in the
order of `bl1`, and `bl2_ifnotAttrib` those that do not. -/
theorem C153_sublist (junk : Int) (want : Bool) (grid : List NbBox) (iAttr : Nat) (val : Int)
    (hA : ∀ box ∈ grid, iAttr < box.attr.length) {bl1 c : CList Int} (hb : bl1.WF) (hc : c.WF)
    (hin : ∀ b ∈ bl1.abs, 0 ≤ b ∧ b < grid.length) :
    ∃ c', bl2If junk want grid bl1 iAttr val c = .ok (c', c'.abs.length) ∧ c'.WF ∧
      c'.abs = c.abs ++ bl1.abs.filter fun b => Spec.hasAttr grid iAttr val b == want := by
  obtain ⟨c', h1, h2, h3⟩ := forN_foldl (σ := CList Int) (get := fun i => aget bl1.e i) (l := bl1.abs) (abs_len hb)
    (fun i x => abs_get) (f := fun bl b => pushIf junk want grid iAttr val b bl) (fun s a => s.WF ∧ s.abs = a)
    (fun a x => if Spec.hasAttr grid iAttr val x == want then a ++ [x] else a)
    (by
      rintro s a x hx ⟨hs, rfl⟩
      exact pushIf_spec junk want grid iAttr val hA (hin x hx).1 (hin x hx).2 hs)
    ⟨hc, rfl⟩
  refine ⟨c', ?_, h2, by rw [h3, foldl_filter]⟩
  rw [abs_len h2, bl2If, h1]
  rfl

theorem foldl_neighbors (l a : List Int) :
    l.foldl (fun a x => if x < 0 then a else Spec.addNew a x) a =
      (l.filter fun x => decide (0 ≤ x)).foldl Spec.addNew a := by
  induction l generalizing a with
  | nil => rfl
  | cons x t ih =>
    rw [List.foldl_cons, ih, List.filter_cons]
    by_cases h : x < 0
    · simp [h, not_le.2 h]
    · simp [h, not_lt.1 h]

theorem bladdNeighbors_spec (junk : Int) (box : NbBox) {c : CList Int} (hc : c.WF) :
    ∃ c', bladdNeighbors junk box c = .ok (c', c'.abs.length) ∧ c'.WF ∧
      c'.abs = (box.ob.filter fun x => decide (0 ≤ x)).foldl Spec.addNew c.abs := by
  obtain ⟨c', h1, h2, h3⟩ := forN_foldl (σ := CList Int) (get := fun i => aget box.ob i) (l := box.ob) rfl
    (fun i x => aget_some)
    (f := fun bl nb => if nb < 0 then .ok bl
      else (bl.mem nb).bind fun found => if found then .ok bl else bl.push junk nb) (fun s a => s.WF ∧ s.abs = a)
    (fun a x => if x < 0 then a else Spec.addNew a x)
    (by
      rintro s a x hx ⟨hs, rfl⟩
      by_cases h : x < 0
      · exact ⟨s, by simp [h], hs, by simp [h]⟩
      · simp only [if_neg h, C20_mem hs, Res.bind_ok, decide_eq_true_eq, Spec.addNew]
        split
        · exact ⟨s, rfl, hs, rfl⟩
        · exact push_spec junk hs x)
    ⟨hc, rfl⟩
  refine ⟨c', ?_, h2, by rw [h3, foldl_neighbors]⟩
  rw [abs_len h2, bladdNeighbors, h1]
  rfl

/-- **C153.** `bladd_neighbors` adds the neighbours of a box to a list without repetitions: afterwards the list
holds what it held and all neighbours, every box once, and the old entries stay in front. -/
theorem C153_neighbors (junk : Int) (box : NbBox) {c : CList Int} (hc : c.WF) (hn : c.abs.Nodup) :
    ∃ c', bladdNeighbors junk box c = .ok (c', c'.abs.length) ∧ c'.WF ∧ c'.abs.Nodup ∧ c.abs <+: c'.abs ∧
      ∀ x, x ∈ c'.abs ↔ x ∈ c.abs ∨ Spec.Neighbor box x := by
  obtain ⟨c', h1, h2, h3⟩ := bladdNeighbors_spec junk box hc
  obtain ⟨h4, h5⟩ := C20_union c.abs (box.ob.filter fun x => decide (0 ≤ x)) hn
  refine ⟨c', h1, h2, h3 ▸ h4, ?_, fun x => ?_⟩
  · rw [h3]
    generalize (box.ob.filter fun x => decide (0 ≤ x)) = l
    generalize c.abs = a
    induction l generalizing a with
    | nil => exact List.prefix_rfl
    | cons y t ih =>
      refine List.IsPrefix.trans ?_ (ih (Spec.addNew a y))
      unfold Spec.addNew
      split
      · exact List.prefix_rfl
      · exact List.prefix_append _ _
  · rw [h3, h5 x, List.mem_filter, Spec.Neighbor, decide_eq_true_eq, and_comm (a := x ∈ box.ob)]

/-- **C153.** `bladd_neighbors_of_neighbors` appends the neighbours of the neighbours of box `b` that are neither
neighbours of `b` nor `b` itself, every one once. -/
theorem C153_neighbors2 (junk : Int) (grid : List NbBox) {b : Nat} (hb : b < grid.length)
    (hg : ∀ x, Spec.NeighborOf grid b x → x < grid.length) {c : CList Int} (hc : c.WF) :
    ∃ c' l, bladdNeighbors2 junk grid b c = .ok (c', c'.abs.length) ∧ c'.WF ∧ c'.abs = c.abs ++ l ∧ l.Nodup ∧
      ∀ x, x ∈ l ↔ (∃ y, Spec.NeighborOf grid b y ∧ Spec.NeighborOf grid y x) ∧
        ¬ Spec.NeighborOf grid b x ∧ x ≠ b := by
  have eb : grid[b]? = some grid[b] := List.getElem?_eq_getElem hb
  have hwf : (CList.alloc : CList Int).WF := by simp [CList.WF, CList.alloc]
  have habs : (CList.alloc : CList Int).abs = [] := by simp [CList.abs, CList.alloc]
  obtain ⟨bln, n1, n2, n3, -, n4⟩ := C153_neighbors junk grid[b] hwf (by simp [habs])
  have hN : ∀ x, x ∈ bln.abs ↔ Spec.NeighborOf grid b x := by
    intro x
    rw [n4, habs]
    simp [Spec.NeighborOf, eb]
  obtain ⟨s, l1, ⟨-, l2⟩, l3, l4⟩ := forN_foldl (σ := CList Int × CList Int) (get := fun i => aget bln.e i)
    (l := bln.abs) (abs_len n2) (fun i x => abs_get)
    (f := fun s nb => if nb < 0 then .ub
      else (aget grid nb.toNat).bind fun box2 =>
        (bladdNeighbors junk box2 s.1.clear).bind fun r2 =>
        (s.2.unionpushlist junk r2.1).bind fun blnn => .ok (r2.1, blnn))
    (fun s a => (s.1.WF ∧ s.2.WF) ∧ s.2.abs.Nodup ∧ ∀ x, x ∈ s.2.abs ↔ ∃ y ∈ a, Spec.NeighborOf grid y x)
    (fun a x => a ++ [x])
    (by
      rintro s a x hx ⟨⟨s1, s2⟩, s3, s4⟩
      have hx' := (hN x).1 hx
      have h0 : 0 ≤ x := by
        obtain ⟨-, -, -, h, -⟩ := hx'
        exact h
      have h1 : x.toNat < grid.length := by have := hg x hx'; omega
      have ex : grid[x.toNat]? = some grid[x.toNat] := List.getElem?_eq_getElem h1
      have hwf' : s.1.clear.WF := by simp [CList.WF, CList.clear]
      have habs' : s.1.clear.abs = [] := by simp [CList.abs, CList.clear]
      obtain ⟨d, d1, d2, d3, -, d4⟩ := C153_neighbors junk grid[x.toNat] hwf' (by simp [habs'])
      obtain ⟨u, u1, u2, u3⟩ := C20_step junk s2 (.unionpushlist d) d2
      simp only [ListOp.step] at u1
      simp only [Spec.listStep] at u3
      obtain ⟨v1, v2⟩ := C20_union s.2.abs d.abs s3
      refine ⟨(d, u), ?_, ⟨d2, u2⟩, u3 ▸ v1, fun y => ?_⟩
      · simp only [if_neg (not_lt.2 h0), aget_some ex, Res.bind_ok, d1, u1]
      · show y ∈ u.abs ↔ _
        rw [u3, v2 y, s4 y, d4 y, habs']
        simp only [List.mem_append, List.mem_singleton, List.not_mem_nil, false_or]
        constructor
        · rintro (⟨z, hz, h⟩ | h)
          · exact ⟨z, .inl hz, h⟩
          · exact ⟨x, .inr rfl, h0, _, ex, h⟩
        · rintro ⟨z, hz | rfl, h⟩
          · exact .inl ⟨z, hz, h⟩
          · obtain ⟨-, bx, h2, h3⟩ := h
            rw [ex] at h2
            cases h2
            exact .inr h3)
    (s := (CList.alloc, CList.alloc)) (a := []) ⟨⟨hwf, hwf⟩, by simp [habs], by simp [habs]⟩
  have hfold : bln.abs.foldl (fun a x => a ++ [x]) [] = bln.abs := by
    have : ∀ (l a : List Int), l.foldl (fun a x => a ++ [x]) a = a ++ l := by
      intro l
      induction l with
      | nil => simp
      | cons y t ih => intro a; simp [ih]
    simp [this]
  rw [hfold] at l4
  obtain ⟨p, p1, p2, p3⟩ := C20_step junk l2 (.droplist bln) n2
  simp only [ListOp.step] at p1
  simp only [Spec.listStep] at p3
  obtain ⟨p4, p5⟩ := C20_droplist s.2.abs bln.abs l3
  obtain ⟨q, q1, q2, q3⟩ := drop_spec p2 (b : Int)
  obtain ⟨r, r1, r2, r3⟩ := pushlist_spec junk hc q2
  refine ⟨r, q.abs, ?_, r2, r3, ?_, fun x => ?_⟩
  · rw [abs_len r2, bladdNeighbors2, aget_some eb, Res.bind_ok, n1, Res.bind_ok]
    simp only [l1, Res.bind_ok, p1, q1, r1]
  · rw [q3, p3]
    exact p4.erase _
  · rw [q3, p3, p4.mem_erase_iff, p5 x, l4 x, hN x]
    constructor
    · rintro ⟨h1, ⟨y, h2, h3⟩, h4⟩
      exact ⟨⟨y, (hN y).1 h2, h3⟩, h4, h1⟩
    · rintro ⟨⟨y, h2, h3⟩, h4, h1⟩
      exact ⟨h1, ⟨y, (hN y).2 h2, h3⟩, h4⟩

/-- Four boxes in a row: the second neighbours of box 0 are box 2, those of box 1 are box 3. -/
example : let grid : List NbBox := [⟨[0], [1, -1]⟩, ⟨[1], [0, 2, 2]⟩, ⟨[0], [1, 3]⟩, ⟨[1], [2, -1]⟩]
    (bladdNeighbors2 7 grid 0 ⟨[5], 1⟩).map (fun r => r.1.abs) = .ok [5, 2] ∧
    (bladdNeighbors2 7 grid 1 CList.alloc).map (fun r => r.1.abs) = .ok [3] ∧
    (bladdIf 7 true grid 0 1 CList.alloc).map (fun r => r.1.abs) = .ok [1, 3] ∧
    (bladdIf 7 false grid 0 1 CList.alloc).map (fun r => r.1.abs) = .ok [0, 2] := by
  decide +kernel

end Sgrid
