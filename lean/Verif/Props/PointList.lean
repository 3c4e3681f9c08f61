import Verif.Lemmas.IntList
import Verif.Model.PointList

/-! C17: point lists. C18: boundary faces. C19: active boxes. -/

namespace Sgrid
open CList

section lemmas
variable {α : Type}

theorem append2_spec (junk : α) {c : CList α} (h : c.WF) (x : α) :
    ∃ c', PL.append2 junk c x = .ok c' ∧ c'.WF ∧ c'.abs = c.abs ++ [x] ∧ 0 < c'.e.length := by
  refine ⟨⟨(reallocTo junk c.e (c.n + 2)).set c.n x, c.n + 1⟩, ?_, by simp [WF], ?_, by simp⟩
  · simp [PL.append2, aput]
  · apply List.ext_getElem?
    intro j
    unfold WF at h
    simp only [CList.abs, List.getElem?_take, List.getElem?_set, reallocTo_length]
    have hl : (List.take c.n c.e).length = c.n := by simp; omega
    by_cases hj : j < c.n
    · have h1 : ¬ c.n = j := by omega
      have h2 : j < c.n + 1 := by omega
      rw [List.getElem?_append_left (by simp; omega), if_pos h2, if_neg h1,
        reallocTo_get junk c.e (by omega) (by omega), List.getElem?_take, if_pos hj]
    · rw [List.getElem?_append_right (by simp; omega), hl]
      by_cases hj' : j = c.n
      · subst hj'; simp
      · have h1 : ¬ j < c.n + 1 := by omega
        obtain ⟨k, hk⟩ : ∃ k, j - c.n = k + 1 := ⟨j - c.n - 1, by omega⟩
        simp [h1, hk]

theorem reallocTo_abs (junk : α) {c : CList α} (h : c.WF) {m : Nat} (hm : c.n ≤ m) :
    (reallocTo junk c.e m).take c.n = c.abs := by
  unfold WF at h
  apply List.ext_getElem?
  intro j
  simp only [CList.abs, List.getElem?_take]
  by_cases hj : j < c.n
  · rw [if_pos hj, if_pos hj, reallocTo_get junk c.e (by omega) (by omega)]
  · simp [hj]

theorem addBox_spec {c : CList Nat} (h : c.WF) (b : Nat) :
    ∃ c', PL.addBox c b = .ok c' ∧ c'.WF ∧
      c'.abs = if b ∈ c.abs then c.abs else c.abs ++ [b] := by
  have hs := search_eq (fun x => decide (x = b)) (reallocTo 0 c.e (c.n + 2)) c.n 0 (by simp)
  rw [List.drop_zero, reallocTo_abs 0 h (by omega)] at hs
  simp only [PL.addBox, hs, Res.bind_ok]
  cases hf : c.abs.findIdx? (fun y => decide (y = b)) with
  | none =>
    rw [findIdx?_none_iff] at hf
    obtain ⟨c', h1, h2, h3, _⟩ := append2_spec 0 h b
    refine ⟨c', h1, h2, ?_⟩
    simp [hf, h3]
  | some i =>
    have hx : b ∈ c.abs := by
      by_contra hc
      rw [findIdx?_none_iff.2 hc] at hf; cases hf
    refine ⟨⟨reallocTo 0 c.e (c.n + 2), c.n⟩, rfl, by simp [WF], ?_⟩
    rw [if_pos hx]
    exact reallocTo_abs 0 h (by omega)

theorem copyN_ok (n : Nat) (old new : List α) (ho : n ≤ old.length) (hn : n ≤ new.length) :
    ∃ e, PL.copyN n old new = .ok e ∧ e.length = new.length ∧ e.take n = old.take n := by
  obtain ⟨e, h1, h2, h3⟩ := forN_inv (n := n) (s := new)
    (body := fun i e => (aget old i).bind fun x => aput e i x)
    (fun k (e : List α) => e.length = new.length ∧ e.take k = old.take k) ⟨rfl, by simp⟩
    (by
      rintro k hk t ⟨h1, h2⟩
      have a : k < old.length := by omega
      refine ⟨t.set k old[k], by rw [aget_ok a, Res.bind_ok, aput_ok _ (by omega)],
        by simpa using h1, ?_⟩
      rw [List.take_add_one, List.take_add_one, List.take_set_of_le (le_refl k), h2]
      congr 1
      simp [a, show k < t.length by omega])
  exact ⟨e, h1, h2, h3⟩

end lemmas

/-- The point lists stand for lists of points and a list of boxes. -/
structure PL.Rep (pl : PL) (points : Nat → List Int) (boxes : List Nat) (nb : Nat) : Prop where
  nb : pl.pts.length = nb
  pts : ∀ (b : Nat) (c : CList Int), pl.pts[b]? = some c → c.WF ∧ c.abs = points b
  blWF : pl.bl.WF
  bl : pl.bl.abs = boxes

/-- Calls on a point list. -/
inductive PLOp where
  | add (b : Nat) (p : Int)
  | drop (b : Nat) (p : Int)
  | droplist (b : Nat) (u : CList Int)

/-- One call. -/
def PLOp.step (pl : PL) : PLOp → Res PL
  | .add b p => pl.add b p
  | .drop b p => pl.drop b p
  | .droplist b u => pl.droplist b u

/-- A history of calls. -/
def PLOp.run : List PLOp → PL → Res PL
  | [], pl => .ok pl
  | o :: os, pl => (o.step pl).bind (PLOp.run os)

/-- The box a call is about. -/
def PLOp.box : PLOp → Nat
  | .add b _ => b
  | .drop b _ => b
  | .droplist b _ => b

/-- Calls with an existing box and a proper list. -/
def PLOp.Ok (nb : Nat) : PLOp → Prop
  | .add b _ => b < nb
  | .drop b _ => b < nb
  | .droplist b u => b < nb ∧ u.WF

/-- What a call does to the points of its box. -/
def Spec.plPoints (l : List Int) : PLOp → List Int
  | .add _ p => l ++ [p]
  | .drop _ p => l.erase p
  | .droplist _ u => u.abs.foldl List.erase l

/-- Points of box `b` after a history: only the calls for this box matter. -/
def Spec.plAll (os : List PLOp) (b : Nat) : List Int :=
  (os.filter fun o => decide (o.box = b)).foldl Spec.plPoints []

/-- The boxes points were added to, in order of the first addition. -/
def Spec.plBoxes (os : List PLOp) : List Nat :=
  os.foldl (fun l o => match o with
    | .add b _ => if b ∈ l then l else l ++ [b]
    | _ => l) []

theorem PL.Rep.setBox {pl : PL} {points : Nat → List Int} {boxes : List Nat} {nb b : Nat}
    (h : pl.Rep points boxes nb) {c' : CList Int} (hc : c'.WF) (hb : b < nb) {bl : CList Nat}
    {boxes' : List Nat} (hbl : bl.WF) (hbl' : bl.abs = boxes') :
    PL.Rep ⟨pl.pts.set b c', bl⟩ (fun b' => if b' = b then c'.abs else points b') boxes' nb := by
  refine ⟨by simpa using h.nb, ?_, hbl, hbl'⟩
  intro b' c hcb
  simp only [List.getElem?_set] at hcb
  by_cases hbb : b = b'
  · subst hbb
    have : b < pl.pts.length := by rw [h.nb]; exact hb
    simp only [this, if_true, Option.some.injEq] at hcb
    subst hcb
    exact ⟨hc, by simp⟩
  · simp only [hbb, if_false] at hcb
    have := h.pts b' c hcb
    simpa [Ne.symm hbb] using this

theorem PL.Rep.step {pl : PL} {points : Nat → List Int} {boxes : List Nat} {nb : Nat}
    (h : pl.Rep points boxes nb) (o : PLOp) (ho : o.Ok nb) :
    ∃ pl', o.step pl = .ok pl' ∧
      pl'.Rep (fun b => if b = o.box then Spec.plPoints (points b) o else points b)
        (match o with
          | .add b _ => if b ∈ boxes then boxes else boxes ++ [b]
          | _ => boxes) nb := by
  cases o with
  | add b p =>
    have hb : b < pl.pts.length := by rw [h.nb]; exact ho
    obtain ⟨hw, ha⟩ := h.pts b _ (List.getElem?_eq_getElem hb)
    obtain ⟨c', h1, h2, h3, _⟩ := append2_spec 0 hw p
    obtain ⟨bl, h4, h5, h6⟩ := addBox_spec h.blWF b
    refine ⟨⟨pl.pts.set b c', bl⟩, ?_, ?_⟩
    · simp only [PLOp.step, PL.add, aget_ok hb, Res.bind_ok, h1, aput_ok _ hb, h4]
    · have := h.setBox h2 ho h5 h6
      rw [h.bl] at this
      rw [h3, ha] at this
      convert this using 2 with b'
      simp only [PLOp.box, Spec.plPoints]
      by_cases hh : b' = b <;> simp [hh]
  | drop b p =>
    have hb : b < pl.pts.length := by rw [h.nb]; exact ho
    obtain ⟨hw, ha⟩ := h.pts b _ (List.getElem?_eq_getElem hb)
    obtain ⟨c', h1, h2, h3⟩ := drop_spec hw p
    refine ⟨⟨pl.pts.set b c', pl.bl⟩, ?_, ?_⟩
    · simp only [PLOp.step, PL.drop, aget_ok hb, Res.bind_ok, h1, aput_ok _ hb]
    · have := h.setBox h2 ho h.blWF h.bl
      rw [h3, ha] at this
      convert this using 2 with b'
      simp only [PLOp.box, Spec.plPoints]
      by_cases hh : b' = b <;> simp [hh]
  | droplist b u =>
    have hb : b < pl.pts.length := by rw [h.nb]; exact ho.1
    obtain ⟨hw, ha⟩ := h.pts b _ (List.getElem?_eq_getElem hb)
    obtain ⟨c', h1, h2, h3⟩ := fold_spec ho.2 _ _ (fun c x hc => drop_spec hc x) hw
    refine ⟨⟨pl.pts.set b c', pl.bl⟩, ?_, ?_⟩
    · have h1' : (pl.pts[b]).droplist u = .ok c' := h1
      simp only [PLOp.step, PL.droplist, aget_ok hb, Res.bind_ok, h1', aput_ok _ hb]
    · have := h.setBox h2 ho.1 h.blWF h.bl
      rw [h3, ha] at this
      convert this using 2 with b'
      simp only [PLOp.box, Spec.plPoints]
      by_cases hh : b' = b <;> simp [hh]

/-- C17: after every history of additions and removals the list of each box contains exactly
the points the calls for this box leave, in order, and the box list contains every box to which
points were added once, in order of the first addition. -/
theorem C17_history (nb : Nat) (os : List PLOp) (hos : ∀ o ∈ os, o.Ok nb) :
    ∃ pl, PLOp.run os (PL.alloc nb) = .ok pl ∧
      pl.Rep (Spec.plAll os) (Spec.plBoxes os) nb := by
  suffices ∀ (pl : PL) (points : Nat → List Int) (boxes : List Nat), pl.Rep points boxes nb →
      ∃ pl', PLOp.run os pl = .ok pl' ∧
        pl'.Rep (fun b => (os.filter fun o => decide (o.box = b)).foldl Spec.plPoints (points b))
          (os.foldl (fun l o => match o with
            | .add b _ => if b ∈ l then l else l ++ [b]
            | _ => l) boxes) nb by
    refine this (PL.alloc nb) (fun _ => []) [] ⟨by simp [PL.alloc], ?_, by simp [PL.alloc, WF],
      by simp [PL.alloc, CList.abs]⟩
    intro b c hc
    simp only [PL.alloc, List.getElem?_replicate] at hc
    by_cases hb : b < nb
    · simp only [hb, if_true, Option.some.injEq] at hc
      subst hc; simp [WF, CList.abs]
    · simp [hb] at hc
  induction os with
  | nil => intro pl points boxes h; exact ⟨pl, rfl, by simpa using h⟩
  | cons o os ih =>
    intro pl points boxes h
    obtain ⟨pl1, h1, h2⟩ := h.step o (hos o List.mem_cons_self)
    obtain ⟨pl2, h3, h4⟩ := ih (fun o ho => hos o (List.mem_cons_of_mem _ ho)) pl1 _ _ h2
    refine ⟨pl2, by rw [PLOp.run, h1, Res.bind_ok, h3], ?_⟩
    convert h4 using 1
    · funext b
      by_cases hb : o.box = b
      · subst hb; simp
      · rw [List.filter_cons_of_neg (by simpa using hb), if_neg (fun h => hb h.symm)]
    · cases o <;> rfl

/-- C17: the box list has no repetitions, and holds every box that has points. -/
theorem C17_boxes (os : List PLOp) :
    (Spec.plBoxes os).Nodup ∧
    (∀ b, b ∈ Spec.plBoxes os ↔ ∃ p, PLOp.add b p ∈ os) ∧
    ∀ b, Spec.plAll os b ≠ [] → b ∈ Spec.plBoxes os := by
  have key : ∀ (os : List PLOp) (l : List Nat), l.Nodup →
      (os.foldl (fun l o => match o with
        | .add b _ => if b ∈ l then l else l ++ [b]
        | _ => l) l).Nodup ∧
      ∀ b, b ∈ os.foldl (fun l o => match o with
        | .add b _ => if b ∈ l then l else l ++ [b]
        | _ => l) l ↔ b ∈ l ∨ ∃ p, PLOp.add b p ∈ os := by
    intro os
    induction os with
    | nil => intro l hl; simpa using hl
    | cons o os ih =>
      intro l hl
      cases o with
      | add b p =>
        have hn : (if b ∈ l then l else l ++ [b]).Nodup := by
          by_cases hb : b ∈ l
          · simpa [hb] using hl
          · simp only [hb, if_false]
            exact List.nodup_append.2 ⟨hl, by simp, by
              intro x hx y hy he
              simp only [List.mem_singleton] at hy
              subst hy; subst he; exact hb hx⟩
        obtain ⟨h1, h2⟩ := ih _ hn
        refine ⟨h1, fun b' => ?_⟩
        rw [List.foldl_cons, h2 b']
        by_cases hb : b ∈ l
        · simp only [hb, if_true, List.mem_cons, PLOp.add.injEq]
          constructor
          · rintro (h | ⟨p, h⟩)
            · exact .inl h
            · exact .inr ⟨p, .inr h⟩
          · rintro (h | ⟨q, ⟨rfl, rfl⟩ | h⟩)
            · exact .inl h
            · exact .inl hb
            · exact .inr ⟨q, h⟩
        · simp only [hb, if_false, List.mem_append, List.mem_cons, List.not_mem_nil, or_false,
            PLOp.add.injEq]
          constructor
          · rintro ((h | rfl) | ⟨p, h⟩)
            · exact .inl h
            · exact .inr ⟨p, .inl ⟨rfl, rfl⟩⟩
            · exact .inr ⟨p, .inr h⟩
          · rintro (h | ⟨q, ⟨rfl, rfl⟩ | h⟩)
            · exact .inl (.inl h)
            · exact .inl (.inr rfl)
            · exact .inr ⟨q, h⟩
      | drop b p =>
        obtain ⟨h1, h2⟩ := ih l hl
        exact ⟨h1, fun b' => by rw [List.foldl_cons, h2 b']; simp⟩
      | droplist b u =>
        obtain ⟨h1, h2⟩ := ih l hl
        exact ⟨h1, fun b' => by rw [List.foldl_cons, h2 b']; simp⟩
  obtain ⟨h1, h2⟩ := key os [] List.nodup_nil
  refine ⟨h1, fun b => by rw [Spec.plBoxes, h2 b]; simp, fun b hb => ?_⟩
  rw [Spec.plBoxes, h2 b]
  right
  by_contra hc
  apply hb
  have hnone : ∀ (l : List PLOp), (∀ o ∈ l, ∀ p, o ≠ PLOp.add b p) → (∀ o ∈ l, o.box = b) →
      l.foldl Spec.plPoints [] = [] := by
    intro l
    induction l with
    | nil => intros; rfl
    | cons o t ih =>
      intro ha hbx
      have : Spec.plPoints [] o = [] := by
        cases o with
        | add b' p =>
          exact absurd (by rw [← hbx _ List.mem_cons_self]; rfl) (ha (.add b' p) List.mem_cons_self p)
        | drop b' p => rfl
        | droplist b' u =>
          simp only [Spec.plPoints]
          induction u.abs with
          | nil => rfl
          | cons x t ih => simpa using ih
      rw [List.foldl_cons, this]
      exact ih (fun o ho => ha o (List.mem_cons_of_mem _ ho))
        fun o ho => hbx o (List.mem_cons_of_mem _ ho)
  refine hnone _ ?_ ?_
  · intro o ho p he
    subst he
    exact hc ⟨p, (List.mem_filter.1 ho).1⟩
  · intro o ho
    simpa using (List.mem_filter.1 ho).2

/-- C17: the loop over the points of one box visits exactly the points of the list in order, if
the box ever got memory for points. -/
theorem C17_visit_box {c : CList Int} (h : c.WF) (hne : 0 < c.e.length) :
    PL.visitBox c = .ok c.abs := by
  unfold WF at h
  have key : ∀ left pi (acc : List Int) (ijk : Int), pi + left = c.n →
      (0 < left → c.e[pi]? = some ijk) →
      PL.inboxLoop c left pi ijk acc = .ok (acc ++ (c.e.drop pi).take left) := by
    intro left
    induction left with
    | zero => intro pi acc ijk _ _; simp [PL.inboxLoop]
    | succ left ih =>
      intro pi acc ijk hn hj
      have hpi : pi < c.e.length := by omega
      have hj' : c.e[pi] = ijk := by
        have := hj (by omega)
        rw [List.getElem?_eq_getElem hpi] at this; exact Option.some.inj this
      have hidx : pi + 1 - (if pi + 1 = c.n then 1 else 0) < c.e.length := by
        split <;> omega
      rw [PL.inboxLoop, aget_ok hidx, Res.bind_ok, ih (pi + 1) _ _ (by omega)]
      · rw [List.drop_eq_getElem_cons hpi, List.take_succ_cons, hj']
        simp
      · intro hl
        have h1 : ¬ pi + 1 = c.n := by omega
        simp only [h1, if_false, Nat.sub_zero]
        exact List.getElem?_eq_getElem (by omega)
  rw [PL.visitBox, aget_ok hne, Res.bind_ok, key c.n 0 [] _ (by omega) (fun _ => by simp)]
  simp [CList.abs]

/-- C17 fails here: the loop reads `point[b][0]` before it looks at the number of points. In a
box that never had points this is a NULL pointer, although no point has to be visited. -/
theorem C17_visit_counterexample :
    PL.visitBox ⟨[], 0⟩ = .ub ∧ ((PLOp.run [.add 0 7] (PL.alloc 2)).bind
      fun pl => pl.visit fun _ => false) = .ub := by
  constructor
  · rfl
  · decide +kernel

/-- C17: the loop over a point list visits, for the active boxes in order, exactly the points
of the list, if every active box got memory for points. -/
theorem C17_visit_partial {pl : PL} {points : Nat → List Int} {boxes : List Nat} {nb : Nat}
    (h : pl.Rep points boxes nb) (inactive : Nat → Bool)
    (hmem : ∀ (b : Nat) (c : CList Int), pl.pts[b]? = some c → inactive b = false →
      0 < c.e.length) :
    pl.visit inactive = .ok (((List.range nb).filter fun b => !inactive b).map
      fun b => (b, points b)) := by
  unfold PL.visit
  rw [h.nb]
  obtain ⟨t, h1, h2⟩ := forN_inv (n := nb) (s := ([] : List (Nat × List Int)))
    (body := fun b acc =>
      if inactive b then .ok acc
      else (aget pl.pts b).bind fun c => (PL.visitBox c).bind fun l => .ok (acc ++ [(b, l)]))
    (fun k acc => acc = ((List.range k).filter fun b => !inactive b).map fun b => (b, points b))
    rfl
    (by
      rintro b hb t rfl
      rw [List.range_succ, List.filter_append, List.map_append]
      by_cases hi : inactive b
      · exact ⟨_, by rw [if_pos hi], by simp [hi]⟩
      · rw [if_neg hi]
        have hb' : b < pl.pts.length := by rw [h.nb]; exact hb
        obtain ⟨hw, ha⟩ := h.pts b _ (List.getElem?_eq_getElem hb')
        have hi' : inactive b = false := by simpa using hi
        refine ⟨_, by
          rw [aget_ok hb', Res.bind_ok,
            C17_visit_box hw (hmem b _ (List.getElem?_eq_getElem hb') hi'), Res.bind_ok, ha], ?_⟩
        simp [hi'])
  rw [h1, h2]

/-- C17: a duplicate holds the same points, if the box list has at most two entries. -/
theorem C17_duplicate_partial {pl : PL} {points : Nat → List Int} {boxes : List Nat} {nb : Nat}
    (h : pl.Rep points boxes nb) (h2 : boxes.length ≤ 2) :
    ∃ pl', pl.duplicate = .ok pl' ∧ pl'.Rep points boxes nb := by
  obtain ⟨pts, h3, h4, h5⟩ := forN_inv (n := pl.pts.length) (s := ([] : List (CList Int)))
    (body := fun b acc => (aget pl.pts b).bind fun c =>
      (PL.dupBox c).bind fun c' => .ok (acc ++ [c']))
    (fun k acc => acc.length = k ∧
      ∀ (b : Nat) (c : CList Int), acc[b]? = some c → c.WF ∧ c.abs = points b)
    ⟨rfl, by simp⟩
    (by
      rintro b hb acc ⟨hl, hacc⟩
      obtain ⟨hw, ha⟩ := h.pts b _ (List.getElem?_eq_getElem hb)
      obtain ⟨e, e1, e2, e3⟩ := copyN_ok (pl.pts[b]).n (pl.pts[b]).e
        (reallocTo 0 [] ((pl.pts[b]).n + 2)) hw (by simp)
      refine ⟨acc ++ [⟨e, (pl.pts[b]).n⟩], ?_, by simp [hl], ?_⟩
      · rw [aget_ok hb, Res.bind_ok, PL.dupBox, e1, Res.bind_ok, Res.bind_ok]
      · intro b' c hc
        rw [List.getElem?_append] at hc
        by_cases hb' : b' < acc.length
        · rw [if_pos hb'] at hc; exact hacc b' c hc
        · rw [if_neg hb', List.getElem?_singleton] at hc
          by_cases hz : b' - acc.length = 0
          · rw [if_pos hz] at hc
            cases hc
            have : b' = b := by omega
            subst this
            exact ⟨by simp [WF, e2], by rw [← ha]; exact e3⟩
          · rw [if_neg hz] at hc; cases hc)
  have hbn : pl.bl.n ≤ 2 := by
    rw [← h.bl, abs_length h.blWF] at h2; exact h2
  obtain ⟨e, e1, e2, e3⟩ := copyN_ok pl.bl.n pl.bl.e (reallocTo 0 [] (0 + 2)) h.blWF
    (by simpa using hbn)
  refine ⟨⟨pts, ⟨e, pl.bl.n⟩⟩, ?_, by rw [h4, h.nb], h5, ?_, ?_⟩
  · simp only [PL.duplicate, h3, Res.bind_ok, e1]
  · simp only [WF, e2, reallocTo_length]; omega
  · rw [← h.bl]; exact e3

/-- C17 fails for duplicates of point lists with points in more than two boxes: the memory for
the box list has two places. -/
theorem C17_duplicate_counterexample :
    ((PLOp.run [.add 0 7, .add 1 8, .add 2 9] (PL.alloc 3)).bind PL.duplicate) = .ub := by
  decide +kernel

example : ((PLOp.run [.add 1 7, .add 0 8, .add 1 9, .add 1 10, .drop 1 9] (PL.alloc 2)).bind
    fun pl => pl.visit fun _ => false) = .ok [(0, [8]), (1, [7, 10])] := by decide +kernel
example : ((PLOp.run [.add 1 7, .add 0 8, .add 1 9, .drop 1 9] (PL.alloc 2)).bind
    fun pl => pl.duplicate.map fun q => (q.bl.abs, q.pts.map CList.abs)) =
    .ok ([1, 0], [[8], [7]]) := by decide +kernel

end Sgrid
