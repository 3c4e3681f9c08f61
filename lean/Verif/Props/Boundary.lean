import Mathlib.Algebra.Order.Field.Rat
import Mathlib.Analysis.SpecialFunctions.Sqrt
import Mathlib.Analysis.Calculus.Deriv.Inv
import Verif.Model.Boundary
import Verif.Model.RungeKutta
import Verif.Props.CartDerivs
import Verif.Props.Lines
import Verif.Props.PointList
import Verif.Props.RungeKutta

/-!
# C101: boundary conditions of the evolution systems
-/

namespace Sgrid

open Spec (Complete)

/-! ### The point lists -/

/-- The index of the direction `ax`. -/
def Spec.coord (ax : Axis) (i j k : Nat) : Nat :=
  match ax with
  | .one => i
  | .two => j
  | .three => k

/-- `q` is a point of the box with index `p` in the direction `ax`. -/
def Spec.onPlane (d : Dims) (ax : Axis) (p q : Nat) : Prop :=
  ∃ i j k, Spec.inBox d i j k ∧ q = i + d.n1 * (j + d.n2 * k) ∧ Spec.coord ax i j k = p

/-- `q` is on the first or the last plane of the direction. -/
def Spec.onFace (d : Dims) (ax : Axis) (q : Nat) : Prop :=
  Spec.onPlane d ax 0 q ∨ Spec.onPlane d ax (d.len ax - 1) q

theorem mem_planePts {d : Dims} {ax : Axis} {p q : Nat} (hp : p < d.len ax) :
    q ∈ planePts d ax p ↔ Spec.onPlane d ax p q := by
  unfold planePts Spec.onPlane Spec.coord Spec.inBox Dims.idx
  cases ax <;> simp only [List.mem_flatMap, List.mem_map, List.mem_range, Dims.len] at hp ⊢
  · constructor
    · rintro ⟨k, hk, j, hj, rfl⟩
      exact ⟨p, j, k, ⟨hp, hj, hk⟩, rfl, rfl⟩
    · rintro ⟨i, j, k, ⟨hi, hj, hk⟩, rfl, rfl⟩
      exact ⟨k, hk, j, hj, rfl⟩
  · constructor
    · rintro ⟨k, hk, i, hi, rfl⟩
      exact ⟨i, p, k, ⟨hi, hp, hk⟩, rfl, rfl⟩
    · rintro ⟨i, j, k, ⟨hi, hj, hk⟩, rfl, rfl⟩
      exact ⟨k, hk, i, hi, rfl⟩
  · constructor
    · rintro ⟨j, hj, i, hi, rfl⟩
      exact ⟨i, j, p, ⟨hi, hj, hp⟩, rfl, rfl⟩
    · rintro ⟨i, j, k, ⟨hi, hj, hk⟩, rfl, rfl⟩
      exact ⟨j, hj, i, hi, rfl⟩

theorem planePts_nodup {d : Dims} {ax : Axis} {p : Nat} (hp : p < d.len ax) : (planePts d ax p).Nodup := by
  unfold planePts
  cases ax <;> simp only [Dims.len] at hp ⊢ <;> refine List.nodup_flatMap.mpr ⟨fun k hk => ?_, ?_⟩
  · refine List.Nodup.map_on (fun a ha b hb h => ?_) List.nodup_range
    rw [List.mem_range] at *
    exact (idx_inj hp hp ha hb h).2.1
  · refine List.Pairwise.imp_of_mem (fun {a b} ha hb hab => ?_) (List.nodup_range (n := d.n3))
    intro x hx hx'
    simp only [List.mem_map, List.mem_range] at *
    obtain ⟨j, hj, rfl⟩ := hx
    obtain ⟨j', hj', h⟩ := hx'
    exact hab (idx_inj hp hp hj' hj h).2.2.symm
  · refine List.Nodup.map_on (fun a ha b hb h => ?_) List.nodup_range
    rw [List.mem_range] at *
    exact (idx_inj ha hb hp hp h).1
  · refine List.Pairwise.imp_of_mem (fun {a b} ha hb hab => ?_) (List.nodup_range (n := d.n3))
    intro x hx hx'
    simp only [List.mem_map, List.mem_range] at *
    obtain ⟨j, hj, rfl⟩ := hx
    obtain ⟨j', hj', h⟩ := hx'
    exact hab (idx_inj hj' hj hp hp h).2.2.symm
  · refine List.Nodup.map_on (fun a ha b hb h => ?_) List.nodup_range
    rw [List.mem_range] at *
    exact (idx_inj ha hb hk hk h).1
  · refine List.Pairwise.imp_of_mem (fun {a b} ha hb hab => ?_) (List.nodup_range (n := d.n2))
    intro x hx hx'
    simp only [List.mem_map, List.mem_range] at *
    obtain ⟨j, hj, rfl⟩ := hx
    obtain ⟨j', hj', h⟩ := hx'
    exact hab (idx_inj hj' hj hb ha h).2.1.symm

theorem mem_bothPlanes {d : Dims} {ax : Axis} {q : Nat} (hp : 0 < d.len ax) :
    q ∈ bothPlanes d ax ↔ Spec.onFace d ax q := by
  unfold bothPlanes Spec.onFace
  rw [List.mem_append, mem_planePts hp, mem_planePts (by omega)]

/-- Every direction of every box has points. -/
def Spec.HasPoints (g : BdryGrid) : Prop := ∀ b ax, 0 < (g.dims b).len ax

/-- **C101**, the boundaries of all boxes: the list contains the points of the first and the last plane of every
direction of an active box that is not periodic, and no others. -/
theorem C101_box (g : BdryGrid) (f : BdryFlags) (hg : Spec.HasPoints g) (b q : Nat) :
    (b, q) ∈ (initBoundaryLists g f).box ↔ b < g.nboxes ∧ g.inactive b = false ∧
      ∃ ax, g.periodic b ax = false ∧ Spec.onFace (g.dims b) ax q := by
  unfold initBoundaryLists boxBoundary
  simp only [List.mem_flatMap, List.mem_filter, List.mem_range, List.mem_map, Prod.mk.injEq, List.mem_append]
  constructor
  · rintro ⟨b', ⟨h1, h2⟩, q', h3, rfl, rfl⟩
    refine ⟨h1, by simpa using h2, ?_⟩
    rcases h3 with (h3 | h3) | h3
    · split at h3
      · rename_i h4
        exact ⟨.one, by simpa using h4, (mem_bothPlanes (hg _ _)).mp h3⟩
      · cases h3
    · split at h3
      · rename_i h4
        exact ⟨.two, by simpa using h4, (mem_bothPlanes (hg _ _)).mp h3⟩
      · cases h3
    · split at h3
      · rename_i h4
        exact ⟨.three, by simpa using h4, (mem_bothPlanes (hg _ _)).mp h3⟩
      · cases h3
  · rintro ⟨h1, h2, ax, h3, h4⟩
    refine ⟨b, ⟨h1, by simpa using h2⟩, q, ?_, rfl, rfl⟩
    rw [← mem_bothPlanes (hg _ _)] at h4
    cases ax
    · exact Or.inl (Or.inl (by simpa [h3] using h4))
    · exact Or.inl (Or.inr (by simpa [h3] using h4))
    · exact Or.inr (by simpa [h3] using h4)

/-- The outer boundary: in the last box, the last plane in direction 1 for spherical coordinates and the whole
surface for others. -/
def Spec.outer (g : BdryGrid) (b q : Nat) : Prop :=
  b = g.nboxes - 1 ∧ if g.spherical b then Spec.onPlane (g.dims b) .one ((g.dims b).n1 - 1) q
    else ∃ ax, Spec.onFace (g.dims b) ax q

/-- The inner boundary: in box 0, the first plane in direction 1 of spherical coordinates. -/
def Spec.inner (g : BdryGrid) (b q : Nat) : Prop :=
  b = 0 ∧ g.spherical 0 ∧ Spec.onPlane (g.dims 0) .one 0 q

theorem mem_outerBoundary {g : BdryGrid} (hg : Spec.HasPoints g) (b q : Nat) :
    (b, q) ∈ outerBoundary g ↔ Spec.outer g b q := by
  unfold outerBoundary Spec.outer
  simp only [List.mem_map, Prod.mk.injEq]
  have hn := hg (g.nboxes - 1) .one
  constructor
  · rintro ⟨q', h, rfl, rfl⟩
    refine ⟨rfl, ?_⟩
    split at h
    · rename_i h1
      rw [if_pos h1]
      exact (mem_planePts (by simp only [Dims.len] at hn ⊢; omega)).mp h
    · rename_i h1
      rw [if_neg h1]
      simp only [List.mem_append, mem_bothPlanes (hg _ _)] at h
      rcases h with (h | h) | h
      · exact ⟨_, h⟩
      · exact ⟨_, h⟩
      · exact ⟨_, h⟩
  · rintro ⟨rfl, h⟩
    refine ⟨q, ?_, rfl, rfl⟩
    split at h
    · rename_i h1
      rw [if_pos h1]
      exact (mem_planePts (by simp only [Dims.len] at hn ⊢; omega)).mpr h
    · rename_i h1
      rw [if_neg h1]
      simp only [List.mem_append, mem_bothPlanes (hg _ _)]
      obtain ⟨ax, h⟩ := h
      cases ax
      · exact Or.inl (Or.inl h)
      · exact Or.inl (Or.inr h)
      · exact Or.inr h

theorem mem_innerBoundary {g : BdryGrid} (hg : Spec.HasPoints g) (b q : Nat) :
    (b, q) ∈ innerBoundary g ↔ Spec.inner g b q := by
  unfold innerBoundary Spec.inner
  split
  · rename_i h1
    simp only [List.mem_map, Prod.mk.injEq, h1, true_and]
    constructor
    · rintro ⟨q', h, rfl, rfl⟩
      exact ⟨rfl, (mem_planePts (hg 0 .one)).mp h⟩
    · rintro ⟨rfl, h⟩
      exact ⟨q, (mem_planePts (hg 0 .one)).mpr h, rfl, rfl⟩
  · rename_i h1
    simp [h1]

/-- **C101**, the other lists: the radiative points are the outer boundary, the points that are kept constant are
the outer and the inner boundary, each if it is asked for, and the excision points are the inner boundary. -/
theorem C101_lists (g : BdryGrid) (f : BdryFlags) (hg : Spec.HasPoints g) (b q : Nat) :
    let l := initBoundaryLists g f
    ((b, q) ∈ l.radiative ↔ (f.radiative ∨ f.radiativeAnalytic) ∧ Spec.outer g b q) ∧
    ((b, q) ∈ l.constant ↔ f.constant ∧ Spec.outer g b q ∨ f.constantExcision ∧ Spec.inner g b q) ∧
    ((b, q) ∈ l.excision ↔ (f.simpleExcision ∨ f.vonNeumann) ∧ Spec.inner g b q) ∧
    ((b, q) ∈ l.selected ↔ (f.selConstant ∨ f.selVonNeumann) ∧ Spec.inner g b q) := by
  unfold initBoundaryLists
  dsimp only
  simp only [List.mem_append]
  refine ⟨?_, ?_, ?_, ?_⟩
  · cases f.radiative <;> cases f.radiativeAnalytic <;> simp [mem_outerBoundary hg]
  · cases f.constant <;> cases f.constantExcision <;> simp [mem_outerBoundary hg, mem_innerBoundary hg]
  · cases f.simpleExcision <;> cases f.vonNeumann <;> simp [mem_innerBoundary hg]
  · cases f.selConstant <;> cases f.selVonNeumann <;> simp [mem_innerBoundary hg]

/-- **C101**, no point of the inner boundary is added twice. -/
theorem C101_nodup (g : BdryGrid) (f : BdryFlags) (hg : Spec.HasPoints g) :
    (initBoundaryLists g f).excision.Nodup ∧ (initBoundaryLists g f).selected.Nodup := by
  have h : (innerBoundary g).Nodup := by
    unfold innerBoundary
    split
    · exact List.Nodup.map (fun a b h => by simpa using h) (planePts_nodup (hg 0 .one))
    · exact List.nodup_nil
  constructor
  · unfold initBoundaryLists
    dsimp only
    split
    · exact h
    · exact List.nodup_nil
  · unfold initBoundaryLists
    dsimp only
    split
    · exact h
    · exact List.nodup_nil

/-- **C101**, the calls of `AddToPointList` end without an error, and the list of each box has the points of the
calls for this box, in this order. -/
theorem C101_calls (nb : Nat) (l : List (Nat × Nat)) (hl : ∀ x ∈ l, x.1 < nb) :
    ∃ pl, PLOp.run (l.map fun x => PLOp.add x.1 (x.2 : Int)) (PL.alloc nb) = .ok pl ∧
      ∀ (b : Nat) (c : CList Int), pl.pts[b]? = some c → c.WF ∧
        c.abs = ((l.filter fun x => decide (x.1 = b)).map fun x => (x.2 : Int)) := by
  obtain ⟨pl, h1, h2⟩ := C17_history nb (l.map fun x => PLOp.add x.1 (x.2 : Int)) (by
    intro o ho
    obtain ⟨x, hx, rfl⟩ := List.mem_map.mp ho
    exact hl x hx)
  refine ⟨pl, h1, fun b c hc => ?_⟩
  obtain ⟨h3, h4⟩ := h2.pts b c hc
  refine ⟨h3, h4.trans ?_⟩
  unfold Spec.plAll
  have key : ∀ (l : List (Nat × Nat)) (acc : List Int),
      ((l.map fun x => PLOp.add x.1 (x.2 : Int)).filter fun o => decide (o.box = b)).foldl Spec.plPoints acc =
        acc ++ ((l.filter fun x => decide (x.1 = b)).map fun x => (x.2 : Int)) := by
    intro l
    induction l with
    | nil => intro acc; simp
    | cons x l ih =>
      intro acc
      by_cases hx : x.1 = b
      · rw [List.map_cons, List.filter_cons_of_pos (by exact decide_eq_true hx),
          List.filter_cons_of_pos (by simpa using hx), List.foldl_cons, ih]
        simp [Spec.plPoints]
      · rw [List.map_cons, List.filter_cons_of_neg (by intro h; exact hx (of_decide_eq_true h)),
          List.filter_cons_of_neg (by simpa using hx), ih]
  rw [key]
  rfl

/-! ### Loops over boxes and points -/

section
variable {K : Type} [Field K]

omit [Field K] in
theorem onBoxes_spec (f : Nat → Arrays K → Arrays K) (boxes : List Nat) (hb : boxes.Nodup) (m : Nat → Arrays K) :
    (∀ b ∈ boxes, onBoxes boxes f m b = f b (m b)) ∧ ∀ b, b ∉ boxes → onBoxes boxes f m b = m b := by
  unfold onBoxes
  induction boxes generalizing m with
  | nil => exact ⟨fun b h => absurd h (by simp), fun b _ => rfl⟩
  | cons b' l ih =>
    rw [List.nodup_cons] at hb
    obtain ⟨h1, h2⟩ := ih hb.2 (aset m b' (f b' (m b')))
    rw [List.foldl_cons]
    refine ⟨fun b h => ?_, fun b h => ?_⟩
    · rcases List.mem_cons.mp h with rfl | h'
      · rw [h2 _ hb.1, aset_self]
      · rw [h1 b h', aset_ne]
        rintro rfl
        exact hb.1 h'
    · rw [List.mem_cons, not_or] at h
      rw [h2 b h.2, aset_ne _ _ h.1]

omit [Field K] in
theorem setPt_apply (m : Arrays K) (u p : Nat) (x : K) (a q : Nat) :
    setPt m u p x a q = if a = u ∧ q = p then x else m a q := by
  unfold setPt aset
  by_cases h : a = u
  · subst h
    by_cases h' : q = p <;> simp [h']
  · simp [h]

omit [Field K] in
/-- A loop over points that sets `u` to something that is not changed by it. -/
theorem ptsLoop (F : Arrays K → Nat → K) (u : Nat) (m0 : Arrays K) (pts : List Nat)
    (hF : ∀ m : Arrays K, (∀ a q, a ≠ u ∨ q ∉ pts → m a q = m0 a q) → ∀ p ∈ pts, F m p = F m0 p) :
    let m' := pts.foldl (fun m p => setPt m u p (F m p)) m0
    (∀ p ∈ pts, m' u p = F m0 p) ∧ ∀ a q, a ≠ u ∨ q ∉ pts → m' a q = m0 a q := by
  have key : ∀ (l : List Nat) (m : Arrays K), (∀ p ∈ l, p ∈ pts) →
      (∀ a q, a ≠ u ∨ q ∉ pts → m a q = m0 a q) →
      let m' := l.foldl (fun m p => setPt m u p (F m p)) m
      (∀ p ∈ l, m' u p = F m0 p) ∧ (∀ a q, a ≠ u ∨ q ∉ pts → m' a q = m0 a q) ∧
        ∀ p, p ∉ l → m' u p = m u p := by
    intro l
    induction l with
    | nil => intro m _ h; exact ⟨fun p hp => absurd hp (by simp), h, fun _ _ => rfl⟩
    | cons p l ih =>
      intro m hl h
      have hp : p ∈ pts := hl p List.mem_cons_self
      have h' : ∀ a q, a ≠ u ∨ q ∉ pts → setPt m u p (F m p) a q = m0 a q := by
        intro a q hq
        rw [setPt_apply, if_neg, h a q hq]
        rintro ⟨rfl, rfl⟩
        rcases hq with hq | hq
        · exact hq rfl
        · exact hq hp
      obtain ⟨i1, i2, i3⟩ := ih (setPt m u p (F m p)) (fun q hq => hl q (List.mem_cons_of_mem _ hq)) h'
      rw [List.foldl_cons]
      refine ⟨fun q hq => ?_, i2, fun q hq => ?_⟩
      · by_cases hql : q ∈ l
        · exact i1 q hql
        · obtain rfl : q = p := by
            rcases List.mem_cons.mp hq with rfl | hq
            · rfl
            · exact absurd hq hql
          rw [i3 q hql, setPt_apply, if_pos ⟨rfl, rfl⟩, hF m h q hp]
      · rw [List.mem_cons, not_or] at hq
        rw [i3 q hq.2, setPt_apply, if_neg (fun e => hq.1 e.2)]
  obtain ⟨h1, h2, -⟩ := key pts m0 (fun _ h => h) (fun _ _ _ => rfl)
  exact ⟨h1, h2⟩

/-! ### Simple conditions -/

omit [Field K] in
/-- **C101** (`set_boundary_value`): the points of the list get the value, nothing else is changed. -/
theorem C101_value (boxes : List Nat) (hb : boxes.Nodup) (pts : Nat → List Nat) (ui : Nat) (value : K)
    (m : Nat → Arrays K) :
    let m' := setValue boxes pts ui value m
    (∀ b ∈ boxes, ∀ p ∈ pts b, m' b ui p = value) ∧
    ∀ b a q, ¬ (b ∈ boxes ∧ a = ui ∧ q ∈ pts b) → m' b a q = m b a q := by
  obtain ⟨h1, h2⟩ := onBoxes_spec (fun b m => (pts b).foldl (fun m p => setPt m ui p value) m) boxes hb m
  refine ⟨fun b h p hp => ?_, fun b a q h => ?_⟩
  · unfold setValue
    rw [h1 b h]
    exact (ptsLoop (fun _ _ => value) ui (m b) (pts b) (fun _ _ _ _ => rfl)).1 p hp
  · unfold setValue
    by_cases hb' : b ∈ boxes
    · rw [h1 b hb']
      exact (ptsLoop (fun _ _ => value) ui (m b) (pts b) (fun _ _ _ _ => rfl)).2 a q
        (by by_contra hc; simp only [not_or, not_not] at hc; exact h ⟨hb', hc.1, hc.2⟩)
    · rw [h2 b hb']

omit [Field K] in
/-- **C101** (`set_boundary_constant`): the points of the list get the values of `upre`, nothing else is
changed. -/
theorem C101_constant (boxes : List Nat) (hb : boxes.Nodup) (pts : Nat → List Nat) (unew upre : Nat)
    (m : Nat → Arrays K) :
    let m' := setConstant boxes pts unew upre m
    (∀ b ∈ boxes, ∀ p ∈ pts b, m' b unew p = m b upre p) ∧
    ∀ b a q, ¬ (b ∈ boxes ∧ a = unew ∧ q ∈ pts b) → m' b a q = m b a q := by
  obtain ⟨h1, h2⟩ := onBoxes_spec (fun b m => (pts b).foldl (fun m p => setPt m unew p (m upre p)) m) boxes hb m
  by_cases hu : upre = unew
  · subst hu
    have key : ∀ (l : List Nat) (m : Arrays K), l.foldl (fun m p => setPt m upre p (m upre p)) m = m := by
      intro l
      induction l with
      | nil => intro m; rfl
      | cons p l ih =>
        intro m
        rw [List.foldl_cons, ih]
        funext a q
        rw [setPt_apply]
        split
        · rename_i h
          rw [h.1, h.2]
        · rfl
    unfold setConstant
    refine ⟨fun b h p hp => ?_, fun b a q h => ?_⟩
    · rw [h1 b h, key]
    · by_cases hb' : b ∈ boxes
      · rw [h1 b hb', key]
      · rw [h2 b hb']
  have hL : ∀ b, _ := fun b => ptsLoop (fun m p => m upre p) unew (m b) (pts b)
    (fun m' h p _ => h upre p (Or.inl hu))
  refine ⟨fun b h p hp => ?_, fun b a q h => ?_⟩
  · unfold setConstant
    rw [h1 b h]
    exact (hL b).1 p hp
  · unfold setConstant
    by_cases hb' : b ∈ boxes
    · rw [h1 b hb']
      exact (hL b).2 a q
        (by by_contra hc; simp only [not_or, not_not] at hc; exact h ⟨hb', hc.1, hc.2⟩)
    · rw [h2 b hb']

/-- **C101** (`set_boundary_simpleExcision`): on the first plane in direction 1 of boxes with at least two planes
the change of the variable is the one at the next point; nothing else is changed. -/
theorem C101_simpleExcision (d : Nat → Dims) (boxes : List Nat) (hb : boxes.Nodup) (pts : Nat → List Nat)
    (unew upre : Nat) (hu : unew ≠ upre)
    (hp : ∀ b ∈ boxes, ∀ p ∈ pts b, Spec.onPlane (d b) .one 0 p ∧ 2 ≤ (d b).n1) (m : Nat → Arrays K) :
    let m' := setSimpleExcision boxes pts unew upre m
    (∀ b ∈ boxes, ∀ p ∈ pts b, m' b unew p - m' b upre p = m' b unew (p + 1) - m' b upre (p + 1)) ∧
    ∀ b a q, ¬ (b ∈ boxes ∧ a = unew ∧ q ∈ pts b) → m' b a q = m b a q := by
  obtain ⟨h1, h2⟩ := onBoxes_spec (fun b m => (pts b).foldl (fun m p =>
    setPt m unew p (m upre p + m unew (p + 1) - m upre (p + 1))) m) boxes hb m
  have hnext : ∀ b ∈ boxes, ∀ p ∈ pts b, p + 1 ∉ pts b := by
    intro b hb' p hpp hq
    obtain ⟨⟨i, j, k, ⟨hi, hj, hk⟩, e, hi0⟩, hn⟩ := hp b hb' p hpp
    obtain ⟨⟨i', j', k', ⟨hi', hj', hk'⟩, e', hi0'⟩, -⟩ := hp b hb' (p + 1) hq
    simp only [Spec.coord] at hi0 hi0'
    subst hi0 hi0'
    have := idx_inj (d := d b) (i := 1) (j := j) (k := k) (i' := 0) (j' := j') (k' := k') (by omega) (by omega)
      hj hj' (by unfold Dims.idx; omega)
    omega
  have hL : ∀ b ∈ boxes, _ := fun b hb' => ptsLoop (fun m p => m upre p + m unew (p + 1) - m upre (p + 1)) unew
    (m b) (pts b) (fun m' h p hpp => by
      rw [h upre p (Or.inl hu.symm), h upre (p + 1) (Or.inl hu.symm), h unew (p + 1) (Or.inr (hnext b hb' p hpp))])
  have hoff : ∀ b a q, ¬ (b ∈ boxes ∧ a = unew ∧ q ∈ pts b) →
      setSimpleExcision boxes pts unew upre m b a q = m b a q := by
    intro b a q h
    unfold setSimpleExcision
    by_cases hb' : b ∈ boxes
    · rw [h1 b hb']
      exact (hL b hb').2 a q
        (by by_contra hc; simp only [not_or, not_not] at hc; exact h ⟨hb', hc.1, hc.2⟩)
    · rw [h2 b hb']
  refine ⟨fun b h p hpp => ?_, hoff⟩
  rw [hoff b upre p (fun h => hu h.2.1.symm), hoff b upre (p + 1) (fun h => hu h.2.1.symm),
    hoff b unew (p + 1) (fun hc => hnext b h p hpp hc.2.2)]
  have : setSimpleExcision boxes pts unew upre m b unew p = m b upre p + m b unew (p + 1) - m b upre (p + 1) := by
    unfold setSimpleExcision
    rw [h1 b h]
    exact (hL b h).1 p hpp
  rw [this]
  ring

/-! ### Normal derivatives -/

omit [Field K] in
/-- A loop over different points whose passes read `u` only at their point. -/
theorem ptsLoop_own (F : Arrays K → Nat → K) (u : Nat) (m0 : Arrays K) (pts : List Nat) (hn : pts.Nodup)
    (hF : ∀ m : Arrays K, (∀ a q, a ≠ u → m a q = m0 a q) → ∀ p, m u p = m0 u p → F m p = F m0 p) :
    let m' := pts.foldl (fun m p => setPt m u p (F m p)) m0
    (∀ p ∈ pts, m' u p = F m0 p) ∧ ∀ a q, a ≠ u ∨ q ∉ pts → m' a q = m0 a q := by
  have key : ∀ (l : List Nat) (m : Arrays K), l.Nodup → (∀ a q, a ≠ u → m a q = m0 a q) →
      (∀ p ∈ l, m u p = m0 u p) →
      let m' := l.foldl (fun m p => setPt m u p (F m p)) m
      (∀ p ∈ l, m' u p = F m0 p) ∧ (∀ a q, a ≠ u → m' a q = m0 a q) ∧ ∀ p, p ∉ l → m' u p = m u p := by
    intro l
    induction l with
    | nil => intro m _ h _; exact ⟨fun p hp => absurd hp (by simp), h, fun _ _ => rfl⟩
    | cons p l ih =>
      intro m hn h hu
      rw [List.nodup_cons] at hn
      obtain ⟨i1, i2, i3⟩ := ih (setPt m u p (F m p)) hn.2
        (fun a q hq => by rw [setPt_apply, if_neg (fun e => hq e.1), h a q hq])
        (fun q hq => by
          rw [setPt_apply, if_neg, hu q (List.mem_cons_of_mem _ hq)]
          rintro ⟨-, rfl⟩
          exact hn.1 hq)
      rw [List.foldl_cons]
      refine ⟨fun q hq => ?_, i2, fun q hq => ?_⟩
      · rcases List.mem_cons.mp hq with rfl | hq
        · rw [i3 q hn.1, setPt_apply, if_pos ⟨rfl, rfl⟩, hF m h q (hu q List.mem_cons_self)]
        · exact i1 q hq
      · rw [List.mem_cons, not_or] at hq
        rw [i3 q hq.2, setPt_apply, if_neg (fun e => hq.1 e.2)]
  obtain ⟨h1, h2, h3⟩ := key pts m0 hn (fun _ _ _ => rfl) (fun _ _ => rfl)
  refine ⟨h1, fun a q h => ?_⟩
  by_cases ha : a = u
  · subst ha
    exact h3 q (h.resolve_left fun h => h rfl)
  · exact h2 a q ha

open Finset in
/-- Replacing one entry of a line. -/
theorem line_deriv (D : Nat → K) (n e : Nat) (he : e < n) (line line' : Nat → K) (deriv : K)
    (hoff : ∀ l, l < n → l ≠ e → line' l = line l) (hD : D (n * e + e) ≠ 0)
    (hnew : line' e = (deriv - ∑ l ∈ range n, D (n * e + l) * line l + D (n * e + e) * line e) / D (n * e + e)) :
    ∑ l ∈ range n, D (n * e + l) * line' l = deriv := by
  have h1 := Finset.add_sum_erase (range n) (fun l => D (n * e + l) * line' l) (mem_range.mpr he)
  have h2 := Finset.add_sum_erase (range n) (fun l => D (n * e + l) * line l) (mem_range.mpr he)
  have h3 : ∑ l ∈ (range n).erase e, D (n * e + l) * line' l = ∑ l ∈ (range n).erase e, D (n * e + l) * line l :=
    sum_congr rfl fun l hl => by
      rw [mem_erase, mem_range] at hl
      rw [hoff l hl.2 hl.1]
  rw [← h1, h3, hnew, ← h2]
  field_simp
  ring

/-- **C101** (`set_boundary_normalderiv_leftBound`, `..._rightBound`): if the points of the list are different
points of the first (last) plane of the direction, and `spec_Deriv1` is the multiplication of lines by the matrix
`D` whose corner is not zero, the derivative computed by `spec_Deriv1` afterwards has the wanted value at these
points. The variable is changed at these points only. -/
theorem C101_normalderiv (right : Bool) (g : Nat → (Nat → K) × (Nat → K) × (Nat → K)) (b : LBox K) (ax : Axis)
    (hlin : BoxLinear b ax) (pts : List Nat) (u du : Nat) (hu : u ≠ du) (deriv : K) (m : Arrays K)
    (hmat : ∀ line i, i < b.d.len ax →
      d1Op b ax line i = ∑ l ∈ Finset.range (b.d.len ax), b.D ax (b.d.len ax * i + l) * line l)
    (e : Nat) (he : e = if right then b.d.len ax - 1 else 0) (hD : b.D ax (b.d.len ax * e + e) ≠ 0)
    (hn : pts.Nodup) (hpts : ∀ p ∈ pts, Spec.onPlane b.d ax e p) :
    let m' := normalDerivBox right g b ax pts u du deriv m
    (∀ i j k, Spec.inBox b.d i j k → i + b.d.n1 * (j + b.d.n2 * k) ∈ pts →
      Spec.view b.d (specDeriv1 g b ax u du m') du i j k = deriv) ∧
    (∀ p, p ∉ pts → m' u p = m u p) ∧ ∀ a p, a ≠ u → a ≠ du → m' a p = m a p := by
  have hcorner : b.D ax (if right then b.d.len ax * b.d.len ax - 1 else 0) = b.D ax (b.d.len ax * e + e) ∨
      b.d.len ax = 0 := by
    rcases Nat.eq_zero_or_pos (b.d.len ax) with h0 | h0
    · exact Or.inr h0
    · left
      subst he
      cases right
      · simp
      · simp only [if_true]
        congr 1
        obtain ⟨k, hk⟩ : ∃ k, b.d.len ax = k + 1 := ⟨b.d.len ax - 1, by omega⟩
        rw [hk, Nat.add_sub_cancel]
        have : (k + 1) * (k + 1) = (k + 1) * k + k + 1 := by ring
        omega
  have hact := C41_deriv1 g b ax hlin u du (fun _ _ => hu) m
  intro m'
  obtain ⟨l1, l2⟩ := ptsLoop_own (fun m p => (deriv - m du p +
      b.D ax (if right then b.d.len ax * b.d.len ax - 1 else 0) * m u p) /
      b.D ax (if right then b.d.len ax * b.d.len ax - 1 else 0)) u (specDeriv1 g b ax u du m) pts hn
    (fun m' h p hp => by rw [h du p hu.symm, hp])
  have hm' : m' = pts.foldl (fun m p => setPt m u p ((deriv - m du p +
      b.D ax (if right then b.d.len ax * b.d.len ax - 1 else 0) * m u p) /
      b.D ax (if right then b.d.len ax * b.d.len ax - 1 else 0))) (specDeriv1 g b ax u du m) := rfl
  rw [← hm'] at l1 l2
  have hkeep : ∀ p, p ∉ pts → m' u p = m u p := fun p hp => by
    rw [l2 u p (Or.inr hp), hact.2 u p (Or.inl hu)]
  refine ⟨fun i j k hb hp => ?_, hkeep, fun a p h1 h2 => by rw [l2 a p (Or.inl h1), hact.2 a p (Or.inl h2)]⟩
  have hact' := C41_deriv1 g b ax hlin u du (fun _ _ => hu) m'
  rw [hact'.1 i j k hb]
  obtain ⟨i', j', k', hb', e1, e2⟩ := hpts _ hp
  obtain ⟨rfl, rfl, rfl⟩ := idx_inj hb.1 hb'.1 hb.2.1 hb'.2.1 e1
  have hdu := hact.1 i j k hb
  have hnew := l1 _ hp
  rw [hact.2 u _ (Or.inl hu)] at hnew
  have hpos : b.d.len ax ≠ 0 := by
    cases ax <;> simp only [Dims.len] <;> have := hb.1 <;> have := hb.2.1 <;> have := hb.2.2 <;> omega
  rw [hcorner.resolve_right hpos] at hnew
  have hview : ∀ (mm : Arrays K) a i j k, Spec.view b.d mm a i j k = mm a (i + b.d.n1 * (j + b.d.n2 * k)) :=
    fun _ _ _ _ _ => rfl
  rw [hview] at hdu
  rw [hdu] at hnew
  have hline : ∀ {i' j' k'}, Spec.inBox b.d i' j' k' → Spec.coord ax i' j' k' ≠ e →
      Spec.view b.d m' u i' j' k' = Spec.view b.d m u i' j' k' := by
    intro i' j' k' h1 h2
    refine hkeep _ fun h3 => ?_
    obtain ⟨i2, j2, k2, hb2, e3, e4⟩ := hpts _ h3
    obtain ⟨rfl, rfl, rfl⟩ := idx_inj h1.1 hb2.1 h1.2.1 hb2.2.1 e3
    exact h2 e4
  cases ax with
  | one =>
    obtain rfl : i = e := e2
    simp only [Spec.onLines] at hnew ⊢
    rw [hmat _ _ hb.1] at hnew ⊢
    exact line_deriv (b.D .one) _ i hb.1 (fun l => Spec.view b.d m u l j k) _ deriv
      (fun l h1 h2 => hline ⟨h1, hb.2⟩ h2) hD hnew
  | two =>
    obtain rfl : j = e := e2
    simp only [Spec.onLines] at hnew ⊢
    rw [hmat _ _ hb.2.1] at hnew ⊢
    exact line_deriv (b.D .two) _ j hb.2.1 (fun l => Spec.view b.d m u i l k) _ deriv
      (fun l h1 h2 => hline ⟨hb.1, h1, hb.2.2⟩ h2) hD hnew
  | three =>
    obtain rfl : k = e := e2
    simp only [Spec.onLines] at hnew ⊢
    rw [hmat _ _ hb.2.2] at hnew ⊢
    exact line_deriv (b.D .three) _ k hb.2.2 (fun l => Spec.view b.d m u i j l) _ deriv
      (fun l h1 h2 => hline ⟨hb.1, hb.2.1, h1⟩ h2) hD hnew

/-- **C101** (`set_boundary_VonNeumannExcision`): the derivative in direction 1 that `spec_Deriv1` computes is 0 at
the points of the list, in every box. -/
theorem C101_vonNeumann (g : Nat → Nat → (Nat → K) × (Nat → K) × (Nat → K)) (lb : Nat → LBox K) (boxes : List Nat)
    (hb : boxes.Nodup) (pts : Nat → List Nat) (unew du : Nat) (hu : unew ≠ du) (m : Nat → Arrays K)
    (hlin : ∀ b ∈ boxes, BoxLinear (lb b) .one)
    (hmat : ∀ b ∈ boxes, ∀ line i, i < (lb b).d.n1 →
      d1Op (lb b) .one line i = ∑ l ∈ Finset.range (lb b).d.n1, (lb b).D .one ((lb b).d.n1 * i + l) * line l)
    (hD : ∀ b ∈ boxes, (lb b).D .one 0 ≠ 0) (hn : ∀ b ∈ boxes, (pts b).Nodup)
    (hpts : ∀ b ∈ boxes, ∀ p ∈ pts b, Spec.onPlane (lb b).d .one 0 p) :
    ∃ m', setVonNeumann g lb boxes pts unew du m = .ok m' ∧
      (∀ b ∈ boxes, ∀ i j k, Spec.inBox (lb b).d i j k → i + (lb b).d.n1 * (j + (lb b).d.n2 * k) ∈ pts b →
        Spec.view (lb b).d (specDeriv1 (g b) (lb b) .one unew du (m' b)) du i j k = 0) ∧
      ∀ b u q, ¬ (b ∈ boxes ∧ (u = du ∨ u = unew ∧ q ∈ pts b)) → m' b u q = m b u q := by
  obtain ⟨h1, h2⟩ := onBoxes_spec (fun b => normalDerivBox false (g b) (lb b) .one (pts b) unew du 0) boxes hb m
  have key := fun b (hbb : b ∈ boxes) => C101_normalderiv false (g b) (lb b) .one (hlin b hbb) (pts b) unew du hu 0
    (m b) (hmat b hbb) 0 rfl (by simpa using hD b hbb) (hn b hbb) (hpts b hbb)
  refine ⟨onBoxes boxes (fun b => normalDerivBox false (g b) (lb b) .one (pts b) unew du 0) m, rfl,
    fun b hbb i j k hi hp => ?_, fun b u q h => ?_⟩
  · rw [h1 b hbb]
    exact (key b hbb).1 i j k hi hp
  · by_cases hbb : b ∈ boxes
    · rw [h1 b hbb]
      by_cases hu' : u = unew
      · subst hu'
        exact (key b hbb).2.1 q fun hq => h ⟨hbb, Or.inr ⟨rfl, hq⟩⟩
      · exact (key b hbb).2.2 u q hu' fun e => h ⟨hbb, Or.inl e⟩
    · rw [h2 b hbb]

/-! ### The radiative condition -/

/-- The right hand side of the radiative condition, `-v (u - u0)/r - v (x/r) . grad u`. -/
def Spec.radRhs (sqrt : K → K) (v u u0 x y z gx gy gz : K) : K :=
  -(v * (u - u0)) / sqrt (x ^ 2 + y ^ 2 + z ^ 2) - v * (x * gx + y * gy + z * gz) / sqrt (x ^ 2 + y ^ 2 + z ^ 2)

/-- What the evolution functions make of a right hand side: with `c = 0` the right hand side itself is asked for. -/
def Spec.update [DecidableEq K] (c upre rhs : K) : K := if c = 0 then rhs else upre + c * rhs

/-- The derivative of the variable `v` in the Cartesian direction `k`. -/
def Spec.gradAt (c : CartBox K) (m : Arrays K) (v p k : Nat) : K :=
  if c.trafo then ∑ i ∈ Finset.Icc 1 3, Spec.dXOf c (Function.uncurry m) p i k * c.deriv1 i (m v) p
  else c.deriv1 k (m v) p

/-- The temporary variable of the derivative in direction `k`. -/
def Spec.isTemp (a : RadIds) (u : Nat) : Prop := u = a.t1 ∨ u = a.t2 ∨ u = a.t3

/-- The assumptions on the variables: the temporary variables are different, are not read otherwise, and the result
is a variable of its own. -/
structure Spec.RadApart (c : CartBox K) (a : RadIds) (unew upre ucur : Nat) : Prop where
  t12 : a.t1 ≠ a.t2
  t13 : a.t1 ≠ a.t3
  t23 : a.t2 ≠ a.t3
  stored : ∀ u, Spec.isTemp a u → (c.stored1 → ¬ (c.dXd ≤ u ∧ u < c.dXd + 9)) ∧
    (c.stored2 → ¬ (c.ddXdd ≤ u ∧ u < c.ddXdd + 18))
  cur : ¬ Spec.isTemp a ucur
  pre : ¬ Spec.isTemp a upre
  x : ¬ Spec.isTemp a a.x
  y : ¬ Spec.isTemp a a.y
  z : ¬ Spec.isTemp a a.z
  new : ¬ Spec.isTemp a unew
  newpre : unew ≠ upre
  newcur : unew ≠ ucur
  newx : unew ≠ a.x
  newy : unew ≠ a.y
  newz : unew ≠ a.z

theorem RadIds.isTemp_temp (a : RadIds) (k : Nat) : Spec.isTemp a (a.temp k) := by
  unfold Spec.isTemp RadIds.temp
  split
  · exact Or.inl rfl
  · split
    · exact Or.inr (Or.inl rfl)
    · exact Or.inr (Or.inr rfl)

/-- `cart_partials` with the temporary variables. -/
theorem cartPartialsOf_spec (c : CartBox K) (sched : List Nat) (ρ : Nat → Nat → K) (v : Nat) (a : RadIds)
    (m : Arrays K) (h12 : a.t1 ≠ a.t2) (h13 : a.t1 ≠ a.t3) (h23 : a.t2 ≠ a.t3)
    (hst : ∀ u, Spec.isTemp a u → (c.stored1 → ¬ (c.dXd ≤ u ∧ u < c.dXd + 9)) ∧
      (c.stored2 → ¬ (c.ddXdd ≤ u ∧ u < c.ddXdd + 18)))
    (hv : ¬ Spec.isTemp a v) (hs : c.trafo → Complete c.npts (cartPass c a.temp) sched)
    (hn : ∀ k, c.sing k = none) :
    let m' := cartPartialsOf c sched ρ v a.temp m
    (∀ p, p < c.npts → m' a.t1 p = Spec.gradAt c m v p 1 ∧ m' a.t2 p = Spec.gradAt c m v p 2 ∧
      m' a.t3 p = Spec.gradAt c m v p 3) ∧
    ∀ u p, ¬ Spec.isTemp a u ∨ c.npts ≤ p → m' u p = m u p := by
  have hout : Spec.Outputs c v a.temp 3 := by
    refine ⟨fun k k' h1 h2 h1' h2' he => ?_, fun k _ _ => ⟨fun e => hv (e ▸ a.isTemp_temp k), hst _ (a.isTemp_temp k)⟩⟩
    rcases three h1 h2 with rfl | rfl | rfl <;> rcases three h1' h2' with rfl | rfl | rfl <;>
      simp only [RadIds.temp] at he <;> first | rfl | (simp at he; exact absurd he (by first | assumption | (exact Ne.symm (by assumption))))
  have key : (∀ ind k, ind < c.npts → 1 ≤ k → k ≤ 3 →
        cartPartials c sched ρ v a.temp (Function.uncurry m) (a.temp k, ind) = Spec.gradAt c m v ind k) ∧
      ∀ x, ¬ (x.2 < c.npts ∧ ∃ k, 1 ≤ k ∧ k ≤ 3 ∧ x.1 = a.temp k) →
        cartPartials c sched ρ v a.temp (Function.uncurry m) x = Function.uncurry m x := by
    by_cases ht : c.trafo
    · obtain ⟨h1, h2⟩ := C99_first c sched ρ v a.temp (Function.uncurry m) (hs ht) hout ht hn
      refine ⟨fun ind k h h' h'' => ?_, h2⟩
      rw [h1 ind k h h' h'', Spec.gradAt, if_pos ht]
      rfl
    · obtain ⟨h1, h2⟩ := C99_first_cartesian c sched ρ v a.temp (Function.uncurry m) hout (by simpa using ht)
      refine ⟨fun ind k h h' h'' => ?_, h2⟩
      rw [h1 ind k h h' h'', Spec.gradAt, if_neg ht]
      rfl
  refine ⟨fun p hp => ⟨key.1 p 1 hp (by omega) (by omega), key.1 p 2 hp (by omega) (by omega),
    key.1 p 3 hp (by omega) (by omega)⟩, fun u p h => key.2 (u, p) ?_⟩
  rintro ⟨h1, k, -, -, e⟩
  rcases h with h | h
  · exact h ((show u = a.temp k from e) ▸ a.isTemp_temp k)
  · exact absurd h1 (by simp only; omega)

section
variable [DecidableEq K]

/-- **C101** (`set_boundary_radiative`): at the points of the list the new variable is the right hand side of the
radiative condition (for `c = 0`) or the old variable plus `c` times it, with the Cartesian derivatives of the
current variable. Besides these points only the three temporary variables are changed. This holds for every order
of the accesses of the threads in `cart_partials`. -/
theorem C101_radiative (sqrt : K → K) (cb : Nat → CartBox K) (sched : Nat → List Nat) (ρ : Nat → Nat → Nat → K)
    (a : RadIds) (boxes : List Nat) (hb : boxes.Nodup) (pts : Nat → List Nat) (unew upre : Nat) (c : K) (ucur : Nat)
    (var0 v : K) (m : Nat → Arrays K) (ha : ∀ b ∈ boxes, Spec.RadApart (cb b) a unew upre ucur)
    (hs : ∀ b ∈ boxes, (cb b).trafo → Complete (cb b).npts (cartPass (cb b) a.temp) (sched b))
    (hn : ∀ b ∈ boxes, ∀ k, (cb b).sing k = none) (hp : ∀ b ∈ boxes, ∀ p ∈ pts b, p < (cb b).npts) :
    let m' := setRadiative sqrt cb sched ρ a boxes pts unew upre c ucur var0 v m
    (∀ b ∈ boxes, ∀ p ∈ pts b, m' b unew p = Spec.update c (m b upre p)
      (Spec.radRhs sqrt v (m b ucur p) var0 (m b a.x p) (m b a.y p) (m b a.z p)
        (Spec.gradAt (cb b) (m b) ucur p 1) (Spec.gradAt (cb b) (m b) ucur p 2) (Spec.gradAt (cb b) (m b) ucur p 3))) ∧
    ∀ b u q, ¬ (b ∈ boxes ∧ u = unew ∧ q ∈ pts b) → ¬ (b ∈ boxes ∧ Spec.isTemp a u ∧ q < (cb b).npts) →
      m' b u q = m b u q := by
  obtain ⟨h1, h2⟩ := onBoxes_spec (fun b m => (pts b).foldl (radiativePass sqrt a unew upre c ucur var0 v)
    (cartPartialsOf (cb b) (sched b) (ρ b) ucur a.temp m)) boxes hb m
  have hpass : ∀ b ∈ boxes, let m1 := cartPartialsOf (cb b) (sched b) (ρ b) ucur a.temp (m b)
      let m' := (pts b).foldl (radiativePass sqrt a unew upre c ucur var0 v) m1
      (∀ p ∈ pts b, m' unew p = Spec.update c (m1 upre p) (Spec.radRhs sqrt v (m1 ucur p) var0 (m1 a.x p) (m1 a.y p)
        (m1 a.z p) (m1 a.t1 p) (m1 a.t2 p) (m1 a.t3 p))) ∧
      ∀ u q, u ≠ unew ∨ q ∉ pts b → m' u q = m1 u q := by
    intro b hbb m1
    have h := ha b hbb
    have hpt : radiativePass sqrt a unew upre c ucur var0 v = fun (m : Arrays K) p => setPt m unew p
        (Spec.update c (m upre p) (Spec.radRhs sqrt v (m ucur p) var0 (m a.x p) (m a.y p) (m a.z p) (m a.t1 p)
          (m a.t2 p) (m a.t3 p))) := by
      funext m p
      unfold radiativePass Spec.update Spec.radRhs
      simp only
      congr 1
      have : -v * (m ucur p - var0) / sqrt (m a.x p * m a.x p + m a.y p * m a.y p + m a.z p * m a.z p) -
          (v * m a.x p / sqrt (m a.x p * m a.x p + m a.y p * m a.y p + m a.z p * m a.z p) * m a.t1 p +
            v * m a.y p / sqrt (m a.x p * m a.x p + m a.y p * m a.y p + m a.z p * m a.z p) * m a.t2 p +
            v * m a.z p / sqrt (m a.x p * m a.x p + m a.y p * m a.y p + m a.z p * m a.z p) * m a.t3 p) =
          -(v * (m ucur p - var0)) / sqrt (m a.x p ^ 2 + m a.y p ^ 2 + m a.z p ^ 2) -
            v * (m a.x p * m a.t1 p + m a.y p * m a.t2 p + m a.z p * m a.t3 p) /
              sqrt (m a.x p ^ 2 + m a.y p ^ 2 + m a.z p ^ 2) := by
        simp only [← sq]
        ring
      rw [this]
      by_cases hc : c = 0 <;> simp [hc]
    rw [hpt]
    exact ptsLoop (fun (m : Arrays K) p => Spec.update c (m upre p) (Spec.radRhs sqrt v (m ucur p) var0 (m a.x p)
      (m a.y p) (m a.z p) (m a.t1 p) (m a.t2 p) (m a.t3 p))) unew m1 (pts b) (fun m' hm p _ => by
        rw [hm _ p (Or.inl h.newpre.symm), hm _ p (Or.inl h.newcur.symm), hm _ p (Or.inl h.newx.symm),
          hm _ p (Or.inl h.newy.symm), hm _ p (Or.inl h.newz.symm), hm a.t1 p (Or.inl fun e => h.new (Or.inl e.symm)),
          hm a.t2 p (Or.inl fun e => h.new (Or.inr (Or.inl e.symm))),
          hm a.t3 p (Or.inl fun e => h.new (Or.inr (Or.inr e.symm)))])
  refine ⟨fun b hbb p hpp => ?_, fun b u q h3 h4 => ?_⟩
  · have h := ha b hbb
    obtain ⟨c1, c2⟩ := cartPartialsOf_spec (cb b) (sched b) (ρ b) ucur a (m b) h.t12 h.t13 h.t23 h.stored h.cur
      (hs b hbb) (hn b hbb)
    have := (hpass b hbb).1 p hpp
    rw [c2 _ p (Or.inl h.pre), c2 _ p (Or.inl h.cur), c2 _ p (Or.inl h.x), c2 _ p (Or.inl h.y), c2 _ p (Or.inl h.z),
      (c1 p (hp b hbb p hpp)).1, (c1 p (hp b hbb p hpp)).2.1, (c1 p (hp b hbb p hpp)).2.2] at this
    rw [← this]
    exact congrFun (congrFun (h1 b hbb) unew) p
  · by_cases hbb : b ∈ boxes
    · have h := ha b hbb
      obtain ⟨c1, c2⟩ := cartPartialsOf_spec (cb b) (sched b) (ρ b) ucur a (m b) h.t12 h.t13 h.t23 h.stored h.cur
        (hs b hbb) (hn b hbb)
      refine (congrFun (congrFun (h1 b hbb) u) q).trans ?_
      rw [(hpass b hbb).2 u q (by
        by_cases hu : u = unew
        · exact Or.inr fun hq => h3 ⟨hbb, hu, hq⟩
        · exact Or.inl hu)]
      refine c2 u q ?_
      by_cases ht : Spec.isTemp a u
      · exact Or.inr (by by_contra hq; exact h4 ⟨hbb, ht, by omega⟩)
      · exact Or.inl ht
    · exact congrFun (congrFun (h2 b hbb) u) q

omit [Field K] [DecidableEq K] in
/-- A loop over variables whose passes set one variable each, from variables that are not set. -/
theorem forVars_spec (n : Nat) (f : Nat → (Nat → Arrays K) → Nat → Arrays K) (un : Nat → Nat)
    (T : Nat → Prop) (m0 : Nat → Arrays K) (V : Nat → Nat → Nat → K)
    (hinj : ∀ j k, j < n → k < n → un j = un k → j = k) (hT : ∀ j, j < n → ¬ T (un j))
    (hkeep : ∀ j, j < n → ∀ (m : Nat → Arrays K) b u q, u ≠ un j → ¬ T u → f j m b u q = m b u q)
    (hset : ∀ j, j < n → ∀ m : Nat → Arrays K,
      (∀ b u q, ¬ T u → (∀ k, k < n → u ≠ un k) → m b u q = m0 b u q) → (∀ b q, m b (un j) q = m0 b (un j) q) →
      ∀ b q, f j m b (un j) q = V j b q) :
    ∃ m', forVars n (fun j m => .ok (f j m)) m0 = .ok m' ∧ (∀ j, j < n → ∀ b q, m' b (un j) q = V j b q) ∧
      ∀ b u q, ¬ T u → (∀ j, j < n → u ≠ un j) → m' b u q = m0 b u q := by
  obtain ⟨m', h1, h2, h3, h4⟩ := forN_inv (n := n) (body := fun j m => Res.ok (f j m)) (s := m0)
    (fun J m => (∀ j, j < J → ∀ b q, m b (un j) q = V j b q) ∧
      (∀ j, J ≤ j → j < n → ∀ b q, m b (un j) q = m0 b (un j) q) ∧
      ∀ b u q, ¬ T u → (∀ j, j < n → u ≠ un j) → m b u q = m0 b u q)
    ⟨fun j h => absurd h (by omega), fun _ _ _ _ _ => rfl, fun _ _ _ _ _ => rfl⟩
    (fun J hJ m ⟨i1, i2, i3⟩ => ⟨f J m, rfl, fun j hj b q => by
        rcases Nat.lt_succ_iff_lt_or_eq.mp hj with h | h
        · rw [hkeep J hJ m b _ q (fun e => absurd (hinj j J (by omega) hJ e) (by omega)) (hT j (by omega))]
          exact i1 j h b q
        · subst h
          exact hset j hJ m i3 (i2 j (le_refl _) hJ) b q,
      fun j h h' b q => by
        rw [hkeep J hJ m b _ q (fun e => absurd (hinj j J h' hJ e) (by omega)) (hT j h')]
        exact i2 j (by omega) h' b q,
      fun b u q h h' => by
        rw [hkeep J hJ m b u q (h' J hJ) h]
        exact i3 b u q h h'⟩)
  exact ⟨m', h1, h2, h4⟩

theorem getD_of_lt {l : List Nat} {j : Nat} (h : j < l.length) : l.getD j 0 = l[j] := by
  rw [List.getD_eq_getElem?_getD, List.getElem?_eq_getElem h]
  rfl

omit [DecidableEq K] in
theorem gradAt_congr (c : CartBox K) (m m0 : Arrays K) (v p k : Nat) (hk : 1 ≤ k ∧ k ≤ 3) (hv : ∀ q, m v q = m0 v q)
    (hst : c.stored1 → ∀ u, c.dXd ≤ u → u < c.dXd + 9 → ∀ q, m u q = m0 u q) :
    Spec.gradAt c m v p k = Spec.gradAt c m0 v p k := by
  unfold Spec.gradAt
  rw [show m v = m0 v from funext hv]
  split
  · refine Finset.sum_congr rfl fun i hi => ?_
    rw [Finset.mem_Icc] at hi
    congr 1
    unfold Spec.dXOf
    split
    · rename_i h
      exact hst h _ (by omega) (by omega) p
    · rfl
  · rfl

/-- The speed of a variable: 0 if it, or its name without an ending like `_x`, is in the list of constants. -/
def Spec.speed (e : BdryEnv K) (u : Nat) : K :=
  if e.radConst (e.name u) = true ∨ e.radConst (radName (e.name u)) = true then 0 else e.propSpeed u

/-- **C101** (`set_boundary` with `boundary = radiative`): every variable of `unew` gets the values of the radiative
condition, formed with the variables before the call; nothing else but the temporary variables is changed. -/
theorem C101_set_boundary (e : BdryEnv K) (unew upre ucur : List Nat) (c time : K) (dup : List Nat)
    (init : Option (List Nat)) (m : Nat → Arrays K)
    (hflags : e.flags = ⟨true, false, false, false, false, false, false, false⟩) (hb : e.boxes.Nodup)
    (hn : unew.Nodup) (hnew : ∀ u ∈ unew, u ∉ upre ∧ u ∉ ucur ∧ ∀ b ∈ e.boxes, (e.cb b).stored1 →
      ¬ ((e.cb b).dXd ≤ u ∧ u < (e.cb b).dXd + 9))
    (hl : upre.length = unew.length) (hl' : ucur.length = unew.length)
    (ha : ∀ b ∈ e.boxes, ∀ u ∈ unew, ∀ u' ∈ upre, ∀ u'' ∈ ucur, Spec.RadApart (e.cb b) e.a u u' u'')
    (hs : ∀ b ∈ e.boxes, (e.cb b).trafo → Complete (e.cb b).npts (cartPass (e.cb b) e.a.temp) (e.sched 0 b))
    (hsing : ∀ b ∈ e.boxes, ∀ k, (e.cb b).sing k = none) (hp : ∀ b ∈ e.boxes, ∀ p ∈ e.radPts b, p < (e.cb b).npts) :
    ∃ m', setBoundary e unew upre c ucur time dup init m = .ok (m', init) ∧
      (∀ (j u u' u'' : Nat), unew[j]? = some u → upre[j]? = some u' → ucur[j]? = some u'' → ∀ b ∈ e.boxes, ∀ p ∈ e.radPts b,
        m' b u p = Spec.update c (m b u' p)
          (Spec.radRhs e.sqrt (Spec.speed e u) (m b u'' p) (e.farLimit u) (m b e.a.x p) (m b e.a.y p) (m b e.a.z p)
            (Spec.gradAt (e.cb b) (m b) u'' p 1) (Spec.gradAt (e.cb b) (m b) u'' p 2)
            (Spec.gradAt (e.cb b) (m b) u'' p 3))) ∧
      ∀ b u q, ¬ Spec.isTemp e.a u → ¬ (b ∈ e.boxes ∧ u ∈ unew ∧ q ∈ e.radPts b) → m' b u q = m b u q := by
  classical
  have hmem : ∀ {l : List Nat} {j}, j < l.length → l.getD j 0 ∈ l := fun {l j} h => by
    rw [getD_of_lt h]
    exact List.getElem_mem h
  have hap : ∀ b ∈ e.boxes, ∀ j, j < unew.length →
      Spec.RadApart (e.cb b) e.a (unew.getD j 0) (upre.getD j 0) (ucur.getD j 0) := fun b hb j hj =>
    ha b hb _ (hmem hj) _ (hmem (by omega)) _ (hmem (by omega))
  have hrad := fun j (hj : j < unew.length) (m : Nat → Arrays K) =>
    C101_radiative e.sqrt e.cb (e.sched 0) e.ρ e.a e.boxes hb e.radPts (unew.getD j 0) (upre.getD j 0) c
      (ucur.getD j 0) (e.farLimit (unew.getD j 0))
      (radSpeed e.radConst (e.name (unew.getD j 0)) (e.propSpeed (unew.getD j 0))) m
      (fun b hb => hap b hb j hj) hs hsing hp
  by_cases hbx : e.boxes = []
  · refine ⟨m, ?_, fun j u u' u'' _ _ _ b hb => absurd hb (by simp [hbx]), fun _ _ _ _ _ => rfl⟩
    have hid : ∀ n, forVars (K := K) n (fun j m => .ok (setRadiative e.sqrt e.cb (e.sched 0) e.ρ e.a e.boxes e.radPts
        (unew.getD j 0) (upre.getD j 0) c (ucur.getD j 0) (e.farLimit (unew.getD j 0))
        (radSpeed e.radConst (e.name (unew.getD j 0)) (e.propSpeed (unew.getD j 0))) m)) m = .ok m := by
      intro n
      induction n with
      | zero => rfl
      | succ n ih =>
        unfold forVars at ih ⊢
        rw [forN, ih, Res.bind_ok, hbx]
        rfl
    unfold setBoundary
    rw [hflags]
    simp only [if_true, hid, Res.bind_ok]
    simp
  obtain ⟨b0, hb0⟩ : ∃ b, b ∈ e.boxes := List.exists_mem_of_ne_nil _ hbx
  have hother : ∀ j k, j < unew.length → k < unew.length →
      unew.getD k 0 ≠ upre.getD j 0 ∧ unew.getD k 0 ≠ ucur.getD j 0 := fun j k hj hk => by
    obtain ⟨h1, h2, -⟩ := hnew _ (hmem hk)
    exact ⟨fun e => h1 (e ▸ hmem (by omega)), fun e => h2 (e ▸ hmem (by omega))⟩
  obtain ⟨m', g1, g2, g3⟩ := forVars_spec unew.length (fun j m => setRadiative e.sqrt e.cb (e.sched 0) e.ρ e.a e.boxes
      e.radPts (unew.getD j 0) (upre.getD j 0) c (ucur.getD j 0) (e.farLimit (unew.getD j 0))
      (radSpeed e.radConst (e.name (unew.getD j 0)) (e.propSpeed (unew.getD j 0))) m) (fun j => unew.getD j 0)
    (Spec.isTemp e.a) m
    (fun j b p => if b ∈ e.boxes ∧ p ∈ e.radPts b then Spec.update c (m b (upre.getD j 0) p)
      (Spec.radRhs e.sqrt (Spec.speed e (unew.getD j 0)) (m b (ucur.getD j 0) p) (e.farLimit (unew.getD j 0))
        (m b e.a.x p) (m b e.a.y p) (m b e.a.z p) (Spec.gradAt (e.cb b) (m b) (ucur.getD j 0) p 1)
        (Spec.gradAt (e.cb b) (m b) (ucur.getD j 0) p 2) (Spec.gradAt (e.cb b) (m b) (ucur.getD j 0) p 3))
      else m b (unew.getD j 0) p)
    (fun j k hj hk he => by
      rw [getD_of_lt hj, getD_of_lt hk] at he
      exact (List.Nodup.getElem_inj_iff hn).mp he)
    (fun j hj => (hap b0 hb0 j hj).new)
    (fun j hj m b u q h1 h2 => (hrad j hj m).2 b u q (fun h => h1 h.2.1) (fun h => h2 h.2.1))
    (fun j hj m1 hm1 hun b p => by
      by_cases hbp : b ∈ e.boxes ∧ p ∈ e.radPts b
      · rw [if_pos hbp, (hrad j hj m1).1 b hbp.1 p hbp.2]
        have h := hap b hbp.1 j hj
        have r1 := fun q => hm1 b _ q h.pre fun k hk => (hother j k hj hk).1.symm
        have r2 := fun q => hm1 b _ q h.cur fun k hk => (hother j k hj hk).2.symm
        have r3 := fun q => hm1 b _ q h.x fun k hk => (hap b hbp.1 k hk).newx.symm
        have r4 := fun q => hm1 b _ q h.y fun k hk => (hap b hbp.1 k hk).newy.symm
        have r5 := fun q => hm1 b _ q h.z fun k hk => (hap b hbp.1 k hk).newz.symm
        have r6 : ∀ k, 1 ≤ k ∧ k ≤ 3 → Spec.gradAt (e.cb b) (m1 b) (ucur.getD j 0) p k =
            Spec.gradAt (e.cb b) (m b) (ucur.getD j 0) p k := fun k hk =>
          gradAt_congr _ _ _ _ _ k hk r2 fun hst u h1 h2 q => hm1 b u q
            (fun ht => (h.stored u ht).1 hst ⟨h1, h2⟩)
            fun k hk he => (hnew _ (hmem hk)).2.2 b hbp.1 hst ⟨he ▸ h1, he ▸ h2⟩
        rw [r1, r2, r3, r4, r5, r6 1 (by omega), r6 2 (by omega), r6 3 (by omega)]
        have : radSpeed e.radConst (e.name (unew.getD j 0)) (e.propSpeed (unew.getD j 0)) =
            Spec.speed e (unew.getD j 0) := by
          unfold radSpeed Spec.speed
          simp only [Bool.or_eq_true]
        rw [this]
      · rw [if_neg hbp, (hrad j hj m1).2 b _ p (fun h => hbp ⟨h.1, h.2.2⟩)
          (fun h => (hap b h.1 j hj).new h.2.1)]
        exact hun b p)
  refine ⟨m', ?_, fun j u u' u'' hu hu' hu'' b hbb p hpp => ?_, fun b u q h1 h2 => ?_⟩
  · unfold setBoundary
    rw [hflags]
    simp only [if_true, g1, Res.bind_ok]
    simp
  · obtain ⟨hj, hu⟩ := List.getElem?_eq_some_iff.mp hu
    have e1 : unew.getD j 0 = u := by rw [getD_of_lt hj, hu]
    have e2 : upre.getD j 0 = u' := by rw [List.getD_eq_getElem?_getD, hu']; rfl
    have e3 : ucur.getD j 0 = u'' := by rw [List.getD_eq_getElem?_getD, hu'']; rfl
    have := g2 j hj b p
    rw [if_pos ⟨hbb, hpp⟩, e1, e2, e3] at this
    exact this
  · by_cases hu : ∃ j, j < unew.length ∧ u = unew.getD j 0
    · obtain ⟨j, hj, rfl⟩ := hu
      have := g2 j hj b q
      rw [this, if_neg fun h => h2 ⟨h.1, hmem hj, h.2⟩]
    · exact g3 b u q h1 fun j hj he => hu ⟨j, hj, he⟩

/-- The further assumptions for `radiative_analytic`: the three variables for the derivatives of the initial values. -/
structure Spec.AnaApart (c : CartBox K) (a d : RadIds) (unew upre ucur uinit : Nat) : Prop where
  rad : Spec.RadApart c a unew upre ucur
  t12 : d.t1 ≠ d.t2
  t13 : d.t1 ≠ d.t3
  t23 : d.t2 ≠ d.t3
  stored : ∀ u, Spec.isTemp d u → (c.stored1 → ¬ (c.dXd ≤ u ∧ u < c.dXd + 9)) ∧
    (c.stored2 → ¬ (c.ddXdd ≤ u ∧ u < c.ddXdd + 18))
  apart : ∀ u, Spec.isTemp d u → ¬ Spec.isTemp a u
  cur : ¬ Spec.isTemp d ucur
  pre : ¬ Spec.isTemp d upre
  init : ¬ Spec.isTemp d uinit
  init' : ¬ Spec.isTemp a uinit
  x : ¬ Spec.isTemp d a.x
  y : ¬ Spec.isTemp d a.y
  z : ¬ Spec.isTemp d a.z
  new : ¬ Spec.isTemp d unew
  newinit : unew ≠ uinit

/-- **C101** (`set_boundary_radiative_analytic`, one variable): the condition is applied to the difference between
the variable and its initial values. -/
theorem C101_analytic (sqrt : K → K) (cb : Nat → CartBox K) (sched : Nat → Nat → List Nat)
    (ρ : Nat → Nat → Nat → K) (a d : RadIds) (boxes : List Nat) (hb : boxes.Nodup) (pts : Nat → List Nat)
    (unew upre : Nat) (c : K) (ucur uinit : Nat) (v : K) (m : Nat → Arrays K)
    (ha : ∀ b ∈ boxes, Spec.AnaApart (cb b) a d unew upre ucur uinit)
    (hs : ∀ b ∈ boxes, (cb b).trafo → Complete (cb b).npts (cartPass (cb b) a.temp) (sched 0 b) ∧
      Complete (cb b).npts (cartPass (cb b) d.temp) (sched 1 b))
    (hn : ∀ b ∈ boxes, ∀ k, (cb b).sing k = none) (hp : ∀ b ∈ boxes, ∀ p ∈ pts b, p < (cb b).npts) :
    let m' := setAnalytic sqrt cb sched ρ a d boxes pts unew upre c ucur uinit v m
    (∀ b ∈ boxes, ∀ p ∈ pts b, m' b unew p = Spec.update c (m b upre p)
      (Spec.radRhs sqrt v (m b ucur p) (m b uinit p) (m b a.x p) (m b a.y p) (m b a.z p)
        (Spec.gradAt (cb b) (m b) ucur p 1 - Spec.gradAt (cb b) (m b) uinit p 1)
        (Spec.gradAt (cb b) (m b) ucur p 2 - Spec.gradAt (cb b) (m b) uinit p 2)
        (Spec.gradAt (cb b) (m b) ucur p 3 - Spec.gradAt (cb b) (m b) uinit p 3))) ∧
    ∀ b u q, ¬ (b ∈ boxes ∧ u = unew ∧ q ∈ pts b) →
      ¬ (b ∈ boxes ∧ (Spec.isTemp a u ∨ Spec.isTemp d u) ∧ q < (cb b).npts) → m' b u q = m b u q := by
  obtain ⟨h1, h2⟩ := onBoxes_spec (fun b m => (pts b).foldl (analyticPass sqrt a d unew upre c ucur uinit v)
    (cartPartialsOf (cb b) (sched 1 b) (ρ b) uinit d.temp
      (cartPartialsOf (cb b) (sched 0 b) (ρ b) ucur a.temp m))) boxes hb m
  have hpass : ∀ b ∈ boxes, ∀ m1 : Arrays K,
      let m' := (pts b).foldl (analyticPass sqrt a d unew upre c ucur uinit v) m1
      (∀ p ∈ pts b, m' unew p = Spec.update c (m1 upre p) (Spec.radRhs sqrt v (m1 ucur p) (m1 uinit p) (m1 a.x p)
        (m1 a.y p) (m1 a.z p) (m1 a.t1 p - m1 d.t1 p) (m1 a.t2 p - m1 d.t2 p) (m1 a.t3 p - m1 d.t3 p))) ∧
      ∀ u q, u ≠ unew ∨ q ∉ pts b → m' u q = m1 u q := by
    intro b hbb m1
    have h := ha b hbb
    have hpt : analyticPass sqrt a d unew upre c ucur uinit v = fun (m : Arrays K) p => setPt m unew p
        (Spec.update c (m upre p) (Spec.radRhs sqrt v (m ucur p) (m uinit p) (m a.x p) (m a.y p) (m a.z p)
          (m a.t1 p - m d.t1 p) (m a.t2 p - m d.t2 p) (m a.t3 p - m d.t3 p))) := by
      funext m p
      unfold analyticPass Spec.update Spec.radRhs
      simp only
      congr 1
      simp only [← sq]
      by_cases hc : c = 0
      · rw [if_pos hc, if_neg (not_not.mpr hc)]
        ring
      · rw [if_neg hc, if_pos hc]
        ring
    rw [hpt]
    have hna : ∀ u, Spec.isTemp a u → u ≠ unew := fun u hu e => h.rad.new (e ▸ hu)
    have hnd : ∀ u, Spec.isTemp d u → u ≠ unew := fun u hu e => h.new (e ▸ hu)
    exact ptsLoop (fun (m : Arrays K) p => Spec.update c (m upre p) (Spec.radRhs sqrt v (m ucur p) (m uinit p)
      (m a.x p) (m a.y p) (m a.z p) (m a.t1 p - m d.t1 p) (m a.t2 p - m d.t2 p) (m a.t3 p - m d.t3 p))) unew m1 (pts b)
      (fun m' hm p _ => by
        rw [hm _ p (Or.inl h.rad.newpre.symm), hm _ p (Or.inl h.rad.newcur.symm), hm _ p (Or.inl h.newinit.symm),
          hm _ p (Or.inl h.rad.newx.symm), hm _ p (Or.inl h.rad.newy.symm), hm _ p (Or.inl h.rad.newz.symm),
          hm a.t1 p (Or.inl (hna _ (Or.inl rfl))), hm a.t2 p (Or.inl (hna _ (Or.inr (Or.inl rfl)))),
          hm a.t3 p (Or.inl (hna _ (Or.inr (Or.inr rfl)))), hm d.t1 p (Or.inl (hnd _ (Or.inl rfl))),
          hm d.t2 p (Or.inl (hnd _ (Or.inr (Or.inl rfl)))), hm d.t3 p (Or.inl (hnd _ (Or.inr (Or.inr rfl))))])
  have hcart : ∀ b ∈ boxes, let m1 := cartPartialsOf (cb b) (sched 0 b) (ρ b) ucur a.temp (m b)
      let m2 := cartPartialsOf (cb b) (sched 1 b) (ρ b) uinit d.temp m1
      (∀ p, p < (cb b).npts → m2 a.t1 p = Spec.gradAt (cb b) (m b) ucur p 1 ∧
        m2 a.t2 p = Spec.gradAt (cb b) (m b) ucur p 2 ∧ m2 a.t3 p = Spec.gradAt (cb b) (m b) ucur p 3 ∧
        m2 d.t1 p = Spec.gradAt (cb b) (m b) uinit p 1 ∧
        m2 d.t2 p = Spec.gradAt (cb b) (m b) uinit p 2 ∧ m2 d.t3 p = Spec.gradAt (cb b) (m b) uinit p 3) ∧
      ∀ u p, ¬ (Spec.isTemp a u ∨ Spec.isTemp d u) ∨ (cb b).npts ≤ p → m2 u p = m b u p := by
    intro b hbb m1 m2
    have h := ha b hbb
    obtain ⟨c1, c2⟩ := cartPartialsOf_spec (cb b) (sched 0 b) (ρ b) ucur a (m b) h.rad.t12 h.rad.t13 h.rad.t23
      h.rad.stored h.rad.cur (fun ht => (hs b hbb ht).1) (hn b hbb)
    obtain ⟨c3, c4⟩ := cartPartialsOf_spec (cb b) (sched 1 b) (ρ b) uinit d m1 h.t12 h.t13 h.t23
      h.stored h.init (fun ht => (hs b hbb ht).2) (hn b hbb)
    have hda : ∀ u, Spec.isTemp a u → ¬ Spec.isTemp d u := fun u h1 h2 => h.apart u h2 h1
    have hg : ∀ k, 1 ≤ k ∧ k ≤ 3 → ∀ p, Spec.gradAt (cb b) m1 uinit p k = Spec.gradAt (cb b) (m b) uinit p k :=
      fun k hk p => gradAt_congr _ _ _ _ _ k hk (fun q => c2 _ q (Or.inl h.init')) fun hst u g1 g2 q =>
        c2 u q (Or.inl fun ht => (h.rad.stored u ht).1 hst ⟨g1, g2⟩)
    refine ⟨fun p hp => ⟨?_, ?_, ?_, ?_, ?_, ?_⟩, fun u p hu => ?_⟩
    · exact (c4 _ p (Or.inl (hda _ (Or.inl rfl)))).trans (c1 p hp).1
    · exact (c4 _ p (Or.inl (hda _ (Or.inr (Or.inl rfl))))).trans (c1 p hp).2.1
    · exact (c4 _ p (Or.inl (hda _ (Or.inr (Or.inr rfl))))).trans (c1 p hp).2.2
    · exact (c3 p hp).1.trans (hg 1 (by omega) p)
    · exact (c3 p hp).2.1.trans (hg 2 (by omega) p)
    · exact (c3 p hp).2.2.trans (hg 3 (by omega) p)
    · exact (c4 u p (hu.imp (fun h h' => h (Or.inr h')) id)).trans (c2 u p (hu.imp (fun h h' => h (Or.inl h')) id))
  refine ⟨fun b hbb p hpp => ?_, fun b u q h3 h4 => ?_⟩
  · have h := ha b hbb
    obtain ⟨c1, c2⟩ := hcart b hbb
    have := (hpass b hbb (cartPartialsOf (cb b) (sched 1 b) (ρ b) uinit d.temp
      (cartPartialsOf (cb b) (sched 0 b) (ρ b) ucur a.temp (m b)))).1 p hpp
    have hno : ∀ u, ¬ Spec.isTemp a u → ¬ Spec.isTemp d u → ¬ (Spec.isTemp a u ∨ Spec.isTemp d u) :=
      fun u h1 h2 h3 => h3.elim h1 h2
    obtain ⟨d1, d2, d3, d4, d5, d6⟩ := c1 p (hp b hbb p hpp)
    refine (congrFun (congrFun (h1 b hbb) unew) p).trans (this.trans ?_)
    rw [c2 _ p (Or.inl (hno _ h.rad.pre h.pre)), c2 _ p (Or.inl (hno _ h.rad.cur h.cur)),
      c2 _ p (Or.inl (hno _ h.init' h.init)), c2 _ p (Or.inl (hno _ h.rad.x h.x)),
      c2 _ p (Or.inl (hno _ h.rad.y h.y)), c2 _ p (Or.inl (hno _ h.rad.z h.z)), d1, d2, d3, d4, d5, d6]
  · by_cases hbb : b ∈ boxes
    · obtain ⟨c1, c2⟩ := hcart b hbb
      refine (congrFun (congrFun (h1 b hbb) u) q).trans (((hpass b hbb _).2 u q ?_).trans (c2 u q ?_))
      · by_cases hu : u = unew
        · exact Or.inr fun hq => h3 ⟨hbb, hu, hq⟩
        · exact Or.inl hu
      · by_cases ht : Spec.isTemp a u ∨ Spec.isTemp d u
        · exact Or.inr (by by_contra hq; exact h4 ⟨hbb, ht, by omega⟩)
        · exact Or.inl ht
    · exact congrFun (congrFun (h2 b hbb) u) q

omit [Field K] [DecidableEq K] in
theorem forVars_foldl (n : Nat) (f : Nat → (Nat → Arrays K) → Nat → Arrays K) (m : Nat → Arrays K) :
    forVars n (fun j m => .ok (f j m)) m = .ok ((List.range n).foldl (fun m j => f j m) m) := by
  unfold forVars
  induction n with
  | zero => rfl
  | succ n ih => rw [forN, ih, Res.bind_ok, List.range_succ, List.foldl_append]; rfl

omit [Field K] [DecidableEq K] in
/-- **C101** (`set_boundary_radiative_analytic` at time 0): the initial values are copies of the variables `upre`;
nothing else is changed. -/
theorem C101_initial (cb : Nat → CartBox K) (boxes : List Nat) (hb : boxes.Nodup) (upre uinit : List Nat)
    (hl : uinit.length = upre.length) (hn : uinit.Nodup) (hd : ∀ u ∈ uinit, u ∉ upre) (m : Nat → Arrays K) :
    let m' := saveInitial cb boxes upre uinit m
    (∀ (j u u' : Nat), upre[j]? = some u → uinit[j]? = some u' → ∀ b ∈ boxes, ∀ p, p < (cb b).npts →
      m' b u' p = m b u p) ∧
    ∀ b u p, ¬ (b ∈ boxes ∧ u ∈ uinit ∧ p < (cb b).npts) → m' b u p = m b u p := by
  classical
  have hmem : ∀ {l : List Nat} {j}, j < l.length → l.getD j 0 ∈ l := fun {l j} h => by
    rw [getD_of_lt h]
    exact List.getElem_mem h
  have hne : ∀ j k, j < upre.length → k < upre.length → upre.getD j 0 ≠ uinit.getD k 0 := fun j k hj hk e =>
    hd _ (hmem (by omega)) (e ▸ hmem hj)
  have hpass : ∀ j, j < upre.length → ∀ m : Nat → Arrays K,
      let m' := onBoxes boxes (fun b m => (List.range (cb b).npts).foldl
        (fun m p => setPt m (uinit.getD j 0) p (m (upre.getD j 0) p)) m) m
      (∀ b ∈ boxes, ∀ p, p < (cb b).npts → m' b (uinit.getD j 0) p = m b (upre.getD j 0) p) ∧
      ∀ b u q, ¬ (b ∈ boxes ∧ u = uinit.getD j 0 ∧ q < (cb b).npts) → m' b u q = m b u q := by
    intro j hj m
    obtain ⟨h1, h2⟩ := onBoxes_spec (fun b m => (List.range (cb b).npts).foldl
        (fun m p => setPt m (uinit.getD j 0) p (m (upre.getD j 0) p)) m) boxes hb m
    have hl := fun b => ptsLoop (fun (m : Arrays K) p => m (upre.getD j 0) p) (uinit.getD j 0) (m b)
      (List.range (cb b).npts) (fun m' hm p _ => hm _ p (Or.inl (hne j j hj hj)))
    refine ⟨fun b hbb p hp => (congrFun (congrFun (h1 b hbb) _) p).trans ((hl b).1 p (List.mem_range.mpr hp)),
      fun b u q h => ?_⟩
    by_cases hbb : b ∈ boxes
    · refine (congrFun (congrFun (h1 b hbb) _) q).trans ((hl b).2 u q ?_)
      by_cases hu : u = uinit.getD j 0
      · exact Or.inr fun hq => h ⟨hbb, hu, List.mem_range.mp hq⟩
      · exact Or.inl hu
    · exact congrFun (congrFun (h2 b hbb) u) q
  obtain ⟨m', g1, g2, g3⟩ := forVars_spec upre.length (fun j => onBoxes boxes (fun b m =>
      (List.range (cb b).npts).foldl (fun m p => setPt m (uinit.getD j 0) p (m (upre.getD j 0) p)) m))
    (fun j => uinit.getD j 0) (fun _ => False) m
    (fun j b p => if b ∈ boxes ∧ p < (cb b).npts then m b (upre.getD j 0) p else m b (uinit.getD j 0) p)
    (fun j k hj hk he => by
      rw [getD_of_lt (by omega), getD_of_lt (by omega)] at he
      exact (List.Nodup.getElem_inj_iff hn).mp he)
    (fun _ _ h => h)
    (fun j hj m b u q h1 _ => (hpass j hj m).2 b u q fun h => h1 h.2.1)
    (fun j hj m1 hm1 hun b p => by
      by_cases hbp : b ∈ boxes ∧ p < (cb b).npts
      · rw [if_pos hbp, (hpass j hj m1).1 b hbp.1 p hbp.2]
        exact hm1 b _ p id fun k hk => hne j k hj hk
      · rw [if_neg hbp, (hpass j hj m1).2 b _ p fun h => hbp ⟨h.1, h.2.2⟩]
        exact hun b p)
  rw [forVars_foldl] at g1
  cases g1
  refine ⟨fun j u u' hu hu' b hbb p hp => ?_, fun b u p h => ?_⟩
  · obtain ⟨hj, hu⟩ := List.getElem?_eq_some_iff.mp hu
    have e1 : upre.getD j 0 = u := by rw [getD_of_lt hj, hu]
    have e2 : uinit.getD j 0 = u' := by rw [List.getD_eq_getElem?_getD, hu']; rfl
    have := g2 j hj b p
    rw [if_pos ⟨hbb, hp⟩, e1, e2] at this
    exact this
  · by_cases hu : ∃ j, j < upre.length ∧ u = uinit.getD j 0
    · obtain ⟨j, hj, rfl⟩ := hu
      have := g2 j hj b p
      rw [if_neg fun hh => h ⟨hh.1, hmem (by omega), hh.2⟩] at this
      exact this
    · exact g3 b u p id fun j hj he => hu ⟨j, hj, he⟩

/-- **C101**: with a NULL pointer for the initial values (after a restart at another time than 0) the condition
`radiative_analytic` reads from it. -/
theorem C101_restart_counterexample (e : BdryEnv K) (unew upre ucur : List Nat) (c time : K) (dup : List Nat)
    (m : Nat → Arrays K) (hflags : e.flags = ⟨false, true, false, false, false, false, false, false⟩)
    (ht : time ≠ 0) (hu : unew ≠ []) (hb : e.boxes ≠ []) :
    setBoundary e unew upre c ucur time dup none m = .ub := by
  unfold setBoundary radiativeAnalytic
  rw [hflags]
  simp [ht, hu, hb]

end

end

/-! ### What the radiative condition says -/

/-- An outgoing spherical wave on a background. -/
noncomputable def Spec.wave (w : ℝ → ℝ) (v u0 t x y z : ℝ) : ℝ :=
  u0 + w (√(x ^ 2 + y ^ 2 + z ^ 2) - v * t) / √(x ^ 2 + y ^ 2 + z ^ 2)

theorem wave_deriv (w : ℝ → ℝ) (w' v u0 t s x : ℝ) (hr : 0 < x ^ 2 + s) (hw : HasDerivAt w w' (√(x ^ 2 + s) - v * t)) :
    HasDerivAt (fun x => u0 + w (√(x ^ 2 + s) - v * t) / √(x ^ 2 + s))
      (x / √(x ^ 2 + s) * (w' / √(x ^ 2 + s) - w (√(x ^ 2 + s) - v * t) / √(x ^ 2 + s) ^ 2)) x := by
  have hr' : √(x ^ 2 + s) ≠ 0 := (Real.sqrt_pos.mpr hr).ne'
  have h1 : HasDerivAt (fun x => √(x ^ 2 + s)) (x / √(x ^ 2 + s)) x := by
    have := (((hasDerivAt_id x).pow 2).add_const s).sqrt (by simpa using hr.ne')
    refine HasDerivAt.congr_deriv (f := fun x => √(x ^ 2 + s)) this (Eq.symm ?_)
    change x / √(x ^ 2 + s) = ((2 : ℕ) : ℝ) * x ^ (2 - 1) * 1 / (2 * √(x ^ 2 + s))
    rw [Nat.cast_ofNat, show 2 - 1 = 1 from rfl, pow_one, mul_one, mul_div_mul_left _ _ two_ne_zero]
  have h2 : HasDerivAt (fun x => w (√(x ^ 2 + s) - v * t)) (w' * (x / √(x ^ 2 + s))) x :=
    HasDerivAt.comp x hw (h1.sub_const _)
  refine HasDerivAt.congr_deriv (f := fun x => u0 + w (√(x ^ 2 + s) - v * t) / √(x ^ 2 + s))
    ((h2.div h1 hr').const_add u0) ?_
  field_simp

/-- **C101**: for an outgoing wave `u0 + w(r - v t)/r` the right hand side of the radiative condition, with the exact
derivatives, is the time derivative. -/
theorem C101_wave (w : ℝ → ℝ) (w' v u0 t x y z gx gy gz : ℝ) (hr : 0 < x ^ 2 + y ^ 2 + z ^ 2)
    (hw : HasDerivAt w w' (√(x ^ 2 + y ^ 2 + z ^ 2) - v * t))
    (hx : HasDerivAt (fun s => Spec.wave w v u0 t s y z) gx x)
    (hy : HasDerivAt (fun s => Spec.wave w v u0 t x s z) gy y)
    (hz : HasDerivAt (fun s => Spec.wave w v u0 t x y s) gz z) :
    HasDerivAt (fun s => Spec.wave w v u0 s x y z)
      (Spec.radRhs Real.sqrt v (Spec.wave w v u0 t x y z) u0 x y z gx gy gz) t := by
  have hr' : √(x ^ 2 + y ^ 2 + z ^ 2) ≠ 0 := (Real.sqrt_pos.mpr hr).ne'
  have hsq : √(x ^ 2 + y ^ 2 + z ^ 2) ^ 2 = x ^ 2 + y ^ 2 + z ^ 2 := Real.sq_sqrt hr.le
  have ex : x ^ 2 + (y ^ 2 + z ^ 2) = x ^ 2 + y ^ 2 + z ^ 2 := by ring
  have ey : y ^ 2 + (x ^ 2 + z ^ 2) = x ^ 2 + y ^ 2 + z ^ 2 := by ring
  have ez : z ^ 2 + (x ^ 2 + y ^ 2) = x ^ 2 + y ^ 2 + z ^ 2 := by ring
  have dx := wave_deriv w w' v u0 t (y ^ 2 + z ^ 2) x (by rw [ex]; exact hr) (by rw [ex]; exact hw)
  have dy := wave_deriv w w' v u0 t (x ^ 2 + z ^ 2) y (by rw [ey]; exact hr) (by rw [ey]; exact hw)
  have dz := wave_deriv w w' v u0 t (x ^ 2 + y ^ 2) z (by rw [ez]; exact hr) (by rw [ez]; exact hw)
  rw [ex] at dx
  rw [ey] at dy
  rw [ez] at dz
  have fx : (fun s => Spec.wave w v u0 t s y z) =
      fun x => u0 + w (√(x ^ 2 + (y ^ 2 + z ^ 2)) - v * t) / √(x ^ 2 + (y ^ 2 + z ^ 2)) := by
    funext s
    unfold Spec.wave
    rw [add_assoc (s ^ 2)]
  have fy : (fun s => Spec.wave w v u0 t x s z) =
      fun y => u0 + w (√(y ^ 2 + (x ^ 2 + z ^ 2)) - v * t) / √(y ^ 2 + (x ^ 2 + z ^ 2)) := by
    funext s
    unfold Spec.wave
    rw [show x ^ 2 + s ^ 2 + z ^ 2 = s ^ 2 + (x ^ 2 + z ^ 2) by ring]
  have fz : (fun s => Spec.wave w v u0 t x y s) =
      fun z => u0 + w (√(z ^ 2 + (x ^ 2 + y ^ 2)) - v * t) / √(z ^ 2 + (x ^ 2 + y ^ 2)) := by
    funext s
    unfold Spec.wave
    rw [show x ^ 2 + y ^ 2 + s ^ 2 = s ^ 2 + (x ^ 2 + y ^ 2) by ring]
  rw [fx] at hx
  rw [fy] at hy
  rw [fz] at hz
  rw [hx.unique dx, hy.unique dy, hz.unique dz]
  have dt : HasDerivAt (fun s => Spec.wave w v u0 s x y z)
      (w' * (-v) / √(x ^ 2 + y ^ 2 + z ^ 2)) t := by
    have h1 : HasDerivAt (fun s => √(x ^ 2 + y ^ 2 + z ^ 2) - v * s) (-v) t := by
      have := ((hasDerivAt_id t).const_mul v).const_sub (√(x ^ 2 + y ^ 2 + z ^ 2))
      simpa using this
    exact ((HasDerivAt.comp t hw h1).div_const _).const_add u0
  refine dt.congr_deriv ?_
  unfold Spec.radRhs Spec.wave
  generalize √(x ^ 2 + y ^ 2 + z ^ 2) = r at *
  generalize w (r - v * t) = W
  field_simp
  linear_combination (v * (W - w' * r)) * hsq

/-- **C101**: the same for `radiative_analytic` and a wave on any background `f` that does not depend on time. -/
theorem C101_wave_analytic (f : ℝ → ℝ → ℝ → ℝ) (w : ℝ → ℝ) (w' v t x y z gx gy gz fx fy fz : ℝ)
    (hr : 0 < x ^ 2 + y ^ 2 + z ^ 2) (hw : HasDerivAt w w' (√(x ^ 2 + y ^ 2 + z ^ 2) - v * t))
    (hx : HasDerivAt (fun s => f s y z + Spec.wave w v 0 t s y z) gx x)
    (hy : HasDerivAt (fun s => f x s z + Spec.wave w v 0 t x s z) gy y)
    (hz : HasDerivAt (fun s => f x y s + Spec.wave w v 0 t x y s) gz z)
    (hfx : HasDerivAt (fun s => f s y z) fx x) (hfy : HasDerivAt (fun s => f x s z) fy y)
    (hfz : HasDerivAt (fun s => f x y s) fz z) :
    HasDerivAt (fun s => f x y z + Spec.wave w v 0 s x y z)
      (Spec.radRhs Real.sqrt v (f x y z + Spec.wave w v 0 t x y z) (f x y z) x y z (gx - fx) (gy - fy) (gz - fz)) t := by
  have h := C101_wave w w' v 0 t x y z (gx - fx) (gy - fy) (gz - fz) hr hw
    ((hx.sub hfx).congr_of_eventuallyEq (.of_forall fun s => (add_sub_cancel_left _ _).symm))
    ((hy.sub hfy).congr_of_eventuallyEq (.of_forall fun s => (add_sub_cancel_left _ _).symm))
    ((hz.sub hfz).congr_of_eventuallyEq (.of_forall fun s => (add_sub_cancel_left _ _).symm))
  have := h.const_add (f x y z)
  unfold Spec.radRhs at this ⊢
  simpa using this

/-! ### Constant boundaries and Runge-Kutta -/

/-- An evolution system in a box whose points are all on a constant boundary: `evolve_rhs` ends with
`set_boundary_constant`, which leaves a copy of `upre` whatever `c` is (`C101_constant`). -/
def constFuns : EvoFuns ℚ where
  rhs st unew upre _ _ := (vlcopy st unew upre).map (·.setTime unew (st.vl unew).time)
  alg := none

/-- **C101 fails** for `boundary = constant` with a Runge-Kutta method: `set_boundary_constant` does not look at `c`.
The Runge-Kutta methods ask for the right hand side with `c = 0`; they get the old variable instead of 0, and the
"constant" boundary values 1 and 5 grow. -/
theorem C101_constant_counterexample :
    (evolveRk constFuns (1 / 2) "midpoint".toList 0 1 (fun k => some (k + 2)) (rkState 0 1 5)).map (rkRead 0) =
      .ok (some (3 / 2), some (15 / 2), 1 / 2) := by
  decide +kernel

/-- With `icn` and `euler`, which have `c ≠ 0`, the values stay constant. -/
theorem C101_constant_icn :
    (evolveIcn constFuns (1 / 2) 0 1 2 (rkState 0 1 5)).map (fun st => (st.val 0 0 0, st.val 0 1 0)) =
      .ok (some 1, some 5) ∧
    (evolveEuler constFuns (1 / 2) false 0 1 (rkState 0 1 5)).map (fun st => (st.val 0 0 0, st.val 0 1 0)) =
      .ok (some 1, some 5) := by
  decide +kernel

/-! ### Examples -/

/-- An example: one box of 3 x 2 points, first differences in all directions. -/
def exBdryEnv (f : BdryFlags) : BdryEnv ℚ where
  sqrt s := if s = 25 then 5 else if s = 169 then 13 else 1
  cb _ := ⟨6, false, false, false, false, 90, 90, fun _ _ _ => 0, fun _ _ _ _ => 0,
    fun i u p => if i = 1 then u (p + 1) - u p else if i = 2 then 2 * u p else u p - 7, fun _ _ _ => 0, fun _ => none⟩
  lb _ := ⟨⟨2, 1, 1⟩, fun _ out _ _ => out, fun _ out _ _ => out, fun _ out _ _ => out, fun _ => false,
    fun _ p => if p = 0 then -2 else if p = 1 then 3 else 0,
    fun _ _ => 0, fun _ _ => 0, fun _ _ => 0, fun _ _ => 0⟩
  g _ _ := (fun _ => 3, fun _ => 4, fun _ => 5)
  sched _ _ := []
  ρ _ _ _ := 0
  a := ⟨0, 1, 2, 3, 4, 5⟩
  d := ⟨0, 0, 0, 6, 7, 8⟩
  boxes := [0]
  flags := f
  radPts _ := [2, 5]
  constPts _ := [1, 2]
  excPts _ := [0]
  selPts _ := [0]
  propSpeed u := if u = 10 then 2 else 3
  farLimit u := if u = 10 then 1 else 0
  name u := if u = 10 then "g_x".toList else "K".toList
  radConst s := s == "g".toList
  selVar s := s == "K".toList

/-- The memory of the example: x, y, z are 3, 4, 0 or 3, 4, 12. -/
def exBdryMem : Nat → Arrays ℚ := fun _ u p =>
  if u = 0 then 3 else if u = 1 then 4 else if u = 2 then (if p = 5 then 12 else 0)
  else if u = 12 then p else if u = 13 then 10 * p else if u = 14 then p * p else if u = 15 then 5 - p
  else if u = 10 then 2 * p + 30 else if u = 11 then 40 - p * p else if u = 16 then p + 1 else if u = 17 then 2 * p else 50

/-- The two new variables after `set_boundary`. -/
def exBdryRun (f : BdryFlags) (c time : ℚ) (init : Option (List Nat)) : Res (List ℚ × List ℚ × Option (List Nat)) :=
  (setBoundary (exBdryEnv f) [10, 11] [12, 13] c [14, 15] time [18, 19] init exBdryMem).map fun r =>
    ((List.range 6).map (r.1 0 10), (List.range 6).map (r.1 0 11), r.2)

/-- Example: the radiative condition; the speed of the variable `g_x` is 0. -/
example : exBdryRun { radiative := true } 0 1 none =
    .ok ([30, 32, 0, 36, 38, 0], [40, 39, -72 / 5, 31, 24, 261 / 13], none) := by decide +kernel

example : exBdryRun { radiative := true } (1 / 2) 1 none =
    .ok ([30, 32, 2, 36, 38, 5], [40, 39, 64 / 5, 31, 24, 1561 / 26], none) := by decide +kernel

/-- Example: the same for the difference to the initial values. -/
example : exBdryRun { radiativeAnalytic := true } 0 1 (some [16, 17]) =
    .ok ([30, 32, 0, 36, 38, 0], [40, 39, 54 / 5, 31, 24, 657 / 13], some [16, 17]) := by decide +kernel

example : exBdryRun { radiativeAnalytic := true } (1 / 2) 1 (some [16, 17]) =
    .ok ([30, 32, 2, 36, 38, 5], [40, 39, 127 / 5, 31, 24, 1957 / 26], some [16, 17]) := by decide +kernel

example : exBdryRun { radiativeAnalytic := true } (1 / 2) 1 none = .ub := by decide +kernel

/-- Example: the constant conditions. -/
example : exBdryRun { constant := true } 0 1 none =
    .ok ([30, 1, 2, 36, 38, 40], [40, 10, 20, 31, 24, 15], none) ∧
    exBdryRun { constantExcision := true } 0 1 none =
    .ok ([30, 1, 2, 36, 38, 40], [40, 10, 20, 31, 24, 15], none) ∧
    exBdryRun { selConstant := true } 0 1 none =
    .ok ([30, 32, 34, 36, 38, 40], [0, 39, 36, 31, 24, 15], none) := by
  refine ⟨?_, ?_, ?_⟩ <;> decide +kernel

/-- Example: the conditions at an inner boundary. -/
example : exBdryRun { simpleExcision := true } 0 1 none =
    .ok ([31, 32, 34, 36, 38, 40], [29, 39, 36, 31, 24, 15], none) ∧
    exBdryRun { vonNeumann := true } 0 1 none =
    .ok ([48, 32, 34, 36, 38, 40], [117 / 2, 39, 36, 31, 24, 15], none) ∧
    exBdryRun { selVonNeumann := true } 0 1 none =
    .ok ([30, 32, 34, 36, 38, 40], [117 / 2, 39, 36, 31, 24, 15], none) := by
  refine ⟨?_, ?_, ?_⟩ <;> decide +kernel

/-- Example: a spherical box inside of a Cartesian one. -/
def exBdryGrid : BdryGrid where
  nboxes := 2
  inactive _ := false
  dims b := if b = 0 then ⟨3, 2, 1⟩ else ⟨2, 2, 2⟩
  periodic b ax := b == 0 && ax == .three
  spherical b := b == 0

example :
    let l := initBoundaryLists exBdryGrid { radiative := true, constantExcision := true, vonNeumann := true }
    l.radiative.map Prod.snd = [0, 2, 4, 6, 1, 3, 5, 7, 0, 1, 4, 5, 2, 3, 6, 7, 0, 1, 2, 3, 4, 5, 6, 7] ∧
    l.constant = [(0, 0), (0, 3)] ∧ l.selected = [] ∧ l.excision = [(0, 0), (0, 3)] ∧
    l.box.take 12 = [(0, 0), (0, 3), (0, 2), (0, 5), (0, 0), (0, 1), (0, 2), (0, 3), (0, 4), (0, 5), (1, 0), (1, 2)] :=
  by decide +kernel

/-- Example: the box 0 is inactive, the last box is spherical. -/
example :
    let g : BdryGrid := { exBdryGrid with inactive := fun b => b == 0, spherical := fun b => b == 1 }
    let l := initBoundaryLists g { constant := true, selConstant := true, simpleExcision := true }
    l.constant = [(1, 1), (1, 3), (1, 5), (1, 7)] ∧ l.selected = [] ∧ l.excision = [] ∧
    l.box.map Prod.fst = List.replicate 24 1 := by decide +kernel

/-- Example: endings of names. -/
example : radName "g_x".toList = "g".toList ∧ radName "gxx".toList = "gxx".toList ∧
    radName "_x".toList = "_x".toList ∧ radName "A_xx".toList = "A_xx".toList ∧ radName "A_x_y".toList = "A_x".toList :=
  by decide +kernel

/-- Example: the derivatives -2 u0 + 3 u1 and -u0 + 4 u1 at the ends of a line are set to 7. -/
example :
    let b : LBox ℚ := ⟨⟨2, 1, 1⟩, fun _ out _ _ => out, fun _ out _ _ => out, fun _ out _ _ => out, fun _ => false,
      fun _ p => if p = 0 then -2 else if p = 1 then 3 else if p = 2 then -1 else 4,
      fun _ _ => 0, fun _ _ => 0, fun _ _ => 0, fun _ _ => 0⟩
    let m : Arrays ℚ := fun _ p => if p = 0 then 1 else 9
    let run := fun right direc p => (setNormalDeriv right (fun _ _ => (fun _ => 3, fun _ => 4, fun _ => 5))
      (fun _ => b) direc [0] (fun _ => [p]) 0 1 7 (fun _ => m)).map fun m => (m 0 0 0, m 0 0 1)
    run false 1 0 = .ok (10, 9) ∧ run true 1 1 = .ok (1, 2) ∧ run false 4 0 = .abort := by decide +kernel

end Sgrid
