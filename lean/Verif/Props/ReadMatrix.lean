import Mathlib.Algebra.Module.LinearMap.Defs
import Mathlib.Algebra.Module.Pi
import Mathlib.Algebra.Module.BigOperators
import Mathlib.Algebra.Order.Field.Rat
import Mathlib.Algebra.Order.BigOperators.Group.Finset
import Mathlib.Tactic.FieldSimp
import Verif.Model.ReadMatrix
import Verif.Props.GridArrays
import Verif.Props.Sparse

/-!
C44, C84: the matrix of a linear operator.
-/

namespace Sgrid
open Finset

variable {K : Type}

/-- Values at the places of a list: box, point, entry of the list. -/
abbrev Field3 (K : Type) := Nat → Nat → Nat → K

/-- `Fx` computes a linear map `L` of the values of `vlx` and puts it into `vlFx`, as long as `Inv`
holds (for example: the coefficients have their values). It does not change `vlx`. `L` depends only
on the values in active boxes. `Out` are the places where the result is set. -/
structure Spec.LinearOp [Field K] (g : GShape) (vlFx vlx : VIdx) (Fx : GData K → GData K)
    (Inv : GData K → Prop) (Out : Nat → Nat → Nat → Prop) (L : Field3 K →ₗ[K] Field3 K) : Prop where
  local_ : ∀ X Y, (∀ b i j, Slot g vlx.n b i j → X b i j = Y b i j) →
    ∀ b i j, Out b i j → L X b i j = L Y b i j
  value : ∀ v, Inv v → ∀ b i j, Out b i j →
    Fx v b (vlFx.index j) i = L (fun b i j => v b (vlx.index j) i) b i j
  keep : ∀ v, Inv v → ∀ b i j, Slot g vlx.n b i j →
    Fx v b (vlx.index j) i = v b (vlx.index j) i
  inv : ∀ v, Inv v → Inv (Fx v)
  inv_set : ∀ v, Inv v → ∀ b i j c, Slot g vlx.n b i j → Inv (v.set b (vlx.index j) i c)

/-- One at one place, zero elsewhere. -/
def Spec.unit [Field K] (s : Nat × Nat × Nat) : Field3 K := fun b i j =>
  if b = s.1 ∧ i = s.2.1 ∧ j = s.2.2 then 1 else 0

/-- The entries of the list are different variables. -/
def Spec.Distinct (vl : VIdx) : Prop :=
  ∀ j j', j < vl.n → j' < vl.n → vl.index j = vl.index j' → j = j'

/-- `vlx` is zero in all active boxes. -/
def Spec.IsZero [Field K] (g : GShape) (vlx : VIdx) (v : GData K) : Prop :=
  ∀ b i j, Spec.Slot g vlx.n b i j → v b (vlx.index j) i = 0

section
set_option linter.unusedSectionVars false
variable [Field K] [LinearOrder K]

/-- The entry if it is not dropped. -/
def keepEntry (drop : K) (line col : Nat) (a : K) : List (MEvent K) :=
  if drop < |a| then [(line, col, a)] else []

/-- A scan that looks at the places `outs`. -/
def ScansBy (scan : GData K → Nat → List (MEvent K) → List (MEvent K)) (vlFx : VIdx) (drop : K)
    (outs : List (Nat × Nat × Nat)) (row : Nat × Nat × Nat → Nat) : Prop :=
  ∀ v col ev, scan v col ev =
    ev ++ outs.flatMap fun q => keepEntry drop (row q) col (v q.1 (vlFx.index q.2.2) q.2.1)

variable {g : GShape} {vlFx vlx : VIdx} {Fx : GData K → GData K} {Inv : GData K → Prop}
  {Out : Nat → Nat → Nat → Prop} {L : Field3 K →ₗ[K] Field3 K} {drop : K}

theorem probeAt_spec {scan : GData K → Nat → List (MEvent K) → List (MEvent K)}
    {outs : List (Nat × Nat × Nat)} {row : Nat × Nat × Nat → Nat}
    (hL : Spec.LinearOp g vlFx vlx Fx Inv Out L) (hscan : ScansBy scan vlFx drop outs row)
    (hout : ∀ q ∈ outs, Out q.1 q.2.1 q.2.2) (hd : Spec.Distinct vlx) {b i j : Nat}
    (hs : Spec.Slot g vlx.n b i j) (col : Nat) (s : MState K) (hi : Inv s.1)
    (hz : Spec.IsZero g vlx s.1) :
    let s' := probeAt scan Fx vlx b i j col s
    Inv s'.1 ∧ Spec.IsZero g vlx s'.1 ∧
    s'.2 = s.2 ++ outs.flatMap fun q =>
      keepEntry drop (row q) col (L (Spec.unit (b, i, j)) q.1 q.2.1 q.2.2) := by
  have h1 : Inv (s.1.set b (vlx.index j) i 1) := hL.inv_set _ hi b i j 1 hs
  have h2 := hL.inv _ h1
  refine ⟨hL.inv_set _ h2 b i j 0 hs, ?_, ?_⟩
  · intro b' i' j' hs'
    simp only [probeAt, GData.set]
    split
    · rfl
    · rename_i hne
      rw [hL.keep _ h1 b' i' j' hs']
      simp only [GData.set]
      rw [if_neg hne]
      exact hz b' i' j' hs'
  · simp only [probeAt]
    rw [hscan]
    congr 1
    apply List.flatMap_congr
    intro q hq
    rw [hL.value _ h1 _ _ _ (hout q hq)]
    congr 1
    apply hL.local_ _ _ _ _ _ _ (hout q hq)
    intro b' i' j' hs'
    simp only [GData.set, Spec.unit]
    by_cases he : b' = b ∧ i' = i ∧ j' = j
    · obtain ⟨rfl, rfl, rfl⟩ := he
      simp
    · rw [if_neg he, if_neg]
      · exact hz b' i' j' hs'
      · rintro ⟨e1, e2, e3⟩
        exact he ⟨e1, e3, hd _ _ hs'.2.2.2 hs.2.2.2 e2⟩

/-- Probing a list of places one after the other. -/
theorem probeList_spec {scan : GData K → Nat → List (MEvent K) → List (MEvent K)}
    {outs : List (Nat × Nat × Nat)} {row col : Nat × Nat × Nat → Nat}
    (hL : Spec.LinearOp g vlFx vlx Fx Inv Out L) (hscan : ScansBy scan vlFx drop outs row)
    (hout : ∀ q ∈ outs, Out q.1 q.2.1 q.2.2) (hd : Spec.Distinct vlx)
    (Ls : List (Nat × Nat × Nat)) (hs : ∀ s ∈ Ls, Spec.Slot g vlx.n s.1 s.2.1 s.2.2)
    (s : MState K) (hi : Inv s.1) (hz : Spec.IsZero g vlx s.1) :
    let s' := Ls.foldl (fun s p => probeAt scan Fx vlx p.1 p.2.1 p.2.2 (col p) s) s
    Inv s'.1 ∧ Spec.IsZero g vlx s'.1 ∧
    s'.2 = s.2 ++ Ls.flatMap fun p => outs.flatMap fun q =>
      keepEntry drop (row q) (col p) (L (Spec.unit p) q.1 q.2.1 q.2.2) := by
  induction Ls generalizing s with
  | nil => exact ⟨hi, hz, by simp⟩
  | cons p Ls ih =>
    obtain ⟨a1, a2, a3⟩ := probeAt_spec (b := p.1) (i := p.2.1) (j := p.2.2) hL hscan hout hd
      (hs p List.mem_cons_self) (col p) s hi hz
    obtain ⟨b1, b2, b3⟩ := ih (fun s h => hs s (List.mem_cons_of_mem _ h)) _ a1 a2
    refine ⟨b1, b2, ?_⟩
    rw [List.foldl_cons, b3, a3, List.flatMap_cons, List.append_assoc]

/-! ## The scans -/

theorem scan_count (v : GData K) (vlFx : VIdx) (drop : K) (col : Nat) (row : Nat × Nat × Nat → Nat)
    (M : List (Nat × Nat × Nat)) (l : Nat) (ev : List (MEvent K))
    (h : ∀ k q, M[k]? = some q → row q = l + k) :
    (M.foldl (fun (s : List (MEvent K) × Nat) p =>
      (if drop < |v p.1 (vlFx.index p.2.2) p.2.1| then
        s.1 ++ [(s.2, col, v p.1 (vlFx.index p.2.2) p.2.1)] else s.1, s.2 + 1)) (ev, l)).1 =
      ev ++ M.flatMap fun q => keepEntry drop (row q) col (v q.1 (vlFx.index q.2.2) q.2.1) := by
  induction M generalizing l ev with
  | nil => simp
  | cons q M ih =>
    rw [List.foldl_cons, ih (l + 1) _ (fun k r hr => by
      rw [h (k + 1) r (by simpa using hr)]; omega), List.flatMap_cons, ← List.append_assoc]
    congr 1
    have : row q = l := by rw [h 0 q (by simp)]; omega
    rw [this, keepEntry]
    split <;> simp

/-- The function that looks at all lines in a given order. -/
def scanBy (g : GShape) (vlx vlFx : VIdx) (drop : K) : Spec.Order →
    GData K → Nat → List (MEvent K) → List (MEvent K)
  | .points => scanPoints g vlx vlFx drop
  | .sorted => scanSorted g vlx vlFx drop
  | .outer => fun _ _ ev => ev

theorem scanPoints_spec (g : GShape) (vlx vlFx : VIdx) (drop : K) :
    ScansBy (scanPoints g vlx vlFx drop) vlFx drop (slotList g vlx.n .points)
      fun q => Spec.pos g vlx.n .points q.1 q.2.1 q.2.2 := by
  intro v col ev
  unfold scanPoints
  rw [loopPoints_eq]
  apply scan_count
  intro k q hq
  rw [(mem_slotList hq).2, Nat.zero_add]

theorem scanSorted_spec (g : GShape) (vlx vlFx : VIdx) (drop : K) :
    ScansBy (scanSorted g vlx vlFx drop) vlFx drop (slotList g vlx.n .sorted)
      fun q => Spec.pos g vlx.n .sorted q.1 q.2.1 q.2.2 := by
  intro v col ev
  unfold scanSorted
  rw [loopSorted_eq]
  apply scan_count
  intro k q hq
  rw [(mem_slotList hq).2, Nat.zero_add]

/-! ## Entries of the matrix -/

/-- Sum of all adds to one entry. -/
def evSum (ev : List (MEvent K)) (p c : Nat) : K :=
  (ev.map fun e => if e.1 = p ∧ e.2.1 = c then e.2.2 else 0).sum

theorem evSum_perm {ev ev' : List (MEvent K)} (h : ev.Perm ev') (p c : Nat) :
    evSum ev p c = evSum ev' p c := (h.map _).sum_eq

theorem entry_linesOf (ev : List (MEvent K)) (p c : Nat) :
    Spec.entry (linesOf ev p) c = evSum ev p c := by
  have key : ∀ (A : Nat → SVec K), Spec.entry (ev.foldl (fun A e =>
      Function.update A e.1 ((A e.1).add e.2.1 e.2.2)) A p) c =
      Spec.entry (A p) c + evSum ev p c := by
    induction ev with
    | nil => intro A; simp [evSum]
    | cons e ev ih =>
      intro A
      rw [List.foldl_cons, ih]
      simp only [evSum, List.map_cons, List.sum_cons]
      rw [← add_assoc]
      congr 1
      by_cases h : e.1 = p
      · subst h
        rw [Function.update_self, C42_add]
        simp
      · rw [Function.update_of_ne (Ne.symm h), if_neg (fun hh => h hh.1), add_zero]
  rw [linesOf, key]
  simp [Spec.entry]

theorem entry_columnsOf (ev : List (MEvent K)) (p c : Nat) :
    Spec.entry (columnsOf ev c) p = evSum ev p c := by
  have key : ∀ (A : Nat → SVec K), Spec.entry (ev.foldl (fun A e =>
      Function.update A e.2.1 ((A e.2.1).add e.1 e.2.2)) A c) p =
      Spec.entry (A c) p + evSum ev p c := by
    induction ev with
    | nil => intro A; simp [evSum]
    | cons e ev ih =>
      intro A
      rw [List.foldl_cons, ih]
      simp only [evSum, List.map_cons, List.sum_cons]
      rw [← add_assoc]
      congr 1
      by_cases h : e.2.1 = c
      · subst h
        rw [Function.update_self, C42_add]
        simp
      · rw [Function.update_of_ne (Ne.symm h), if_neg (fun hh => h hh.2), add_zero]
  rw [columnsOf, key]
  simp [Spec.entry]

/-- The entry that is left if small entries are dropped. -/
def Spec.dropped (drop a : K) : K := if drop < |a| then a else 0

theorem evSum_keep (drop : K) (line col : Nat) (a : K) (p c : Nat) :
    evSum (keepEntry drop line col a) p c =
      if line = p then (if col = c then Spec.dropped drop a else 0) else 0 := by
  unfold keepEntry evSum Spec.dropped
  by_cases h1 : line = p <;> by_cases h2 : col = c <;> by_cases h3 : drop < |a| <;> simp [h1, h2, h3]

theorem evSum_flatMap {α : Type} (M : List α) (f : α → List (MEvent K)) (p c : Nat) :
    evSum (M.flatMap f) p c = (M.map fun a => evSum (f a) p c).sum := by
  induction M with
  | nil => simp [evSum]
  | cons a M ih =>
    rw [List.flatMap_cons, List.map_cons, List.sum_cons, ← ih]
    simp [evSum]

/-- A sum with one term. -/
theorem list_sum_single {α : Type} [DecidableEq α] (M : List α) (hn : M.Nodup) (a : α) (ha : a ∈ M)
    (f : α → K) (h : ∀ b ∈ M, b ≠ a → f b = 0) : (M.map f).sum = f a := by
  induction M with
  | nil => simp at ha
  | cons b M ih =>
    rw [List.nodup_cons] at hn
    rw [List.map_cons, List.sum_cons]
    by_cases hb : b = a
    · subst hb
      have : (M.map f).sum = 0 := by
        apply List.sum_eq_zero
        intro x hx
        obtain ⟨c, hc, rfl⟩ := List.mem_map.mp hx
        exact h c (List.mem_cons_of_mem _ hc) (fun e => hn.1 (e ▸ hc))
      rw [this, add_zero]
    · have ha' : a ∈ M := by
        rcases List.mem_cons.mp ha with e | e
        · exact absurd e.symm hb
        · exact e
      rw [h b List.mem_cons_self hb, zero_add,
        ih hn.2 ha' fun c hc => h c (List.mem_cons_of_mem _ hc)]

/-- The adds of a complete run sum up to the entries of the operator. -/
theorem evSum_run (Ls outs : List (Nat × Nat × Nat)) (row col : Nat × Nat × Nat → Nat)
    (hl : Ls.Nodup) (ho : outs.Nodup)
    (hrow : ∀ q ∈ outs, ∀ q' ∈ outs, row q = row q' → q = q')
    (hcol : ∀ q ∈ Ls, ∀ q' ∈ Ls, col q = col q' → q = q')
    (E : Nat × Nat × Nat → Nat × Nat × Nat → K) {q s : Nat × Nat × Nat} (hq : q ∈ outs)
    (hs : s ∈ Ls) :
    evSum (Ls.flatMap fun s => outs.flatMap fun q => keepEntry drop (row q) (col s) (E s q))
      (row q) (col s) = Spec.dropped drop (E s q) := by
  rw [evSum_flatMap, list_sum_single Ls hl s hs]
  · rw [evSum_flatMap, list_sum_single outs ho q hq]
    · rw [evSum_keep, if_pos rfl, if_pos rfl]
    · intro q' hq' hne
      rw [evSum_keep, if_neg fun e => hne (hrow _ hq' _ hq e)]
  · intro s' hs' hne
    rw [evSum_flatMap]
    apply List.sum_eq_zero
    intro x hx
    obtain ⟨q', hq', rfl⟩ := List.mem_map.mp hx
    rw [evSum_keep, if_neg fun e => hne (hcol _ hs' _ hs e), ite_self]

/-! ## Offsets, zero lists, copies of the grid -/

theorem matrixOffsets_spec (g : GShape) (n : Nat) {b : Nat} (hb : b < g.nboxes)
    (ha : g.inactive b = false) : matrixOffsets g n b = n * Spec.before g b := by
  have key := upLoop_inv (Nat.zero_le g.nboxes)
    (body := fun b (s : (Nat → Nat) × Nat × Nat) => if g.inactive b then s else
      let ob := s.2.1 + s.2.2 * n
      (aset s.1 b ob, ob, g.nnodes b)) (s := (fun _ => 0, 0, 0))
    (fun m s => s.2.1 + s.2.2 * n = n * Spec.before g m ∧
      ∀ b, b < m → g.inactive b = false → s.1 b = n * Spec.before g b) ⟨by simp [Spec.before], by
        intro b h; omega⟩ (by
      rintro m s _ hm ⟨h1, h2⟩
      cases hx : g.inactive m with
      | true =>
        simp only [if_true]
        refine ⟨by rw [h1]; simp [Spec.before, sum_range_succ, hx], ?_⟩
        intro b hb' ha'
        apply h2 b _ ha'
        rcases Nat.lt_succ_iff_lt_or_eq.mp hb' with h | rfl
        · exact h
        · rw [hx] at ha'; simp at ha'
      | false =>
        simp only [Bool.false_eq_true, if_false]
        refine ⟨?_, ?_⟩
        · rw [h1]
          simp only [Spec.before, sum_range_succ, hx, Bool.false_eq_true, if_false]
          ring
        · intro b hb' ha'
          rcases Nat.lt_succ_iff_lt_or_eq.mp hb' with h | rfl
          · rw [aset_ne _ _ (by omega)]; exact h2 b h ha'
          · rw [aset_self, h1])
  exact key.2 b hb ha

theorem foldl_zero (vlx : VIdx) (M : List (Nat × Nat × Nat)) (v : GData K) (b x i : Nat) :
    (M.foldl (fun v p => GData.set v p.1 (vlx.index p.2.2) p.2.1 0) v) b x i =
      if ∃ q ∈ M, q.1 = b ∧ vlx.index q.2.2 = x ∧ q.2.1 = i then 0 else v b x i := by
  induction M generalizing v with
  | nil => simp
  | cons q M ih =>
    rw [List.foldl_cons, ih]
    by_cases h : ∃ q ∈ M, q.1 = b ∧ vlx.index q.2.2 = x ∧ q.2.1 = i
    · rw [if_pos h, if_pos]
      obtain ⟨r, hr, h⟩ := h
      exact ⟨r, List.mem_cons_of_mem _ hr, h⟩
    · rw [if_neg h]
      by_cases h2 : q.1 = b ∧ vlx.index q.2.2 = x ∧ q.2.1 = i
      · rw [if_pos ⟨q, List.mem_cons_self, h2⟩, GData.set,
          if_pos ⟨h2.1.symm, h2.2.1.symm, h2.2.2.symm⟩]
      · rw [if_neg, GData.set, if_neg]
        · rintro ⟨e1, e2, e3⟩; exact h2 ⟨e1.symm, e2.symm, e3.symm⟩
        · rintro ⟨r, hr, hh⟩
          rcases List.mem_cons.mp hr with rfl | hr
          · exact h2 hh
          · exact h ⟨r, hr, hh⟩

theorem zeroList_isZero (g : GShape) (vlx : VIdx) (v : GData K) :
    Spec.IsZero g vlx (zeroList g vlx v) := by
  intro b i j hs
  unfold zeroList
  rw [loopSorted_eq, foldl_zero, if_pos]
  exact ⟨(b, i, j), (mem_slotList_iff _ _ _ _).mpr hs, rfl, rfl, rfl⟩

theorem copyGrid_isZero {g : GShape} {vlx : VIdx} {v0 v : GData K} (h : Spec.IsZero g vlx v) :
    Spec.IsZero g vlx (copyGrid g v0 v) := by
  intro b i j hs
  rw [copyGrid, if_pos ⟨hs.1, hs.2.1, hs.2.2.1⟩]
  exact h b i j hs

/-! ## C44 -/

/-- The adds of a complete run, in some order. -/
def RunOf (g : GShape) (n : Nat) (drop : K) (L : Field3 K →ₗ[K] Field3 K) (o : Spec.Order)
    (ev : List (MEvent K)) : Prop :=
  ev.Perm ((slotList g n o).flatMap fun s => (slotList g n o).flatMap fun q =>
    keepEntry drop (Spec.pos g n o q.1 q.2.1 q.2.2) (Spec.pos g n o s.1 s.2.1 s.2.2)
      (L (Spec.unit s) q.1 q.2.1 q.2.2))

/-- The adds of a complete run, column after column. -/
def canonRun (g : GShape) (n : Nat) (drop : K) (L : Field3 K →ₗ[K] Field3 K) (o : Spec.Order) :
    List (MEvent K) :=
  (slotList g n o).flatMap fun s => (slotList g n o).flatMap fun q =>
    keepEntry drop (Spec.pos g n o q.1 q.2.1 q.2.2) (Spec.pos g n o s.1 s.2.1 s.2.2)
      (L (Spec.unit s) q.1 q.2.1 q.2.2)

theorem serial_eq (hL : Spec.LinearOp g vlFx vlx Fx Inv (Spec.Slot g vlx.n) L)
    (hd : Spec.Distinct vlx) (v0 v : GData K) (hi : Inv (copyGrid g v0 v))
    (hz : Spec.IsZero g vlx v) :
    matrixEventsSerial g Fx vlFx vlx drop v0 v = canonRun g vlx.n drop L .points := by
  unfold matrixEventsSerial
  simp only
  rw [loopPoints_eq]
  have h := (probeList_spec (drop := drop) (row := fun q => Spec.pos g vlx.n .points q.1 q.2.1 q.2.2)
    (col := fun p => matrixOffsets g vlx.n p.1 + p.2.1 * vlx.n + p.2.2) hL
    (scanPoints_spec g vlx vlFx drop) (fun q hq => (mem_slotList_iff _ _ _ _).mp hq) hd
    (slotList g vlx.n .points) (fun q hq => (mem_slotList_iff _ _ _ _).mp hq)
    (copyGrid g v0 v, []) hi (copyGrid_isZero hz)).2.2
  simp only at h
  rw [h, List.nil_append]
  apply List.flatMap_congr
  intro p hp
  have hs := (mem_slotList_iff _ _ _ _).mp hp
  have e : matrixOffsets g vlx.n p.1 + p.2.1 * vlx.n + p.2.2 =
      Spec.pos g vlx.n .points p.1 p.2.1 p.2.2 := by
    rw [matrixOffsets_spec g vlx.n hs.1 hs.2.1, Spec.pos]; ring
  rw [e]

theorem serial_run (hL : Spec.LinearOp g vlFx vlx Fx Inv (Spec.Slot g vlx.n) L)
    (hd : Spec.Distinct vlx) (v0 v : GData K) (hi : Inv (copyGrid g v0 v))
    (hz : Spec.IsZero g vlx v) :
    RunOf g vlx.n drop L .points (matrixEventsSerial g Fx vlFx vlx drop v0 v) :=
  List.Perm.of_eq (serial_eq hL hd v0 v hi hz)

/-- The run for sorted variables as a list of probes. -/
theorem runSorted_foldl (g : GShape) (Fx : GData K → GData K) (vlFx vlx : VIdx) (drop : K)
    (v : GData K) :
    matrixRunSorted g Fx vlFx vlx drop v = (slotList g vlx.n .sorted).foldl
      (fun s p => probeAt (scanSorted g vlx vlFx drop) Fx vlx p.1 p.2.1 p.2.2
        (Spec.pos g vlx.n .sorted p.1 p.2.1 p.2.2) s) (zeroList g vlx v, []) := by
  unfold matrixRunSorted
  simp only
  rw [loopSorted_eq]
  have key : ∀ (M : List (Nat × Nat × Nat)) (l : Nat) (s : MState K)
      (_ : ∀ k q, M[k]? = some q → Spec.pos g vlx.n .sorted q.1 q.2.1 q.2.2 = l + k),
      (M.foldl (fun (s : MState K × Nat) p =>
        (probeAt (scanSorted g vlx vlFx drop) Fx vlx p.1 p.2.1 p.2.2 s.2 s.1, s.2 + 1)) (s, l)).1 =
      M.foldl (fun s p => probeAt (scanSorted g vlx vlFx drop) Fx vlx p.1 p.2.1 p.2.2
        (Spec.pos g vlx.n .sorted p.1 p.2.1 p.2.2) s) s := by
    intro M
    induction M with
    | nil => intros; rfl
    | cons q M ih =>
      intro l s h
      rw [List.foldl_cons, List.foldl_cons, ih (l + 1) _ (fun k r hr => by
        rw [h (k + 1) r (by simpa using hr)]; omega)]
      have : Spec.pos g vlx.n .sorted q.1 q.2.1 q.2.2 = l := by rw [h 0 q (by simp)]; omega
      rw [this]
  exact key _ 0 _ (fun k q hq => by rw [(mem_slotList hq).2, Nat.zero_add])

theorem sorted_spec (hL : Spec.LinearOp g vlFx vlx Fx Inv (Spec.Slot g vlx.n) L)
    (hd : Spec.Distinct vlx) (v : GData K) (hi : Inv (zeroList g vlx v)) :
    Inv (matrixRunSorted g Fx vlFx vlx drop v).1 ∧
    Spec.IsZero g vlx (matrixRunSorted g Fx vlFx vlx drop v).1 ∧
    matrixEventsSorted g Fx vlFx vlx drop v = canonRun g vlx.n drop L .sorted := by
  unfold matrixEventsSorted
  rw [runSorted_foldl]
  have h := probeList_spec (drop := drop) (row := fun q => Spec.pos g vlx.n .sorted q.1 q.2.1 q.2.2)
    (col := fun q => Spec.pos g vlx.n .sorted q.1 q.2.1 q.2.2) hL
    (scanSorted_spec g vlx vlFx drop) (fun q hq => (mem_slotList_iff _ _ _ _).mp hq) hd
    (slotList g vlx.n .sorted) (fun q hq => (mem_slotList_iff _ _ _ _).mp hq)
    (zeroList g vlx v, []) hi (zeroList_isZero g vlx v)
  simp only [List.nil_append] at h
  exact h

theorem sorted_run (hL : Spec.LinearOp g vlFx vlx Fx Inv (Spec.Slot g vlx.n) L)
    (hd : Spec.Distinct vlx) (v : GData K) (hi : Inv (zeroList g vlx v)) :
    RunOf g vlx.n drop L .sorted (matrixEventsSorted g Fx vlFx vlx drop v) :=
  List.Perm.of_eq (sorted_spec hL hd v hi).2.2

/-- The points of each box are shared among the threads. -/
def Spec.Shares (g : GShape) (shares : Nat → List (List Nat)) : Prop :=
  ∀ b, b < g.nboxes → g.inactive b = false →
    ((shares b).flatten).Perm (List.range' 0 (g.nnodes b))

theorem thread_run (hL : Spec.LinearOp g vlFx vlx Fx Inv (Spec.Slot g vlx.n) L)
    (hd : Spec.Distinct vlx) (v0 v : GData K) (hi : Inv (copyGrid g v0 (zeroList g vlx v)))
    {b : Nat} (hb : b < g.nboxes) (ha : g.inactive b = false) (pts : List Nat)
    (hp : ∀ i ∈ pts, i < g.nnodes b) :
    threadEvents g Fx vlFx vlx drop v0 v b pts =
      pts.flatMap fun i => ((List.range' 0 vlx.n).map fun j => (b, i, j)).flatMap fun s =>
        (slotList g vlx.n .points).flatMap fun q =>
          keepEntry drop (Spec.pos g vlx.n .points q.1 q.2.1 q.2.2)
            (Spec.pos g vlx.n .points s.1 s.2.1 s.2.2) (L (Spec.unit s) q.1 q.2.1 q.2.2) := by
  have h := (probeList_spec (drop := drop) (row := fun q => Spec.pos g vlx.n .points q.1 q.2.1 q.2.2)
    (col := fun p => matrixOffsets g vlx.n p.1 + p.2.1 * vlx.n + p.2.2) hL
    (scanPoints_spec g vlx vlFx drop) (fun q hq => (mem_slotList_iff _ _ _ _).mp hq) hd
    (pts.flatMap fun i => (List.range' 0 vlx.n).map fun j => (b, i, j)) (by
      intro s hs
      simp only [List.mem_flatMap, List.mem_map, List.mem_range'_1] at hs
      obtain ⟨i, hi, j, hj, rfl⟩ := hs
      exact ⟨hb, ha, hp i hi, show j < vlx.n by omega⟩)
    (copyGrid g v0 (zeroList g vlx v), []) hi (copyGrid_isZero (zeroList_isZero g vlx v))).2.2
  simp only [foldl_flatMap', List.foldl_map, List.nil_append] at h
  unfold threadEvents
  simp only [upLoop, Nat.sub_zero]
  rw [h, List.flatMap_assoc]
  apply List.flatMap_congr
  intro i hi
  rw [List.flatMap_map, List.flatMap_map]
  apply List.flatMap_congr
  intro j _
  have e : matrixOffsets g vlx.n b + i * vlx.n + j = Spec.pos g vlx.n .points b i j := by
    rw [matrixOffsets_spec g vlx.n hb ha, Spec.pos]; ring
  simp only [e]

theorem par_run (hL : Spec.LinearOp g vlFx vlx Fx Inv (Spec.Slot g vlx.n) L)
    (hd : Spec.Distinct vlx) (v0 v : GData K) (hi : Inv (copyGrid g v0 (zeroList g vlx v)))
    (shares : Nat → List (List Nat)) (hsh : Spec.Shares g shares) (ev : List (MEvent K))
    (hev : MatrixEventsPar g Fx vlFx vlx drop v0 v shares ev) :
    RunOf g vlx.n drop L .points ev := by
  obtain ⟨part, hpart, rfl⟩ := hev
  unfold RunOf
  have hthr := fun b hb ha pts hp => thread_run (drop := drop) hL hd v0 v hi (b := b) hb ha pts hp
  generalize (fun s : Nat × Nat × Nat => (slotList g vlx.n .points).flatMap fun q =>
      keepEntry drop (Spec.pos g vlx.n .points q.1 q.2.1 q.2.2)
        (Spec.pos g vlx.n .points s.1 s.2.1 s.2.2) (L (Spec.unit s) q.1 q.2.1 q.2.2)) = C
    at hthr ⊢
  rw [slotList, blocks, List.flatMap_assoc]
  apply List.Perm.flatMap_left
  intro b hb
  have hb' : b < g.nboxes := by simpa using hb
  cases ha : g.inactive b with
  | true => simp
  | false =>
    simp only [Bool.false_eq_true, if_false]
    refine (hpart b hb' ha).1.trans ?_
    have hpts : ∀ pts ∈ shares b, ∀ i ∈ pts, i < g.nnodes b := by
      intro pts hp i hi
      have := (hsh b hb' ha).mem_iff.mp (List.mem_flatten.mpr ⟨pts, hp, hi⟩)
      simpa using this
    rw [List.flatMap_congr fun pts hp => hthr b hb' ha pts (hpts pts hp)]
    rw [blocks, List.flatMap_assoc]
    generalize (fun i => List.flatMap C (List.map (fun j => (b, i, j)) (List.range' 0 vlx.n))) = F
    have e : ∀ M : List (List Nat), (M.flatMap fun pts => pts.flatMap F) = M.flatten.flatMap F := by
      intro M
      induction M with
      | nil => rfl
      | cons a M ih => rw [List.flatMap_cons, List.flatten_cons, List.flatMap_append, ih]
    rw [e]
    exact (hsh b hb' ha).flatMap_right F

theorem run_entry {o : Spec.Order} {ev : List (MEvent K)} {n : Nat}
    (h : RunOf g n drop L o ev) {q s : Nat × Nat × Nat} (hq : Spec.Slot g n q.1 q.2.1 q.2.2)
    (hs : Spec.Slot g n s.1 s.2.1 s.2.2) :
    evSum ev (Spec.pos g n o q.1 q.2.1 q.2.2) (Spec.pos g n o s.1 s.2.1 s.2.2) =
      Spec.dropped drop (L (Spec.unit s) q.1 q.2.1 q.2.2) := by
  rw [evSum_perm h]
  have hinj : ∀ q ∈ slotList g n o, ∀ q' ∈ slotList g n o,
      Spec.pos g n o q.1 q.2.1 q.2.2 = Spec.pos g n o q'.1 q'.2.1 q'.2.2 → q = q' := by
    rintro ⟨b, i, j⟩ h ⟨b', i', j'⟩ h' e
    obtain ⟨rfl, rfl, rfl⟩ := slotPos_inj o g n ((mem_slotList_iff _ _ _ _).mp h)
      ((mem_slotList_iff _ _ _ _).mp h') e
    rfl
  exact evSum_run (slotList g n o) (slotList g n o)
    (fun q => Spec.pos g n o q.1 q.2.1 q.2.2) (fun q => Spec.pos g n o q.1 q.2.1 q.2.2)
    (slotList_nodup o g n) (slotList_nodup o g n) hinj hinj
    (fun s q => L (Spec.unit s) q.1 q.2.1 q.2.2) ((mem_slotList_iff _ _ _ _).mpr hq)
    ((mem_slotList_iff _ _ _ _).mpr hs)

theorem mem_linesOf (ev : List (MEvent K)) (p : Nat) (e : Int × K) (h : e ∈ linesOf ev p) :
    ∃ m ∈ ev, m.1 = p ∧ (m.2.1 : Int) = e.1 := by
  have key : ∀ (A : Nat → SVec K), e ∈ ev.foldl (fun A e =>
      Function.update A e.1 ((A e.1).add e.2.1 e.2.2)) A p →
      e ∈ A p ∨ ∃ m ∈ ev, m.1 = p ∧ (m.2.1 : Int) = e.1 := by
    clear h
    induction ev with
    | nil => intro A hA; exact .inl hA
    | cons m ev ih =>
      intro A hA
      rcases ih _ hA with h | ⟨m', h1, h2⟩
      · beta_reduce at h
        by_cases hm : m.1 = p
        · subst hm
          rw [Function.update_self, SVec.add, List.mem_append, List.mem_singleton] at h
          rcases h with h | rfl
          · exact .inl h
          · exact .inr ⟨m, List.mem_cons_self, rfl, rfl⟩
        · rw [Function.update_of_ne (Ne.symm hm)] at h
          exact .inl h
      · exact .inr ⟨m', List.mem_cons_of_mem _ h1, h2⟩
  rcases key _ h with h | h
  · simp at h
  · exact h

theorem run_fits {o : Spec.Order} {ev : List (MEvent K)} {n : Nat}
    (h : RunOf g n drop L o ev) (p : Nat) :
    Spec.Fits (linesOf ev p) (n * Spec.before g g.nboxes) := by
  intro e he
  obtain ⟨m, hm, _, h2⟩ := mem_linesOf ev p e he
  have := h.mem_iff.mp hm
  simp only [List.mem_flatMap, keepEntry] at this
  obtain ⟨s, hs, q, _, hq⟩ := this
  split at hq
  · rw [List.mem_singleton] at hq
    subst hq
    have hlt := slotPos_lt o g n ((mem_slotList_iff _ _ _ _).mp hs)
    simp only at h2
    omega
  · simp at hq

/-- A linear map is determined by its values for unit vectors. -/
theorem linear_expand (o : Spec.Order) (hL : Spec.LinearOp g vlFx vlx Fx Inv Out L) (X : Field3 K)
    {b i j : Nat} (ho : Out b i j) :
    L X b i j = ((slotList g vlx.n o).map fun s =>
      L (Spec.unit s) b i j * X s.1 s.2.1 s.2.2).sum := by
  have e1 : L X b i j =
      L (∑ s ∈ (slotList g vlx.n o).toFinset, X s.1 s.2.1 s.2.2 • Spec.unit s) b i j := by
    apply hL.local_ _ _ _ b i j ho
    intro b' i' j' hs
    rw [Finset.sum_apply, Finset.sum_apply, Finset.sum_apply, Finset.sum_eq_single (b', i', j')]
    · simp [Spec.unit]
    · rintro ⟨b2, i2, j2⟩ _ hne
      simp only [Pi.smul_apply, Spec.unit, smul_eq_mul]
      rw [if_neg, mul_zero]
      rintro ⟨rfl, rfl, rfl⟩
      exact hne rfl
    · intro hn
      exact absurd (List.mem_toFinset.mpr ((mem_slotList_iff o g vlx.n (b', i', j')).mpr hs)) hn
  rw [e1, map_sum, Finset.sum_apply, Finset.sum_apply, Finset.sum_apply,
    ← List.sum_toFinset _ (slotList_nodup o g vlx.n)]
  refine sum_congr rfl fun s _ => ?_
  rw [map_smul, Pi.smul_apply, Pi.smul_apply, Pi.smul_apply, smul_eq_mul, mul_comm]

theorem dropped_zero [IsStrictOrderedRing K] (a : K) : Spec.dropped 0 a = a := by
  unfold Spec.dropped
  split
  · rfl
  · rename_i h
    rw [abs_pos, ne_eq, Classical.not_not] at h
    exact h.symm

/-- `N` numbers in an array. -/
def dArr (x : Nat → K) : DArr K := fun c => x c.toNat

/-- Multiplying with the matrix given by lines is the same as calling `Fx`, for all values of the
variables: the array of `vlx` goes to the array of `vlFx`. -/
def Spec.LinesAre (o : Spec.Order) (g : GShape) (vlFx vlx : VIdx) (Fx : GData K → GData K)
    (Inv : GData K → Prop) (A : Nat → SVec K) : Prop :=
  ∀ v, Inv v → ∀ (x y : Nat → K) (f : DArr K) (p : Nat), p < vlx.n * Spec.before g g.nboxes →
    spTimesVec A (vlx.n * Spec.before g g.nboxes) (dArr (intoArray o g v vlx x)) f p =
      intoArray o g (Fx v) vlFx y p

/-- The same for a matrix given by columns. -/
def Spec.ColumnsAre (o : Spec.Order) (g : GShape) (vlFx vlx : VIdx) (Fx : GData K → GData K)
    (Inv : GData K → Prop) (A : Nat → SVec K) : Prop :=
  ∀ v, Inv v → ∀ (x y : Nat → K) (f : DArr K) (p : Nat), p < vlx.n * Spec.before g g.nboxes →
    vecTimesSp (dArr (intoArray o g v vlx x)) A (vlx.n * Spec.before g g.nboxes) f p =
      intoArray o g (Fx v) vlFx y p

theorem value_sum (o : Spec.Order) (hL : Spec.LinearOp g vlFx vlx Fx Inv (Spec.Slot g vlx.n) L)
    (hn : vlFx.n = vlx.n) {v : GData K} (hv : Inv v) (x y : Nat → K) {q : Nat × Nat × Nat}
    (hq : Spec.Slot g vlx.n q.1 q.2.1 q.2.2) :
    intoArray o g (Fx v) vlFx y (Spec.pos g vlx.n o q.1 q.2.1 q.2.2) =
      ((slotList g vlx.n o).map fun s => L (Spec.unit s) q.1 q.2.1 q.2.2 *
        intoArray o g v vlx x (Spec.pos g vlx.n o s.1 s.2.1 s.2.2)).sum := by
  have h1 := (C45_into o g (Fx v) vlFx y).1 q.1 q.2.1 q.2.2 (hn ▸ hq)
  rw [hn] at h1
  rw [h1, hL.value v hv _ _ _ hq, linear_expand o hL _ hq]
  congr 1
  apply List.map_congr_left
  intro s hs
  rw [(C45_into o g v vlx x).1 _ _ _ ((mem_slotList_iff _ _ _ _).mp hs)]

theorem run_sum {o : Spec.Order} {ev : List (MEvent K)} {n : Nat} (h : RunOf g n drop L o ev)
    (x : Nat → K) {q : Nat × Nat × Nat} (hq : Spec.Slot g n q.1 q.2.1 q.2.2) :
    ∑ c ∈ range (n * Spec.before g g.nboxes),
      evSum ev (Spec.pos g n o q.1 q.2.1 q.2.2) c * x c =
    ((slotList g n o).map fun s => Spec.dropped drop (L (Spec.unit s) q.1 q.2.1 q.2.2) *
      x (Spec.pos g n o s.1 s.2.1 s.2.2)).sum := by
  symm
  rw [← slotList_length o]
  apply list_sum_range
  intro p s hs
  obtain ⟨h1, h2⟩ := mem_slotList hs
  rw [← h2, run_entry h hq h1]

theorem lines_product {o : Spec.Order} {ev : List (MEvent K)} {n : Nat} (h : RunOf g n drop L o ev)
    (x : Nat → K) (f : DArr K) {q : Nat × Nat × Nat} (hq : Spec.Slot g n q.1 q.2.1 q.2.2) :
    spTimesVec (linesOf ev) (n * Spec.before g g.nboxes) (dArr x) f
      (Spec.pos g n o q.1 q.2.1 q.2.2 : Nat) =
    ((slotList g n o).map fun s => Spec.dropped drop (L (Spec.unit s) q.1 q.2.1 q.2.2) *
      x (Spec.pos g n o s.1 s.2.1 s.2.2)).sum := by
  rw [← run_sum h x hq, (C42_times_vector _ _ _ _ _ fun i _ => run_fits h i).1 _
    (slotPos_lt o g n hq)]
  refine sum_congr rfl fun c _ => ?_
  rw [entry_linesOf]; rfl

theorem columns_product {o : Spec.Order} {ev : List (MEvent K)} {n : Nat}
    (h : RunOf g n drop L o ev) (x : Nat → K) (f : DArr K) {q : Nat × Nat × Nat}
    (hq : Spec.Slot g n q.1 q.2.1 q.2.2) :
    vecTimesSp (dArr x) (columnsOf ev) (n * Spec.before g g.nboxes) f
      (Spec.pos g n o q.1 q.2.1 q.2.2 : Nat) =
    ((slotList g n o).map fun s => Spec.dropped drop (L (Spec.unit s) q.1 q.2.1 q.2.2) *
      x (Spec.pos g n o s.1 s.2.1 s.2.2)).sum := by
  rw [← run_sum h x hq, (C42_square _ _ _ _ _ (slotPos_lt o g n hq)).1]
  refine sum_congr rfl fun c _ => ?_
  rw [entry_columnsOf, mul_comm]; rfl

theorem run_exact [IsStrictOrderedRing K] {o : Spec.Order}
    (hL : Spec.LinearOp g vlFx vlx Fx Inv (Spec.Slot g vlx.n) L) (hn : vlFx.n = vlx.n)
    {ev : List (MEvent K)} (h : RunOf g vlx.n 0 L o ev) :
    Spec.LinesAre o g vlFx vlx Fx Inv (linesOf ev) ∧
    Spec.ColumnsAre o g vlFx vlx Fx Inv (columnsOf ev) := by
  constructor
  · intro v hv x y f p hp
    obtain ⟨b, i, j, hs, rfl⟩ := slotPos_surj o g vlx.n hp
    rw [value_sum o hL hn hv x y (q := (b, i, j)) hs]
    have := lines_product h (intoArray o g v vlx x) f (q := (b, i, j)) hs
    simp only [dropped_zero] at this
    exact this
  · intro v hv x y f p hp
    obtain ⟨b, i, j, hs, rfl⟩ := slotPos_surj o g vlx.n hp
    rw [value_sum o hL hn hv x y (q := (b, i, j)) hs]
    have := columns_product h (intoArray o g v vlx x) f (q := (b, i, j)) hs
    simp only [dropped_zero] at this
    exact this

/-- **C44** with OpenMP threads (`LEVEL6_Pragmas`): for all ways to share the points among the threads and
all orders in which they add entries, the matrix multiplies any vector as the operator does. -/
theorem C44_openmp [IsStrictOrderedRing K]
    (hL : Spec.LinearOp g vlFx vlx Fx Inv (Spec.Slot g vlx.n) L) (hn : vlFx.n = vlx.n)
    (hd : Spec.Distinct vlx) (v0 v : GData K) (hi : Inv (copyGrid g v0 (zeroList g vlx v)))
    (shares : Nat → List (List Nat)) (hsh : Spec.Shares g shares) (ev : List (MEvent K))
    (hev : MatrixEventsPar g Fx vlFx vlx 0 v0 v shares ev) :
    Spec.LinesAre .points g vlFx vlx Fx Inv (linesOf ev) ∧
    Spec.ColumnsAre .points g vlFx vlx Fx Inv (columnsOf ev) :=
  run_exact hL hn (par_run hL hd v0 v hi shares hsh ev hev)

/-- **C44** for the functions with sorted variables. -/
theorem C44_sorted [IsStrictOrderedRing K]
    (hL : Spec.LinearOp g vlFx vlx Fx Inv (Spec.Slot g vlx.n) L) (hn : vlFx.n = vlx.n)
    (hd : Spec.Distinct vlx) (v : GData K) (hi : Inv (zeroList g vlx v)) :
    let ev := matrixEventsSorted g Fx vlFx vlx 0 v
    Spec.LinesAre .sorted g vlFx vlx Fx Inv (linesOf ev) ∧
    Spec.ColumnsAre .sorted g vlFx vlx Fx Inv (columnsOf ev) :=
  run_exact hL hn (sorted_run hL hd v hi)

/-- **C44**, partial: without `LEVEL6_Pragmas` the matrix is right if `vlx` is zero already when the
function is called. Missing: other values of `vlx`, for which it is wrong, see
`C44_serial_counterexample`. -/
theorem C44_serial_partial [IsStrictOrderedRing K]
    (hL : Spec.LinearOp g vlFx vlx Fx Inv (Spec.Slot g vlx.n) L) (hn : vlFx.n = vlx.n)
    (hd : Spec.Distinct vlx) (v0 v : GData K) (hi : Inv (copyGrid g v0 v))
    (hz : Spec.IsZero g vlx v) :
    let ev := matrixEventsSerial g Fx vlFx vlx 0 v0 v
    Spec.LinesAre .points g vlFx vlx Fx Inv (linesOf ev) ∧
    Spec.ColumnsAre .points g vlFx vlx Fx Inv (columnsOf ev) :=
  run_exact hL hn (serial_run hL hd v0 v hi hz)

theorem dropped_near [IsStrictOrderedRing K] {drop : K} (h : 0 ≤ drop) (a : K) :
    |Spec.dropped drop a - a| ≤ drop := by
  unfold Spec.dropped
  split
  · simpa using h
  · rename_i hx
    rw [zero_sub, abs_neg]; exact le_of_not_gt hx

theorem list_abs_sum [IsStrictOrderedRing K] {α : Type} (M : List α) (f f' w : α → K) {c : K}
    (h : ∀ a, |f a - f' a| ≤ c) :
    |(M.map fun a => f a * w a).sum - (M.map fun a => f' a * w a).sum| ≤
      c * (M.map fun a => |w a|).sum := by
  induction M with
  | nil => simp
  | cons a M ih =>
    simp only [List.map_cons, List.sum_cons]
    have e : f a * w a + (M.map fun a => f a * w a).sum -
        (f' a * w a + (M.map fun a => f' a * w a).sum) =
        (f a - f' a) * w a +
          ((M.map fun a => f a * w a).sum - (M.map fun a => f' a * w a).sum) := by ring
    rw [e, mul_add]
    refine (abs_add_le _ _).trans (add_le_add ?_ ih)
    rw [abs_mul]
    exact mul_le_mul_of_nonneg_right (h a) (abs_nonneg _)

/-- If entries with sizes up to `drop` are left out, each component of the product is off by at most
`drop` times the sum of the sizes of the components of the vector. -/
theorem C44_drop [IsStrictOrderedRing K] {o : Spec.Order} (hdrop : 0 ≤ drop)
    (hL : Spec.LinearOp g vlFx vlx Fx Inv (Spec.Slot g vlx.n) L) (hn : vlFx.n = vlx.n)
    {ev : List (MEvent K)} (h : RunOf g vlx.n drop L o ev) {v : GData K} (hv : Inv v)
    (x y : Nat → K) (f : DArr K) (p : Nat) (hp : p < vlx.n * Spec.before g g.nboxes) :
    |spTimesVec (linesOf ev) (vlx.n * Spec.before g g.nboxes) (dArr (intoArray o g v vlx x)) f p -
      intoArray o g (Fx v) vlFx y p| ≤
      drop * ∑ c ∈ range (vlx.n * Spec.before g g.nboxes), |intoArray o g v vlx x c| := by
  obtain ⟨b, i, j, hs, rfl⟩ := slotPos_surj o g vlx.n hp
  rw [value_sum o hL hn hv x y (q := (b, i, j)) hs]
  have := lines_product h (intoArray o g v vlx x) f (q := (b, i, j)) hs
  simp only at this
  rw [this]
  have e : ∑ c ∈ range (vlx.n * Spec.before g g.nboxes), |intoArray o g v vlx x c| =
      ((slotList g vlx.n o).map fun s =>
        |intoArray o g v vlx x (Spec.pos g vlx.n o s.1 s.2.1 s.2.2)|).sum := by
    symm
    rw [← slotList_length o]
    apply list_sum_range
    intro p s hs
    rw [(mem_slotList hs).2]
  rw [e]
  exact list_abs_sum _ _ _ _ fun s => dropped_near hdrop _

/-- The bound of `C44_drop` for the three functions. -/
theorem C44_drop_runs (hL : Spec.LinearOp g vlFx vlx Fx Inv (Spec.Slot g vlx.n) L)
    (hd : Spec.Distinct vlx) (v0 v : GData K) :
    (Inv (copyGrid g v0 (zeroList g vlx v)) → ∀ shares, Spec.Shares g shares → ∀ ev,
      MatrixEventsPar g Fx vlFx vlx drop v0 v shares ev → RunOf g vlx.n drop L .points ev) ∧
    (Inv (zeroList g vlx v) →
      RunOf g vlx.n drop L .sorted (matrixEventsSorted g Fx vlFx vlx drop v)) ∧
    (Inv (copyGrid g v0 v) → Spec.IsZero g vlx v →
      RunOf g vlx.n drop L .points (matrixEventsSerial g Fx vlFx vlx drop v0 v)) :=
  ⟨fun hi shares hsh ev => par_run hL hd v0 v hi shares hsh ev, fun hi => sorted_run hL hd v hi,
    fun hi hz => serial_run hL hd v0 v hi hz⟩

end

/-! ## Examples -/

/-- One box of two points. -/
def exMat : GShape := ⟨1, fun _ => 2, fun _ => false⟩

/-- `Fx` that sets variable 1 to variable 0, and a list with one variable. -/
def exCopy : GData ℚ → GData ℚ := fun v b x i => if x = 1 then v b 0 i else v b x i

/-- `C44` fails without `LEVEL6_Pragmas` if `vlx` is not zero before the call: for the operator that
copies `vlx` the matrix is not the unit matrix but has the old value of `vlx` in its first
column. -/
theorem C44_serial_counterexample :
    let ev := matrixEventsSerial exMat exCopy ⟨1, fun _ => 1⟩ ⟨1, fun _ => 0⟩ 0 (fun _ _ _ => 0)
      (fun _ _ i => if i = 1 then 5 else 0)
    ¬ Spec.LinesAre .points exMat ⟨1, fun _ => 1⟩ ⟨1, fun _ => 0⟩ exCopy (fun _ => True)
      (linesOf ev) := by
  intro ev h
  have := h (fun _ _ i => if i = 0 then 1 else 0) trivial (fun _ => 0) (fun _ => 0) (fun _ => 0) 1
    (by decide)
  revert this
  decide +kernel

/-- The operator of the example is linear, so this is not for want of linearity. -/
theorem exCopy_linear : Spec.LinearOp exMat ⟨1, fun _ => 1⟩ ⟨1, fun _ => 0⟩ exCopy (fun _ => True)
    (Spec.Slot exMat 1) LinearMap.id where
  local_ := fun _ _ h b i j ho => h b i j ho
  value := fun v _ b i j _ => by simp [exCopy]
  keep := fun v _ b i j _ => by simp [exCopy]
  inv := fun _ _ => trivial
  inv_set := fun _ _ _ _ _ _ _ => trivial

/-- Two boxes of one and two points; `Fx` is twice the variable minus its value at the first point of
the other box. -/
def exFx : GData ℚ → GData ℚ := fun v b x i =>
  if x = 1 then 2 * v b 0 i - v (1 - b) 0 0 else v b x i

example : (List.range 3).map (linesOf (matrixEventsSorted ⟨2, fun b => b + 1, fun _ => false⟩ exFx
    ⟨1, fun _ => 1⟩ ⟨1, fun _ => 0⟩ 0 fun _ _ _ => 7)) =
    [[(0, 2), (1, -1)], [(0, -1), (1, 2)], [(0, -1), (2, 2)]] := by
  decide +kernel

/-! ## C84: blocks of the matrix -/

section
set_option linter.unusedSectionVars false
variable [Field K] [LinearOrder K]
variable {g : GShape} {vlFx vlx : VIdx} {Fx : GData K → GData K} {Inv : GData K → Prop}
  {Out : Nat → Nat → Nat → Prop} {L : Field3 K →ₗ[K] Field3 K} {drop : K}

theorem scan_plain {β : Type} (v : GData K) (vlFx : VIdx) (drop : K) (col : Nat)
    (place : β → Nat × Nat × Nat) (row : β → Nat) (M : List β) (ev : List (MEvent K)) :
    M.foldl (fun ev a =>
      if drop < |v (place a).1 (vlFx.index (place a).2.2) (place a).2.1| then
        ev ++ [(row a, col, v (place a).1 (vlFx.index (place a).2.2) (place a).2.1)] else ev) ev =
      ev ++ M.flatMap fun a =>
        keepEntry drop (row a) col (v (place a).1 (vlFx.index (place a).2.2) (place a).2.1) := by
  induction M generalizing ev with
  | nil => simp
  | cons a M ih =>
    rw [List.foldl_cons, ih, List.flatMap_cons, ← List.append_assoc]
    congr 1
    rw [keepEntry]
    split <;> simp

/-- The columns of one box and one variable: for every way to share the points among threads and every
order of the adds, line `p` of column `i` is the value at point `p` that the operator gives for a one
at point `i`. -/
theorem C84_box (hL : Spec.LinearOp g vlFx vlx Fx Inv Out L) (hd : Spec.Distinct vlx)
    {vlind b : Nat} (hb : b < g.nboxes) (ha : g.inactive b = false) (hj : vlind < vlx.n)
    (hout : ∀ p, p < g.nnodes b → Out b p vlind)
    (v0 v : GData K) (hi : Inv (copyGrid g v0 (zeroList g vlx v)))
    (shares : List (List Nat)) (hsh : shares.flatten.Perm (List.range' 0 (g.nnodes b)))
    (ev : List (MEvent K))
    (hev : ev.Perm (shares.flatMap (oneBoxEvents g Fx vlFx vlx drop v0 v vlind b)))
    {i p : Nat} (h1 : i < g.nnodes b) (h2 : p < g.nnodes b) :
    Spec.entry (columnsOf ev i) p = Spec.dropped drop (L (Spec.unit (b, i, vlind)) b p vlind) := by
  have hscan : ScansBy (scanOneBox g vlFx vlind b drop) vlFx drop
      ((List.range' 0 (g.nnodes b)).map fun i => (b, i, vlind)) fun q => q.2.1 := by
    intro v col ev
    rw [List.flatMap_map]
    have := scan_plain v vlFx drop col (fun i => (b, i, vlind)) (fun i => i)
      (List.range' 0 (g.nnodes b)) ev
    simp only [scanOneBox, GShape.forPoints, upLoop, Nat.sub_zero]
    exact this
  have hmem : ∀ pts ∈ shares, ∀ i ∈ pts, i < g.nnodes b := by
    intro pts hp i hi
    have := hsh.mem_iff.mp (List.mem_flatten.mpr ⟨pts, hp, hi⟩)
    simpa using this
  let E : Nat × Nat × Nat → Nat × Nat × Nat → K := fun s q => L (Spec.unit s) q.1 q.2.1 q.2.2
  let outs := (List.range' 0 (g.nnodes b)).map fun i => (b, i, vlind)
  have hthr : ∀ pts ∈ shares, oneBoxEvents g Fx vlFx vlx drop v0 v vlind b pts =
      pts.flatMap fun i => outs.flatMap fun q =>
        keepEntry drop q.2.1 i (E (b, i, vlind) q) := by
    intro pts hp
    have h := (probeList_spec (drop := drop) (row := fun q => q.2.1) (col := fun p => p.2.1) hL hscan
      (by
        intro q hq
        obtain ⟨p, hp, rfl⟩ := List.mem_map.mp hq
        exact hout p (by simpa using hp)) hd (pts.map fun i => (b, i, vlind)) (by
        intro s hs
        obtain ⟨i, hi, rfl⟩ := List.mem_map.mp hs
        exact ⟨hb, ha, hmem pts hp i hi, hj⟩)
      (copyGrid g v0 (zeroList g vlx v), []) hi (copyGrid_isZero (zeroList_isZero g vlx v))).2.2
    simp only [List.foldl_map, List.nil_append, List.flatMap_map] at h
    unfold oneBoxEvents
    simp only
    rw [h]
    simp only [E, outs, List.flatMap_map]
  have hperm : ev.Perm (outs.flatMap fun s => outs.flatMap fun q =>
      keepEntry drop q.2.1 s.2.1 (E s q)) := by
    refine hev.trans ?_
    rw [List.flatMap_congr hthr]
    have e : ∀ (M : List (List Nat)) (F : Nat → List (MEvent K)),
        (M.flatMap fun pts => pts.flatMap F) = M.flatten.flatMap F := by
      intro M F
      induction M with
      | nil => rfl
      | cons a M ih => rw [List.flatMap_cons, List.flatten_cons, List.flatMap_append, ih]
    rw [e, show outs = (List.range' 0 (g.nnodes b)).map fun i => (b, i, vlind) from rfl,
      List.flatMap_map]
    exact hsh.flatMap_right _
  have hnd : outs.Nodup := List.Nodup.map (fun a c h => by simpa using h) List.nodup_range'
  have hinj : ∀ q ∈ outs, ∀ q' ∈ outs, q.2.1 = q'.2.1 → q = q' := by
    intro q hq q' hq' e
    obtain ⟨a, _, rfl⟩ := List.mem_map.mp hq
    obtain ⟨a', _, rfl⟩ := List.mem_map.mp hq'
    simp only at e
    rw [e]
  rw [entry_columnsOf, evSum_perm hperm]
  exact evSum_run outs outs (fun q => q.2.1) (fun q => q.2.1) hnd hnd hinj hinj E
    (q := (b, p, vlind)) (s := (b, i, vlind)) (List.mem_map.mpr ⟨p, by simpa using h2, rfl⟩)
    (List.mem_map.mpr ⟨i, by simpa using h1, rfl⟩)

/-- The values of the operator at one place for a list that is zero except for one variable in one
box. -/
theorem block_expand (hL : Spec.LinearOp g vlFx vlx Fx Inv Out L) {vlind b : Nat}
    (hb : b < g.nboxes) (ha : g.inactive b = false) (hj : vlind < vlx.n) (P : List Nat)
    (hP : ∀ i ∈ P, i < g.nnodes b) (hn : P.Nodup) {v : GData K} (hv : Inv v)
    (hz : ∀ b' i j, Spec.Slot g vlx.n b' i j → ¬(b' = b ∧ j = vlind ∧ i ∈ P) →
      v b' (vlx.index j) i = 0) {p : Nat} (ho : Out b p vlind) :
    Fx v b (vlFx.index vlind) p =
      (P.map fun i => L (Spec.unit (b, i, vlind)) b p vlind * v b (vlx.index vlind) i).sum := by
  rw [hL.value v hv _ _ _ ho]
  have e1 : L (fun b i j => v b (vlx.index j) i) b p vlind =
      L (∑ i ∈ P.toFinset, v b (vlx.index vlind) i • Spec.unit (b, i, vlind)) b p vlind := by
    apply hL.local_ _ _ _ b p vlind ho
    intro b' i' j' hs
    rw [Finset.sum_apply, Finset.sum_apply, Finset.sum_apply]
    by_cases hc : b' = b ∧ j' = vlind ∧ i' ∈ P
    · obtain ⟨rfl, rfl, hi⟩ := hc
      rw [Finset.sum_eq_single i']
      · simp [Spec.unit]
      · intro i2 _ hne
        simp only [Pi.smul_apply, Spec.unit, smul_eq_mul]
        rw [if_neg fun h => hne h.2.1.symm, mul_zero]
      · intro hx
        exact absurd (List.mem_toFinset.mpr hi) hx
    · rw [hz b' i' j' hs hc, Finset.sum_eq_zero]
      intro i2 hi2
      simp only [Pi.smul_apply, Spec.unit, smul_eq_mul]
      rw [if_neg, mul_zero]
      rintro ⟨h1, h2, h3⟩
      exact hc ⟨h1, h3, h2 ▸ List.mem_toFinset.mp hi2⟩
  rw [e1, map_sum, Finset.sum_apply, Finset.sum_apply, Finset.sum_apply,
    ← List.sum_toFinset _ hn]
  refine sum_congr rfl fun s _ => ?_
  rw [map_smul, Pi.smul_apply, Pi.smul_apply, Pi.smul_apply, smul_eq_mul, mul_comm]

/-- The block multiplies the values of its variable in its box as the operator does, if the rest of the
list is zero. -/
theorem C84_box_product [IsStrictOrderedRing K] (hL : Spec.LinearOp g vlFx vlx Fx Inv Out L)
    (hd : Spec.Distinct vlx)
    {vlind b : Nat} (hb : b < g.nboxes) (ha : g.inactive b = false) (hj : vlind < vlx.n)
    (hout : ∀ p, p < g.nnodes b → Out b p vlind)
    (v0 v : GData K) (hi : Inv (copyGrid g v0 (zeroList g vlx v)))
    (shares : List (List Nat)) (hsh : shares.flatten.Perm (List.range' 0 (g.nnodes b)))
    (ev : List (MEvent K))
    (hev : ev.Perm (shares.flatMap (oneBoxEvents g Fx vlFx vlx 0 v0 v vlind b)))
    (w : GData K) (hw : Inv w)
    (hz : ∀ b' i j, Spec.Slot g vlx.n b' i j → ¬(b' = b ∧ j = vlind) → w b' (vlx.index j) i = 0)
    (f : DArr K) {p : Nat} (hp : p < g.nnodes b) :
    vecTimesSp (dArr fun i => w b (vlx.index vlind) i) (columnsOf ev) (g.nnodes b) f p =
      Fx w b (vlFx.index vlind) p := by
  rw [(C42_square _ _ _ _ _ hp).1, block_expand hL hb ha hj (List.range' 0 (g.nnodes b))
    (fun i hi => by simpa using hi) List.nodup_range' hw (fun b' i j hs hc => hz b' i j hs
      fun h => hc ⟨h.1, h.2, by obtain ⟨h1, h2⟩ := h; subst h1; simpa using hs.2.2.1⟩) (hout p hp),
    range'_sum]
  refine sum_congr rfl fun c hc => ?_
  rw [C84_box hL hd hb ha hj hout v0 v hi shares hsh ev hev (mem_range.mp hc) hp, dropped_zero,
    mul_comm]
  rfl

/-- The points of a subbox with `i` from a list, in the order of the loops. -/
def subCols (d : Dims) (sbj sbk nsb2 nsb3 : Nat) (is : List Nat) : List (Nat × Nat × Nat) :=
  is.flatMap fun i =>
  (List.range' (subboxRange d.n3 sbk nsb3).1
    ((subboxRange d.n3 sbk nsb3).2 - (subboxRange d.n3 sbk nsb3).1)).flatMap fun k =>
  (List.range' (subboxRange d.n2 sbj nsb2).1
    ((subboxRange d.n2 sbj nsb2).2 - (subboxRange d.n2 sbj nsb2).1)).map fun j => (i, j, k)

theorem subList_nodup (d : Dims) (sbi sbj sbk nsb1 nsb2 nsb3 : Nat) :
    (subList d sbi sbj sbk nsb1 nsb2 nsb3).Nodup := by
  unfold subList
  rw [List.nodup_flatMap]
  refine ⟨fun i _ => ?_, ?_⟩
  · rw [List.nodup_flatMap]
    refine ⟨fun k _ => List.Nodup.map (fun a c h => by simpa using h) List.nodup_range', ?_⟩
    refine List.Pairwise.imp ?_ List.nodup_range'
    intro k k' hne x hx hx'
    simp only [List.mem_map] at hx hx'
    obtain ⟨_, _, rfl⟩ := hx
    obtain ⟨_, _, e⟩ := hx'
    simp only [Prod.mk.injEq] at e
    exact hne e.2.1.symm
  · refine List.Pairwise.imp ?_ List.nodup_range'
    intro i i' hne x hx hx'
    simp only [List.mem_flatMap, List.mem_map] at hx hx'
    obtain ⟨_, _, _, _, rfl⟩ := hx
    obtain ⟨_, _, _, _, e⟩ := hx'
    simp only [Prod.mk.injEq] at e
    exact hne e.2.2.symm

/-- What one thread adds for one subbox and one variable. -/
theorem subBox_thread (d : Dims) {vlind b sbi sbj sbk nsb1 nsb2 nsb3 : Nat}
    (hL : Spec.LinearOp g vlFx vlx Fx Inv Out L) (hd : Spec.Distinct vlx)
    (hb : b < g.nboxes) (ha : g.inactive b = false) (hj : vlind < vlx.n)
    (hnn : g.nnodes b = d.n1 * d.n2 * d.n3)
    (s1 : sbi < nsb1) (s2 : sbj < nsb2) (s3 : sbk < nsb3)
    (hout : ∀ i j k, Spec.InSub d sbi sbj sbk nsb1 nsb2 nsb3 i j k → Out b (d.idx i j k) vlind)
    (v0 v : GData K) (hi : Inv (zeroList g vlx (copyGrid g v0 v))) (is : List Nat)
    (his : ∀ i ∈ is, (subboxRange d.n1 sbi nsb1).1 ≤ i ∧ i < (subboxRange d.n1 sbi nsb1).2) :
    subBoxEvents g d Fx vlFx vlx drop v0 v vlind b sbi sbj sbk nsb1 nsb2 nsb3 is =
      (subCols d sbj sbk nsb2 nsb3 is).flatMap fun t =>
        (subList d sbi sbj sbk nsb1 nsb2 nsb3).flatMap fun q =>
        keepEntry drop (Spec.subIdx d sbi sbj sbk nsb1 nsb2 nsb3 q.1 q.2.1 q.2.2)
          (Spec.subIdx d sbi sbj sbk nsb1 nsb2 nsb3 t.1 t.2.1 t.2.2)
          (L (Spec.unit (b, d.idx t.1 t.2.1 t.2.2, vlind)) b (d.idx q.1 q.2.1 q.2.2) vlind) := by
  -- the places as points
  let sub := subList d sbi sbj sbk nsb1 nsb2 nsb3
  let row : Nat × Nat × Nat → Nat := fun t =>
    Spec.subIdx d sbi sbj sbk nsb1 nsb2 nsb3 t.1 t.2.1 t.2.2
  let pl : Nat × Nat × Nat → Nat × Nat × Nat := fun t => (b, d.idx t.1 t.2.1 t.2.2, vlind)
  have hslot : ∀ t, Spec.InSub d sbi sbj sbk nsb1 nsb2 nsb3 t.1 t.2.1 t.2.2 →
      Spec.Slot g vlx.n (pl t).1 (pl t).2.1 (pl t).2.2 := by
    intro t ht
    refine ⟨hb, ha, ?_, hj⟩
    show d.idx t.1 t.2.1 t.2.2 < g.nnodes b
    rw [hnn]
    exact idx_lt (inSub_inBox s1 s2 s3 ht)
  -- one probe
  have hprobe : ∀ t, Spec.InSub d sbi sbj sbk nsb1 nsb2 nsb3 t.1 t.2.1 t.2.2 → ∀ (s : MState K),
      Inv s.1 → Spec.IsZero g vlx s.1 →
      let s' := probeAt (scanSubbox d vlFx vlind b sbi sbj sbk nsb1 nsb2 nsb3 drop) Fx vlx b
        (d.idx t.1 t.2.1 t.2.2) vlind (row t) s
      Inv s'.1 ∧ Spec.IsZero g vlx s'.1 ∧ s'.2 = s.2 ++ sub.flatMap fun q =>
        keepEntry drop (row q) (row t) (L (Spec.unit (pl t)) b (d.idx q.1 q.2.1 q.2.2) vlind) := by
    intro t ht s hi hz
    -- the scan, with the places and lines of the points
    have hbox : ∀ q ∈ sub, Spec.inBox d q.1 q.2.1 q.2.2 := fun q hq =>
      inSub_inBox s1 s2 s3 ((mem_subList q).mp hq)
    have h1 : Inv (s.1.set b (vlx.index vlind) (d.idx t.1 t.2.1 t.2.2) 1) :=
      hL.inv_set _ hi b _ vlind 1 (hslot t ht)
    have h2 := hL.inv _ h1
    refine ⟨hL.inv_set _ h2 b _ vlind 0 (hslot t ht), ?_, ?_⟩
    · intro b' i' j' hs'
      simp only [probeAt, GData.set]
      split
      · rfl
      · rename_i hne
        rw [hL.keep _ h1 b' i' j' hs']
        simp only [GData.set]
        rw [if_neg hne]
        exact hz b' i' j' hs'
    · simp only [probeAt, scanSubbox]
      rw [loopSubbox_eq]
      have := scan_plain (Fx (s.1.set b (vlx.index vlind) (d.idx t.1 t.2.1 t.2.2) 1)) vlFx drop
        (row t) pl row sub s.2
      refine Eq.trans this ?_
      congr 1
      apply List.flatMap_congr
      intro q hq
      have hoq := hout _ _ _ ((mem_subList q).mp hq)
      simp only [pl]
      rw [hL.value _ h1 _ _ _ hoq]
      congr 1
      apply hL.local_ _ _ _ _ _ _ hoq
      intro b' i' j' hs'
      simp only [GData.set, Spec.unit]
      by_cases he : b' = b ∧ i' = d.idx t.1 t.2.1 t.2.2 ∧ j' = vlind
      · obtain ⟨rfl, rfl, rfl⟩ := he
        simp
      · rw [if_neg he, if_neg]
        · exact hz b' i' j' hs'
        · rintro ⟨e1, e2, e3⟩
          exact he ⟨e1, e3, hd _ _ hs'.2.2.2 hj e2⟩
  -- a list of probes
  have hprobes : ∀ (M : List (Nat × Nat × Nat)),
      (∀ t ∈ M, Spec.InSub d sbi sbj sbk nsb1 nsb2 nsb3 t.1 t.2.1 t.2.2) → ∀ (s : MState K),
      Inv s.1 → Spec.IsZero g vlx s.1 →
      (M.foldl (fun s t => probeAt (scanSubbox d vlFx vlind b sbi sbj sbk nsb1 nsb2 nsb3 drop) Fx vlx
        b (d.idx t.1 t.2.1 t.2.2) vlind (row t) s) s).2 = s.2 ++ M.flatMap fun t =>
        sub.flatMap fun q => keepEntry drop (row q) (row t)
          (L (Spec.unit (pl t)) b (d.idx q.1 q.2.1 q.2.2) vlind) := by
    intro M
    induction M with
    | nil => intro _ s _ _; simp
    | cons t M ih =>
      intro hM s hi hz
      obtain ⟨a1, a2, a3⟩ := hprobe t (hM t List.mem_cons_self) s hi hz
      rw [List.foldl_cons, ih (fun t ht => hM t (List.mem_cons_of_mem _ ht)) _ a1 a2, a3,
        List.flatMap_cons, List.append_assoc]
  have hcols : ∀ is : List Nat, (∀ i ∈ is, (subboxRange d.n1 sbi nsb1).1 ≤ i ∧
      i < (subboxRange d.n1 sbi nsb1).2) → ∀ t ∈ subCols d sbj sbk nsb2 nsb3 is,
      Spec.InSub d sbi sbj sbk nsb1 nsb2 nsb3 t.1 t.2.1 t.2.2 := by
    intro is his t ht
    simp only [subCols, List.mem_flatMap, List.mem_map, List.mem_range'_1] at ht
    obtain ⟨i, hi, k, hk, j, hj, rfl⟩ := ht
    have := his i hi
    simp only [Spec.InSub]
    omega
  have hI : Inv (Fx (zeroList g vlx (copyGrid g v0 v))) := hL.inv _ hi
  have hZ : Spec.IsZero g vlx (Fx (zeroList g vlx (copyGrid g v0 v))) := by
    intro b' i' j' hs'
    rw [hL.keep _ hi b' i' j' hs']
    exact zeroList_isZero g vlx _ b' i' j' hs'
  have h := hprobes (subCols d sbj sbk nsb2 nsb3 is) (hcols is his)
    (Fx (zeroList g vlx (copyGrid g v0 v)), []) hI hZ
  rw [List.nil_append] at h
  refine Eq.trans ?_ h
  simp only [subCols, foldl_flatMap', List.foldl_map, subBoxEvents, upLoop]
  rfl

/-- The columns of one subbox and one variable: entry (place of `(i',j',k')`, place of `(i,j,k)`) is the
value at `(i',j',k')` that the operator gives for a one at `(i,j,k)`, for all shares of the values of
`i` and all orders of the adds. `Fx` needs to set only the values in the subbox. -/
theorem C84_subbox (d : Dims) {vlind b sbi sbj sbk nsb1 nsb2 nsb3 : Nat}
    (hL : Spec.LinearOp g vlFx vlx Fx Inv Out L) (hd : Spec.Distinct vlx)
    (hb : b < g.nboxes) (ha : g.inactive b = false) (hj : vlind < vlx.n)
    (hnn : g.nnodes b = d.n1 * d.n2 * d.n3)
    (s1 : sbi < nsb1) (s2 : sbj < nsb2) (s3 : sbk < nsb3)
    (hout : ∀ i j k, Spec.InSub d sbi sbj sbk nsb1 nsb2 nsb3 i j k → Out b (d.idx i j k) vlind)
    (v0 v : GData K) (hi : Inv (zeroList g vlx (copyGrid g v0 v)))
    (shares : List (List Nat))
    (hsh : shares.flatten.Perm (List.range' (subboxRange d.n1 sbi nsb1).1
      ((subboxRange d.n1 sbi nsb1).2 - (subboxRange d.n1 sbi nsb1).1)))
    (ev : List (MEvent K))
    (hev : ev.Perm (shares.flatMap
      (subBoxEvents g d Fx vlFx vlx drop v0 v vlind b sbi sbj sbk nsb1 nsb2 nsb3)))
    {i j k i' j' k' : Nat} (h1 : Spec.InSub d sbi sbj sbk nsb1 nsb2 nsb3 i j k)
    (h2 : Spec.InSub d sbi sbj sbk nsb1 nsb2 nsb3 i' j' k') :
    Spec.entry (columnsOf ev (Spec.subIdx d sbi sbj sbk nsb1 nsb2 nsb3 i j k))
      (Spec.subIdx d sbi sbj sbk nsb1 nsb2 nsb3 i' j' k' : Nat) =
      Spec.dropped drop (L (Spec.unit (b, d.idx i j k, vlind)) b (d.idx i' j' k') vlind) := by
  -- the places as points
  let sub := subList d sbi sbj sbk nsb1 nsb2 nsb3
  let row : Nat × Nat × Nat → Nat := fun t =>
    Spec.subIdx d sbi sbj sbk nsb1 nsb2 nsb3 t.1 t.2.1 t.2.2
  let pl : Nat × Nat × Nat → Nat × Nat × Nat := fun t => (b, d.idx t.1 t.2.1 t.2.2, vlind)
  have hmem : ∀ is ∈ shares, ∀ i ∈ is, (subboxRange d.n1 sbi nsb1).1 ≤ i ∧
      i < (subboxRange d.n1 sbi nsb1).2 := by
    intro is hp i hi
    have := hsh.mem_iff.mp (List.mem_flatten.mpr ⟨is, hp, hi⟩)
    rw [List.mem_range'_1] at this
    omega
  have hthr : ∀ is ∈ shares,
      subBoxEvents g d Fx vlFx vlx drop v0 v vlind b sbi sbj sbk nsb1 nsb2 nsb3 is =
      (subCols d sbj sbk nsb2 nsb3 is).flatMap fun t => sub.flatMap fun q =>
        keepEntry drop (row q) (row t)
          (L (Spec.unit (pl t)) b (d.idx q.1 q.2.1 q.2.2) vlind) := by
    intro is his
    exact subBox_thread d hL hd hb ha hj hnn s1 s2 s3 hout v0 v hi is (hmem is his)
  -- all adds
  have hperm : ev.Perm (sub.flatMap fun t => sub.flatMap fun q => keepEntry drop (row q) (row t)
      (L (Spec.unit (pl t)) b (d.idx q.1 q.2.1 q.2.2) vlind)) := by
    refine hev.trans ?_
    rw [List.flatMap_congr hthr]
    have e : ∀ (M : List (List Nat)) (F : Nat × Nat × Nat → List (MEvent K)),
        (M.flatMap fun is => (subCols d sbj sbk nsb2 nsb3 is).flatMap F) =
          (subCols d sbj sbk nsb2 nsb3 M.flatten).flatMap F := by
      intro M F
      induction M with
      | nil => rfl
      | cons a M ih =>
        rw [List.flatMap_cons, List.flatten_cons, ih]
        simp only [subCols, List.flatMap_append]
    rw [e]
    apply List.Perm.flatMap_right
    have hnd1 : (subCols d sbj sbk nsb2 nsb3 (List.range' (subboxRange d.n1 sbi nsb1).1
      ((subboxRange d.n1 sbi nsb1).2 - (subboxRange d.n1 sbi nsb1).1))).Nodup := by
      unfold subCols
      rw [List.nodup_flatMap]
      refine ⟨fun i _ => ?_, ?_⟩
      · rw [List.nodup_flatMap]
        refine ⟨fun k _ => List.Nodup.map (fun a c h => by simpa using h) List.nodup_range', ?_⟩
        refine List.Pairwise.imp ?_ List.nodup_range'
        intro k k' hne x hx hx'
        simp only [List.mem_map] at hx hx'
        obtain ⟨_, _, rfl⟩ := hx
        obtain ⟨_, _, e⟩ := hx'
        simp only [Prod.mk.injEq] at e
        exact hne e.2.2.symm
      · refine List.Pairwise.imp ?_ List.nodup_range'
        intro i i' hne x hx hx'
        simp only [List.mem_flatMap, List.mem_map] at hx hx'
        obtain ⟨_, _, _, _, rfl⟩ := hx
        obtain ⟨_, _, _, _, e⟩ := hx'
        simp only [Prod.mk.injEq] at e
        exact hne e.1.symm
    refine List.Perm.trans (hsh.flatMap_right _) ?_
    show (subCols d sbj sbk nsb2 nsb3 _).Perm sub
    rw [List.perm_ext_iff_of_nodup hnd1 (subList_nodup d sbi sbj sbk nsb1 nsb2 nsb3)]
    rintro ⟨i, j, k⟩
    rw [mem_subList]
    simp only [subCols, List.mem_flatMap, List.mem_map, List.mem_range'_1, Prod.mk.injEq, Spec.InSub]
    constructor
    · rintro ⟨i', hi, k', hk, j', hj, rfl, rfl, rfl⟩
      omega
    · intro h
      exact ⟨i, by omega, k, by omega, j, by omega, rfl, rfl, rfl⟩
  have hnd : sub.Nodup := subList_nodup d sbi sbj sbk nsb1 nsb2 nsb3
  have hinj : ∀ q ∈ sub, ∀ q' ∈ sub, row q = row q' → q = q' := by
    rintro ⟨i, j, k⟩ hq ⟨i', j', k'⟩ hq' e
    obtain ⟨rfl, rfl, rfl⟩ := C83_slots.2.1 i j k i' j' k' ((mem_subList _).mp hq)
      ((mem_subList _).mp hq') e
    rfl
  rw [entry_columnsOf, evSum_perm hperm]
  exact evSum_run sub sub row row hnd hnd hinj hinj
    (fun t q => L (Spec.unit (pl t)) b (d.idx q.1 q.2.1 q.2.2) vlind)
    (q := (i', j', k')) (s := (i, j, k)) ((mem_subList _).mpr h2) ((mem_subList _).mpr h1)

end

/-- A box of `2*1*2` points, the second of two subboxes in the third direction: the points 2 and 3. -/
example : (List.range 2).map (columnsOf (subBoxEvents ⟨1, fun _ => 4, fun _ => false⟩ ⟨2, 1, 2⟩
    (fun v b x i => if x = 1 then 3 * v b 0 i + v b 0 (i - 1) else v b x i) ⟨1, fun _ => 1⟩
    ⟨1, fun _ => 0⟩ (0 : ℚ) (fun _ _ _ => 0) (fun _ _ _ => 7) 0 0 0 0 1 1 1 2 [0, 1])) =
    [[(0, 3), (1, 1)], [(1, 3)]] := by
  decide +kernel

end Sgrid
