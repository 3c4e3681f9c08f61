import Mathlib.Tactic.Linarith
import Mathlib.Algebra.Order.Ring.Rat
import Mathlib.Data.Rat.Floor
import Verif.Model.NumberChecker

/-!
C158: counting the points where a variable is not finite, and ending the evolution.
-/

namespace Sgrid

namespace Spec

/-- The memory of the variable has one value for each point. -/
def FullBoxes {V : Type} (grid : List (CkBox V)) : Prop :=
  ∀ box ∈ grid, ∀ l, box.var = some l → l.length = box.npoints

/-- The values in a box. -/
def boxValues {V : Type} (box : CkBox V) : List V := box.var.getD []

/-- The number of points with a bad value, in the boxes that have the variable. -/
def badPoints {V : Type} (bad : V → Bool) (grid : List (CkBox V)) : Nat := ((grid.flatMap boxValues).filter bad).length

end Spec

variable {V : Type}

theorem ckPoint_num {bad : V → Bool} {b n : Nat} {var : List V} {ijk : Nat} {s t : CkScan V}
    (h : ckPoint bad b n var ijk s = .ok t) :
    t.num = s.num + ((var.take (ijk + 1)).filter bad).length - ((var.take ijk).filter bad).length ∧
      s.num ≤ t.num ∧ ijk < var.length := by
  unfold ckPoint at h
  rw [Res.bind_eq_ok] at h
  obtain ⟨v, hv, h⟩ := h
  have hlt : var[ijk]? = some v := by
    unfold aget at hv
    split at hv
    · cases hv
    · rename_i x hx; cases hv; exact hx
  have hl : ijk < var.length := by
    by_contra hc
    rw [List.getElem?_eq_none (by omega)] at hlt
    cases hlt
  have htake : var.take (ijk + 1) = var.take ijk ++ [v] := by
    rw [List.take_add_one, hlt]; rfl
  rw [htake, List.filter_append, List.length_append]
  split_ifs at h with hb hf ho hn
  · cases h; simp [hb]; omega
  · cases h; simp [hb]; omega
  · rw [Res.bind_eq_ok] at h
    obtain ⟨w, _, h⟩ := h
    cases h
    simp [hb, hl]
  · cases h
    simp [hb, hl]

theorem ckBox_num {bad : V → Bool} {b : Nat} {box : CkBox V} {s t : CkScan V}
    (hfull : ∀ l, box.var = some l → l.length = box.npoints) (h : ckBox bad b box s = .ok t) :
    t.num = s.num + ((Spec.boxValues box).filter bad).length := by
  unfold ckBox at h
  unfold Spec.boxValues
  split at h
  · rename_i hv
    cases h
    simp [hv]
  · rename_i var hv
    have hl := hfull var hv
    have := forN_inv_ok (P := fun i u => u.num = s.num + ((var.take i).filter bad).length) (by simp)
      (by
        intro i _ u u' hu hb
        obtain ⟨h1, h2, h3⟩ := ckPoint_num hb
        rw [h1, hu]
        have : ((var.take i).filter bad).length ≤ ((var.take (i + 1)).filter bad).length := by
          have hs : (var.take i).Sublist (var.take (i + 1)) := by
            rw [List.take_add_one]; exact List.sublist_append_left _ _
          exact (hs.filter bad).length_le
        omega) h
    rw [hv, Option.getD_some, this, ← hl, List.take_length]

theorem ckBoxes_num {bad : V → Bool} : ∀ (grid : List (CkBox V)) (b : Nat) (s t : CkScan V), Spec.FullBoxes grid →
    ckBoxes bad b grid s = .ok t → t.num = s.num + Spec.badPoints bad grid
  | [], _, s, t, _, h => by cases h; simp [Spec.badPoints]
  | box :: rest, b, s, t, hf, h => by
    rw [ckBoxes, Res.bind_eq_ok] at h
    obtain ⟨u, hu, h⟩ := h
    have h1 := ckBox_num (hf box (by simp)) hu
    have h2 := ckBoxes_num rest (b + 1) u t (fun x hx => hf x (by simp [hx])) h
    rw [h2, h1]
    simp [Spec.badPoints, List.filter_append]
    omega

/-- C158: the result, if there is one, is the number of points with bad values in all the boxes that have the
variable.  In particular it is 0 if and only if there are none. -/
theorem C158_count (bad : V → Bool) (grid : List (CkBox V)) (hf : Spec.FullBoxes grid) (r : Int)
    (out : List (CkMessage V)) (h : checkIfFinite bad grid = .ok (r, out)) :
    r = (Spec.badPoints bad grid : Int) ∧
      (r = 0 ↔ ∀ box ∈ grid, ∀ l, box.var = some l → ∀ v ∈ l, bad v = false) := by
  unfold checkIfFinite at h
  rw [Res.bind_eq_ok] at h
  obtain ⟨s, hs, h⟩ := h
  have e := ckBoxes_num grid 0 _ s hf hs
  simp only [Nat.zero_add] at e
  have hr : r = (Spec.badPoints bad grid : Int) := by
    split_ifs at h with h1 h2
    · omega
    · cases h; rw [e]
    · cases h; rw [e]
  refine ⟨hr, ?_⟩
  rw [hr, Int.natCast_eq_zero]
  unfold Spec.badPoints
  rw [List.length_eq_zero_iff, List.filter_eq_nil_iff]
  constructor
  · intro hz box hbox l hl v hv
    have := hz v (List.mem_flatMap.2 ⟨box, hbox, by simp [Spec.boxValues, hl, hv]⟩)
    simpa using this
  · intro hz v hv
    obtain ⟨box, hbox, hv⟩ := List.mem_flatMap.1 hv
    unfold Spec.boxValues at hv
    cases hl : box.var with
    | none => rw [hl] at hv; simp at hv
    | some l =>
      rw [hl] at hv
      simp [hz box hbox l hl v (by simpa using hv)]

/-- C158: the sum for a list of variables. -/
theorem C158_list (bad : V → Bool) : ∀ (vars : List (List (CkBox V))) (r : Int), (∀ g ∈ vars, Spec.FullBoxes g) →
    checkIfFiniteVarList bad vars = .ok r → r = ((vars.map (Spec.badPoints bad)).sum : Nat)
  | [], r, _, h => by cases h; rfl
  | g :: rest, r, hf, h => by
    rw [checkIfFiniteVarList, Res.bind_eq_ok] at h
    obtain ⟨⟨a, out⟩, ha, h⟩ := h
    rw [Res.bind_eq_ok] at h
    obtain ⟨t, ht, h⟩ := h
    cases h
    have h1 := (C158_count bad g (hf g (by simp)) a out ha).1
    have h2 := C158_list bad rest t (fun x hx => hf x (by simp [hx])) ht
    rw [h2, h1]
    simp

theorem aget_ok {l : List V} {i : Nat} (h : i < l.length) : aget l i = .ok l[i] := by
  unfold aget
  rw [List.getElem?_eq_getElem h]

theorem ckBox_safe {bad : V → Bool} {b N : Nat} {box : CkBox V} {s : CkScan V}
    (hfull : ∀ l, box.var = some l → l.length = box.npoints) (hN : N ≤ box.npoints)
    (hs : s.messageflag > 0 → s.ijkOld < N) :
    ∃ t, ckBox bad b box s = .ok t ∧ (t.messageflag > 0 → t.ijkOld < box.npoints) := by
  unfold ckBox
  split
  · exact ⟨s, rfl, fun h => lt_of_lt_of_le (hs h) hN⟩
  · rename_i var hv
    have hl := hfull var hv
    apply forN_inv (P := fun _ (t : CkScan V) => t.messageflag > 0 → t.ijkOld < box.npoints)
    · intro h; exact lt_of_lt_of_le (hs h) hN
    · intro i hi u hu
      unfold ckPoint
      rw [aget_ok (by omega), Res.bind_ok]
      split_ifs with h1 h2 h3 h4
      · exact ⟨_, rfl, fun _ => hi⟩
      · exact ⟨_, rfl, fun _ => hi⟩
      · rw [aget_ok (by omega), Res.bind_ok]
        exact ⟨_, rfl, by simp⟩
      · exact absurd (hu (by omega)) h4
      · exact ⟨_, rfl, by simp⟩

theorem ckBoxes_safe {bad : V → Bool} : ∀ (grid : List (CkBox V)) (b N : Nat) (s : CkScan V), Spec.FullBoxes grid →
    grid.Pairwise (fun p q => p.npoints ≤ q.npoints) → (∀ box ∈ grid, N ≤ box.npoints) →
    (s.messageflag > 0 → s.ijkOld < N) → ∃ t, ckBoxes bad b grid s = .ok t
  | [], _, _, s, _, _, _, _ => ⟨s, rfl⟩
  | box :: rest, b, N, s, hf, hp, hN, hs => by
    obtain ⟨u, hu, hu'⟩ := ckBox_safe (bad := bad) (b := b) (hf box (by simp)) (hN box (by simp)) hs
    rw [List.pairwise_cons] at hp
    obtain ⟨t, ht⟩ := ckBoxes_safe (bad := bad) rest (b + 1) box.npoints u (fun x hx => hf x (by simp [hx])) hp.2 hp.1 hu'
    exact ⟨t, by rw [ckBoxes, hu]; exact ht⟩

/-- C158: there is a result, without any access out of bounds, when no box has fewer points than one before it; so in
particular when all boxes have the same number of points. -/
theorem C158_safe (bad : V → Bool) (grid : List (CkBox V)) (hf : Spec.FullBoxes grid)
    (hp : grid.Pairwise (fun p q => p.npoints ≤ q.npoints)) : ∃ r out, checkIfFinite bad grid = .ok (r, out) := by
  obtain ⟨t, ht⟩ := ckBoxes_safe (bad := bad) grid 0 0
    { num := 0, messageflag := 0, ijkOld := 0, bOld := 0, out := [] } hf hp (fun _ _ => Nat.zero_le _) (by simp)
  unfold checkIfFinite
  rw [ht, Res.bind_ok]
  split_ifs
  · exact ⟨_, _, rfl⟩
  · exact ⟨_, _, rfl⟩
  · exact ⟨_, _, rfl⟩

/-- C158: there is also a result, for boxes of any sizes, when nothing is bad. -/
theorem C158_all_fine (bad : V → Bool) (grid : List (CkBox V)) (hf : Spec.FullBoxes grid)
    (hg : ∀ box ∈ grid, ∀ l, box.var = some l → ∀ v ∈ l, bad v = false) : checkIfFinite bad grid = .ok (0, []) := by
  have box1 : ∀ (b : Nat) (box : CkBox V), box ∈ grid → ∀ s : CkScan V, s.messageflag = 0 → ckBox bad b box s = .ok s := by
    intro b box hb s hs
    unfold ckBox
    split
    · rfl
    · rename_i var hv
      have hl := hf box hb var hv
      obtain ⟨t, ht, hP⟩ := forN_inv (n := box.npoints) (body := ckPoint bad b box.npoints var) (s := s)
        (P := fun _ t => t = s) rfl (by
        intro i hi u hu
        subst hu
        refine ⟨_, ?_, rfl⟩
        unfold ckPoint
        rw [aget_ok (by omega), Res.bind_ok, hg box hb var hv _ (List.getElem_mem _)]
        cases u
        simp_all)
      rw [ht, hP]
  have all : ∀ (g : List (CkBox V)), (∀ x ∈ g, x ∈ grid) → ∀ (b : Nat) (s : CkScan V), s.messageflag = 0 →
      ckBoxes bad b g s = .ok s := by
    intro g
    induction g with
    | nil => intros; rfl
    | cons x rest ih =>
      intro hsub b s hs
      rw [ckBoxes, box1 b x (hsub x (by simp)) s hs, Res.bind_ok]
      exact ih (fun y hy => hsub y (by simp [hy])) _ s hs
  unfold checkIfFinite
  rw [all grid (fun _ h => h) 0 _ rfl]
  rfl

/-- C158: without such an order the property fails.  The values at the points 1 and 2 of the first box, with three
points, are bad; the second box has one point.  The message for the end of the bad points is printed at the first point
of the second box, and reads the arrays of that box at the index 2. -/
theorem C158_out_of_bounds :
    checkIfFinite (fun v : Nat => v == 99) [⟨3, some [0, 99, 99]⟩, ⟨1, some [0]⟩] = .ub := by decide +kernel

/-- C158: with boxes of the same size this message names the first box, but shows a value of the second one that is
not bad at all. -/
theorem C158_wrong_value :
    checkIfFinite (fun v : Nat => v == 99) [⟨3, some [0, 99, 99]⟩, ⟨3, some [5, 6, 7]⟩] =
      .ok (2, [.first 1 0 99, .til 2 0 7]) := by decide +kernel

/-- A run of bad points within one box: the messages show its first and last point. -/
example : checkIfFinite (fun v : Nat => v == 99) [⟨2, none⟩, ⟨5, some [0, 99, 99, 99, 1]⟩] =
    .ok (3, [.first 1 1 99, .til 3 1 99]) := by decide +kernel

section
variable {K : Type} [Field K] [LinearOrder K] [FloorRing K]

theorem checkpoint_keeps {s t : Sim K} (hm : s.mode ≠ .restart) (h : s.checkpoint = .ok t) :
    t.iteration = s.iteration ∧ t.iterationmax = s.iterationmax ∧ s.log <+: t.log := by
  unfold Sim.checkpoint at h
  cases hs : s.mode with
  | restart => exact absurd hs hm
  | no => rw [hs] at h; cases h; exact ⟨rfl, rfl, List.prefix_rfl⟩
  | yes =>
    rw [hs] at h
    dsimp only at h
    split_ifs at h
    · cases h; exact ⟨rfl, rfl, List.prefix_rfl⟩
    · cases h; exact ⟨rfl, rfl, List.prefix_rfl⟩
    · cases h; exact ⟨rfl, rfl, List.prefix_append _ _⟩

/-- C158: when something bad has been found in a pass of the evolution loop, this pass is the last one: the loop ends
after it, no matter how many passes are allowed. -/
theorem C158_stops (s t : Sim K) (r : Int) (hr : r ≠ 0) (hm : s.mode ≠ .restart)
    (h : s.evolveStepChecked r = .ok t) (fuel : Nat) :
    t.iteration = s.iterationmax + 1 ∧ Sim.evolveLoop fuel t.iterationmax t = .ok (some t) := by
  unfold Sim.evolveStepChecked at h
  simp only [List.foldl_cons, List.foldl_nil] at h
  have hk := checkpoint_keeps (by simpa [Sim.runFun, Sim.exitIfNAN, hr] using hm) h
  obtain ⟨h1, h2, -⟩ := hk
  have e1 : t.iteration = s.iterationmax + 1 := by
    rw [h1]; simp [Sim.runFun, Sim.exitIfNAN, hr, Sim.iterationmax]
  have e2 : t.iterationmax = s.iterationmax := by
    rw [h2]; simp [Sim.runFun, Sim.exitIfNAN, hr, Sim.iterationmax]
  refine ⟨e1, ?_⟩
  have : ¬ t.iteration < t.iterationmax := by omega
  cases fuel <;> simp [Sim.evolveLoop, this]

/-- C158: a pass without anything bad is a pass of the evolution loop as before. -/
theorem C158_goes_on (s : Sim K) : s.evolveStepChecked 0 = s.evolveStep := by
  simp [Sim.evolveStepChecked, Sim.evolveStep, Sim.exitIfNAN]

/-- C158: the output of this last pass is still written, under the iteration after the last one and the time that
belongs to it, and not under the time when the data were computed. -/
theorem C158_output (s t : Sim K) (r : Int) (hr : r ≠ 0) (hm : s.mode ≠ .restart)
    (h : s.evolveStepChecked r = .ok t) :
    Event.ran .OUTPUT (s.iterationmax + 1) (((s.iterationmax + 1 : Int) : K) * s.dt) ∈ t.log := by
  unfold Sim.evolveStepChecked at h
  simp only [List.foldl_cons, List.foldl_nil] at h
  have hk := checkpoint_keeps (by simpa [Sim.runFun, Sim.exitIfNAN, hr] using hm) h
  apply hk.2.2.subset
  simp [Sim.runFun, Sim.exitIfNAN, hr, Sim.iterationmax]

end

/-- Something bad at iteration 3 of 10: the loop ends with iteration 11. -/
example : (Sim.evolveStepChecked (K := ℚ)
    { iteration := 3, time := 3 / 2, dt := 1 / 2, iterations := 10, finaltime := 0, mode := .no, restartIt := 0,
      ckDt := 0, ckDi := 0, ckDeltaT := 0, file := none, log := [] } 2).map (fun t => (t.iteration, t.time)) =
    .ok (11, 11 / 2) := by decide +kernel

end Sgrid
