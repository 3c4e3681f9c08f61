import Verif.Model.Skeleton

/-!
Properties C08 (argument lines and MPI ranks) and C09 (function bins).
-/

namespace Sgrid

/-! ### C08 -/

theorem rankRun_filter {α : Type} (rank size : Nat) (hr : rank < size) (rest : List α)
    (lnum restarts : Nat) (hh : restarts > 0 ∨ rank > 0 ∨ (lnum = 0 ∧ rest ≠ [])) :
    rankRun rank size rest lnum restarts =
      ((rest.zipIdx lnum).filter (fun p => p.2 % size = rank)).map (fun p => some p.1) := by
  have hmod : ∀ l, (¬ rank > l ∧ (l - rank) % size = 0) ↔ l % size = rank := by
    intro l
    constructor
    · rintro ⟨h1, h2⟩
      have : l = rank + size * ((l - rank) / size) := by
        have := Nat.div_add_mod (l - rank) size; omega
      rw [this, Nat.add_mul_mod_self_left, Nat.mod_eq_of_lt hr]
    · intro h
      have := Nat.div_add_mod l size
      rw [h] at this
      refine ⟨?_, ?_⟩
      · have : rank ≤ l := by rw [← this]; omega
        omega
      · rw [← this]; simp
  induction rest generalizing lnum restarts with
  | nil =>
    simp only [rankRun, List.zipIdx_nil, List.filter_nil, List.map_nil]
    rcases hh with h | h | h
    · simp [h]
    · simp [h]
    · simp at h
  | cons a t ih =>
    simp only [rankRun, List.zipIdx_cons, List.filter_cons]
    by_cases h : lnum % size = rank
    · obtain ⟨h1, h2⟩ := (hmod lnum).2 h
      rw [if_neg h1, if_neg (by omega), ih (lnum + 1) (restarts + 1) (.inl (by omega))]
      simp [h]
    · have h' : rank > lnum ∨ (lnum - rank) % size ≠ 0 := by
        by_cases h1 : rank > lnum
        · exact .inl h1
        · exact .inr fun h2 => h ((hmod lnum).1 ⟨h1, h2⟩)
      have hh' : restarts > 0 ∨ rank > 0 ∨ (lnum + 1 = 0 ∧ t ≠ []) := by
        rcases hh with hh | hh | ⟨hh, -⟩
        · exact .inl hh
        · exact .inr (.inl hh)
        · subst hh
          by_cases hr0 : rank = 0
          · simp [hr0] at h
          · exact .inr (.inl (by omega))
      simp only [h, decide_false, Bool.false_eq_true, if_false]
      rw [← ih (lnum + 1) restarts hh']
      rcases h' with h' | h'
      · rw [if_pos h']
      · split
        · rfl
        · rfl

/-- The runs of each rank for an argument file with at least one line: exactly the lines
whose number is the rank modulo the number of ranks, in file order. -/
theorem C08_rank_lines {α : Type} (rank size : Nat) (hr : rank < size) (lines : List α)
    (hl : lines ≠ []) :
    rankRun rank size lines 0 0 =
      (lines.zipIdx.filter (fun p => p.2 % size = rank)).map (fun p => some p.1) :=
  rankRun_filter rank size hr lines 0 0 (.inr (.inr ⟨rfl, hl⟩))

/-- **C08**. For any number of ranks and lines, line number `k` (lines are tagged with their
number) is run by exactly one rank, exactly once, no rank runs anything else, and each rank
runs its lines in increasing order. -/
theorem C08_each_line_once (size N : Nat) (hs : 0 < size) (hN : 0 < N) :
    (∀ k < N, ∃ r < size, (rankRun r size (List.range N) 0 0).count (some k) = 1 ∧
      ∀ r' < size, r' ≠ r → some k ∉ rankRun r' size (List.range N) 0 0) ∧
    (∀ r < size, ∀ x ∈ rankRun r size (List.range N) 0 0, ∃ k < N, x = some k) ∧
    (∀ r < size, ∃ ks : List Nat, ks.Pairwise (· < ·) ∧
      rankRun r size (List.range N) 0 0 = ks.map some) := by
  have hne : List.range N ≠ [] := by simp; omega
  have hform : ∀ r < size, rankRun r size (List.range N) 0 0 =
      ((List.range N).filter (fun k => k % size = r)).map some := by
    intro r hr
    rw [C08_rank_lines r size hr _ hne]
    have : (List.range N).zipIdx = (List.range N).map (fun k => (k, k)) := by
      apply List.ext_getElem
      · simp
      · intro i h1 h2; simp
    rw [this, List.filter_map, List.map_map]
    rfl
  refine ⟨?_, ?_, ?_⟩
  · intro k hk
    refine ⟨k % size, Nat.mod_lt _ hs, ?_, ?_⟩
    · rw [hform _ (Nat.mod_lt _ hs)]
      have hnd : ((List.range N).filter (fun j => j % size = k % size)).Nodup :=
        List.nodup_range.filter _
      have hmem : k ∈ (List.range N).filter (fun j => j % size = k % size) := by simp [hk]
      have hnd' : (((List.range N).filter (fun j => j % size = k % size)).map
          (some : Nat → Option Nat)).Nodup := by
        rw [List.nodup_iff_pairwise_ne] at hnd ⊢
        rw [List.pairwise_map]
        exact hnd.imp fun hab h => hab (Option.some.inj h)
      rw [hnd'.count, if_pos (List.mem_map_of_mem hmem)]
    · intro r' hr' hne' hm
      rw [hform r' hr'] at hm
      simp only [List.mem_map, List.mem_filter, List.mem_range] at hm
      obtain ⟨j, ⟨-, h2⟩, h3⟩ := hm
      cases h3
      simp at h2
      exact hne' h2.symm
  · intro r hr x hx
    rw [hform r hr] at hx
    simp only [List.mem_map, List.mem_filter, List.mem_range] at hx
    obtain ⟨j, ⟨h1, -⟩, rfl⟩ := hx
    exact ⟨j, h1, rfl⟩
  · intro r hr
    exact ⟨_, List.pairwise_lt_range.filter _, hform r hr⟩

/-- Without an argument file (or with an empty one) rank 0 makes one run with the command
line itself and no other rank runs. -/
theorem C08_no_argsfile {α : Type} (rank size : Nat) :
    rankRun rank size ([] : List α) 0 0 = if rank = 0 then [none] else [] := by
  by_cases h : rank = 0
  · simp [rankRun, h]
  · have : rank > 0 := by omega
    simp [rankRun, h, this]

example : rankRun 1 3 ["a", "b", "c", "d", "e"] 0 0 = [some "b", some "e"] := by decide

/-! ### C09 -/

/-- Specification: the functions registered for a bin by a history, given how many restarts
came before. -/
def registered {F : Type} (step : Nat) : (restarts : Nat) → (acc : List F) →
    List (BinOp F) → List F
  | _, acc, [] => acc
  | r, acc, .add s f :: ops =>
    registered step r (if s = step ∧ r = 0 then acc ++ [f] else acc) ops
  | r, acc, .restart :: ops => registered step (r + 1) acc ops
  | r, _, .removeAll :: ops => registered step r [] ops

/-- The functions in a chain. -/
def Todo.toList {F : Type} : Todo F → List F
  | .last => []
  | .node f n => f :: n.toList

theorem addEnd_toList {F : Type} (f : F) (t : Todo F) :
    (t.addEnd f).toList = t.toList ++ [f] := by
  induction t with
  | last => rfl
  | node g n ih => simp [Todo.addEnd, Todo.toList, ih]

theorem todo_run {G : Type} (t : Todo (G → G)) (g : G) :
    t.run g = t.toList.foldl (fun g f => f g) g := by
  induction t generalizing g with
  | last => rfl
  | node f n ih => simp [Todo.run, Todo.toList, ih]

/-- The functions in a bin. -/
def Bins.toList {F : Type} (b : Bins F) (step : Nat) : List F :=
  match b.fps step with
  | none => []
  | some t => t.toList

theorem bins_run {F : Type} (ops : List (BinOp F)) (b b' : Bins F) (step : Nat)
    (hs : step < nFunctions) (h : b.run ops = .ok b') :
    b'.toList step = registered step b.restarts (b.toList step) ops := by
  induction ops generalizing b with
  | nil => cases h; rfl
  | cons op ops ih =>
    cases op with
    | add s f =>
      simp only [Bins.run] at h
      rw [Res.bind_eq_ok] at h
      obtain ⟨b1, h1, h2⟩ := h
      rw [ih b1 h2]
      unfold Bins.addFun at h1
      simp only [registered]
      split at h1
      · rename_i hr
        cases h1
        have : ¬ (s = step ∧ b.restarts = 0) := by omega
        rw [if_neg this]
      · rename_i hr
        split at h1
        · cases h1
        · cases h1
          have hr0 : b.restarts = 0 := by omega
          simp only [hr0, and_true]
          congr 1
          by_cases hss : s = step
          · subst hss
            simp only [Bins.toList, if_true]
            cases b.fps s <;> simp [addEnd_toList, Todo.toList]
          · simp [Bins.toList, hss, Ne.symm hss]
    | restart => exact ih _ h
    | removeAll =>
      have := ih _ h
      rw [this]
      simp [registered, Bins.removeAll, Bins.toList, hs]

/-- **C09**. After every history of AddFun, restart and remove_all_Funs that stays inside
the array of bins, RunFun calls exactly the registered functions, in order of
registration. -/
theorem C09_run_order {G : Type} (ops : List (BinOp (G → G))) (b : Bins (G → G))
    (h : (Bins.init (G → G)).run ops = .ok b) (step : Nat) (hs : step < nFunctions) (g : G) :
    b.runFun step g = .ok ((registered step 0 [] ops).foldl (fun g f => f g) g) := by
  have hl := bins_run ops _ b step hs h
  have : (Bins.init (G → G)).toList step = [] := rfl
  rw [this] at hl
  have h0 : (Bins.init (G → G)).restarts = 0 := rfl
  rw [h0] at hl
  rw [← hl]
  unfold Bins.runFun Bins.toList
  rw [if_neg (by omega)]
  cases b.fps step <;> simp [todo_run]

/-- **C09**, memory: a history only misbehaves by registering outside the array, before the
first restart. -/
theorem C09_safe {F : Type} (ops : List (BinOp F))
    (h : ∀ s f, BinOp.add s f ∈ ops → s < nFunctions) :
    ∃ b, (Bins.init F).run ops = .ok b := by
  generalize Bins.init F = b0
  induction ops generalizing b0 with
  | nil => exact ⟨b0, rfl⟩
  | cons op ops ih =>
    have ih' := fun b => ih (fun s f hm => h s f (by simp [hm])) b
    cases op with
    | add s f =>
      have hs := h s f (by simp)
      simp only [Bins.run, Bins.addFun]
      by_cases hr : b0.restarts > 0
      · rw [if_pos hr]; exact ih' b0
      · rw [if_neg hr, if_neg (by omega)]; exact ih' _
    | restart => exact ih' _
    | removeAll => exact ih' _

/-- What counts as registered: nothing after a restart, nothing from before a removal. -/
theorem C09_after_restart {F : Type} (step : Nat) (ops1 ops2 : List (BinOp F))
    (hno : BinOp.removeAll ∉ ops2) :
    registered step 0 [] (ops1 ++ .restart :: ops2) = registered step 0 [] ops1 := by
  have key2 : ∀ (ops : List (BinOp F)) (r : Nat) (acc : List F), 0 < r →
      BinOp.removeAll ∉ ops → registered step r acc ops = acc := by
    intro ops
    induction ops with
    | nil => intros; rfl
    | cons op ops ih =>
      intro r acc hr hn
      simp only [List.mem_cons, not_or] at hn
      cases op with
      | add s f =>
        simp only [registered]
        rw [if_neg (by omega)]
        exact ih r acc hr hn.2
      | restart => exact ih (r + 1) acc (by omega) hn.2
      | removeAll => exact absurd rfl hn.1
  have key : ∀ (ops : List (BinOp F)) (r : Nat) (acc : List F),
      registered step r acc (ops ++ .restart :: ops2) = registered step r acc ops := by
    intro ops
    induction ops with
    | nil => intro r acc; exact key2 ops2 (r + 1) acc (by omega) hno
    | cons op ops ih =>
      intro r acc
      cases op with
      | add s f => exact ih r _
      | restart => exact ih (r + 1) acc
      | removeAll => exact ih r []
  exact key ops1 0 []

example : ((Bins.init (Nat → Nat)).run [.add 3 (· + 1), .add 3 (· * 2), .add 5 (· + 7),
    .restart, .add 3 (fun _ => 0)]).bind (fun b => b.runFun 3 10) = .ok 22 := by decide

end Sgrid
