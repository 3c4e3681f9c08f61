import Verif.Lemmas.Iterate

/-!
Property C07: runs over iterated parameters.
-/

namespace Sgrid

open Spec

/-- **C07**, iteration off: exactly one run is made, with no assignments. -/
theorem C07_no_iteration (isPar : CStr → Bool) (lists : List CStr) (fuel : Nat) (ne : NE) :
    iterateRuns false isPar lists (fuel + 2) ⟨0, ne⟩ = some (.ok [[]]) := by
  simp [iterateRuns, iterateParameters]

/-- What really happens for well formed strings `iterate_parameter1..m` (each the name of a
parameter and at least one value): the number of runs is the number of values of the
*last* string, and run `k` assigns the `k`-th value of every string that has one. -/
theorem C07_runs (isPar : CStr → Bool) (lists : List CStr) (spec : List (CStr × List CStr))
    (h : List.Forall₂ (fun l (s : CStr × List CStr) => IterOk isPar l s.1 s.2) lists spec)
    (last : CStr × List CStr) (hl : spec.getLast? = some last) (ne : NE) (hne : ne.i = 0)
    (fuel : Nat) (hf : last.2.length < fuel) :
    iterateRuns true isPar lists fuel ⟨0, ne⟩ = some (.ok
      ((List.range last.2.length).map fun k =>
        spec.filterMap fun (n, vs) => vs[k]?.map fun v => (n, v))) := by
  have hlists : lists ≠ [] := by
    rintro rfl
    cases h
    simp at hl
  have key : ∀ (j fuel k : Nat) (ne : NE), j + k = last.2.length → j < fuel → ne.i = 0 →
      iterateRuns true isPar lists fuel ⟨k, ne⟩ = some (.ok
        ((List.range' k j).map (asgOf spec))) := by
    intro j
    induction j with
    | zero =>
      intro fuel k ne hjk hf hne
      obtain ⟨f, rfl⟩ : ∃ f, fuel = f + 1 := ⟨fuel - 1, by omega⟩
      obtain ⟨st', e1, e2⟩ := iterLoop_ok k none h hne
      rw [hl] at e1
      have hk : last.2[k]? = none := by simp; omega
      simp only [hk] at e1
      simp only [iterateRuns, iterateParameters]
      have hk0 : ¬ ((k : Int) < 0) := by omega
      simp [hlists, hk0, e1]
    | succ j ih =>
      intro fuel k ne hjk hf hne
      obtain ⟨f, rfl⟩ : ∃ f, fuel = f + 1 := ⟨fuel - 1, by omega⟩
      obtain ⟨st', e1, e2⟩ := iterLoop_ok k none h hne
      rw [hl] at e1
      have hk : last.2[k]? = some (last.2[k]'(by omega)) := by simp
      simp only [hk] at e1
      have := ih f (k + 1) st' (by omega) (by omega) e2
      simp only [iterateRuns, iterateParameters]
      have hk0 : ¬ ((k : Int) < 0) := by omega
      simp only [Bool.true_eq_false, if_false, hk0, hlists, e1]
      rw [show ((k : Int) + 1) = ((k + 1 : Nat) : Int) by omega, this]
      simp [List.range'_succ]
  rw [List.range_eq_range']
  exact key last.2.length fuel 0 ne (by omega) hf hne

/-- **C07**, for strings with equally many values (missing: strings of different length,
for which the claim is false, see `C07_counterexample`): there is one run per value, and
run `k` assigns to every iterated parameter its `k`-th value. -/
theorem C07_runs_partial (isPar : CStr → Bool) (lists : List CStr)
    (spec : List (CStr × List CStr)) (hne0 : spec ≠ [])
    (h : List.Forall₂ (fun l (s : CStr × List CStr) => IterOk isPar l s.1 s.2) lists spec)
    (N : Nat) (hN : ∀ s ∈ spec, s.2.length = N) (ne : NE) (hne : ne.i = 0)
    (fuel : Nat) (hf : N < fuel) :
    ∃ runs, iterateRuns true isPar lists fuel ⟨0, ne⟩ = some (.ok runs) ∧ runs.length = N ∧
      ∀ (k : Nat) (run : List (CStr × CStr)), runs[k]? = some run →
        List.Forall₂ (fun (s : CStr × List CStr) a => a.1 = s.1 ∧ s.2[k]? = some a.2) spec
          run := by
  obtain ⟨last, hl⟩ : ∃ last, spec.getLast? = some last := by
    cases hs : spec.getLast? with
    | none => simp at hs; exact absurd hs hne0
    | some l => exact ⟨l, rfl⟩
  have hlN : last.2.length = N := hN last (List.mem_of_getLast? hl)
  refine ⟨_, C07_runs isPar lists spec h last hl ne hne fuel (by omega), by simp [hlN], ?_⟩
  intro k run hk
  simp only [List.getElem?_map, Option.map_eq_some_iff] at hk
  obtain ⟨k', hk', rfl⟩ := hk
  obtain ⟨hlt, heq⟩ := List.getElem?_eq_some_iff.1 hk'
  simp at heq hlt
  subst heq
  have : ∀ s ∈ spec, k < s.2.length := fun s hs => by rw [hN s hs]; omega
  clear h hl hN hk' hne0
  induction spec with
  | nil => exact .nil
  | cons s t ih =>
    have hs : s.2[k]? = some (s.2[k]'(this s (by simp))) := by simp
    simp only [List.filterMap_cons, hs, Option.map_some]
    exact .cons ⟨rfl, hs⟩ (ih fun x hx => this x (by simp [hx]))

example : List.Forall₂ (fun l (s : CStr × List CStr) => IterOk (fun _ => true) l s.1 s.2)
    ["a 1 2".toList, "b x y".toList]
    [("a".toList, ["1".toList, "2".toList]), ("b".toList, ["x".toList, "y".toList])] := by
  refine .cons ⟨?_, ?_, ?_, ?_, ?_, ?_⟩ (.cons ⟨?_, ?_, ?_, ?_, ?_, ?_⟩ .nil) <;> decide

/-- **C07** is false for strings with different numbers of values: here the values 2 and 3
of the first parameter are never used. -/
theorem C07_counterexample :
    iterateRuns true (fun _ => true) ["a 1 2 3".toList, "b x".toList] 10 ⟨0, NE.init⟩ =
      some (.ok [[("a".toList, "1".toList), ("b".toList, "x".toList)]]) := by
  decide +kernel

end Sgrid
