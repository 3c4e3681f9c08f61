import Verif.Spec.Races

/-! Runs of parallel loops. -/

namespace Sgrid
open Spec
variable {L K : Type} [DecidableEq L]

theorem runPass_append (p q : List (Act L K)) (s : Local L K) :
    runPass (p ++ q) s = runPass q (runPass p s) := by
  simp [runPass]

/-- What a pass does not write is unchanged. -/
theorem runPass_frame (p : List (Act L K)) (s : Local L K) (x : L) (h : ¬ Writes p x) :
    (runPass p s).1 x = s.1 x := by
  induction p generalizing s with
  | nil => rfl
  | cons a p ih =>
    have hp : ¬ Writes p x := fun ⟨e, he⟩ => h ⟨e, List.mem_cons_of_mem _ he⟩
    change (runPass p (a.run s)).1 x = _
    rw [ih _ hp]
    cases a with
    | load r y => rfl
    | store y e =>
      have : x ≠ y := by rintro rfl; exact h ⟨e, by simp⟩
      simp [Act.run, this]

/-- A pass depends only on what it reads. -/
theorem runPass_agree (p : List (Act L K)) (m1 m2 : L → K) (ρ : Nat → K) (S : L → Prop)
    (hS : ∀ x, S x → m1 x = m2 x) (hp : ∀ x, Reads p x → S x) :
    (runPass p (m1, ρ)).2 = (runPass p (m2, ρ)).2 ∧
      ∀ x, S x ∨ Writes p x → (runPass p (m1, ρ)).1 x = (runPass p (m2, ρ)).1 x := by
  induction p generalizing m1 m2 ρ S with
  | nil =>
    refine ⟨rfl, fun x hx => ?_⟩
    rcases hx with hx | ⟨e, he⟩
    · exact hS x hx
    · simp at he
  | cons a p ih =>
    have hp' : ∀ x, Reads p x → S x := fun x ⟨r, hr⟩ => hp x ⟨r, List.mem_cons_of_mem _ hr⟩
    cases a with
    | load r y =>
      change (runPass p (m1, Function.update ρ r (m1 y))).2 = (runPass p (m2, Function.update ρ r (m2 y))).2 ∧
        ∀ x, _ → (runPass p (m1, Function.update ρ r (m1 y))).1 x =
          (runPass p (m2, Function.update ρ r (m2 y))).1 x
      rw [hS y (hp y ⟨r, by simp⟩)]
      obtain ⟨h1, h2⟩ := ih m1 m2 (Function.update ρ r (m2 y)) S hS hp'
      refine ⟨h1, fun x hx => h2 x ?_⟩
      rcases hx with hx | ⟨e, he⟩
      · exact .inl hx
      · exact .inr ⟨e, by simpa using he⟩
    | store y e =>
      obtain ⟨h1, h2⟩ := ih (Function.update m1 y (e ρ)) (Function.update m2 y (e ρ)) ρ
        (fun x => S x ∨ x = y) (fun x hx => by
          by_cases hxy : x = y
          · subst hxy; simp
          · simp [hxy, hS x (hx.resolve_right hxy)]) (fun x hx => .inl (hp' x hx))
      refine ⟨h1, fun x hx => h2 x ?_⟩
      rcases hx with hx | ⟨e', he⟩
      · exact .inl (.inl hx)
      · rcases List.mem_cons.1 he with he | he
        · cases he; exact .inl (.inr rfl)
        · exact .inr ⟨e', he⟩

/-- The memory after a loop without conflicts: where pass `i` writes, the result of pass `i` alone. -/
structure Result (n : Nat) (prog : Nat → List (Act L K)) (ρ : Nat → Nat → K) (m m' : L → K) : Prop where
  on : ∀ i x, i < n → Writes (prog i) x → m' x = (runPass (prog i) (m, ρ i)).1 x
  off : ∀ x, (∀ i, i < n → ¬ Writes (prog i) x) → m' x = m x

theorem Result.unique {n : Nat} {prog : Nat → List (Act L K)} {ρ : Nat → Nat → K}
    {m m1 m2 : L → K} (h1 : Result n prog ρ m m1) (h2 : Result n prog ρ m m2) : m1 = m2 := by
  funext x
  by_cases h : ∃ i, i < n ∧ Writes (prog i) x
  · obtain ⟨i, hi, hw⟩ := h
    rw [h1.on i x hi hw, h2.on i x hi hw]
  · have h' : ∀ i, i < n → ¬ Writes (prog i) x := fun i hi hw => h ⟨i, hi, hw⟩
    rw [h1.off x h', h2.off x h']

theorem seqLoop_result (n : Nat) (prog : Nat → List (Act L K)) (ρ : Nat → Nat → K) (m : L → K)
    (h : NoRace n prog) : Result n prog ρ m (seqLoop n prog ρ m) := by
  unfold seqLoop
  have key := upLoop_inv (Nat.zero_le n) (body := fun i m => (runPass (prog i) (m, ρ i)).1) (s := m)
    (fun k m' => Result k prog ρ m m') ⟨fun i _ hi => absurd hi (Nat.not_lt_zero i), fun _ _ => rfl⟩ ?_
  · exact key
  · intro j m' _ hj ih
    have hread : ∀ x, Reads (prog j) x → m' x = m x := fun x hx =>
      ih.off x fun i hi hw => (h i j (by omega) hj (by omega) x hw).2 hx
    have hwr : ∀ x, Writes (prog j) x → m' x = m x := fun x hx =>
      ih.off x fun i hi hw => (h i j (by omega) hj (by omega) x hw).1 hx
    obtain ⟨-, h2⟩ := runPass_agree (prog j) m' m (ρ j) (Reads (prog j)) hread fun _ h => h
    refine ⟨fun i x hi hw => ?_, fun x hx => ?_⟩
    · by_cases hij : i = j
      · subst hij
        exact h2 x (.inr hw)
      · rw [runPass_frame _ _ _ (h i j (by omega) hj hij x hw).1]
        exact ih.on i x (by omega) hw
    · rw [runPass_frame _ _ _ (hx j (by omega))]
      exact ih.off x fun i hi => hx i (by omega)

theorem parState_inv (n : Nat) (prog : Nat → List (Act L K)) (ρ : Nat → Nat → K) (m : L → K)
    (h : NoRace n prog) (sched : List Nat) (hs : ∀ i ∈ sched, i < n) :
    let s := sched.foldl (ParState.step prog) ⟨m, ρ, fun _ => 0⟩
    (∀ i, s.pc i = min (sched.count i) (prog i).length) ∧
    (∀ i, s.reg i = (runPass ((prog i).take (s.pc i)) (m, ρ i)).2) ∧
    (∀ i x, i < n → Writes (prog i) x → s.mem x = (runPass ((prog i).take (s.pc i)) (m, ρ i)).1 x) ∧
    ∀ x, (∀ i, i < n → ¬ Writes (prog i) x) → s.mem x = m x := by
  have takeW : ∀ (p : List (Act L K)) k x, ¬ Writes p x → ¬ Writes (p.take k) x :=
    fun p k x hx ⟨e, he⟩ => hx ⟨e, List.mem_of_mem_take he⟩
  induction sched using List.reverseRecOn with
  | nil => simp [runPass]
  | append_singleton l a ih =>
    obtain ⟨i1, i2, i3, i4⟩ := ih fun i hi => hs i (by simp [hi])
    have ha : a < n := hs a (by simp)
    simp only [List.foldl_append, List.foldl_cons, List.foldl_nil]
    revert i1 i2 i3 i4
    generalize l.foldl (ParState.step prog) ⟨m, ρ, fun _ => 0⟩ = s
    intro i1 i2 i3 i4
    unfold ParState.step
    cases hg : (prog a)[s.pc a]? with
    | none =>
      have hlen : (prog a).length ≤ s.pc a := List.getElem?_eq_none_iff.1 hg
      refine ⟨fun i => ?_, i2, i3, i4⟩
      simp only
      rw [i1 i, List.count_append, List.count_singleton]
      by_cases hia : a = i
      · subst hia
        rw [i1 a] at hlen
        simp
        omega
      · simp [hia]
    | some act =>
      obtain ⟨hlt, hact⟩ := List.getElem?_eq_some_iff.1 hg
      have htake : (prog a).take (s.pc a + 1) = (prog a).take (s.pc a) ++ [act] := by
        rw [List.take_add_one, hg]; rfl
      have hmem : act ∈ prog a := hact ▸ List.getElem_mem hlt
      have hread : ∀ x, Reads (prog a) x →
          s.mem x = (runPass ((prog a).take (s.pc a)) (m, ρ a)).1 x := by
        intro x hx
        by_cases hw : Writes (prog a) x
        · exact i3 a x ha hw
        · rw [runPass_frame _ _ _ (takeW _ _ _ hw)]
          refine i4 x fun j hj hwj => ?_
          by_cases hja : j = a
          · subst hja; exact hw hwj
          · exact (h j a hj ha hja x hwj).2 hx
      refine ⟨fun i => ?_, fun i => ?_, fun i x hi hw => ?_, fun x hx => ?_⟩
      · simp only
        rw [List.count_append, List.count_singleton]
        by_cases hia : i = a
        · subst hia
          rw [Function.update_self]
          have := i1 i
          simp
          omega
        · have : (a == i) = false := by simpa using fun e => hia e.symm
          rw [Function.update_of_ne hia, i1 i, this]
          simp
      · simp only
        by_cases hia : i = a
        · subst hia
          rw [Function.update_self, Function.update_self, htake, runPass_append]
          cases act with
          | load r x =>
            simp only [Act.run, runPass, List.foldl_cons, List.foldl_nil]
            rw [i2 i, hread x ⟨r, hmem⟩]
            rfl
          | store x e =>
            simp only [Act.run, runPass, List.foldl_cons, List.foldl_nil]
            exact i2 i
        · rw [Function.update_of_ne hia, Function.update_of_ne hia]
          exact i2 i
      · simp only
        by_cases hia : i = a
        · subst hia
          rw [Function.update_self, htake, runPass_append]
          cases act with
          | load r y => exact i3 i x hi hw
          | store y e =>
            simp only [Act.run, runPass, List.foldl_cons, List.foldl_nil]
            by_cases hxy : x = y
            · subst hxy
              rw [Function.update_self, Function.update_self, i2 i]
              rfl
            · rw [Function.update_of_ne hxy, Function.update_of_ne hxy]
              exact i3 i x hi hw
        · rw [Function.update_of_ne hia]
          cases act with
          | load r y => exact i3 i x hi hw
          | store y e =>
            have hxy : x ≠ y := by
              rintro rfl
              exact (h i a hi ha hia x hw).1 ⟨e, hmem⟩
            simp only [Act.run]
            rw [Function.update_of_ne hxy]
            exact i3 i x hi hw
      · simp only
        cases act with
        | load r y => exact i4 x hx
        | store y e =>
          have hxy : x ≠ y := by
            rintro rfl
            exact hx a ha ⟨e, hmem⟩
          simp only [Act.run]
          rw [Function.update_of_ne hxy]
          exact i4 x hx

theorem parLoop_result (n : Nat) (prog : Nat → List (Act L K)) (ρ : Nat → Nat → K) (m : L → K)
    (h : NoRace n prog) (sched : List Nat) (hs : Complete n prog sched) :
    Result n prog ρ m (parLoop prog ρ m sched) := by
  have hlt : ∀ i ∈ sched, i < n := by
    intro i hi
    by_contra hn
    have := hs i
    rw [if_neg hn, List.count_eq_zero] at this
    exact this hi
  obtain ⟨i1, -, i3, i4⟩ := parState_inv n prog ρ m h sched hlt
  refine ⟨fun i x hi hw => ?_, fun x hx => i4 x hx⟩
  have := i3 i x hi hw
  rw [i1 i, hs i, if_pos hi, Nat.min_self, List.take_length] at this
  exact this

/-- A parallel loop without conflicting accesses gives the result of the sequential loop for every
schedule. -/
theorem parLoop_eq_seq (n : Nat) (prog : Nat → List (Act L K)) (ρ : Nat → Nat → K) (m : L → K)
    (h : NoRace n prog) (sched : List Nat) (hs : Complete n prog sched) :
    parLoop prog ρ m sched = seqLoop n prog ρ m :=
  (parLoop_result n prog ρ m h sched hs).unique (seqLoop_result n prog ρ m h)

end Sgrid
