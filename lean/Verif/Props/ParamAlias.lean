import Verif.Model.ParamAlias

/-!
Property C59: storing strings that come from the data base itself.
-/

namespace Sgrid

/-- Every parameter owns an allocated string, no two share one, names are unique, and
everything allocated is below `next`. -/
structure HDB.Inv (db : HDB) : Prop where
  names : (db.pars.map (·.1)).Nodup
  ptrs : (db.pars.map (·.2)).Nodup
  live : ∀ p ∈ db.pars, ∃ s, db.heap.cell p.2 = some s
  bound : ∀ a s, db.heap.cell a = some s → a < db.heap.next

theorem find?_name {l : List (CStr × Nat)} (hn : (l.map (·.1)).Nodup) {p : CStr × Nat}
    (hp : p ∈ l) : l.find? (fun q => q.1 = p.1) = some p := by
  induction l with
  | nil => simp at hp
  | cons q t ih =>
    simp only [List.map_cons, List.nodup_cons] at hn
    rcases List.mem_cons.1 hp with rfl | hp
    · simp
    · have : q.1 ≠ p.1 := fun he => hn.1 (he ▸ List.mem_map_of_mem hp)
      simp [this, ih hn.2 hp]

theorem ptr_some {db : HDB} {n : CStr} {a : Nat} (h : db.ptr n = some a) :
    (n, a) ∈ db.pars := by
  unfold HDB.ptr at h
  simp only [Option.map_eq_some_iff] at h
  obtain ⟨p, hp, rfl⟩ := h
  have h1 := List.mem_of_find?_eq_some hp
  have h2 := List.find?_some hp
  simp at h2
  subst h2
  exact h1

theorem ptr_of_mem {db : HDB} (hi : db.Inv) {n : CStr} {a : Nat} (h : (n, a) ∈ db.pars) :
    db.ptr n = some a := by
  unfold HDB.ptr
  rw [find?_name hi.names h]; rfl

theorem ptr_none {db : HDB} {n : CStr} : db.ptr n = none ↔ ∀ p ∈ db.pars, p.1 ≠ n := by
  simp [HDB.ptr]

theorem ptr_inj {db : HDB} (hi : db.Inv) {n m : CStr} {a : Nat} (h1 : db.ptr n = some a)
    (h2 : db.ptr m = some a) : n = m := by
  have h1 := ptr_some h1
  have h2 := ptr_some h2
  have := hi.ptrs
  generalize db.pars = l at *
  clear hi
  induction l with
  | nil => simp at h1
  | cons q t ih =>
    simp only [List.map_cons, List.nodup_cons] at this
    rcases List.mem_cons.1 h1 with g1 | g1 <;> rcases List.mem_cons.1 h2 with g2 | g2
    · have := g1.trans g2.symm; cases this; rfl
    · exact absurd (List.mem_map.2 ⟨_, g2, by rw [← g1]⟩) this.1
    · exact absurd (List.mem_map.2 ⟨_, g1, by rw [← g2]⟩) this.1
    · exact ih g1 g2 this.2

/-- The heap side of an assignment: after free and strdup and translate. -/
theorem heap_assign {h : Heap} {s : CStr} (hb : ∀ a s, h.cell a = some s → a < h.next) :
    ∃ h3 c, ((h.new s).1.translate (h.new s).2) = .ok (h3, c) ∧
      h3.cell c = some (translate s) ∧ h.next ≤ c ∧
      (∀ a, a < h.next → h3.cell a = h.cell a) ∧ h.next ≤ h3.next ∧
      (∀ a s, h3.cell a = some s → a < h3.next) := by
  have hnone : ∀ a, h.next ≤ a → h.cell a = none := by
    intro a ha
    cases hc : h.cell a with
    | none => rfl
    | some s => have := hb a s hc; omega
  unfold Heap.translate
  simp only [Heap.read, Heap.new, if_true, Res.bind_ok]
  by_cases ht : translate s = s
  · rw [if_pos ht]
    refine ⟨_, _, rfl, by simp [ht], Nat.le_refl _, ?_, by simp, ?_⟩
    · intro a ha; simp only; rw [if_neg (by omega)]
    · intro a s' hs; simp only at hs ⊢
      split at hs
      · omega
      · have := hb a s' hs; omega
  · rw [if_neg ht]
    simp only [Heap.free, if_true, Res.bind_ok]
    refine ⟨_, _, rfl, by simp, by simp, ?_, by simp; omega, ?_⟩
    · intro a ha; simp only
      rw [if_neg (by omega), if_neg (by omega), if_neg (by omega)]
    · intro a s' hs; simp only at hs ⊢
      split at hs
      · omega
      · split at hs
        · cases hs
        · have := hb a s' hs; omega

theorem map_fst (l : List (CStr × Nat)) (n : CStr) (c : Nat) :
    (l.map fun p => if p.1 = n then (p.1, c) else p).map (·.1) = l.map (·.1) := by
  induction l with
  | nil => rfl
  | cons p t ih =>
    simp only [List.map_cons, ih]
    congr 1
    split <;> rfl

theorem map_snd_nodup {l : List (CStr × Nat)} {n : CStr} {c : Nat}
    (hn : (l.map (·.1)).Nodup) (hp : (l.map (·.2)).Nodup) (hc : ∀ p ∈ l, p.2 ≠ c) :
    ((l.map fun p => if p.1 = n then (p.1, c) else p).map (·.2)).Nodup := by
  induction l with
  | nil => simp
  | cons p t ih =>
    simp only [List.map_cons, List.nodup_cons] at hn hp ⊢
    refine ⟨?_, ih hn.2 hp.2 fun q hq => hc q (by simp [hq])⟩
    intro hm
    simp only [List.mem_map] at hm
    obtain ⟨x, ⟨q, hq, rfl⟩, hx⟩ := hm
    have hqc := hc q (by simp [hq])
    have hpc := hc p (by simp)
    by_cases h1 : q.1 = n <;> by_cases h2 : p.1 = n <;> simp [h1, h2] at hx
    · exact hn.1 (by rw [h2, ← h1]; exact List.mem_map_of_mem hq)
    · exact hpc hx.symm
    · exact hqc hx
    · exact hp.1 (by rw [← hx]; exact List.mem_map_of_mem hq)

/-- An assignment through a live pointer that is not the parameter's own. -/
theorem set_ok {db : HDB} (hi : db.Inv) {n : CStr} {a v : Nat} {s : CStr}
    (hp : db.ptr n = some a) (hv : db.heap.cell v = some s) (hav : v ≠ a) :
    ∃ db', db.set n v = .ok db' ∧ db'.Inv ∧
      ∀ k, db'.value k = if k = n then some (translate s) else db.value k := by
  have hmem := ptr_some hp
  obtain ⟨s0, hs0⟩ := hi.live _ hmem
  let h1 : Heap := { db.heap with cell := fun b => if b = a then none else db.heap.cell b }
  have hfree : db.heap.free a = .ok h1 := by
    unfold Heap.free; simp only at hs0; rw [hs0]
  have hb1 : ∀ a s, h1.cell a = some s → a < h1.next := by
    intro b t hb
    simp only [h1] at hb ⊢
    split at hb
    · cases hb
    · exact hi.bound b t hb
  obtain ⟨h3, c, e1, e2, e3, e4, e5, e6⟩ := heap_assign (s := s) hb1
  have hread : h1.read v = .ok s := by
    unfold Heap.read; simp [h1, hav, hv]
  have hcnew : ∀ p ∈ db.pars, p.2 ≠ c := by
    intro p hp' he
    obtain ⟨t, ht⟩ := hi.live p hp'
    have := hi.bound _ _ ht
    have : db.heap.next ≤ c := e3
    omega
  have hset : db.set n v = .ok ⟨h3, db.pars.map fun p => if p.1 = n then (p.1, c) else p⟩ := by
    unfold HDB.set
    rw [hp]
    simp only [hfree, Res.bind_ok, hread]
    rw [e1]
    rfl
  have hcell : ∀ b, b < db.heap.next → b ≠ a → h3.cell b = db.heap.cell b := by
    intro b hb hba
    rw [e4 b hb]
    simp [h1, hba]
  have hinv : (⟨h3, db.pars.map fun p => if p.1 = n then (p.1, c) else p⟩ : HDB).Inv := by
    refine ⟨by rw [map_fst]; exact hi.names, map_snd_nodup hi.names hi.ptrs hcnew, ?_, e6⟩
    intro p hp'
    simp only [List.mem_map] at hp'
    obtain ⟨q, hq, rfl⟩ := hp'
    split
    · exact ⟨_, e2⟩
    · rename_i hqn
      obtain ⟨t, ht⟩ := hi.live q hq
      refine ⟨t, ?_⟩
      simp only
      rw [hcell _ (hi.bound _ _ ht)]
      · exact ht
      · intro he
        exact hqn (ptr_inj hi (n := q.1) (m := n) (a := q.2)
          (ptr_of_mem hi hq) (he ▸ hp))
  refine ⟨_, hset, hinv, ?_⟩
  intro k
  unfold HDB.value
  cases hk : db.ptr k with
  | none =>
    have hk' : (⟨h3, db.pars.map fun p => if p.1 = n then (p.1, c) else p⟩ : HDB).ptr k
        = none := by
      rw [ptr_none] at hk ⊢
      intro p hp'
      simp only [List.mem_map] at hp'
      obtain ⟨q, hq, rfl⟩ := hp'
      split
      · exact hk q hq
      · exact hk q hq
    have hkn : k ≠ n := by rintro rfl; rw [hk] at hp; cases hp
    rw [hk']; simp [hkn]
  | some b =>
    have hkm := ptr_some hk
    by_cases hkn : k = n
    · subst hkn
      have : (⟨h3, db.pars.map fun p => if p.1 = k then (p.1, c) else p⟩ : HDB).ptr k
          = some c := ptr_of_mem hinv (List.mem_map.2 ⟨(k, b), hkm, by simp⟩)
      rw [this]; simp [e2]
    · have : (⟨h3, db.pars.map fun p => if p.1 = n then (p.1, c) else p⟩ : HDB).ptr k
          = some b := ptr_of_mem hinv (List.mem_map.2 ⟨(k, b), hkm, by simp [hkn]⟩)
      rw [this]
      simp only [hkn, if_false, Option.bind_some]
      obtain ⟨t, ht⟩ := hi.live _ hkm
      refine hcell b (hi.bound _ _ ht) ?_
      rintro rfl
      exact hkn (ptr_inj hi hk hp)

theorem make_ok {db : HDB} (hi : db.Inv) (n v : CStr) :
    ∃ db', db.make n v = .ok db' ∧ db'.Inv ∧
      ∀ k, db'.value k = if k = n ∧ db.value n = none then some (translate v)
        else db.value k := by
  unfold HDB.make
  cases hp : db.ptr n with
  | some a =>
    have hmem := ptr_some hp
    obtain ⟨s0, hs0⟩ := hi.live _ hmem
    refine ⟨db, rfl, hi, ?_⟩
    intro k
    have : db.value n ≠ none := by unfold HDB.value; rw [hp]; simp; simp at hs0; simp [hs0]
    simp [this]
  | none =>
    obtain ⟨h3, c, e1, e2, e3, e4, e5, e6⟩ := heap_assign (s := v) hi.bound
    have hval : db.value n = none := by unfold HDB.value; rw [hp]; rfl
    have hcnew : ∀ p ∈ db.pars, p.2 ≠ c := by
      intro p hp' he
      obtain ⟨t, ht⟩ := hi.live p hp'
      have := hi.bound _ _ ht
      omega
    have hinv : (⟨h3, db.pars ++ [(n, c)]⟩ : HDB).Inv := by
      refine ⟨?_, ?_, ?_, e6⟩
      · simp only [List.map_append, List.map_cons, List.map_nil]
        rw [List.nodup_append]
        refine ⟨hi.names, by simp, ?_⟩
        intro x hx y hy
        simp at hy
        subst hy
        obtain ⟨p, hp', rfl⟩ := List.mem_map.1 hx
        exact ptr_none.1 hp p hp'
      · simp only [List.map_append, List.map_cons, List.map_nil]
        rw [List.nodup_append]
        refine ⟨hi.ptrs, by simp, ?_⟩
        intro x hx y hy
        simp at hy
        subst hy
        obtain ⟨p, hp', rfl⟩ := List.mem_map.1 hx
        exact hcnew p hp'
      · intro p hp'
        simp only [List.mem_append, List.mem_singleton] at hp'
        rcases hp' with hp' | rfl
        · obtain ⟨t, ht⟩ := hi.live p hp'
          exact ⟨t, by simp only; rw [e4 _ (hi.bound _ _ ht)]; exact ht⟩
        · exact ⟨_, e2⟩
    refine ⟨⟨h3, db.pars ++ [(n, c)]⟩, ?_, hinv, ?_⟩
    · simp only [e1, Res.bind_ok]
    · intro k
      simp only [hval, and_true]
      unfold HDB.value
      by_cases hk : k = n
      · subst hk
        rw [ptr_of_mem hinv (n := k) (a := c) (by simp)]
        simp [e2]
      · rw [if_neg hk]
        cases hpk : db.ptr k with
        | none =>
          have : (⟨h3, db.pars ++ [(n, c)]⟩ : HDB).ptr k = none := by
            rw [ptr_none] at hpk ⊢
            intro p hp'
            simp only [List.mem_append, List.mem_singleton] at hp'
            rcases hp' with hp' | rfl
            · exact hpk p hp'
            · exact Ne.symm hk
          rw [this]; rfl
        | some b =>
          have hm := ptr_some hpk
          rw [ptr_of_mem hinv (n := k) (a := b) (by simp [hm])]
          obtain ⟨t, ht⟩ := hi.live _ hm
          simp only [Option.bind_some]
          exact e4 b (hi.bound _ _ ht)

/-- A caller's string is put on the heap; nothing in the data base changes. -/
theorem lit_inv {db : HDB} (hi : db.Inv) (v : CStr) :
    ({ db with heap := (db.heap.new v).1 } : HDB).Inv ∧
    (∀ k, ({ db with heap := (db.heap.new v).1 } : HDB).value k = db.value k) ∧
    (db.heap.new v).1.cell db.heap.next = some v := by
  have hlt : ∀ p ∈ db.pars, p.2 < db.heap.next := by
    intro p hp; obtain ⟨t, ht⟩ := hi.live p hp; exact hi.bound _ _ ht
  refine ⟨⟨hi.names, hi.ptrs, ?_, ?_⟩, ?_, by simp [Heap.new]⟩
  · intro p hp
    obtain ⟨t, ht⟩ := hi.live p hp
    have := hlt p hp
    exact ⟨t, by simp only [Heap.new]; rw [if_neg (by omega)]; exact ht⟩
  · intro a s h
    simp only [Heap.new] at h ⊢
    split at h
    · omega
    · have := hi.bound a s h; omega
  · intro k
    unfold HDB.value
    have : ({ db with heap := (db.heap.new v).1 } : HDB).ptr k = db.ptr k := rfl
    rw [this]
    cases hp : db.ptr k with
    | none => rfl
    | some b =>
      have := hlt _ (ptr_some hp)
      simp only at this
      simp only [Option.bind_some, Heap.new]
      rw [if_neg (by omega)]

theorem setLit_ok {db : HDB} (hi : db.Inv) (n v : CStr) :
    (db.value n = none → db.setLit n v = .abort) ∧
    (db.value n ≠ none → ∃ db', db.setLit n v = .ok db' ∧ db'.Inv ∧
      ∀ k, db'.value k = if k = n then some (translate v) else db.value k) := by
  obtain ⟨h1, h2, h3⟩ := lit_inv hi v
  unfold HDB.setLit
  cases hp : db.ptr n with
  | none =>
    refine ⟨fun _ => ?_, fun h => ?_⟩
    · show HDB.set _ n _ = .abort
      unfold HDB.set
      have : ({ db with heap := (db.heap.new v).1 } : HDB).ptr n = none := hp
      rw [this]
    · exact absurd (by unfold HDB.value; rw [hp]; rfl) h
  | some a =>
    obtain ⟨s0, hs0⟩ := hi.live _ (ptr_some hp)
    refine ⟨fun h => ?_, fun _ => ?_⟩
    · unfold HDB.value at h; rw [hp] at h; simp at h hs0; rw [hs0] at h; cases h
    · have hne : db.heap.next ≠ a := by have := hi.bound _ _ hs0; simp at this; omega
      obtain ⟨db', g1, g2, g3⟩ := set_ok h1 (n := n) (a := a) hp h3 hne
      exact ⟨db', g1, g2, fun k => by rw [g3 k, h2 k]⟩

theorem step_inv {db db' : HDB} (hi : db.Inv) (op : HOp) (h : db.step op = .ok db') :
    db'.Inv := by
  cases op with
  | add n v =>
    obtain ⟨d, h1, h2, -⟩ := make_ok hi n v
    simp only [HDB.step] at h
    rw [h1] at h; cases h; exact h2
  | setLit n v =>
    simp only [HDB.step] at h
    by_cases hv : db.value n = none
    · rw [(setLit_ok hi n v).1 hv] at h; cases h
    · obtain ⟨d, h1, h2, -⟩ := (setLit_ok hi n v).2 hv
      rw [h1] at h; cases h; exact h2
  | setFrom n m =>
    simp only [HDB.step] at h
    cases hm : db.ptr m with
    | none => simp [HDB.gets, hm] at h
    | some b =>
      simp only [HDB.gets, hm, Res.bind_ok] at h
      cases hn : db.ptr n with
      | none => simp [HDB.set, hn] at h
      | some a =>
        obtain ⟨s, hs⟩ := hi.live _ (ptr_some hm)
        by_cases hab : b = a
        · subst hab
          obtain ⟨s0, hs0⟩ := hi.live _ (ptr_some hn)
          simp only at hs0
          simp [HDB.set, hn, Heap.free, hs0, Heap.read] at h
        · obtain ⟨d, h1, h2, -⟩ := set_ok hi hn hs hab
          rw [h1] at h; cases h; exact h2

theorem run_inv {ops : List HOp} {db db' : HDB} (hi : db.Inv) (h : db.run ops = .ok db') :
    db'.Inv := by
  induction ops generalizing db with
  | nil => cases h; exact hi
  | cons op ops ih =>
    simp only [HDB.run] at h
    cases hs : db.step op with
    | ok d => rw [hs] at h; exact ih (step_inv hi op hs) h
    | abort => rw [hs] at h; cases h
    | ub => rw [hs] at h; cases h

theorem init_inv : HDB.init.Inv :=
  ⟨by simp [HDB.init], by simp [HDB.init], by simp [HDB.init], by simp [HDB.init]⟩

/-- **C59** is false as stated: in every reachable data base, assigning to an existing
parameter the string that Gets returns for this same parameter reads freed memory. -/
theorem C59_self_assignment_ub (ops : List HOp) (db : HDB) (h : HDB.init.run ops = .ok db)
    (n v : CStr) (hv : db.value n = some v) : db.step (.setFrom n n) = .ub := by
  have hi := run_inv init_inv h
  unfold HDB.value at hv
  cases hn : db.ptr n with
  | none => rw [hn] at hv; cases hv
  | some a =>
    rw [hn] at hv
    simp at hv
    simp [HDB.step, HDB.gets, hn, HDB.set, Heap.free, hv, Heap.read]

/-- **C59**, what holds (missing: `n = m`, see above): assigning to a parameter the string
that Gets returns for another parameter works in every reachable data base. -/
theorem C59_assign_from_other_partial (ops : List HOp) (db : HDB)
    (h : HDB.init.run ops = .ok db) (n m v w : CStr) (hnm : n ≠ m)
    (hn : db.value n = some w) (hm : db.value m = some v) :
    ∃ db', db.step (.setFrom n m) = .ok db' ∧
      ∀ k, db'.value k = if k = n then some (translate v) else db.value k := by
  have hi := run_inv init_inv h
  unfold HDB.value at hn hm
  cases hpn : db.ptr n with
  | none => rw [hpn] at hn; cases hn
  | some a =>
    cases hpm : db.ptr m with
    | none => rw [hpm] at hm; cases hm
    | some b =>
      rw [hpm] at hm
      have hba : b ≠ a := by rintro rfl; exact hnm (ptr_inj hi hpn hpm)
      obtain ⟨d, h1, -, h3⟩ := set_ok hi hpn hm hba
      exact ⟨d, by simp [HDB.step, HDB.gets, hpm, h1], h3⟩

/-- Assignments of the caller's own strings and additions never misuse memory. -/
theorem C59_other_calls_safe (ops : List HOp) (h : ∀ n m, HOp.setFrom n m ∉ ops) :
    HDB.init.run ops ≠ .ub := by
  have key : ∀ (ops : List HOp) (db : HDB), db.Inv → (∀ n m, HOp.setFrom n m ∉ ops) →
      db.run ops ≠ .ub := by
    intro ops
    induction ops with
    | nil => intro db _ _; simp [HDB.run]
    | cons op ops ih =>
      intro db hi h
      simp only [HDB.run]
      have hrest : ∀ n m, HOp.setFrom n m ∉ ops := fun n m hx => h n m (by simp [hx])
      cases op with
      | add n v =>
        obtain ⟨d, h1, h2, -⟩ := make_ok hi n v
        simp only [HDB.step, h1, Res.bind_ok]
        exact ih d h2 hrest
      | setLit n v =>
        by_cases hv : db.value n = none
        · simp [HDB.step, (setLit_ok hi n v).1 hv]
        · obtain ⟨d, h1, h2, -⟩ := (setLit_ok hi n v).2 hv
          simp only [HDB.step, h1, Res.bind_ok]
          exact ih d h2 hrest
      | setFrom n m => exact absurd (by simp) (h n m)
  exact key ops _ init_inv h

example : (HDB.init.run [.add "a".toList "1".toList, .add "b".toList "pi".toList,
    .setFrom "a".toList "b".toList]).map (fun db => db.value "a".toList) =
    .ok (some "3.141592653589793116e+00".toList) := by decide

end Sgrid
