import Verif.Model.Params

/-! Helper lemmas about the parameter data base. -/

namespace Sgrid

variable {ν : Type}

theorem scanFor_some {pars : List (Par ν)} {name : CStr} {i stop k : Nat}
    (h : scanFor pars name i stop = some k) :
    i ≤ k ∧ k < stop ∧ ∃ p, pars[k]? = some p ∧ p.name = name := by
  induction i using scanFor.induct pars name stop with
  | case1 i hi p hp hn =>
    rw [scanFor] at h
    simp only [hi, hp, hn, if_true] at h
    cases h
    exact ⟨Nat.le_refl _, hi, p, hp, hn⟩
  | case2 i hi p hp hn ih =>
    rw [scanFor] at h
    simp only [hi, hp, hn, if_true, if_false] at h
    obtain ⟨h1, h2, h3⟩ := ih h
    exact ⟨by omega, h2, h3⟩
  | case3 i hi hp => rw [scanFor] at h; simp [hi, hp] at h
  | case4 i hi => rw [scanFor] at h; simp [hi] at h

theorem scanFor_none {pars : List (Par ν)} {name : CStr} {i stop : Nat}
    (hs : stop ≤ pars.length) (h : scanFor pars name i stop = none) :
    ∀ k p, i ≤ k → k < stop → pars[k]? = some p → p.name ≠ name := by
  induction i using scanFor.induct pars name stop with
  | case1 i hi p hp hn => rw [scanFor] at h; simp [hi, hp, hn] at h
  | case2 i hi p hp hn ih =>
    rw [scanFor] at h
    simp only [hi, hp, hn, if_true, if_false] at h
    intro k q hk hk2 hq
    rcases Nat.eq_or_lt_of_le hk with rfl | hlt
    · rw [hp] at hq; cases hq; exact hn
    · exact ih h k q hlt hk2 hq
  | case3 i hi hp =>
    exfalso
    rw [List.getElem?_eq_none_iff] at hp; omega
  | case4 i hi => intro k q h1 h2; omega

theorem findIdx_some {db : PDB ν} {name : CStr} {i : Nat} (h : db.findIdx name = some i) :
    ∃ p, db.pars[i]? = some p ∧ p.name = name := by
  unfold PDB.findIdx at h
  simp only at h
  split at h
  · rename_i j hj
    cases h
    exact (scanFor_some hj).2.2
  · exact (scanFor_some h).2.2

theorem findIdx_none {db : PDB ν} {name : CStr} :
    db.findIdx name = none ↔ ∀ p ∈ db.pars, p.name ≠ name := by
  constructor
  · intro h
    unfold PDB.findIdx at h
    simp only at h
    split at h
    · simp at h
    · rename_i h1
      intro p hp
      obtain ⟨k, hk, rfl⟩ := List.getElem_of_mem hp
      have hk' : db.pars[k]? = some db.pars[k] := List.getElem?_eq_getElem hk
      rcases Nat.lt_or_ge k (if db.iStart < 0 ∨ db.iStart ≥ db.pars.length then 0
        else db.iStart.toNat) with hlt | hge
      · refine scanFor_none ?_ h k _ (Nat.zero_le _) hlt hk'
        split <;> omega
      · exact scanFor_none (Nat.le_refl _) h1 k _ hge hk hk'
  · intro h
    cases hf : db.findIdx name with
    | none => rfl
    | some i =>
      obtain ⟨p, hp, hn⟩ := findIdx_some hf
      exact absurd hn (h p (List.mem_of_getElem? hp))

/-- The names of the records. -/
def PDB.names (db : PDB ν) : List CStr := db.pars.map (·.name)

theorem findIdx_eq_iff {db : PDB ν} (hnd : db.names.Nodup) {name : CStr} {i : Nat} :
    db.findIdx name = some i ↔ ∃ p, db.pars[i]? = some p ∧ p.name = name := by
  constructor
  · exact findIdx_some
  · rintro ⟨p, hp, hn⟩
    cases hf : db.findIdx name with
    | none => exact absurd hn (findIdx_none.1 hf p (List.mem_of_getElem? hp))
    | some j =>
      obtain ⟨q, hq, hqn⟩ := findIdx_some hf
      have h1 : db.names[i]? = some name := by simp [PDB.names, hp, hn]
      have h2 : db.names[j]? = some name := by simp [PDB.names, hq, hqn]
      obtain ⟨h1', h1''⟩ := List.getElem?_eq_some_iff.1 h1
      obtain ⟨h2', h2''⟩ := List.getElem?_eq_some_iff.1 h2
      have hpw := List.pairwise_iff_getElem.1 hnd
      rcases Nat.lt_trichotomy i j with h | h | h
      · exact absurd (h1''.trans h2''.symm) (hpw i j h1' h2' h)
      · rw [h]
      · exact absurd (h2''.trans h1''.symm) (hpw j i h2' h1' h)

/-- Plain association list look-up, used as an intermediate form. -/
def assoc (pars : List (Par ν)) (name : CStr) : Option (Par ν) :=
  pars.find? (fun p => decide (p.name = name))

theorem assoc_eq_none {pars : List (Par ν)} {name : CStr} :
    assoc pars name = none ↔ ∀ p ∈ pars, p.name ≠ name := by
  simp [assoc]

theorem assoc_of_get {pars : List (Par ν)} (hnd : (pars.map (·.name)).Nodup) {i : Nat}
    {p : Par ν} (hp : pars[i]? = some p) : assoc pars p.name = some p := by
  induction pars generalizing i with
  | nil => simp at hp
  | cons q t ih =>
    simp only [List.map_cons, List.nodup_cons] at hnd
    cases i with
    | zero => simp at hp; subst hp; simp [assoc]
    | succ i =>
      simp at hp
      have hm : p ∈ t := List.mem_of_getElem? hp
      have hne : q.name ≠ p.name := by
        intro he; exact hnd.1 (he ▸ List.mem_map_of_mem hm)
      have := ih hnd.2 hp
      simp only [assoc] at this ⊢
      simp [hne, this]

theorem find_eq_assoc {db : PDB ν} (hnd : db.names.Nodup) (name : CStr) :
    db.find name = assoc db.pars name := by
  unfold PDB.find
  cases hf : db.findIdx name with
  | none => simp [assoc_eq_none.2 (findIdx_none.1 hf)]
  | some i =>
    obtain ⟨p, hp, hn⟩ := findIdx_some hf
    subst hn
    simp [hp, assoc_of_get hnd hp]

theorem map_name_modify (pars : List (Par ν)) (i : Nat) (f : Par ν → Par ν)
    (hf : ∀ p, (f p).name = p.name) :
    (pars.modify i f).map (·.name) = pars.map (·.name) := by
  induction pars generalizing i with
  | nil => simp
  | cons p t ih => cases i with
    | zero => simp [hf]
    | succ i => simp [ih]

theorem assoc_modify {pars : List (Par ν)} (hnd : (pars.map (·.name)).Nodup) {i : Nat}
    {p : Par ν} (hp : pars[i]? = some p) (f : Par ν → Par ν) (hf : ∀ p, (f p).name = p.name)
    (n : CStr) :
    assoc (pars.modify i f) n = if n = p.name then some (f p) else assoc pars n := by
  induction pars generalizing i with
  | nil => simp at hp
  | cons q t ih =>
    simp only [List.map_cons, List.nodup_cons] at hnd
    cases i with
    | zero =>
      simp at hp; subst hp
      by_cases h : q.name = n
      · simp [assoc, hf, h]
      · simp [assoc, hf, h, Ne.symm h]
    | succ i =>
      simp at hp
      have hm : p ∈ t := List.mem_of_getElem? hp
      have hne : q.name ≠ p.name := by
        intro he; exact hnd.1 (he ▸ List.mem_map_of_mem hm)
      have := ih hnd.2 hp
      simp only [assoc] at this ⊢
      by_cases h : q.name = n
      · subst h; simp [hne]
      · simp [h, this]

theorem assoc_append (pars : List (Par ν)) (q : Par ν) (n : CStr) :
    assoc (pars ++ [q]) n = (assoc pars n).or (if n = q.name then some q else none) := by
  simp only [assoc, List.find?_append, List.find?_cons, List.find?_nil]
  congr 1
  by_cases h : q.name = n
  · simp [h]
  · simp [h, Ne.symm h]

/-- Every record is as `makeparameter`/`setparameter` built it, names are unique and there
is room. -/
structure PDB.Inv (C : Conv ν) (db : PDB ν) : Prop where
  nodup : db.names.Nodup
  room : db.pars.length < npdbmax
  num : ∀ p ∈ db.pars, p.num = C.atof p.value
  bool : ∀ p ∈ db.pars, p.bool = boolOf C.atoi p.value

theorem PDB.init_inv (C : Conv ν) : (PDB.init ν).Inv C :=
  ⟨by simp [PDB.names, PDB.init], by simp [PDB.init, npdbmax], by simp [PDB.init],
   by simp [PDB.init]⟩

theorem mem_modify {α : Type} {l : List α} {i : Nat} {f : α → α} {x : α}
    (h : x ∈ l.modify i f) : x ∈ l ∨ ∃ y ∈ l, x = f y := by
  induction l generalizing i with
  | nil => simp at h
  | cons a t ih =>
    cases i with
    | zero =>
      simp at h
      rcases h with h | h
      · exact .inr ⟨a, by simp, h⟩
      · exact .inl (by simp [h])
    | succ i =>
      simp at h
      rcases h with h | h
      · exact .inl (by simp [h])
      · rcases ih h with h | ⟨y, hy, hxy⟩
        · exact .inl (by simp [h])
        · exact .inr ⟨y, by simp [hy], hxy⟩

theorem PDB.make_new {C : Conv ν} {db : PDB ν} {n v d : CStr} (hi : db.Inv C)
    (hn : db.find n = none) :
    db.make C n v d = if db.pars.length + 1 ≥ npdbmax then .abort
      else .ok { db with pars := db.pars ++ [mkPar C n v d] } := by
  rw [find_eq_assoc hi.nodup, assoc_eq_none, ← findIdx_none] at hn
  unfold PDB.make
  rw [hn]
  simp

theorem PDB.new_inv {C : Conv ν} {db : PDB ν} {n v d : CStr} (hi : db.Inv C)
    (hn : db.find n = none) (hr : ¬ db.pars.length + 1 ≥ npdbmax) :
    ({ db with pars := db.pars ++ [mkPar C n v d] } : PDB ν).Inv C := by
  rw [find_eq_assoc hi.nodup, assoc_eq_none] at hn
  refine ⟨?_, by simp; omega, ?_, ?_⟩
  · have := hi.nodup
    simp only [PDB.names] at this
    simp only [PDB.names, List.map_append, List.map_cons, List.map_nil]
    rw [List.nodup_append]
    refine ⟨this, by simp, ?_⟩
    intro a ha b hb hab
    simp [mkPar] at hb
    obtain ⟨p, hp, rfl⟩ := List.mem_map.1 ha
    exact hn p hp (hab.trans hb)
  · intro p hp
    simp only [List.mem_append, List.mem_singleton] at hp
    rcases hp with hp | rfl
    · exact hi.num p hp
    · rfl
  · intro p hp
    simp only [List.mem_append, List.mem_singleton] at hp
    rcases hp with hp | rfl
    · exact hi.bool p hp
    · rfl

/-- Modification of one record by a name-preserving function. -/
theorem PDB.modify_spec {C : Conv ν} {db : PDB ν} {n : CStr} {p : Par ν} (hi : db.Inv C)
    (hp : db.find n = some p) (f : Par ν → Par ν) (hf : ∀ p, (f p).name = p.name)
    (hnum : ∀ p ∈ db.pars, (f p).num = C.atof (f p).value)
    (hbool : ∀ p ∈ db.pars, (f p).bool = boolOf C.atoi (f p).value) :
    ∃ i, db.findIdx n = some i ∧ p.name = n ∧
      ({ db with pars := db.pars.modify i f } : PDB ν).Inv C ∧
      ∀ m, ({ db with pars := db.pars.modify i f } : PDB ν).find m =
        if m = n then some (f p) else db.find m := by
  have hp' := hp
  unfold PDB.find at hp'
  cases hx : db.findIdx n with
  | none => rw [hx] at hp'; simp at hp'
  | some i =>
    rw [hx] at hp'
    simp at hp'
    obtain ⟨q, hq, hqn⟩ := findIdx_some hx
    rw [hp'] at hq
    cases hq
    subst hqn
    have hnd : ({ db with pars := db.pars.modify i f } : PDB ν).names.Nodup := by
      simp only [PDB.names]
      rw [map_name_modify _ _ _ hf]; exact hi.nodup
    refine ⟨i, rfl, rfl, ⟨hnd, by simp; exact hi.room, ?_, ?_⟩, ?_⟩
    · intro q hq
      rcases mem_modify hq with h | ⟨y, hy, rfl⟩
      · exact hi.num q h
      · exact hnum y hy
    · intro q hq
      rcases mem_modify hq with h | ⟨y, hy, rfl⟩
      · exact hi.bool q h
      · exact hbool y hy
    · intro m
      rw [find_eq_assoc hnd, find_eq_assoc hi.nodup]
      exact assoc_modify hi.nodup hp' f hf m

theorem PDB.find_append {C : Conv ν} {db : PDB ν} {n v d : CStr} (hi : db.Inv C)
    (hn : db.find n = none) (hr : ¬ db.pars.length + 1 ≥ npdbmax) (m : CStr) :
    ({ db with pars := db.pars ++ [mkPar C n v d] } : PDB ν).find m =
      if m = n then some (mkPar C n v d) else db.find m := by
  rw [find_eq_assoc (PDB.new_inv hi hn hr).nodup, assoc_append, find_eq_assoc hi.nodup]
  rw [find_eq_assoc hi.nodup] at hn
  by_cases h : m = n
  · subst h; simp [hn, mkPar]
  · simp [h, mkPar]

theorem PDB.set_spec {C : Conv ν} {db : PDB ν} {n v : CStr} {p : Par ν} (hi : db.Inv C)
    (hp : db.find n = some p) :
    ∃ db', db.set C n v = .ok db' ∧ db'.Inv C ∧ db'.pars.length = db.pars.length ∧
      ∀ m, db'.find m = if m = n then some (mkPar C n v p.descr) else db.find m := by
  obtain ⟨i, h1, h2, h3, h4⟩ := PDB.modify_spec hi hp (fun p => mkPar C p.name v p.descr)
    (fun _ => rfl) (fun _ _ => rfl) (fun _ _ => rfl)
  refine ⟨_, by unfold PDB.set; rw [h1], h3, by simp, ?_⟩
  intro m
  rw [h4 m, h2]

theorem PDB.set_missing {C : Conv ν} {db : PDB ν} {n v : CStr} (hi : db.Inv C)
    (hn : db.find n = none) : db.set C n v = .abort := by
  rw [find_eq_assoc hi.nodup, assoc_eq_none, ← findIdx_none] at hn
  unfold PDB.set; rw [hn]

theorem PDB.make_old {C : Conv ν} {db : PDB ν} {n v d : CStr} {p : Par ν} (hi : db.Inv C)
    (hp : db.find n = some p) :
    ∃ db', db.make C n v d = .ok db' ∧ db'.Inv C ∧ db'.pars.length = db.pars.length ∧
      ∀ m, db'.find m = if m = n then some { p with descr := d } else db.find m := by
  obtain ⟨i, h1, h2, h3, h4⟩ := PDB.modify_spec hi hp (fun p => { p with descr := d })
    (fun _ => rfl) (fun p hp => hi.num p hp) (fun p hp => hi.bool p hp)
  refine ⟨_, ?_, h3, by simp, h4⟩
  unfold PDB.make; rw [h1]
  have := hi.room
  simp
  omega

theorem PDB.setStart_find {C : Conv ν} {db : PDB ν} (hi : db.Inv C) (k : Int) (m : CStr) :
    ({ db with iStart := k } : PDB ν).find m = db.find m := by
  rw [find_eq_assoc hi.nodup, find_eq_assoc (db := { db with iStart := k }) hi.nodup]

end Sgrid
