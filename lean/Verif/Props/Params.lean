import Verif.Lemmas.Params
import Verif.Lemmas.Entries

/-!
Properties C01, C02, C04, C06: the parameter data base.
-/

namespace Sgrid

open Spec

/-! ### C01: the data base is a map, last write wins -/

/-- Specification state: what every name is bound to, and how many names there are. -/
structure ParSpec where
  val : CStr → Option CStr
  count : Nat

/-- Bind a name. -/
def ParSpec.bindName (m : ParSpec) (n v : CStr) : ParSpec :=
  { m with val := fun k => if k = n then some v else m.val k }

/-- What a call should do; `none` means the program must end. `listed p v` decides whether
`v` counts as an entry of `p`. -/
def ParSpec.step (listed : CStr → CStr → Bool) (m : ParSpec) : ParOp → Option ParSpec
  | .addPar n v _ =>
    match m.val n with
    | some _ => some m
    | none => if m.count + 1 ≥ npdbmax then none
        else some { (m.bindName n (translate v)) with count := m.count + 1 }
  | .addOrModify n v _ =>
    match m.val n with
    | some _ => some (m.bindName n (translate v))
    | none => if m.count + 1 ≥ npdbmax then none
        else some { (m.bindName n (translate v)) with count := m.count + 1 }
  | .sets n v => (m.val n).map fun _ => m.bindName n (translate v)
  | .appends n v => (m.val n).map fun old =>
      if listed old v then m else m.bindName n (translate (old ++ ' ' :: v))
  | .setStart n => (m.val n).map fun _ => m

/-- A history of calls on the specification. -/
def ParSpec.run (listed : CStr → CStr → Bool) (m : ParSpec) : List ParOp → Option ParSpec
  | [] => some m
  | op :: ops => (m.step listed op).bind fun m' => m'.run listed ops

/-- No names bound. -/
def ParSpec.empty : ParSpec := ⟨fun _ => none, 0⟩

/-- The simulation relation. -/
def ParSim {ν : Type} (C : Conv ν) (db : PDB ν) (m : ParSpec) : Prop :=
  db.Inv C ∧ db.pars.length = m.count ∧ ∀ n, (db.find n).map (·.value) = m.val n

/-- How a concrete outcome has to relate to a specified one. -/
def SimRes {ν : Type} (C : Conv ν) : Res (PDB ν) → Option ParSpec → Prop
  | .ok db, some m => ParSim C db m
  | .abort, none => True
  | _, _ => False

theorem step_sim {ν : Type} (C : Conv ν) {db : PDB ν} {m : ParSpec} (h : ParSim C db m)
    (op : ParOp) : SimRes C (db.step C op) (m.step getv op) := by
  obtain ⟨hi, hc, hv⟩ := h
  have getsOk : ∀ {d : PDB ν} {n : CStr} {p : Par ν}, d.find n = some p →
      d.gets n = .ok p.value := by
    intro d n p h; unfold PDB.gets; rw [h]
  have getsNo : ∀ {d : PDB ν} {n : CStr}, d.find n = none → d.gets n = .abort := by
    intro d n h; unfold PDB.gets; rw [h]
  cases op with
  | addPar n v d =>
    simp only [PDB.step, ParSpec.step, PDB.addPar]
    rw [← hv n]
    cases hf : db.find n with
    | none =>
      rw [PDB.make_new hi hf]
      simp only [Option.map_none]
      by_cases hr : db.pars.length + 1 ≥ npdbmax
      · rw [if_pos hr, if_pos (by omega)]; trivial
      · rw [if_neg hr, if_neg (by omega)]
        have hfa := PDB.find_append (v := v) (d := d) hi hf hr
        simp only [Res.bind_ok]
        rw [getsOk (p := mkPar C n v d) (by rw [hfa]; simp)]
        simp only [Res.bind_ok]
        refine ⟨PDB.new_inv hi hf hr, by simp [hc], ?_⟩
        intro k
        rw [hfa k]
        simp only [ParSpec.bindName]
        by_cases hk : k = n
        · simp [hk, mkPar]
        · simp [hk, hv]
    | some p =>
      obtain ⟨db', h1, h2, h3, h4⟩ := PDB.make_old (v := v) (d := d) hi hf
      rw [h1]
      simp only [Res.bind_ok, Option.map_some]
      rw [getsOk (p := { p with descr := d }) (by rw [h4]; simp)]
      refine ⟨h2, by omega, ?_⟩
      intro k
      rw [h4 k]
      by_cases hk : k = n
      · subst hk; simp [← hv, hf]
      · simp [hk, hv]
  | addOrModify n v d =>
    simp only [PDB.step, ParSpec.step, PDB.addOrModify]
    rw [← hv n]
    cases hf : db.find n with
    | none =>
      have hx : db.findIdx n = none := by
        rw [findIdx_none, ← assoc_eq_none, ← find_eq_assoc hi.nodup]; exact hf
      rw [hx]
      simp only
      rw [PDB.make_new hi hf]
      simp only [Option.map_none]
      by_cases hr : db.pars.length + 1 ≥ npdbmax
      · rw [if_pos hr, if_pos (by omega)]; trivial
      · rw [if_neg hr, if_neg (by omega)]
        have hfa := PDB.find_append (v := v) (d := d) hi hf hr
        simp only [Res.bind_ok]
        rw [getsOk (p := mkPar C n v d) (by rw [hfa]; simp)]
        simp only [Res.bind_ok]
        refine ⟨PDB.new_inv hi hf hr, by simp [hc], ?_⟩
        intro k
        rw [hfa k]
        simp only [ParSpec.bindName]
        by_cases hk : k = n
        · simp [hk, mkPar]
        · simp [hk, hv]
    | some p =>
      obtain ⟨i, hx⟩ : ∃ i, db.findIdx n = some i := by
        cases hx : db.findIdx n with
        | none => unfold PDB.find at hf; rw [hx] at hf; simp at hf
        | some i => exact ⟨i, rfl⟩
      rw [hx]
      simp only
      obtain ⟨db', h1, h2, h3, h4⟩ := PDB.set_spec (v := v) hi hf
      rw [h1]
      simp only [Res.bind_ok, Option.map_some]
      rw [getsOk (p := mkPar C n v p.descr) (by rw [h4]; simp)]
      refine ⟨h2, by simp [ParSpec.bindName]; omega, ?_⟩
      intro k
      rw [h4 k]
      simp only [ParSpec.bindName]
      by_cases hk : k = n
      · simp [hk, mkPar]
      · simp [hk, hv]
  | sets n v =>
    simp only [PDB.step, ParSpec.step]
    rw [← hv n]
    cases hf : db.find n with
    | none => rw [PDB.set_missing hi hf]; trivial
    | some p =>
      obtain ⟨db', h1, h2, h3, h4⟩ := PDB.set_spec (v := v) hi hf
      rw [h1]
      refine ⟨h2, by simp [ParSpec.bindName]; omega, ?_⟩
      intro k
      rw [h4 k]
      simp only [ParSpec.bindName]
      by_cases hk : k = n
      · simp [hk, mkPar]
      · simp [hk, hv]
  | appends n v =>
    simp only [PDB.step, ParSpec.step, PDB.appends]
    rw [← hv n]
    cases hf : db.find n with
    | none => rw [getsNo hf]; trivial
    | some p =>
      rw [getsOk hf]
      simp only [Res.bind_ok, Option.map_some]
      by_cases hg : getv p.value v = true
      · rw [if_pos hg, if_pos hg]; exact ⟨hi, hc, hv⟩
      · rw [if_neg hg, if_neg hg]
        obtain ⟨db', h1, h2, h3, h4⟩ := PDB.set_spec (v := p.value ++ ' ' :: v) hi hf
        rw [h1]
        refine ⟨h2, by simp [ParSpec.bindName]; omega, ?_⟩
        intro k
        rw [h4 k]
        simp only [ParSpec.bindName]
        by_cases hk : k = n
        · simp [hk, mkPar]
        · simp [hk, hv]
  | setStart n =>
    simp only [PDB.step, ParSpec.step, PDB.setStart]
    rw [← hv n]
    cases hf : db.find n with
    | none =>
      have hx : db.findIdx n = none := by
        rw [findIdx_none, ← assoc_eq_none, ← find_eq_assoc hi.nodup]; exact hf
      rw [hx]; trivial
    | some p =>
      obtain ⟨i, hx⟩ : ∃ i, db.findIdx n = some i := by
        cases hx : db.findIdx n with
        | none => unfold PDB.find at hf; rw [hx] at hf; simp at hf
        | some i => exact ⟨i, rfl⟩
      rw [hx]
      refine ⟨⟨hi.nodup, hi.room, hi.num, hi.bool⟩, hc, ?_⟩
      intro k
      rw [PDB.setStart_find hi, hv]

theorem run_sim {ν : Type} (C : Conv ν) (ops : List ParOp) {db : PDB ν} {m : ParSpec}
    (h : ParSim C db m) : SimRes C (db.run C ops) (m.run getv ops) := by
  induction ops generalizing db m with
  | nil => exact h
  | cons op ops ih =>
    have hs := step_sim C h op
    simp only [PDB.run, ParSpec.run]
    cases h1 : db.step C op <;> cases h2 : m.step getv op <;>
      simp only [h1, h2, SimRes] at hs
    · exact ih hs
    · trivial

theorem init_sim {ν : Type} (C : Conv ν) : ParSim C (PDB.init ν) ParSpec.empty :=
  ⟨PDB.init_inv C, rfl, fun n => by
    rw [find_eq_assoc (PDB.init_inv C).nodup]; rfl⟩

/-- **C01**. After every history of calls the real data base ends the program exactly if
the map specification says so, never has undefined behaviour, and otherwise
`Gets`/`GetsLax` return for every name what the map holds. -/
theorem C01_param_map {ν : Type} (C : Conv ν) (ops : List ParOp) :
    match (PDB.init ν).run C ops, ParSpec.empty.run getv ops with
    | .ok db, some m =>
      (∀ n, db.getsLax n = m.val n) ∧
      (∀ n, db.gets n = match m.val n with | some v => .ok v | none => .abort) ∧
      (db.pars.map (·.name)).Nodup
    | .abort, none => True
    | _, _ => False := by
  have h := run_sim C ops (init_sim C)
  cases h1 : (PDB.init ν).run C ops <;> cases h2 : ParSpec.empty.run getv ops <;>
    simp only [h1, h2, SimRes] at h
  · obtain ⟨hi, hc, hv⟩ := h
    refine ⟨hv, ?_, hi.nodup⟩
    intro n
    rw [← hv n]
    unfold PDB.gets
    cases PDB.find _ n <;> rfl
  · trivial

/-- **C01**, hint. In every reachable data base, every value of the search hint gives the
same answers. -/
theorem C01_hint_irrelevant {ν : Type} (C : Conv ν) (ops : List ParOp) (db : PDB ν)
    (h : (PDB.init ν).run C ops = .ok db) (hint : Int) (n : CStr) :
    ({ db with iStart := hint } : PDB ν).gets n = db.gets n ∧
    ({ db with iStart := hint } : PDB ν).findIdx n = db.findIdx n := by
  have hs := run_sim C ops (init_sim C)
  rw [h] at hs
  cases h2 : ParSpec.empty.run getv ops with
  | none => rw [h2] at hs; exact hs.elim
  | some m =>
    rw [h2] at hs
    obtain ⟨hi, -, -⟩ := hs
    constructor
    · unfold PDB.gets; rw [PDB.setStart_find hi]
    · cases hf : db.findIdx n with
      | none => rw [findIdx_none] at hf ⊢; exact hf
      | some i =>
        rw [findIdx_eq_iff hi.nodup] at hf
        exact (findIdx_eq_iff (db := { db with iStart := hint }) hi.nodup).2 hf

/-- A history that exercises every call. -/
def exOps : List ParOp :=
  [.addPar "a".toList "1".toList [], .addPar "b".toList "pi".toList [],
   .sets "a".toList "x".toList, .addPar "a".toList "7".toList [],
   .setStart "b".toList, .appends "a".toList "y".toList,
   .addOrModify "c".toList "yes".toList []]

/-- An `atof`/`atoi` for examples. -/
def exConv : Conv Int := ⟨fun s => s.length, fun s => s.length⟩

example : ((PDB.init Int).run exConv exOps).map (fun db =>
    (db.getsLax "a".toList, db.getsLax "b".toList, db.iStart)) =
    .ok (some "x y".toList, some "3.141592653589793116e+00".toList, 1) := by
  decide +kernel

/-! ### C02: the caches follow the strings -/

/-- **C02**. In every reachable data base the cached number and boolean of a parameter are
those of its current string (and asking for a missing one ends the program). -/
theorem C02_caches {ν : Type} (C : Conv ν) (ops : List ParOp) (db : PDB ν)
    (h : (PDB.init ν).run C ops = .ok db) (n : CStr) :
    db.cachedNum n = (db.gets n).map C.atof ∧
    db.cachedBool n = (db.gets n).map (boolOf C.atoi) := by
  have hs := run_sim C ops (init_sim C)
  rw [h] at hs
  cases h2 : ParSpec.empty.run getv ops with
  | none => rw [h2] at hs; exact hs.elim
  | some m =>
    rw [h2] at hs
    obtain ⟨hi, -, -⟩ := hs
    unfold PDB.cachedNum PDB.cachedBool PDB.gets PDB.find
    cases hf : db.findIdx n with
    | none => simp
    | some i =>
      obtain ⟨p, hp, -⟩ := findIdx_some hf
      have hm := List.mem_of_getElem? hp
      simp [hp, hi.num p hm, hi.bool p hm]

example : ((PDB.init Int).run exConv exOps).map (fun db =>
    (db.cachedNum "a".toList, db.cachedBool "c".toList)) = .ok (.ok 3, .ok 1) := by
  decide +kernel

/-! ### C04: Getv as list membership -/

/-- **C04**, sound half: a positive answer is right. -/
theorem C04_getv_sound (p v : CStr) (hv : ' ' ∉ v) (h : getv p v = true) :
    v ∈ entries p := by
  obtain ⟨s, h1, h2, -⟩ := getv_iff.1 h
  obtain ⟨a, b, rfl, rfl, hr⟩ := endOk_iff.1 h1
  rw [List.append_assoc] at h2
  exact mem_entries_iff.2 ⟨hv, a, b, rfl, startOk_iff.1 h2, hr⟩

/-- **C04** is false as stated: Getv misses an entry that follows an entry ending in the
same word. -/
theorem C04_getv_incomplete :
    ∃ p v : CStr, v ≠ [] ∧ ' ' ∉ v ∧ v ∈ entries p ∧ getv p v = false :=
  ⟨"xfoo foo".toList, "foo".toList, by decide, by decide, by decide,
    by decide +kernel⟩

/-- **C04**, what holds: Getv is membership for words that are not a proper suffix of
another entry. Missing from the full statement: the case excluded by `hs`, where the
answer can be wrong (`C04_getv_incomplete`). -/
theorem C04_getv_partial (p v : CStr) (hv : ' ' ∉ v)
    (hs : ∀ e ∈ entries p, v <:+ e → e = v) : getv p v = true ↔ v ∈ entries p := by
  refine ⟨C04_getv_sound p v hv, fun h => ?_⟩
  -- every occurrence that ends well also starts well
  have hall : ∀ s, EndOk v p s → StartOk p s := by
    intro s hE
    obtain ⟨a, b, rfl, rfl, hr⟩ := endOk_iff.1 hE
    rw [List.append_assoc, startOk_iff]
    by_cases hl : LeftOk a
    · exact hl
    · exfalso
      obtain ⟨a', w, hw, hwb, hl', rfl⟩ := leftOk_total a hl
      have := hs (w ++ v) (mem_entries_iff.2 ⟨by simp [hwb, hv], a', b, by simp, hl', hr⟩)
        (List.suffix_append w v)
      have hlen := congrArg List.length this
      simp at hlen
      exact hw hlen
  obtain ⟨-, a, b, hp, hl, hr⟩ := mem_entries_iff.1 h
  have hE : ∃ s, EndOk v p s := ⟨a.length, endOk_iff.2 ⟨a, b, hp, rfl, hr⟩⟩
  -- the first one is found
  have : ∃ s, EndOk v p s ∧ ∀ j < s, ¬ EndOk v p j := by
    obtain ⟨s, hs⟩ := hE
    induction s using Nat.strongRecOn with
    | _ s ih =>
      by_cases hx : ∃ j, j < s ∧ EndOk v p j
      · obtain ⟨j, hj, hjE⟩ := hx; exact ih j hj hjE
      · exact ⟨s, hs, fun j hj hjE => hx ⟨j, hj, hjE⟩⟩
  obtain ⟨s, h1, h2⟩ := this
  exact getv_iff.2 ⟨s, h1, hall s h1, h2⟩

example : ' ' ∉ "foo".toList ∧ (∀ e ∈ entries "foobar foo a".toList,
    "foo".toList <:+ e → e = "foo".toList) ∧ getv "foobar foo a".toList "foo".toList = true := by
  decide +kernel

/-! ### C06: Appends -/

theorem translate_blank (a b : CStr) : translate (a ++ ' ' :: b) = a ++ ' ' :: b := by
  have key : ∀ w : CStr, ' ' ∉ w → a ++ ' ' :: b ≠ w := by
    intro w hw he
    exact hw (he ▸ by simp)
  unfold translate
  rw [if_neg (key _ (by decide)), if_neg (key _ (by decide)), if_neg (key _ (by decide)),
    if_neg (key _ (by decide)), if_neg (key _ (by decide)), if_neg (key _ (by decide))]

/-- **C06**, effect of one call in any reachable data base: the parameter either keeps its
value, and then the word is one of its entries, or the word becomes an additional last
entry; all older entries stay; no other parameter changes; a missing parameter ends the
program. -/
theorem C06_appends_effect {ν : Type} (C : Conv ν) (ops : List ParOp) (db : PDB ν)
    (h : (PDB.init ν).run C ops = .ok db) (n v : CStr) (hv : ' ' ∉ v) :
    (db.getsLax n = none → db.appends C n v = .abort) ∧
    (∀ old, db.getsLax n = some old → ∃ db' new, db.appends C n v = .ok db' ∧
      db'.getsLax n = some new ∧
      ((new = old ∧ v ∈ entries old) ∨ entries new = entries old ++ [v]) ∧
      ∀ k, k ≠ n → db'.getsLax k = db.getsLax k) := by
  have hs := run_sim C ops (init_sim C)
  rw [h] at hs
  cases h2 : ParSpec.empty.run getv ops with
  | none => rw [h2] at hs; exact hs.elim
  | some m =>
    rw [h2] at hs
    obtain ⟨hi, -, -⟩ := hs
    unfold PDB.getsLax PDB.appends PDB.gets
    cases hf : db.find n with
    | none => simp
    | some p =>
      simp only [Option.map_some, Res.bind_ok]
      refine ⟨by simp, ?_⟩
      intro old hold
      cases hold
      by_cases hg : getv p.value v = true
      · rw [if_pos hg]
        exact ⟨db, p.value, rfl, by simp [hf], .inl ⟨rfl, C04_getv_sound _ _ hv hg⟩,
          fun _ _ => rfl⟩
      · rw [if_neg hg]
        obtain ⟨db', h1, -, -, h4⟩ := PDB.set_spec (v := p.value ++ ' ' :: v) hi hf
        refine ⟨db', p.value ++ ' ' :: v, h1, ?_, .inr ?_, ?_⟩
        · rw [h4]; simp [mkPar, translate_blank]
        · rw [entries_append_blank, entries_of_not_mem hv]
        · intro k hk; rw [h4]; simp [hk]

/-- **C06** is false as stated: a second Appends of the same word can add it again. -/
theorem C06_appends_twice_counterexample :
    ∃ (ops : List ParOp) (n v : CStr), ' ' ∉ v ∧ v ≠ [] ∧
      ((PDB.init Int).run exConv (ops ++ [.appends n v])).bind (·.gets n) =
        .ok "xfoo foo".toList ∧
      ((PDB.init Int).run exConv (ops ++ [.appends n v, .appends n v])).bind (·.gets n) =
        .ok "xfoo foo foo".toList :=
  ⟨[.addPar "p".toList "xfoo".toList []], "p".toList, "foo".toList,
    by decide, by decide, by decide +kernel, by decide +kernel⟩

/-- **C06**, what holds: if the word is not a proper suffix of an entry, a word that is
already listed is not added, and after one Appends a second one changes nothing. Missing:
the case excluded by `hs` (`C06_appends_twice_counterexample`). -/
theorem C06_appends_once_partial {ν : Type} (C : Conv ν) (ops : List ParOp) (db : PDB ν)
    (h : (PDB.init ν).run C ops = .ok db) (n v old : CStr) (hv : ' ' ∉ v)
    (ho : db.getsLax n = some old) (hs : ∀ e ∈ entries old, v <:+ e → e = v) :
    (v ∈ entries old → db.appends C n v = .ok db) ∧
    (∀ db', db.appends C n v = .ok db' → db'.appends C n v = .ok db') := by
  have hone : ∀ (d : PDB ν) (o : CStr), d.getsLax n = some o → getv o v = true →
      d.appends C n v = .ok d := by
    intro d o hd hg
    unfold PDB.getsLax at hd
    unfold PDB.appends PDB.gets
    cases hf : d.find n with
    | none => rw [hf] at hd; simp at hd
    | some p =>
      rw [hf] at hd; simp at hd
      subst hd
      simp [hg]
  refine ⟨fun hm => hone db old ho ((C04_getv_partial old v hv hs).2 hm), ?_⟩
  intro db' hdb'
  obtain ⟨db'', new, h1, h2, h3, -⟩ := (C06_appends_effect C ops db h n v hv).2 old ho
  rw [hdb'] at h1
  cases h1
  refine hone db' new h2 ?_
  rcases h3 with ⟨rfl, hm⟩ | h3
  · exact (C04_getv_partial new v hv hs).2 hm
  · refine (C04_getv_partial new v hv ?_).2 (by rw [h3]; simp)
    intro e he hse
    rw [h3] at he
    simp only [List.mem_append, List.mem_singleton] at he
    rcases he with he | rfl
    · exact hs e he hse
    · rfl

example : ((PDB.init Int).run exConv [.addPar "p".toList "a foo b".toList []]).map
      (·.getsLax "p".toList) = .ok (some "a foo b".toList) ∧
    (∀ e ∈ entries "a foo b".toList, "c".toList <:+ e → e = "c".toList) := by
  decide +kernel

end Sgrid
