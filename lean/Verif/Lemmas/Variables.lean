import Verif.Model.Variables
import Mathlib.Data.List.Nodup

/-! Helper lemmas about the variable data base. -/

namespace Sgrid

variable {ν : Type} [Zero ν]

/-- Names of all variables in order. -/
def VDB.names {ν : Type} (db : VDB ν) : List CStr := db.vars.map (·.name)

/-- The invariant: names are distinct and the stored index is the position. -/
structure VDB.Inv {ν : Type} (db : VDB ν) : Prop where
  nodup : db.names.Nodup
  index : ∀ (i : Nat) (v : VRec ν), db.vars[i]? = some v → v.index = i

theorem VDB.init_inv {ν : Type} : (VDB.init ν).Inv := ⟨by simp [VDB.names, VDB.init], by
  intro i v h; simp [VDB.init] at h⟩

theorem indLax_none {ν : Type} {db : VDB ν} {name : CStr} :
    db.indLax name = none ↔ name ∉ db.names := by
  unfold VDB.indLax VDB.names
  simp only
  generalize (if db.iStart ≥ db.vars.length then 0 else db.iStart) = iS
  have hsplit : ∀ P : Prop, (∀ v ∈ db.vars, v.name ≠ name) ↔
      (∀ v ∈ db.vars.drop iS, v.name ≠ name) ∧ ∀ v ∈ db.vars.take iS, v.name ≠ name := by
    intro _
    constructor
    · intro h
      exact ⟨fun v hv => h v (List.mem_of_mem_drop hv), fun v hv => h v (List.mem_of_mem_take hv)⟩
    · rintro ⟨h1, h2⟩ v hv
      rw [← List.take_append_drop iS db.vars, List.mem_append] at hv
      rcases hv with hv | hv
      · exact h2 v hv
      · exact h1 v hv
  have hn : name ∉ db.vars.map (·.name) ↔ ∀ v ∈ db.vars, v.name ≠ name := by
    simp [List.mem_map]
  rw [hn, hsplit True]
  split
  · rename_i v hv
    constructor
    · intro h; cases h
    · rintro ⟨h, _⟩
      have h1 := List.find?_some hv
      exact absurd (by simpa using h1) (h v (List.mem_of_find?_eq_some hv))
  · rename_i hv
    rw [List.find?_eq_none] at hv
    simp only [Option.map_eq_none_iff, List.find?_eq_none]
    simp only [decide_eq_true_eq] at hv ⊢
    exact ⟨fun h => ⟨hv, h⟩, fun h => h.2⟩

theorem indLax_some {ν : Type} {db : VDB ν} (hi : db.Inv) {name : CStr} {i : Nat} :
    db.indLax name = some i ↔ db.names[i]? = some name := by
  have fwd : ∀ i, db.indLax name = some i → db.names[i]? = some name := by
    intro i h
    unfold VDB.indLax at h
    simp only at h
    generalize (if db.iStart ≥ db.vars.length then 0 else db.iStart) = iS at h
    have key : ∀ v ∈ db.vars, v.name = name → v.index = i → db.names[i]? = some name := by
      intro v hv hn hvi
      obtain ⟨k, hk⟩ := List.mem_iff_getElem?.1 hv
      have := hi.index k v hk
      subst hvi
      rw [VDB.names, List.getElem?_map, this, hk]
      simp [hn]
    split at h
    · rename_i v hv
      cases h
      exact key v (List.mem_of_mem_drop (List.mem_of_find?_eq_some hv))
        (by simpa using List.find?_some hv) rfl
    · rw [Option.map_eq_some_iff] at h
      obtain ⟨v, hv, rfl⟩ := h
      exact key v (List.mem_of_mem_take (List.mem_of_find?_eq_some hv))
        (by simpa using List.find?_some hv) rfl
  refine ⟨fwd i, fun h => ?_⟩
  cases hx : db.indLax name with
  | none => exact absurd (List.mem_of_getElem? h) (indLax_none.1 hx)
  | some j =>
    have := fwd j hx
    have hlt := (List.getElem?_eq_some_iff.1 h)
    have hlt' := (List.getElem?_eq_some_iff.1 this)
    obtain ⟨h1, h2⟩ := hlt
    obtain ⟨h3, h4⟩ := hlt'
    congr 1
    exact (List.Nodup.getElem_inj_iff hi.nodup).1 (h4.trans h2.symm)

theorem raw_nat {ν : Type} (db : VDB ν) (i : Nat) :
    db.raw (i : Int) = match db.vars[i]? with
      | some v => .ok v
      | none => .ub := by
  unfold VDB.raw
  rw [if_neg (by omega)]
  simp only [Int.toNat_natCast]
  cases db.vars[i]? <;> rfl

/-- Appending a record with a new name and the right index. -/
theorem inv_append {ν : Type} {db : VDB ν} (hi : db.Inv) (v : VRec ν) (hn : v.name ∉ db.names)
    (hx : v.index = db.vars.length) : (VDB.mk (db.vars ++ [v]) db.iStart db.restarts).Inv := by
  constructor
  · simp only [VDB.names, List.map_append, List.map_cons, List.map_nil]
    rw [List.nodup_append]
    refine ⟨hi.nodup, by simp, ?_⟩
    intro a ha b hb
    simp only [List.mem_cons, List.not_mem_nil, or_false] at hb
    subst hb
    rintro rfl
    exact hn ha
  · intro i w h
    simp only at h
    rcases Nat.lt_trichotomy i db.vars.length with hl | rfl | hl
    · rw [List.getElem?_append_left hl] at h
      exact hi.index i w h
    · rw [List.getElem?_append_right (by omega)] at h
      simp at h; subst h; exact hx
    · rw [List.getElem?_append_right (by omega)] at h
      obtain ⟨m, hm⟩ : ∃ m, i - db.vars.length = m + 1 := ⟨i - db.vars.length - 1, by omega⟩
      rw [hm] at h; simp at h

/-- Changing a record without touching name and index. -/
theorem inv_modify {ν : Type} {db : VDB ν} (hi : db.Inv) (k : Nat) (f : VRec ν → VRec ν)
    (h1 : ∀ v, (f v).name = v.name) (h2 : ∀ v, (f v).index = v.index) :
    (VDB.mk (db.vars.modify k f) db.iStart db.restarts).Inv ∧
      (VDB.mk (db.vars.modify k f) db.iStart db.restarts).names = db.names := by
  have hnames : (db.vars.modify k f).map (·.name) = db.vars.map (·.name) := by
    apply List.ext_getElem?
    intro n
    rw [List.getElem?_map, List.getElem?_map, List.getElem?_modify]
    cases db.vars[n]? with
    | none => rfl
    | some v => simp only [Option.map_some]; split <;> simp [h1]
  refine ⟨⟨?_, ?_⟩, hnames⟩
  · show ((db.vars.modify k f).map (·.name)).Nodup
    rw [hnames]; exact hi.nodup
  · intro i v h
    simp only [List.getElem?_modify] at h
    cases hv : db.vars[i]? with
    | none => rw [hv] at h; simp at h
    | some w =>
      rw [hv] at h
      have := hi.index i w hv
      simp only [Option.map_eq_map, Option.map_some, Option.some.injEq] at h
      subst h
      split
      · rw [h2]; exact this
      · exact this

theorem addComp_spec {db db' : VDB ν} (hi : db.Inv) {name ti descr : CStr} {nc j : Nat}
    {c : CStr} {sym : List Int} (h : db.addComp name ti descr nc j c sym = .ok db') :
    db'.Inv ∧ db.names <+: db'.names ∧ db'.restarts = db.restarts ∧ db'.iStart = db.iStart := by
  unfold VDB.addComp at h
  simp only at h
  split at h
  · split at h
    · cases h
    · cases h; exact ⟨hi, List.prefix_refl _, rfl, rfl⟩
  · rename_i hn
    cases h
    refine ⟨?_, ?_, rfl, rfl⟩
    · refine inv_append hi _ ?_ rfl
      simp only [VDB.names, List.mem_map, not_exists, not_and]
      simp only [List.any_eq_true, not_exists, not_and, decide_eq_true_eq] at hn
      exact hn
    · simp [VDB.names]

theorem addComps_spec {db db' : VDB ν} (hi : db.Inv) {name ti descr : CStr} {nc j : Nat}
    {cs : List CStr} {sym : List Int}
    (h : VDB.addComps name ti descr nc sym db j cs = .ok db') :
    db'.Inv ∧ db.names <+: db'.names ∧ db'.restarts = db.restarts ∧ db'.iStart = db.iStart := by
  induction cs generalizing db j with
  | nil => simp [VDB.addComps] at h; subst h; exact ⟨hi, List.prefix_refl _, rfl, rfl⟩
  | cons c cs ih =>
    simp only [VDB.addComps] at h
    rw [Res.bind_eq_ok] at h
    obtain ⟨db1, h1, h2⟩ := h
    obtain ⟨a, b, c', d⟩ := addComp_spec hi h1
    obtain ⟨a', b', c'', d'⟩ := ih a h2
    exact ⟨a', b.trans b', c''.trans c', d'.trans d⟩

theorem addVar_spec {db db' : VDB ν} (hi : db.Inv) {name ti descr : CStr}
    (h : db.addVar name ti descr = .ok db') :
    db'.Inv ∧ db.names <+: db'.names ∧ db'.restarts = db.restarts ∧ db'.iStart = db.iStart := by
  unfold VDB.addVar at h
  rw [Res.bind_eq_ok] at h
  obtain ⟨r, _, h2⟩ := h
  exact addComps_spec hi h2

theorem flagLoop_spec {ν : Type} {db db' : VDB ν} (hi : db.Inv) {i0 : Int} {n : Nat}
    (h : db.flagLoop i0 n = .ok db') :
    db'.Inv ∧ db'.names = db.names ∧ db'.restarts = db.restarts ∧ db'.iStart = db.iStart := by
  induction n generalizing db i0 with
  | zero => simp [VDB.flagLoop] at h; subst h; exact ⟨hi, rfl, rfl, rfl⟩
  | succ n ih =>
    simp only [VDB.flagLoop] at h
    rw [Res.bind_eq_ok] at h
    obtain ⟨v, _, h2⟩ := h
    have hm := inv_modify hi i0.toNat (fun v => { v with const := true }) (fun _ => rfl)
      (fun _ => rfl)
    obtain ⟨a, b, c, d⟩ := ih hm.1 h2
    exact ⟨a, b.trans hm.2, c, d⟩

theorem setConstantFlag_spec {ν : Type} {db db' : VDB ν} (hi : db.Inv) {name : CStr}
    (h : db.setConstantFlag name = .ok db') :
    db'.Inv ∧ db'.names = db.names ∧ db'.restarts = db.restarts ∧ db'.iStart = db.iStart := by
  unfold VDB.setConstantFlag at h
  simp only [Res.bind_eq_ok] at h
  obtain ⟨i, _, i0, _, n, _, h⟩ := h
  exact flagLoop_spec hi h

theorem dupOne_spec {db : VDB ν} (hi : db.Inv) {p : CStr} {vi : Nat} {r : VDB ν × Nat}
    (h : db.dupOne p vi = .ok r) :
    r.1.Inv ∧ db.names <+: r.1.names ∧ r.1.restarts = db.restarts ∧ r.1.iStart = db.iStart := by
  unfold VDB.dupOne at h
  rw [Res.bind_eq_ok] at h
  obtain ⟨var, hv, h⟩ := h
  simp only at h
  split at h
  · cases h; exact ⟨hi, List.prefix_refl _, rfl, rfl⟩
  · simp only [Res.bind_eq_ok] at h
    obtain ⟨db1, h1, k, h2, w, h3, h4⟩ := h
    cases h4
    obtain ⟨a, b, c, d⟩ := addVar_spec hi h1
    have hm := inv_modify a k (fun v =>
        { v with ti := w.ti, comp := w.comp, ncomp := w.ncomp, bnd := w.bnd,
                 const := w.const, sym := w.sym }) (fun _ => rfl) (fun _ => rfl)
    refine ⟨hm.1, ?_, c, d⟩
    rw [hm.2]; exact b

theorem addDuplicate_spec {db : VDB ν} (hi : db.Inv) {p : CStr} {vl : List Nat}
    {r : VDB ν × List Nat} (h : VDB.addDuplicate p db vl = .ok r) :
    r.1.Inv ∧ db.names <+: r.1.names ∧ r.1.restarts = db.restarts := by
  induction vl generalizing db r with
  | nil => simp [VDB.addDuplicate] at h; subst h; exact ⟨hi, List.prefix_refl _, rfl⟩
  | cons vi t ih =>
    simp only [VDB.addDuplicate, Res.bind_eq_ok] at h
    obtain ⟨r1, h1, s, h2, h3⟩ := h
    cases h3
    obtain ⟨a, b, c, _⟩ := dupOne_spec hi h1
    obtain ⟨a', b', c'⟩ := ih a h2
    exact ⟨a', b.trans b', c'.trans c⟩

theorem step_spec {db db' : VDB ν} (hi : db.Inv) {op : VarOp ν} (h : db.step op = .ok db') :
    db'.Inv ∧ db.names <+: db'.names := by
  cases op with
  | addVar n t d => have := addVar_spec hi h; exact ⟨this.1, this.2.1⟩
  | addConstantVar n t d =>
    simp only [VDB.step, VDB.addConstantVar, Res.bind_eq_ok] at h
    obtain ⟨db1, h1, v, h2, h3⟩ := h
    have a := addVar_spec hi h1
    have b := setConstantFlag_spec a.1 h3
    exact ⟨b.1, b.2.1 ▸ a.2.1⟩
  | addDuplicate vl p =>
    simp only [VDB.step] at h
    cases hr : VDB.addDuplicate p db vl with
    | ok r =>
      rw [hr] at h; simp at h; subst h
      have := addDuplicate_spec hi hr
      exact ⟨this.1, this.2.1⟩
    | abort => rw [hr] at h; simp at h
    | ub => rw [hr] at h; simp at h
  | setBoundaryInfo n b =>
    simp only [VDB.step, VDB.setBoundaryInfo, Res.bind_eq_ok] at h
    obtain ⟨i, h1, h2⟩ := h
    cases h2
    have hm := inv_modify hi i (fun v => { v with bnd := b }) (fun _ => rfl) (fun _ => rfl)
    exact ⟨hm.1, by rw [hm.2]; exact List.prefix_refl _⟩
  | setConstantFlag n =>
    have b := setConstantFlag_spec hi h
    exact ⟨b.1, by rw [b.2.1]; exact List.prefix_refl _⟩
  | setStart n =>
    simp only [VDB.step, VDB.setStart, Res.bind_eq_ok] at h
    obtain ⟨i, h1, h2⟩ := h
    cases h2
    exact ⟨⟨hi.nodup, hi.index⟩, List.prefix_refl _⟩
  | restart =>
    simp only [VDB.step] at h
    cases h
    exact ⟨⟨hi.nodup, hi.index⟩, List.prefix_refl _⟩

theorem run_spec {db db' : VDB ν} (hi : db.Inv) {ops : List (VarOp ν)}
    (h : db.run ops = .ok db') : db'.Inv ∧ db.names <+: db'.names := by
  induction ops generalizing db with
  | nil => simp [VDB.run] at h; subst h; exact ⟨hi, List.prefix_refl _⟩
  | cons op t ih =>
    simp only [VDB.run, Res.bind_eq_ok] at h
    obtain ⟨db1, h1, h2⟩ := h
    have a := step_spec hi h1
    have b := ih a.1 h2
    exact ⟨b.1, a.2.trans b.2⟩

end Sgrid
