import Verif.Lemmas.Variables

/-! The tensor structure of the variable data base. -/

namespace Sgrid

variable {ν : Type} [Zero ν]

/-- The fields describing the place of a variable in its tensor. -/
def VRec.key {ν : Type} (v : VRec ν) : Nat × Nat × CStr := (v.comp, v.ncomp, v.ti)

/-- The list is a sequence of complete tensors. -/
def Blocks (l : List (Nat × Nat × CStr)) : Prop :=
  ∀ (i : Nat) (v : Nat × Nat × CStr), l[i]? = some v → v.1 ≤ i ∧ v.1 < v.2.1 ∧
    ∀ k, k < v.2.1 → l[i - v.1 + k]? = some (k, v.2)

def VDB.keys {ν : Type} (db : VDB ν) : List (Nat × Nat × CStr) := db.vars.map VRec.key

theorem Blocks.nil : Blocks [] := by intro i v h; simp at h

theorem Blocks.append {a b : List (Nat × Nat × CStr)} (ha : Blocks a) (hb : Blocks b) :
    Blocks (a ++ b) := by
  intro i v h
  by_cases hi : i < a.length
  · rw [List.getElem?_append_left hi] at h
    obtain ⟨h1, h2, h3⟩ := ha i v h
    refine ⟨h1, h2, fun k hk => ?_⟩
    have := h3 k hk
    rw [List.getElem?_append_left (List.getElem?_eq_some_iff.1 this).1]
    exact this
  · rw [List.getElem?_append_right (by omega)] at h
    obtain ⟨h1, h2, h3⟩ := hb _ v h
    refine ⟨by omega, h2, fun k hk => ?_⟩
    have := h3 k hk
    rw [List.getElem?_append_right (by omega)]
    rw [show i - v.1 + k - a.length = i - a.length - v.1 + k by omega]
    exact this

theorem Blocks.flatMap {α : Type} (l : List α) (f : α → List (Nat × Nat × CStr))
    (h : ∀ x ∈ l, Blocks (f x)) : Blocks (l.flatMap f) := by
  induction l with
  | nil => exact Blocks.nil
  | cons x t ih =>
    rw [List.flatMap_cons]
    exact (h x (by simp)).append (ih fun y hy => h y (by simp [hy]))

/-- One complete tensor. -/
theorem Blocks.single (n : Nat) (ti : CStr) :
    Blocks ((List.range n).map fun k => (k, n, ti)) := by
  intro i v h
  rw [List.getElem?_map, Option.map_eq_some_iff] at h
  obtain ⟨k, hk, rfl⟩ := h
  obtain ⟨hk', rfl⟩ : i < n ∧ i = k := by
    obtain ⟨h1, h2⟩ := List.getElem?_eq_some_iff.1 hk
    rw [List.getElem_range] at h2
    exact ⟨by simpa using h1, h2⟩
  refine ⟨Nat.le_refl _, by simpa using hk', fun m hm => ?_⟩
  simp only [Nat.sub_self, Nat.zero_add] at hm ⊢
  rw [List.getElem?_map, List.getElem?_range hm]
  rfl

/-! #### AddVar -/

theorem addComp_cases {db db' : VDB ν} {name ti descr : CStr} {nc j : Nat} {c : CStr}
    {sym : List Int} (h : db.addComp name ti descr nc j c sym = .ok db') :
    (db' = db ∧ db.restarts ≠ 0) ∨ ∃ v : VRec ν, db' = { db with vars := db.vars ++ [v] } ∧
      v.key = (j, nc, ti) ∧ v.name = (name ++ c).take 99 ∧ v.const = false ∧
      v.name ∉ db.names ∧ v.index = db.vars.length := by
  unfold VDB.addComp at h
  simp only at h
  split at h
  · split at h
    · cases h
    · rename_i hr; cases h; exact .inl ⟨rfl, hr⟩
  · rename_i hn
    cases h
    refine .inr ⟨_, rfl, rfl, rfl, rfl, ?_, rfl⟩
    simp only [VDB.names, List.mem_map, not_exists, not_and]
    simp only [List.any_eq_true, not_exists, not_and, decide_eq_true_eq] at hn
    exact hn

theorem addComps_cases {db db' : VDB ν} {name ti descr : CStr} {nc j : Nat}
    {cs : List CStr} {sym : List Int}
    (h : VDB.addComps name ti descr nc sym db j cs = .ok db') :
    ∃ blk : List (VRec ν), db' = { db with vars := db.vars ++ blk } ∧ blk.length ≤ cs.length ∧
      (db.restarts = 0 → blk.length = cs.length) ∧
      (blk.length = cs.length →
        (∀ v ∈ blk, v.const = false) ∧
        blk.map VRec.key = (List.range cs.length).map fun k => (j + k, nc, ti)) := by
  induction cs generalizing db j with
  | nil =>
    simp [VDB.addComps] at h; subst h
    exact ⟨[], by simp, by simp, by simp, by simp⟩
  | cons c cs ih =>
    simp only [VDB.addComps, Res.bind_eq_ok] at h
    obtain ⟨db1, h1, h2⟩ := h
    rcases addComp_cases h1 with ⟨rfl, hr⟩ | ⟨v, rfl, hk, hn, hc, _⟩
    · obtain ⟨blk, e1, e2, e3, e4⟩ := ih h2
      refine ⟨blk, e1, by simp; omega, fun h => absurd h hr, fun h => ?_⟩
      simp at h; omega
    · obtain ⟨blk, e1, e2, e3, e4⟩ := ih h2
      refine ⟨v :: blk, ?_, by simpa using e2, fun h => by simpa using e3 h, fun h => ?_⟩
      · rw [e1]; simp
      · have hl : blk.length = cs.length := by simpa using h
        obtain ⟨g1, g2⟩ := e4 hl
        refine ⟨?_, ?_⟩
        · intro w hw
          rcases List.mem_cons.1 hw with rfl | hw
          · exact hc
          · exact g1 w hw
        · rw [List.map_cons, g2, hk, List.length_cons, List.range_succ_eq_map]
          simp only [List.map_cons, List.map_map, Nat.add_zero]
          congr 1
          apply List.map_congr_left
          intro k _
          simp; omega

/-- The number of components of an index string. -/
def ncompOf (ti : CStr) : Nat :=
  match tensorIndexList ti with
  | .ok r => r.1.length
  | _ => 0

theorem addVar_cases {db db' : VDB ν} {name ti descr : CStr}
    (h : db.addVar name ti descr = .ok db') :
    ∃ blk : List (VRec ν), db' = { db with vars := db.vars ++ blk } ∧
      (db.restarts = 0 → blk.length = ncompOf ti) ∧ 0 < ncompOf ti ∧
      (blk.length = ncompOf ti → (∀ v ∈ blk, v.const = false) ∧
        blk.map VRec.key = (List.range (ncompOf ti)).map fun k => (k, ncompOf ti, ti)) := by
  unfold VDB.addVar at h
  rw [Res.bind_eq_ok] at h
  obtain ⟨r, h1, h2⟩ := h
  obtain ⟨blk, e1, e2, e3, e4⟩ := addComps_cases h2
  have hn : ncompOf ti = r.1.length := by unfold ncompOf; rw [h1]
  refine ⟨blk, e1, by rw [hn]; exact e3, ?_, by rw [hn]; simpa using e4⟩
  rw [hn]
  unfold tensorIndexList at h1
  rw [Res.bind_eq_ok] at h1
  obtain ⟨s, _, h1⟩ := h1
  split at h1
  · cases h1
  · cases h1
    rename_i hne
    exact List.length_pos_iff.2 hne

/-! #### keys under record changes -/

theorem map_modify_same {α β : Type} (l : List α) (k : Nat) (f : α → α) (g : α → β)
    (h : ∀ v, g (f v) = g v) : (l.modify k f).map g = l.map g := by
  apply List.ext_getElem?
  intro n
  rw [List.getElem?_map, List.getElem?_map, List.getElem?_modify]
  cases l[n]? with
  | none => rfl
  | some v => simp only [Option.map_some, Option.map_eq_map]; split <;> simp [h]

theorem modify_append_at {α : Type} (a b : List α) (k : Nat) (f : α → α) :
    (a ++ b).modify (a.length + k) f = a ++ b.modify k f := by
  induction a with
  | nil => simp
  | cons x t ih =>
    rw [List.length_cons, show t.length + 1 + k = (t.length + k) + 1 by omega, List.cons_append,
      List.modify_succ_cons, ih, List.cons_append]

theorem flagLoop_keys {ν : Type} {db db' : VDB ν} {i0 : Int} {n : Nat}
    (h : db.flagLoop i0 n = .ok db') : db'.keys = db.keys := by
  induction n generalizing db i0 with
  | zero => simp [VDB.flagLoop] at h; subst h; rfl
  | succ n ih =>
    simp only [VDB.flagLoop, Res.bind_eq_ok] at h
    obtain ⟨v, _, h2⟩ := h
    rw [ih h2]
    exact map_modify_same _ _ _ _ fun _ => rfl

theorem setConstantFlag_keys {ν : Type} {db db' : VDB ν} {name : CStr}
    (h : db.setConstantFlag name = .ok db') : db'.keys = db.keys := by
  unfold VDB.setConstantFlag at h
  simp only [Res.bind_eq_ok] at h
  obtain ⟨i, _, i0, _, n, _, h⟩ := h
  exact flagLoop_keys h

/-! #### AddDuplicate -/

theorem dupOne_cases {db : VDB ν} (hi : db.Inv) {p : CStr} {vi : Nat} {r : VDB ν × Nat}
    (h : db.dupOne p vi = .ok r) :
    r.1 = db ∨ ∃ v : VRec ν, db.vars[vi]? = some v ∧ r.2 = db.vars.length ∧
      r.1.vars.length = db.vars.length + 1 ∧ r.1.keys = db.keys ++ [v.key] := by
  unfold VDB.dupOne at h
  rw [Res.bind_eq_ok] at h
  obtain ⟨var, hv, h⟩ := h
  simp only at h
  split at h
  · cases h; exact .inl rfl
  · rename_i hnone
    simp only [Res.bind_eq_ok] at h
    obtain ⟨db1, h1, k, h2, w, h3, h4⟩ := h
    cases h4
    right
    have hi1 := (addVar_spec hi h1).1
    -- the scalar that was added
    have hcomp : tensorIndexList [] = .ok ([[]], List.replicate 300 1) := by decide +kernel
    unfold VDB.addVar at h1
    rw [hcomp] at h1
    simp only [Res.bind_ok, VDB.addComps, Res.bind_eq_ok] at h1
    obtain ⟨db2, g1, g2⟩ := h1
    cases g2
    have hnot := indLax_none.1 hnone
    have hidx : db1.names[k]? = some (List.take 999 (var.name ++ p)) := by
      unfold VDB.ind at h2
      split at h2
      · rename_i j hj; cases h2; exact (indLax_some hi1).1 hj
      · cases h2
    rcases addComp_cases g1 with ⟨rfl, _⟩ | ⟨v, rfl, hk, hn, _⟩
    · exact absurd (List.mem_of_getElem? hidx) hnot
    · have hk' : k = db.vars.length := by
        simp only [VDB.names, List.map_append, List.map_cons, List.map_nil] at hidx
        rcases Nat.lt_trichotomy k db.vars.length with hl | hl | hl
        · rw [List.getElem?_append_left (by simpa using hl)] at hidx
          exact absurd (List.mem_of_getElem? hidx) hnot
        · exact hl
        · rw [List.getElem?_append_right (by simp; omega)] at hidx
          obtain ⟨m, hm⟩ : ∃ m, k - (db.vars.map (·.name)).length = m + 1 :=
            ⟨k - db.vars.length - 1, by simp; omega⟩
          rw [hm] at hidx; simp at hidx
      subst hk'
      rw [raw_nat] at hv h3
      have hvi : db.vars[vi]? = some var := by
        split at hv
        · rename_i x hx; cases hv; exact hx
        · cases hv
      have hw : w = var := by
        simp only at h3
        rw [List.getElem?_append_left (List.getElem?_eq_some_iff.1 hvi).1, hvi] at h3
        cases h3; rfl
      subst hw
      refine ⟨w, hvi, rfl, by simp, ?_⟩
      simp only [VDB.keys]
      have := modify_append_at db.vars [v] 0 (fun v =>
        { v with ti := w.ti, comp := w.comp, ncomp := w.ncomp, bnd := w.bnd,
                 const := w.const, sym := w.sym })
      rw [Nat.add_zero] at this
      rw [this]
      simp [VRec.key]

theorem addDuplicate_len {db : VDB ν} (hi : db.Inv) {p : CStr} {vl : List Nat}
    {r : VDB ν × List Nat} (h : VDB.addDuplicate p db vl = .ok r) :
    db.vars.length ≤ r.1.vars.length ∧ r.1.vars.length ≤ db.vars.length + vl.length ∧
    (r.1.vars.length = db.vars.length → r.1.keys = db.keys) ∧
    (r.1.vars.length = db.vars.length + vl.length → (∀ vi ∈ vl, vi < db.vars.length) →
      ∃ ks, r.1.keys = db.keys ++ ks ∧ ks.map some = vl.map fun vi => db.keys[vi]?) := by
  induction vl generalizing db r with
  | nil => simp [VDB.addDuplicate] at h; subst h; simp
  | cons vi t ih =>
    simp only [VDB.addDuplicate, Res.bind_eq_ok] at h
    obtain ⟨r1, h1, s, h2, h3⟩ := h
    cases h3
    have hi1 := (dupOne_spec hi h1).1
    obtain ⟨a, b, c, d⟩ := ih hi1 h2
    rcases dupOne_cases hi h1 with h0 | ⟨v, hv, -, hl, hk⟩
    · rw [h0] at a b c d
      refine ⟨a, by simp; omega, c, fun h => ?_⟩
      simp at h; omega
    · simp only
      refine ⟨by omega, by simp; omega, fun h => by omega, fun h hlt => ?_⟩
      simp only [List.length_cons] at h
      obtain ⟨ks, e1, e2⟩ := d (by omega) (fun x hx => by have := hlt x (by simp [hx]); omega)
      refine ⟨v.key :: ks, ?_, ?_⟩
      · rw [e1, hk]; simp
      · rw [List.map_cons, List.map_cons, e2]
        congr 1
        · simp [VDB.keys, hv]
        · apply List.map_congr_left
          intro x hx
          rw [hk, List.getElem?_append_left (by simpa [VDB.keys] using hlt x (by simp [hx]))]

end Sgrid
