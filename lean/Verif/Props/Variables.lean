import Verif.Lemmas.VarBlocks

/-!
Properties C12 (variable data base) and C61 (constant flag).
-/

namespace Sgrid

variable {ν : Type} [Zero ν]

/-- **C12**, names and indices. After any history of calls that does not abort, whatever the
search hint: `Ind(VarName(i)) = i` for every variable, `Ind(name)` only answers with the
variable of that name, names are distinct, and asking for anything else aborts. -/
theorem C12_names (ops : List (VarOp ν)) (db : VDB ν) (h : (VDB.init ν).run ops = .ok db) :
    (∀ i : Nat, i < db.vars.length → ∃ n, db.varName i = .ok n ∧ db.ind n = .ok i) ∧
    (∀ n i, db.ind n = .ok i → db.varName i = .ok n) ∧
    (∀ i : Int, i < 0 ∨ i ≥ db.vars.length → db.varName i = .abort) ∧
    (∀ (i j : Nat) n, db.varName i = .ok n → db.varName j = .ok n → i = j) ∧
    ∀ n, (∀ i : Nat, db.varName i ≠ .ok n) → db.ind n = .abort := by
  have hi := (run_spec VDB.init_inv h).1
  have hvn : ∀ (i : Nat) n, db.varName i = .ok n ↔ db.names[i]? = some n := by
    intro i n
    unfold VDB.varName VDB.names
    rw [List.getElem?_map]
    by_cases hl : i < db.vars.length
    · rw [if_neg (by omega)]
      simp only [Int.toNat_natCast]
      rw [List.getElem?_eq_getElem hl]
      simp
    · rw [if_pos (by omega), List.getElem?_eq_none (by omega)]
      simp
  have hind : ∀ n (i : Nat), db.ind n = .ok i ↔ db.names[i]? = some n := by
    intro n i
    rw [← indLax_some hi]
    unfold VDB.ind
    split <;> simp_all
  refine ⟨?_, ?_, ?_, ?_, ?_⟩
  · intro i hl
    have hl' : i < db.names.length := by simpa [VDB.names] using hl
    exact ⟨db.names[i], (hvn _ _).2 (List.getElem?_eq_getElem hl'),
      (hind _ _).2 (List.getElem?_eq_getElem hl')⟩
  · intro n i h1
    exact (hvn i n).2 ((hind n i).1 h1)
  · intro i hl
    unfold VDB.varName
    rw [if_pos hl]
  · intro i j n h1 h2
    have a := (hind n i).2 ((hvn i n).1 h1)
    have b := (hind n j).2 ((hvn j n).1 h2)
    rw [a] at b; cases b; rfl
  · intro n hno
    have : n ∉ db.names := by
      intro hm
      obtain ⟨i, hh⟩ := List.mem_iff_getElem?.1 hm
      exact hno i ((hvn i n).2 hh)
    unfold VDB.ind
    rw [indLax_none.2 this]

/-- **C12**, stability: indices already handed out keep their meaning under any further
calls. -/
theorem C12_stable (ops ops' : List (VarOp ν)) (db db' : VDB ν)
    (h : (VDB.init ν).run ops = .ok db) (h' : db.run ops' = .ok db') (n : CStr) (i : Nat)
    (hn : db.ind n = .ok i) : db'.ind n = .ok i := by
  have hi := (run_spec VDB.init_inv h).1
  have hr := run_spec hi h'
  have : db.names[i]? = some n := by
    rw [← indLax_some hi]; unfold VDB.ind at hn; split at hn <;> simp_all
  obtain ⟨t, ht⟩ := hr.2
  have h2 : db'.names[i]? = some n := by
    rw [← ht, List.getElem?_append_left (List.getElem?_eq_some_iff.1 this).1]; exact this
  have := (indLax_some hr.1).2 h2
  unfold VDB.ind; rw [this]

/-- The list consists of all components of some tensors, in order. -/
def WholeTensors {ν : Type} (db : VDB ν) (vl : List Nat) : Prop :=
  ∃ bs : List (Nat × Nat),
    (∀ p ∈ bs, ∃ v, db.vars[p.1]? = some v ∧ v.comp = 0 ∧ v.ncomp = p.2) ∧
    vl = bs.flatMap fun p => (List.range p.2).map (p.1 + ·)

/-- What a call must satisfy for the tensor structure to survive: AddVar adds all its
components or (in a restart) none, AddDuplicate is called with complete tensors and adds all
or none of its variables. -/
def GoodStep {ν : Type} (db db' : VDB ν) : VarOp ν → Prop
  | .addVar _ t _ | .addConstantVar _ t _ =>
    db'.vars.length = db.vars.length + ncompOf t ∨ db'.vars.length = db.vars.length
  | .addDuplicate vl _ => WholeTensors db vl ∧
    (db'.vars.length = db.vars.length + vl.length ∨ db'.vars.length = db.vars.length)
  | _ => True

/-- Every call of the history satisfies `GoodStep`. -/
def GoodRun (db : VDB ν) : List (VarOp ν) → Prop
  | [] => True
  | op :: ops => ∀ db', db.step op = .ok db' → GoodStep db db' op ∧ GoodRun db' ops

theorem step_blocks {db db' : VDB ν} (hi : db.Inv) (hb : Blocks db.keys) {op : VarOp ν}
    (h : db.step op = .ok db') (hg : GoodStep db db' op) : Blocks db'.keys := by
  have addVar_blocks : ∀ {n t d db1}, db.addVar n t d = .ok db1 →
      (db1.vars.length = db.vars.length + ncompOf t ∨ db1.vars.length = db.vars.length) →
      Blocks db1.keys := by
    intro n t d db1 h1 hg
    obtain ⟨blk, rfl, _, _, e⟩ := addVar_cases h1
    simp only [List.length_append] at hg
    rcases hg with hg | hg
    · have := (e (by omega)).2
      simp only [VDB.keys, List.map_append]
      rw [this]
      exact hb.append (Blocks.single _ _)
    · have : blk = [] := List.length_eq_zero_iff.1 (by omega)
      subst this
      simpa [VDB.keys] using hb
  cases op with
  | addVar n t d => exact addVar_blocks h hg
  | addConstantVar n t d =>
    simp only [VDB.step, VDB.addConstantVar, Res.bind_eq_ok] at h
    obtain ⟨db1, h1, v, h2, h3⟩ := h
    have hk := setConstantFlag_keys h3
    have hl : db'.vars.length = db1.vars.length := by
      have := congrArg List.length hk; simpa [VDB.keys] using this
    rw [hk]
    refine addVar_blocks h1 ?_
    rw [← hl]; exact hg
  | addDuplicate vl p =>
    simp only [VDB.step] at h
    cases hr : VDB.addDuplicate p db vl with
    | abort => rw [hr] at h; simp at h
    | ub => rw [hr] at h; simp at h
    | ok r =>
      rw [hr] at h; simp at h; subst h
      obtain ⟨a, b, c, d⟩ := addDuplicate_len hi hr
      obtain ⟨⟨bs, hbs, hvl⟩, hg⟩ := hg
      rcases hg with hg | hg
      · have whole : ∀ p ∈ bs, ∃ ti, ∀ k, k < p.2 → db.keys[p.1 + k]? = some (k, p.2, ti) := by
          intro q hq
          obtain ⟨v, h1, h2, h3⟩ := hbs q hq
          have hk : db.keys[q.1]? = some v.key := by simp [VDB.keys, h1]
          obtain ⟨_, _, e⟩ := hb q.1 v.key hk
          refine ⟨v.ti, fun k hk => ?_⟩
          have := e k (by simpa [VRec.key, h3] using hk)
          simpa [VRec.key, h2, h3] using this
        obtain ⟨ks, e1, e2⟩ := d hg (by
          intro vi hvi
          rw [hvl, List.mem_flatMap] at hvi
          obtain ⟨q, hq, hvi⟩ := hvi
          obtain ⟨k, hk, rfl⟩ := List.mem_map.1 hvi
          obtain ⟨ti, e⟩ := whole q hq
          have := (List.getElem?_eq_some_iff.1 (e k (List.mem_range.1 hk))).1
          simpa [VDB.keys] using this)
        rw [e1]
        refine hb.append ?_
        -- the new keys are those of complete tensors
        have : ∃ f : Nat × Nat → CStr,
            ks = bs.flatMap fun q => (List.range q.2).map fun k => (k, q.2, f q) := by
          classical
          refine ⟨fun q => if hq : q ∈ bs then (whole q hq).choose else [], ?_⟩
          have hinj : ∀ a b : List (Nat × Nat × CStr), a.map some = b.map some → a = b := by
            intro a b hab
            exact (List.map_injective_iff.2 (fun _ _ h => Option.some.inj h)) hab
          apply hinj
          rw [e2, hvl, List.map_flatMap, List.map_flatMap]
          have hcongr : ∀ (l : List (Nat × Nat)), (∀ q ∈ l, q ∈ bs) →
              l.flatMap (fun q => ((List.range q.2).map (q.1 + ·)).map fun vi => db.keys[vi]?) =
              l.flatMap (fun q => ((List.range q.2).map fun k => (k, q.2,
                if hq : q ∈ bs then (whole q hq).choose else [])).map some) := by
            intro l
            induction l with
            | nil => intro _; rfl
            | cons q t ih =>
              intro hl
              rw [List.flatMap_cons, List.flatMap_cons, ih fun x hx => hl x (by simp [hx])]
              congr 1
              rw [List.map_map, List.map_map]
              apply List.map_congr_left
              intro k hk
              have hq := hl q (by simp)
              simp only [Function.comp, hq, dif_pos]
              exact (whole q hq).choose_spec k (List.mem_range.1 hk)
          exact hcongr bs fun q hq => hq
        obtain ⟨f, hf⟩ := this
        rw [hf]
        exact Blocks.flatMap _ _ fun q _ => Blocks.single _ _
      · rw [c hg]; exact hb
  | setBoundaryInfo n b =>
    simp only [VDB.step, VDB.setBoundaryInfo, Res.bind_eq_ok] at h
    obtain ⟨i, h1, h2⟩ := h
    cases h2
    have : ({ db with vars := db.vars.modify i fun v => { v with bnd := b } } : VDB ν).keys =
      db.keys := map_modify_same _ _ _ _ fun _ => rfl
    rw [this]; exact hb
  | setConstantFlag n => rw [setConstantFlag_keys h]; exact hb
  | setStart n =>
    simp only [VDB.step, VDB.setStart, Res.bind_eq_ok] at h
    obtain ⟨i, h1, h2⟩ := h
    cases h2; exact hb
  | restart => simp only [VDB.step] at h; cases h; exact hb

theorem run_blocks {db db' : VDB ν} (hi : db.Inv) (hb : Blocks db.keys) {ops : List (VarOp ν)}
    (h : db.run ops = .ok db') (hg : GoodRun db ops) : Blocks db'.keys := by
  induction ops generalizing db with
  | nil => simp [VDB.run] at h; subst h; exact hb
  | cons op t ih =>
    simp only [VDB.run, Res.bind_eq_ok] at h
    obtain ⟨db1, h1, h2⟩ := h
    have := hg db1 h1
    exact ih (step_spec hi h1).1 (step_blocks hi hb h1 this.1) h2 this.2

/-- **C12**, tensor structure, for histories in which AddDuplicate is only called with complete
tensors and no call adds a part of its variables (see `C12_components_counterexample`). For
every variable `i` there are the index `i0 ≤ i` of the first component of its tensor and the
number `n` of components such that the `n` variables from `i0` on are components 0..n-1 of a
tensor with the same index string, and `IndComponent0` and `VarNComponents` return `i0` and
`n` for each of them. -/
theorem C12_components_partial (ops : List (VarOp ν)) (db : VDB ν)
    (h : (VDB.init ν).run ops = .ok db) (hg : GoodRun (VDB.init ν) ops)
    (i : Nat) (hl : i < db.vars.length) :
    ∃ (i0 n : Nat) (ti : CStr), i0 ≤ i ∧ i < i0 + n ∧ ∀ k, k < n →
      (∃ v, db.vars[i0 + k]? = some v ∧ v.comp = k ∧ v.ti = ti) ∧
      db.indComponent0 (i0 + k : Nat) = .ok i0 ∧ db.varNComponents (i0 + k : Nat) = .ok n := by
  have hb := run_blocks VDB.init_inv Blocks.nil h hg
  have hk : db.keys[i]? = some (db.vars[i]).key := by
    simp [VDB.keys, List.getElem?_eq_getElem hl]
  obtain ⟨h1, h2, h3⟩ := hb i _ hk
  refine ⟨i - (db.vars[i]).comp, (db.vars[i]).ncomp, (db.vars[i]).ti, Nat.sub_le _ _, ?_, ?_⟩
  · simp only [VRec.key] at h1 h2; omega
  · have get : ∀ k, k < (db.vars[i]).ncomp → ∃ v, db.vars[i - (db.vars[i]).comp + k]? = some v ∧
        v.comp = k ∧ v.ncomp = (db.vars[i]).ncomp ∧ v.ti = (db.vars[i]).ti := by
      intro k hk
      have := h3 k hk
      simp only [VDB.keys, List.getElem?_map, Option.map_eq_some_iff] at this
      obtain ⟨v, hv, he⟩ := this
      simp only [VRec.key, Prod.mk.injEq] at he
      exact ⟨v, hv, he.1, he.2.1, he.2.2⟩
    intro k hk
    obtain ⟨v, g1, g2, g3, g4⟩ := get k hk
    have hlt := (List.getElem?_eq_some_iff.1 g1).1
    have hind : db.indComponent0 ((i - (db.vars[i]).comp + k : Nat) : Int) =
        .ok ((i - (db.vars[i]).comp : Nat) : Int) := by
      unfold VDB.indComponent0
      rw [raw_nat, g1]
      simp only [Res.bind_ok, g2]
      congr 1
      omega
    refine ⟨⟨v, g1, g2, g4⟩, hind, ?_⟩
    unfold VDB.varNComponents
    rw [if_neg (by omega), hind, raw_nat, g1]
    simp only [Res.bind_ok]
    split
    · obtain ⟨w, w1, w2, w3, w4⟩ := get 0 (by omega)
      rw [raw_nat]
      rw [Nat.add_zero] at w1
      rw [w1]
      simp [w3]
    · rw [g3]

/-- Histories of AddVar, AddConstantVar, boundary info and search hint calls in a first run
need no further condition. -/
theorem C12_components_first_run (ops : List (VarOp ν))
    (hops : ∀ op ∈ ops, (∀ vl p, op ≠ .addDuplicate vl p) ∧ op ≠ .restart) :
    GoodRun (VDB.init ν) ops := by
  have gen : ∀ (ops : List (VarOp ν)) (db : VDB ν), db.restarts = 0 →
      (∀ op ∈ ops, (∀ vl p, op ≠ .addDuplicate vl p) ∧ op ≠ .restart) → GoodRun db ops := by
    intro ops
    induction ops with
    | nil => intros; trivial
    | cons op t ih =>
      intro db hr hops db' hs
      have h0 := hops op (by simp)
      have ht := fun o (ho : o ∈ t) => hops o (by simp [ho])
      cases op with
      | addVar n ti d =>
        obtain ⟨blk, rfl, e, _⟩ := addVar_cases hs
        refine ⟨.inl ?_, ih _ hr ht⟩
        simp [e hr]
      | addConstantVar n ti d =>
        simp only [VDB.step, VDB.addConstantVar, Res.bind_eq_ok] at hs
        obtain ⟨db1, h1, v, h2, h3⟩ := hs
        have hk := setConstantFlag_keys h3
        have hl : db'.vars.length = db1.vars.length := by
          have := congrArg List.length hk; simpa [VDB.keys] using this
        obtain ⟨blk, rfl, e, _⟩ := addVar_cases h1
        have hr' : db'.restarts = db.restarts := by
          unfold VDB.setConstantFlag at h3
          simp only [Res.bind_eq_ok] at h3
          obtain ⟨i, _, i0, _, n, _, h3⟩ := h3
          have : ∀ (n : Nat) (d d' : VDB ν) (i0 : Int), d.flagLoop i0 n = .ok d' →
              d'.restarts = d.restarts := by
            intro n
            induction n with
            | zero => intro d d' i0 h; simp [VDB.flagLoop] at h; rw [h]
            | succ n ih =>
              intro d d' i0 h
              simp only [VDB.flagLoop, Res.bind_eq_ok] at h
              obtain ⟨_, _, h⟩ := h
              rw [ih _ _ _ h]
          rw [this _ _ _ _ h3]
        refine ⟨.inl ?_, ih _ (hr'.trans hr) ht⟩
        rw [hl]; simp [e hr]
      | addDuplicate vl p => exact absurd rfl (h0.1 vl p)
      | setBoundaryInfo n b =>
        simp only [VDB.step, VDB.setBoundaryInfo, Res.bind_eq_ok] at hs
        obtain ⟨i, _, h2⟩ := hs
        cases h2
        exact ⟨trivial, ih _ hr ht⟩
      | setConstantFlag n =>
        refine ⟨trivial, ih _ ?_ ht⟩
        simp only [VDB.step, VDB.setConstantFlag, Res.bind_eq_ok] at hs
        obtain ⟨i, _, i0, _, n, _, h3⟩ := hs
        have : ∀ (n : Nat) (d d' : VDB ν) (i0 : Int), d.flagLoop i0 n = .ok d' →
            d'.restarts = d.restarts := by
          intro n
          induction n with
          | zero => intro d d' i0 h; simp [VDB.flagLoop] at h; rw [h]
          | succ n ih =>
            intro d d' i0 h
            simp only [VDB.flagLoop, Res.bind_eq_ok] at h
            obtain ⟨_, _, h⟩ := h
            rw [ih _ _ _ h]
        rw [this _ _ _ _ h3]; exact hr
      | setStart n =>
        simp only [VDB.step, VDB.setStart, Res.bind_eq_ok] at hs
        obtain ⟨i, _, h2⟩ := hs
        cases h2
        exact ⟨trivial, ih _ hr ht⟩
      | restart => exact absurd rfl h0.2
  exact gen ops _ rfl hops

/-- Example history. -/
def exVars : List (VarOp Int) :=
  [.addVar "g".toList "(ij)".toList [], .addConstantVar "psi".toList [] [],
   .addVar "b".toList "I".toList [], .setStart "gxy".toList,
   .addDuplicate [7, 8, 9, 6] "_p".toList]

example : ((VDB.init Int).run exVars).map (fun db => db.names.map String.ofList) =
    .ok ["gxx", "gxy", "gxz", "gyy", "gyz", "gzz", "psi", "bx", "by", "bz",
      "bx_p", "by_p", "bz_p", "psi_p"] := by decide +kernel

example : ((VDB.init Int).run exVars).bind (fun db => (db.ind "bz_p".toList).bind fun i =>
    (db.indComponent0 i).bind fun i0 => db.varName i0) = .ok "bx_p".toList := by decide +kernel

/-- **C12** fails for AddDuplicate of a single component: the duplicate of `by` claims to
belong to a tensor starting at `bz`. -/
theorem C12_components_counterexample :
    ((VDB.init Int).run [.addVar "b".toList "I".toList [], .addDuplicate [1] "_p".toList]).bind
      (fun db => (db.ind "by_p".toList).bind fun i => (db.indComponent0 i).bind fun i0 =>
        db.varName i0) = .ok "bz".toList := by decide +kernel

/-! #### C61: constant flag -/

theorem flagLoop_marks {ν : Type} (a b : List (VRec ν)) (s r : Nat) :
    VDB.flagLoop ⟨a ++ b, s, r⟩ a.length b.length =
      .ok ⟨a ++ b.map (fun v => { v with const := true }), s, r⟩ := by
  induction b generalizing a with
  | nil => simp [VDB.flagLoop]
  | cons v t ih =>
    simp only [List.length_cons, VDB.flagLoop]
    rw [raw_nat]
    have : (a ++ v :: t)[a.length]? = some v := by simp
    simp only [this, Res.bind_ok, Int.toNat_natCast]
    have hm := modify_append_at a (v :: t) 0 (fun v => { v with const := true })
    rw [Nat.add_zero] at hm
    rw [hm]
    simp only [List.modify_zero_cons]
    have := ih (a ++ [{ v with const := true }])
    simpa using this

/-- **C61** in a first run: AddConstantVar adds all components of the variable, marks each of
them as constant, and changes no other variable. -/
theorem C61_constant_flag_partial (ops : List (VarOp ν)) (db db' : VDB ν)
    (h : (VDB.init ν).run ops = .ok db) (hr : db.restarts = 0) (name ti descr : CStr)
    (h' : db.addConstantVar name ti descr = .ok db') :
    ∃ blk : List (VRec ν), db'.vars = db.vars ++ blk ∧ blk.length = ncompOf ti ∧
      ∀ v ∈ blk, v.const = true := by
  have hi := (run_spec VDB.init_inv h).1
  simp only [VDB.addConstantVar, Res.bind_eq_ok] at h'
  obtain ⟨db1, h1, w, h2, h3⟩ := h'
  have hi1 := (addVar_spec hi h1).1
  obtain ⟨blk, rfl, e1, e2, e3⟩ := addVar_cases h1
  have hl := e1 hr
  obtain ⟨_, hk⟩ := e3 hl
  -- the last variable
  have hpos : 0 < blk.length := by omega
  simp only at h2
  rw [show ((db.vars ++ blk).length : Int) - 1 = ((db.vars.length + (blk.length - 1) : Nat) : Int) by
    simp; omega, raw_nat] at h2
  have hlast : (db.vars ++ blk)[db.vars.length + (blk.length - 1)]? = blk[blk.length - 1]? := by
    rw [List.getElem?_append_right (by omega)]; congr 1; omega
  simp only at h2
  rw [hlast] at h2
  have hw : blk[blk.length - 1]? = some w := by
    split at h2
    · rename_i x hx; cases h2; exact hx
    · cases h2
  have hwk : w.key = (ncompOf ti - 1, ncompOf ti, ti) := by
    have : (blk.map VRec.key)[blk.length - 1]? = some w.key := by
      rw [List.getElem?_map, hw]; rfl
    rw [hk, List.getElem?_map, List.getElem?_range (by omega)] at this
    simp only [Option.map_some, Option.some.injEq] at this
    rw [← this, hl]
  have hkey0 : ∀ v, blk[0]? = some v → v.comp = 0 ∧ v.ncomp = ncompOf ti := by
    intro v hv
    have : (blk.map VRec.key)[0]? = some v.key := by rw [List.getElem?_map, hv]; rfl
    rw [hk, List.getElem?_map, List.getElem?_range (by omega)] at this
    simp only [Option.map_some, Option.some.injEq, VRec.key, Prod.mk.injEq] at this
    exact ⟨this.1.symm, this.2.1.symm⟩
  simp only [VRec.key, Prod.mk.injEq] at hwk
  obtain ⟨v0, hv0⟩ : ∃ v, blk[0]? = some v := ⟨_, List.getElem?_eq_getElem hpos⟩
  unfold VDB.setConstantFlag at h3
  have hind : (VDB.mk (db.vars ++ blk) db.iStart db.restarts).ind w.name =
      .ok (db.vars.length + (blk.length - 1)) := by
    have : (VDB.mk (db.vars ++ blk) db.iStart db.restarts).names[db.vars.length +
        (blk.length - 1)]? = some w.name := by
      simp only [VDB.names, List.getElem?_map]
      rw [hlast, hw]; rfl
    unfold VDB.ind
    rw [(indLax_some hi1).2 this]
  rw [hind, Res.bind_ok] at h3
  have hic : (VDB.mk (db.vars ++ blk) db.iStart db.restarts).indComponent0
      ((db.vars.length + (blk.length - 1) : Nat) : Int) = .ok (db.vars.length : Int) := by
    unfold VDB.indComponent0
    rw [raw_nat]
    simp only [hlast, hw, Res.bind_ok, hwk.1]
    congr 1
    omega
  rw [hic, Res.bind_ok] at h3
  have hfirst : (db.vars ++ blk)[db.vars.length]? = some v0 := by
    rw [List.getElem?_append_right (Nat.le_refl _), Nat.sub_self]; exact hv0
  have hnc : (VDB.mk (db.vars ++ blk) db.iStart db.restarts).varNComponents
      (db.vars.length : Int) = .ok blk.length := by
    unfold VDB.varNComponents
    rw [if_neg (by simp; omega), raw_nat]
    simp only [hfirst, Res.bind_ok]
    rw [if_neg (by simp [(hkey0 v0 hv0).1]), (hkey0 v0 hv0).2, hl]
  rw [hnc, Res.bind_ok, flagLoop_marks] at h3
  cases h3
  refine ⟨_, rfl, by simpa using hl, ?_⟩
  intro v hv
  obtain ⟨u, _, rfl⟩ := List.mem_map.1 hv
  rfl

/-- **C61** fails in a restart: calling AddConstantVar again for the constant `psi` marks the
evolved variable `u`, which happens to be the last one, as constant. -/
theorem C61_counterexample :
    ((VDB.init Int).run [.addConstantVar "psi".toList [] [], .addVar "u".toList [] [], .restart,
      .addConstantVar "psi".toList [] []]).map
      (fun db => db.vars.map fun v => (String.ofList v.name, v.const)) =
    .ok [("psi", true), ("u", true)] := by decide +kernel

end Sgrid
