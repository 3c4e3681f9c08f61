import Mathlib.Tactic.Linarith
import Mathlib.Data.List.Basic
import Mathlib.Algebra.BigOperators.Group.List.Basic
import Mathlib.Data.Int.Init
import Verif.Lemmas.IntList
import Verif.Spec.Storage

/-! C16: storage of variables. -/

namespace Sgrid
open Spec
variable {K : Type}

/-- Sum of a list with one entry changed. -/
theorem sum_map_modify {α : Type} (f : α → Nat) (h : α → α) : ∀ (l : List α) (i : Nat) (a : α),
    l[i]? = some a →
    ((l.modify i h).map f).sum + f a = (l.map f).sum + f (h a) := by
  intro l
  induction l with
  | nil => intro i a ha; simp at ha
  | cons x t ih =>
    intro i a ha
    cases i with
    | zero => simp at ha; subst ha; simp; omega
    | succ i => simp at ha; have := ih i a ha; simp; omega

theorem countP_set' (l : List (Option (List K))) : ∀ (i : Nat) (a p : Option (List K)),
    l[i]? = some a →
    (l.set i p).countP Option.isSome + a.isSome.toNat
      = l.countP Option.isSome + p.isSome.toNat := by
  induction l with
  | nil => intro i a p ha; simp at ha
  | cons x t ih =>
    intro i a p ha
    cases i with
    | zero =>
      simp at ha; subst ha
      cases x <;> cases p <;> simp
    | succ i =>
      simp at ha; have := ih i a p ha
      simp only [List.set_cons_succ, List.countP_cons]; omega

/-- What holds during a history: `evs` are the events so far, `nv` the size of the tables. -/
structure StInv (nb nv : Nat) (evs : List Ev) (g : SGrid K) : Prop where
  nb : g.boxes.length = nb
  tables : ∀ box ∈ g.boxes, box.v.length = nv
  sizes : ∀ (b x : Nat) (box : SBox K) (a : List K), g.boxes[b]? = some box →
    box.v[x]? = some (some a) → a.length = box.nnodes
  on : ∀ b x, (storage g b x).isSome = isOn evs b x
  count : g.nenabled = arrays g

theorem isOn_snoc (evs : List Ev) (e : Ev) (b x : Nat) :
    isOn (evs ++ [e]) b x = if e.b = b ∧ e.x = x then e.on else isOn evs b x := by
  unfold isOn
  rw [List.reverse_append, List.reverse_singleton, List.singleton_append, List.find?_cons]
  by_cases h : e.b = b ∧ e.x = x <;> simp [h]

theorem storage_setPtr (g : SGrid K) {b i : Nat} {box : SBox K} (hb : g.boxes[b]? = some box)
    (hi : i < box.v.length) (p : Option (List K)) (d : Int) (b' x : Nat) :
    storage (g.setPtr b i p d) b' x = if b = b' ∧ i = x then p else storage g b' x := by
  simp only [storage, SGrid.setPtr, List.getElem?_modify]
  by_cases h : b = b'
  · subst h
    simp only [hb]
    by_cases h' : i = x
    · subst h'; simp [hi]
    · simp [h', List.getElem?_set_ne h']
  · simp [h]

/-- One elementary switch keeps the invariant. -/
theorem setPtr_inv {nb nv : Nat} {evs : List Ev} {g : SGrid K} (h : StInv nb nv evs g)
    {b i : Nat} {box : SBox K} {old : Option (List K)}
    (hb : g.boxes[b]? = some box) (hi : box.v[i]? = some old) (p : Option (List K)) (d : Int)
    (hp : ∀ a, p = some a → a.length = box.nnodes)
    (hd : d = (p.isSome.toNat : Int) - old.isSome.toNat) :
    StInv nb nv (evs ++ [⟨b, i, p.isSome⟩]) (g.setPtr b i p d) := by
  have hil : i < box.v.length := by
    obtain ⟨hlt, _⟩ := List.getElem?_eq_some_iff.1 hi; exact hlt
  refine ⟨?_, ?_, ?_, ?_, ?_⟩
  · simpa [SGrid.setPtr] using h.nb
  · intro bx hbx
    obtain ⟨k, hk⟩ := List.mem_iff_getElem?.1 hbx
    simp only [SGrid.setPtr, List.getElem?_modify] at hk
    by_cases hbk : b = k
    · subst hbk
      simp only [hb, Option.map_eq_map, Option.map_some, if_true, Option.some.injEq] at hk
      subst hk
      simpa using h.tables box (List.mem_of_getElem? hb)
    · simp only [hbk, if_false] at hk
      simp at hk
      exact h.tables bx (List.mem_of_getElem? hk)
  · intro b' x bx a hbx hx
    simp only [SGrid.setPtr, List.getElem?_modify] at hbx
    by_cases hbk : b = b'
    · subst hbk
      simp only [hb, Option.map_eq_map, Option.map_some, if_true, Option.some.injEq] at hbx
      subst hbx
      simp only [List.getElem?_set] at hx
      by_cases hix : i = x
      · simp only [hix, if_true] at hx
        by_cases hxl : x < box.v.length
        · simp [hxl] at hx; exact hp a hx
        · simp [hxl] at hx
      · simp only [hix, if_false] at hx
        exact h.sizes b x box a hb hx
    · simp only [hbk, if_false] at hbx
      simp at hbx
      exact h.sizes b' x bx a hbx hx
  · intro b' x
    rw [storage_setPtr g hb hil, isOn_snoc]
    by_cases hh : b = b' ∧ i = x
    · simp [hh]
    · simp only [hh, if_false]; exact h.on b' x
  · have h1 := sum_map_modify (fun bx : SBox K => bx.v.countP Option.isSome)
      (fun bx => { bx with v := bx.v.set i p }) g.boxes b box hb
    have h2 := countP_set' box.v i old p hi
    have h3 := h.count
    simp only [SGrid.setPtr, arrays] at *
    rw [h3, hd]
    omega

/-- A switch to the state the variable is in already. -/
theorem same_inv {nb nv : Nat} {evs : List Ev} {g : SGrid K} (h : StInv nb nv evs g)
    {b i : Nat} (on : Bool) (hs : (storage g b i).isSome = on) :
    StInv nb nv (evs ++ [⟨b, i, on⟩]) g := by
  refine ⟨h.nb, h.tables, h.sizes, ?_, h.count⟩
  intro b' x
  rw [isOn_snoc]
  by_cases hh : b = b' ∧ i = x
  · obtain ⟨rfl, rfl⟩ := hh; simp [hs]
  · simp only [hh, if_false]; exact h.on b' x

theorem ptr_ok {nb nv : Nat} {evs : List Ev} {g : SGrid K} (h : StInv nb nv evs g)
    {b i : Nat} (hb : b < nb) (hi : i < nv) :
    ∃ box old, g.boxes[b]? = some box ∧ box.v[i]? = some old ∧ g.ptr b i = .ok (box, old) ∧
      storage g b i = old := by
  have hb' : b < g.boxes.length := by rw [h.nb]; exact hb
  have hi' : i < (g.boxes[b]).v.length := by
    rw [h.tables _ (List.getElem_mem hb')]; exact hi
  refine ⟨g.boxes[b], (g.boxes[b]).v[i], List.getElem?_eq_getElem hb',
    List.getElem?_eq_getElem hi', ?_, ?_⟩
  · simp only [SGrid.ptr, aget_ok hb', Res.bind_ok, aget_ok hi']
  · simp [storage, hb', hi']

theorem disableIn_inv {nb nv : Nat} {evs : List Ev} {g : SGrid K} (h : StInv nb nv evs g)
    {b i : Nat} (hb : b < nb) (hi : i < nv) :
    ∃ g', g.disableIn b i = .ok g' ∧ StInv nb nv (evs ++ [⟨b, i, false⟩]) g' := by
  obtain ⟨box, old, h1, h2, h3, h4⟩ := ptr_ok h hb hi
  cases old with
  | none =>
    exact ⟨g, by simp [SGrid.disableIn, h3], same_inv h false (by simp [h4])⟩
  | some a =>
    exact ⟨_, by simp only [SGrid.disableIn, h3, Res.bind_ok],
      setPtr_inv h h1 h2 none (-1) (by simp) (by simp)⟩

/-- A loop of switches. -/
theorem loop_inv {nb nv : Nat} {evs : List Ev} {g : SGrid K} (h : StInv nb nv evs g)
    (n : Nat) (body : Nat → SGrid K → Res (SGrid K)) (ev : Nat → List Ev)
    (hbody : ∀ k, k < n → ∀ evs (g : SGrid K), StInv nb nv evs g →
      ∃ g', body k g = .ok g' ∧ StInv nb nv (evs ++ ev k) g') :
    ∃ g', forN n body g = .ok g' ∧ StInv nb nv (evs ++ (List.range n).flatMap ev) g' := by
  refine forN_inv (fun k (g : SGrid K) => StInv nb nv (evs ++ (List.range k).flatMap ev) g)
    (by simpa using h) ?_
  intro k hk t ht
  obtain ⟨g', h1, h2⟩ := hbody k hk _ t ht
  exact ⟨g', h1, by rw [List.range_succ, List.flatMap_append]; simpa [List.append_assoc] using h2⟩

theorem range_flatMap_getElem {β : Type} (l : List Nat) (f : Nat → List β) :
    (List.range l.length).flatMap (fun k => f (l.getD k 0)) = l.flatMap f := by
  induction l with
  | nil => rfl
  | cons x t ih =>
    rw [List.length_cons, List.range_succ_eq_map, List.flatMap_cons, List.flatMap_map,
      List.flatMap_cons]
    simp only [List.getD_cons_zero, List.getD_cons_succ, Nat.succ_eq_add_one]
    rw [ih]

theorem flatMap_single {β : Type} (l : List Nat) (f : Nat → β) :
    l.flatMap (fun k => [f k]) = l.map f := by
  induction l with
  | nil => rfl
  | cons x t ih => simp [ih]

theorem disablecomp_inv {nb nv : Nat} {evs : List Ev} {g : SGrid K} (h : StInv nb nv evs g)
    {i : Nat} (hi : i < nv) :
    ∃ g', g.disablevarcomp i = .ok g' ∧ StInv nb nv (evs ++ allBoxes nb i false) g' := by
  have := loop_inv h nb (fun b g => g.disableIn b i) (fun b => [⟨b, i, false⟩])
    (fun b hb _ _ hg => disableIn_inv hg hb hi)
  rw [flatMap_single] at this
  rw [SGrid.disablevarcomp, h.nb]; exact this

theorem realloc_inv {nb nv m : Nat} {evs : List Ev} {g : SGrid K} (h : StInv nb nv evs g)
    (hm : nv ≤ m) : StInv nb m evs (g.reallocVars m) := by
  have hv : ∀ box ∈ g.boxes, reallocTo none box.v m
      = box.v ++ List.replicate (m - nv) none := by
    intro box hb
    have hl := h.tables box hb
    rw [reallocTo, hl, List.take_of_length_le]
    simp [hl]; omega
  have hget : ∀ b : Nat, (g.reallocVars m).boxes[b]? = (g.boxes[b]?).map fun (box : SBox K) =>
      SBox.mk box.nnodes (box.v ++ List.replicate (m - nv) none) := by
    intro b
    simp only [SGrid.reallocVars, List.getElem?_map]
    cases hb : g.boxes[b]? with
    | none => rfl
    | some box => simp [hv box (List.mem_of_getElem? hb)]
  have hx : ∀ (b x : Nat) (box : SBox K), g.boxes[b]? = some box →
      ((box.v ++ List.replicate (m - nv) none)[x]?).getD none = (box.v[x]?).getD none := by
    intro b x box hb
    rw [List.getElem?_append]
    by_cases hxl : x < box.v.length
    · simp [hxl]
    · have hn : box.v[x]? = none := List.getElem?_eq_none_iff.2 (by omega)
      simp only [hxl, if_false, List.getElem?_replicate, hn]
      by_cases h' : x - box.v.length < m - nv <;> simp [h']
  refine ⟨?_, ?_, ?_, ?_, ?_⟩
  · simpa [SGrid.reallocVars] using h.nb
  · intro bx hbx
    simp only [SGrid.reallocVars, List.mem_map] at hbx
    obtain ⟨box, hb, rfl⟩ := hbx
    simp
  · intro b x bx a hbx hxx
    rw [hget] at hbx
    obtain ⟨box, hb, rfl⟩ := Option.map_eq_some_iff.1 hbx
    have := hx b x box hb
    rw [hxx] at this
    cases hxo : box.v[x]? with
    | none => rw [hxo] at this; simp at this
    | some o =>
      rw [hxo] at this; simp at this
      exact h.sizes b x box a hb (by rw [hxo, this])
  · intro b x
    rw [← h.on b x]
    simp only [storage, hget]
    cases hb : g.boxes[b]? with
    | none => rfl
    | some box => simp only [Option.map_some]; rw [hx b x box hb]
  · have : arrays (g.reallocVars m) = arrays g := by
      simp only [arrays, SGrid.reallocVars, List.map_map]
      congr 1
      apply List.map_congr_left
      intro box hb
      simp [hv box hb, List.countP_replicate]
    rw [this]; exact h.count

theorem write_inv {nb nv : Nat} {evs : List Ev} {g : SGrid K} (h : StInv nb nv evs g)
    (b i : Nat) (f : Nat → K) : StInv nb nv evs (g.writeData b i f) := by
  have hsome : ∀ (l : List (Option (List K))) (x : Nat),
      (((l.modify i fun p => p.map fun a => a.mapIdx fun k _ => f k)[x]?).getD none).isSome
        = ((l[x]?).getD none).isSome := by
    intro l x
    rw [List.getElem?_modify]
    cases l[x]? with
    | none => simp
    | some o => by_cases hx : i = x <;> simp [hx]
  have hcount : ∀ (l : List (Option (List K))) (j : Nat),
      (l.modify j fun p => p.map fun a => a.mapIdx fun k _ => f k).countP Option.isSome
        = l.countP Option.isSome := by
    intro l
    induction l with
    | nil => intro j; simp
    | cons a t ih => intro j; cases j <;> simp [List.countP_cons, ih]
  refine ⟨?_, ?_, ?_, ?_, ?_⟩
  · simpa [SGrid.writeData] using h.nb
  · intro bx hbx
    obtain ⟨k, hk⟩ := List.mem_iff_getElem?.1 hbx
    simp only [SGrid.writeData, List.getElem?_modify] at hk
    obtain ⟨box, hb, rfl⟩ := Option.map_eq_some_iff.1 hk
    have := h.tables box (List.mem_of_getElem? hb)
    by_cases hbk : b = k <;> simp [hbk, this]
  · intro b' x bx a hbx hx
    simp only [SGrid.writeData, List.getElem?_modify] at hbx
    obtain ⟨box, hb, rfl⟩ := Option.map_eq_some_iff.1 hbx
    by_cases hbk : b = b'
    · simp only [hbk, if_true, List.getElem?_modify] at hx ⊢
      obtain ⟨o, ho, ho'⟩ := Option.map_eq_some_iff.1 hx
      by_cases hix : i = x
      · simp only [hix, if_true] at ho'
        obtain ⟨a0, ha0, rfl⟩ := Option.map_eq_some_iff.1 ho'
        subst ha0
        simpa using h.sizes b' x box a0 hb ho
      · simp only [hix, if_false] at ho'
        subst ho'
        exact h.sizes b' x box a hb ho
    · simp only [hbk, if_false] at hx ⊢
      exact h.sizes b' x box a hb hx
  · intro b' x
    rw [← h.on b' x]
    simp only [storage, SGrid.writeData, List.getElem?_modify]
    cases hb : g.boxes[b']? with
    | none => rfl
    | some box =>
      by_cases hbk : b = b'
      · simp only [hbk, if_true]; exact hsome box.v x
      · simp [hbk]
  · have : arrays (g.writeData b i f) = arrays g := by
      simp only [arrays, SGrid.writeData]
      cases hb : g.boxes[b]? with
      | none =>
        rw [List.modify_eq_self (by simpa using hb)]
      | some box =>
        have h1 := sum_map_modify (fun bx : SBox K => bx.v.countP Option.isSome)
          (fun bx => { bx with v := bx.v.modify i fun p => p.map fun a => a.mapIdx fun k _ => f k })
          g.boxes b box hb
        simp only [hcount] at h1
        omega
    rw [this]; exact h.count

variable [Zero K]

theorem enableIn_inv {nb nv : Nat} {evs : List Ev} {g : SGrid K} (h : StInv nb nv evs g)
    {b i : Nat} (hb : b < nb) (hi : i < nv) :
    ∃ g', g.enableIn b i = .ok g' ∧ StInv nb nv (evs ++ [⟨b, i, true⟩]) g' := by
  obtain ⟨box, old, h1, h2, h3, h4⟩ := ptr_ok h hb hi
  cases old with
  | some a =>
    exact ⟨g, by simp [SGrid.enableIn, h3], same_inv h true (by simp [h4])⟩
  | none =>
    exact ⟨_, by simp only [SGrid.enableIn, h3, Res.bind_ok],
      setPtr_inv h h1 h2 (some (List.replicate box.nnodes 0)) 1 (by
        intro a ha; cases ha; simp) (by simp)⟩

theorem enablecomp_inv {nb nv : Nat} {evs : List Ev} {g : SGrid K} (h : StInv nb nv evs g)
    {i : Nat} (hi : i < nv) :
    ∃ g', g.enablevarcomp i = .ok g' ∧ StInv nb nv (evs ++ allBoxes nb i true) g' := by
  have := loop_inv h nb (fun b g => g.enableIn b i) (fun b => [⟨b, i, true⟩])
    (fun b hb _ _ hg => enableIn_inv hg hb hi)
  rw [flatMap_single] at this
  rw [SGrid.enablevarcomp, h.nb]; exact this

/-- Variables in an event list of a call on all boxes exist if there is at least one box. -/
theorem mem_allBoxes {nb x : Nat} {on : Bool} (hnb : 0 < nb) : ⟨0, x, on⟩ ∈ allBoxes nb x on := by
  simp only [allBoxes, List.mem_map, List.mem_range]
  exact ⟨0, hnb, rfl⟩

/-- With no boxes nothing happens. -/
theorem storage_step_inv {nb nv : Nat} {evs : List Ev} {g : SGrid K} (hnb : 0 < nb)
    (h : StInv nb nv evs g) (o : SOp K) (hv : ∀ e ∈ events nb o, e.b < nb ∧ e.x < nv)
    (hr : ∀ m, o ≠ .realloc m) :
    ∃ g', o.step g = .ok g' ∧ StInv nb nv (evs ++ events nb o) g' := by
  cases o with
  | enableIn b i =>
    obtain ⟨h1, h2⟩ := hv ⟨b, i, true⟩ (by simp [events])
    exact enableIn_inv h h1 h2
  | disableIn b i =>
    obtain ⟨h1, h2⟩ := hv ⟨b, i, false⟩ (by simp [events])
    exact disableIn_inv h h1 h2
  | enablevarIn b i n =>
    have := loop_inv h n (fun j g => g.enableIn b (i + j)) (fun j => [⟨b, i + j, true⟩])
      (fun j hj _ _ hg => by
        obtain ⟨h1, h2⟩ := hv ⟨b, i + j, true⟩ (by simp [events]; exact hj)
        exact enableIn_inv hg h1 h2)
    rw [flatMap_single] at this; exact this
  | disablevarIn b i n =>
    have := loop_inv h n (fun j g => g.disableIn b (i + j)) (fun j => [⟨b, i + j, false⟩])
      (fun j hj _ _ hg => by
        obtain ⟨h1, h2⟩ := hv ⟨b, i + j, false⟩ (by simp [events]; exact hj)
        exact disableIn_inv hg h1 h2)
    rw [flatMap_single] at this; exact this
  | enablecomp i => exact enablecomp_inv h (hv ⟨0, i, true⟩ (mem_allBoxes hnb)).2
  | disablecomp i => exact disablecomp_inv h (hv ⟨0, i, false⟩ (mem_allBoxes hnb)).2
  | enablevar i n =>
    refine loop_inv h n (fun j g => g.enablevarcomp (i + j)) (fun j => allBoxes nb (i + j) true)
      (fun j hj _ _ hg => enablecomp_inv hg (hv ⟨0, i + j, true⟩ ?_).2)
    simp only [events, List.mem_flatMap, List.mem_range]
    exact ⟨j, hj, mem_allBoxes hnb⟩
  | disablevar i n =>
    refine loop_inv h n (fun j g => g.disablevarcomp (i + j)) (fun j => allBoxes nb (i + j) false)
      (fun j hj _ _ hg => disablecomp_inv hg (hv ⟨0, i + j, false⟩ ?_).2)
    simp only [events, List.mem_flatMap, List.mem_range]
    exact ⟨j, hj, mem_allBoxes hnb⟩
  | enablelist l =>
    have := loop_inv h l.length (fun n g => (aget l n).bind fun i => g.enablevarcomp i)
      (fun n => allBoxes nb (l.getD n 0) true)
      (fun n hn _ _ hg => by
        rw [aget_ok hn, Res.bind_ok, show l.getD n 0 = l[n] by simp [hn]]
        refine enablecomp_inv hg (hv ⟨0, l[n], true⟩ ?_).2
        simp only [events, List.mem_flatMap]
        exact ⟨l[n], List.getElem_mem hn, mem_allBoxes hnb⟩)
    rw [range_flatMap_getElem l fun i => allBoxes nb i true] at this
    exact this
  | disablelist l =>
    have := loop_inv h l.length (fun n g => (aget l n).bind fun i => g.disablevarcomp i)
      (fun n => allBoxes nb (l.getD n 0) false)
      (fun n hn _ _ hg => by
        rw [aget_ok hn, Res.bind_ok, show l.getD n 0 = l[n] by simp [hn]]
        refine disablecomp_inv hg (hv ⟨0, l[n], false⟩ ?_).2
        simp only [events, List.mem_flatMap]
        exact ⟨l[n], List.getElem_mem hn, mem_allBoxes hnb⟩)
    rw [range_flatMap_getElem l fun i => allBoxes nb i false] at this
    exact this
  | realloc m => exact absurd rfl (hr m)
  | write b i f => exact ⟨_, rfl, by simpa [events] using write_inv h b i f⟩

theorem storage_run_inv {nb : Nat} (hnb : 0 < nb) (os : List (SOp K)) : ∀ (nv : Nat) (evs : List Ev)
    (g : SGrid K), StInv nb nv evs g → Valid nb nv os →
    ∃ g' nv', SOp.run os g = .ok g' ∧ StInv nb nv' (evs ++ os.flatMap (events nb)) g' := by
  induction os with
  | nil => intro nv evs g h _; exact ⟨g, nv, rfl, by simpa using h⟩
  | cons o os ih =>
    intro nv evs g h hv
    by_cases hr : ∃ m, o = .realloc m
    · obtain ⟨m, rfl⟩ := hr
      obtain ⟨_, hm, hv'⟩ := hv
      obtain ⟨g', nv', h1, h2⟩ := ih m evs _ (realloc_inv h hm) hv'
      exact ⟨g', nv', h1, by simpa [events] using h2⟩
    · push Not at hr
      have hv1 : ∀ e ∈ events nb o, e.b < nb ∧ e.x < nv := hv.1
      have hv2 : Valid nb nv os := by
        obtain ⟨_, h2⟩ := hv
        cases o <;> first | exact h2 | exact absurd rfl (hr _)
      obtain ⟨g1, h1, h2⟩ := storage_step_inv hnb h o hv1 hr
      obtain ⟨g', nv', h3, h4⟩ := ih nv _ g1 h2 hv2
      exact ⟨g', nv', by rw [SOp.run, h1, Res.bind_ok, h3], by
        rw [List.flatMap_cons, ← List.append_assoc]; exact h4⟩

/-- C16: after every history of calls a variable has storage in a box exactly if the last call
that concerned it switched it on, and the counter is the number of arrays. -/
theorem C16_history (boxes : List (SBox K)) (nv : Nat) (hnb : 0 < boxes.length)
    (h0 : ∀ box ∈ boxes, box.v = List.replicate nv none) (os : List (SOp K))
    (hv : Valid boxes.length nv os) :
    ∃ g, SOp.run os ⟨boxes, 0⟩ = .ok g ∧
      (∀ b x, (storage g b x).isSome = isOn (os.flatMap (events boxes.length)) b x) ∧
      g.nenabled = arrays g ∧
      (∀ (b x : Nat) (box : SBox K) (a : List K), g.boxes[b]? = some box →
        storage g b x = some a → a.length = box.nnodes) := by
  have hinit : StInv boxes.length nv [] (⟨boxes, 0⟩ : SGrid K) := by
    refine ⟨rfl, fun box hb => by simp [h0 box hb], ?_, ?_, ?_⟩
    · intro b x box a hb hx
      rw [h0 box (List.mem_of_getElem? hb), List.getElem?_replicate] at hx
      by_cases h : x < nv <;> simp [h] at hx
    · intro b x
      simp only [storage, isOn]
      cases hb : boxes[b]? with
      | none => rfl
      | some box =>
        simp only [h0 box (List.mem_of_getElem? hb), List.getElem?_replicate]
        by_cases h : x < nv <;> simp [h]
    · have hz : ∀ bs : List (SBox K), (∀ box ∈ bs, box.v = List.replicate nv none) →
          (bs.map fun box => box.v.countP Option.isSome).sum = 0 := by
        intro bs
        induction bs with
        | nil => intro _; rfl
        | cons a t ih =>
          intro h
          simp [h a List.mem_cons_self, List.countP_replicate,
            ih fun box hb => h box (List.mem_cons_of_mem _ hb)]
      simp [arrays, hz boxes h0]
  obtain ⟨g, nv', h1, h2⟩ := storage_run_inv hnb os nv [] _ hinit hv
  refine ⟨g, h1, by simpa using h2.on, h2.count, ?_⟩
  intro b x box a hb hs
  simp only [storage, hb] at hs
  cases hx : box.v[x]? with
  | none => simp [hx] at hs
  | some o => simp [hx] at hs; exact h2.sizes b x box a hb (by rw [hx, hs])

/-- C16: newly enabled storage is zero and nothing else changes. -/
theorem C16_new_zero (g g' : SGrid K) (b i : Nat) (box : SBox K)
    (hb : g.boxes[b]? = some box) (hoff : box.v[i]? = some none)
    (h : g.enableIn b i = .ok g') :
    storage g' b i = some (List.replicate box.nnodes 0) ∧
    ∀ b' x, (b', x) ≠ (b, i) → storage g' b' x = storage g b' x := by
  have hbl : b < g.boxes.length := (List.getElem?_eq_some_iff.1 hb).1
  have hil : i < box.v.length := (List.getElem?_eq_some_iff.1 hoff).1
  have hbe : g.boxes[b] = box := by
    rw [List.getElem?_eq_getElem hbl] at hb; exact Option.some.inj hb
  have hie : box.v[i] = none := by
    rw [List.getElem?_eq_getElem hil] at hoff; exact Option.some.inj hoff
  simp only [SGrid.enableIn, SGrid.ptr, aget_ok hbl, Res.bind_ok, hbe, aget_ok hil, hie,
    Res.ok.injEq] at h
  subst h
  refine ⟨by rw [storage_setPtr g hb hil]; simp, fun b' x hne => ?_⟩
  rw [storage_setPtr g hb hil, if_neg]
  rintro ⟨rfl, rfl⟩; exact hne rfl

/-- C16: enabling a variable that has storage changes nothing. -/
theorem C16_twice (g : SGrid K) (b i : Nat) (hb : b < g.boxes.length)
    (hs : (storage g b i).isSome) : g.enableIn b i = .ok g := by
  simp only [storage, List.getElem?_eq_getElem hb] at hs
  cases hx : (g.boxes[b]).v[i]? with
  | none => simp [hx] at hs
  | some o =>
    cases o with
    | none => simp [hx] at hs
    | some a =>
      have : aget (g.boxes[b]).v i = .ok (some a) := by simp [aget, hx]
      simp only [SGrid.enableIn, SGrid.ptr, aget_ok hb, Res.bind_ok, this]

/-- C16: enabling a variable list keeps the data of everything that has storage already. -/
theorem C16_list_keeps_data (g g' : SGrid K) (l : List Nat) (h : g.enablevarlist l = .ok g')
    (b x : Nat) (a : List K) (hs : storage g b x = some a) : storage g' b x = some a := by
  have hstep : ∀ (g g' : SGrid K) (b' i : Nat), storage g b x = some a →
      g.enableIn b' i = .ok g' → storage g' b x = some a := by
    intro g g' b' i hs h
    rw [SGrid.enableIn, Res.bind_eq_ok] at h
    obtain ⟨⟨box, old⟩, h1, h2⟩ := h
    rw [SGrid.ptr, Res.bind_eq_ok] at h1
    obtain ⟨box', h3, h4⟩ := h1
    rw [Res.bind_eq_ok] at h4
    obtain ⟨p, h5, h6⟩ := h4
    cases h6
    cases old with
    | some c => cases h2; exact hs
    | none =>
      cases h2
      have e1 : g.boxes[b']? = some box := by
        unfold aget at h3; split at h3 <;> simp_all
      have e2 : box.v[i]? = some none := by
        unfold aget at h5; split at h5 <;> simp_all
      rw [storage_setPtr g e1 (List.getElem?_eq_some_iff.1 e2).1, if_neg, hs]
      rintro ⟨rfl, rfl⟩
      simp [storage, e1, e2] at hs
  refine forN_inv_ok (fun _ g => storage g b x = some a) hs ?_ h
  intro n hn u u' hu hb
  rw [aget_ok hn, Res.bind_ok] at hb
  exact forN_inv_ok (fun _ g => storage g b x = some a) hu
    (fun k _ w w' hw hwb => hstep w w' k _ hw hwb) hb

/-- Two boxes with 2 and 1 points, two variables. -/
def exGrid : SGrid Int := ⟨[⟨2, [none, none]⟩, ⟨1, [none, none]⟩], 0⟩

example : SOp.run [.enablelist [1, 0], .write 0 1 (fun k => (k : Int) + 5), .enablecomp 1, .disableIn 1 0,
    .realloc 3, .enablevar 1 2, .disablecomp 0] exGrid
    = .ok ⟨[⟨2, [none, some [5, 6], some [0, 0]]⟩, ⟨1, [none, some [0], some [0]]⟩], 4⟩ := by
  decide +kernel
example : (SOp.run [.enablecomp 2] exGrid) = .ub := by decide +kernel

/-- Shrinking the tables (which the code never does, see DESIGN.md) would lose arrays while the
counter still counts them. -/
example : (SOp.run [.enablecomp 1, .realloc 1] exGrid).map (fun g => (g.nenabled, arrays g))
    = .ok (2, 0) := by decide +kernel

end Sgrid
