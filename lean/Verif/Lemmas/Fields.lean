import Mathlib.Algebra.Module.Pi
import Mathlib.Algebra.BigOperators.Group.Finset.Basic
import Mathlib.Data.Finset.Range
import Verif.Props.VarArith
import Verif.Model.RungeKutta

/-!
Variable lists as vectors: for a family of lists without common variables, every list is one field
(a value for each box, component and point), and list arithmetic is arithmetic of fields.
-/

namespace Sgrid

/-- A value for each box, component and point. -/
abbrev Fld (K : Type) := Nat → Nat → Nat → K

/-- Number of components and the points of the active boxes. -/
structure Dom where
  n : Nat
  live : Nat → Nat → Prop

variable {K : Type}

open Classical in
/-- A field cut off outside the active boxes and behind the last component. -/
noncomputable def Dom.mask [Zero K] (D : Dom) (φ : Fld K) : Fld K :=
  fun b n i => if n < D.n ∧ D.live b i then φ b n i else 0

/-- The lists in `S` have the same number of components, storage in all active boxes, no repeated
variable and no common variables; every box has points. -/
structure DState.Family (st : DState K) (S : List Nat) (D : Dom) : Prop where
  pts : ∀ box ∈ st.boxes, 0 < box.nnodes
  live : ∀ b i, st.Live b i ↔ D.live b i
  len : ∀ l ∈ S, (st.vl l).index.length = D.n
  nodup : ∀ l ∈ S, (st.vl l).index.Nodup
  stored : ∀ l ∈ S, st.Stored l
  apart : ∀ l ∈ S, ∀ l' ∈ S, l ≠ l' → ∀ x ∈ (st.vl l).index, x ∉ (st.vl l').index

/-- The field of a list in the active boxes. -/
noncomputable def DState.fld [Zero K] (st : DState K) (D : Dom) (l : Nat) : Fld K :=
  D.mask fun b n i => st.compVal (some l) b n i

theorem Dom.mask_mask [Zero K] (D : Dom) (φ : Fld K) : D.mask (D.mask φ) = D.mask φ := by
  funext b n i
  simp only [Dom.mask]
  split <;> simp_all

theorem fld_mask [Zero K] (st : DState K) (D : Dom) (l : Nat) : D.mask (st.fld D l) = st.fld D l :=
  D.mask_mask _

theorem Dom.mask_eq [Zero K] (D : Dom) {φ ψ : Fld K}
    (h : ∀ b n i, n < D.n → D.live b i → φ b n i = ψ b n i) : D.mask φ = D.mask ψ := by
  funext b n i
  simp only [Dom.mask]
  split
  · next hh => exact h b n i hh.1 hh.2
  · rfl

theorem DState.Family.operand {st : DState K} {S : List Nat} {D : Dom} (h : st.Family S D) {r l : Nat}
    (hr : r ∈ S) (hl : l ∈ S) : st.Operand r l := by
  by_cases he : r = l
  · subst he; exact DState.Operand.self (h.nodup r hr) (h.stored r hr)
  · exact DState.Operand.of_disjoint (h.stored l hl) (by rw [h.len r hr, h.len l hl])
      (h.apart r hr l hl he)

theorem live_of_shape {st st' : DState K}
    (h : st'.boxes.map (fun b => (b.nnodes, b.inactive)) =
      st.boxes.map (fun b => (b.nnodes, b.inactive))) (b i : Nat) : st'.Live b i ↔ st.Live b i := by
  have hb := congrArg (fun l => l[b]?) h
  simp only [List.getElem?_map] at hb
  unfold DState.Live
  cases h1 : st'.boxes[b]? with
  | none =>
    cases h2 : st.boxes[b]? with
    | none => simp
    | some y => rw [h1, h2] at hb; cases hb
  | some x =>
    cases h2 : st.boxes[b]? with
    | none => rw [h1, h2] at hb; cases hb
    | some y =>
      rw [h1, h2] at hb
      simp only [Option.map_some, Option.some.injEq, Prod.mk.injEq] at hb
      simp [hb.1, hb.2]

/-- What an assignment to one list of the family does to all of them. -/
theorem DState.Family.assign [Zero K] {st st' : DState K} {S : List Nat} {D : Dom} (h : st.Family S D)
    {r : Nat} (hr : r ∈ S) {new : Fld K} {t : K} (hA : Spec.Assigned st st' r new t) :
    st'.Family S D ∧ st'.fld D r = D.mask new ∧ (st'.vl r).time = t ∧
      ∀ l ∈ S, l ≠ r → st'.fld D l = st.fld D l ∧ (st'.vl l).time = (st.vl l).time := by
  have hlive := live_of_shape hA.shape
  have hboxes : ∀ box' ∈ st'.boxes, ∃ (b : Nat) (box : DBox K), st'.boxes[b]? = some box' ∧
      st.boxes[b]? = some box ∧ box'.nnodes = box.nnodes ∧ box'.inactive = box.inactive := by
    intro box' hb'
    obtain ⟨b, hb⟩ := List.mem_iff_getElem?.1 hb'
    have h1 := congrArg (fun l => l[b]?) hA.shape
    simp only [List.getElem?_map, hb, Option.map_some] at h1
    obtain ⟨box, h2, h3⟩ := Option.map_eq_some_iff.1 h1.symm
    simp only [Prod.mk.injEq] at h3
    exact ⟨b, box, hb, h2, h3.1.symm, h3.2.symm⟩
  refine ⟨⟨?_, fun b i => (hlive b i).trans (h.live b i), fun l hl => by rw [hA.index, h.len l hl],
    fun l hl => by rw [hA.index]; exact h.nodup l hl, ?_,
    fun l hl l' hl' hne => by rw [hA.index, hA.index]; exact h.apart l hl l' hl' hne⟩, ?_, hA.time,
    fun l hl hne => ⟨?_, hA.times l hne⟩⟩
  · intro box' hb'
    obtain ⟨b, box, h1, h2, h3, h4⟩ := hboxes box' hb'
    rw [h3]; exact h.pts box (List.mem_of_getElem? h2)
  · intro l hl box' hb' hact x hx
    obtain ⟨b, box, h1, h2, h3, h4⟩ := hboxes box' hb'
    have hpos := h.pts box (List.mem_of_getElem? h2)
    rw [hA.index] at hx
    have hL : st.Live b 0 := ⟨box, h2, by rw [← h4]; exact hact, hpos⟩
    have hv : ∃ y, st'.val b x 0 = some y := by
      by_cases hxr : x ∈ (st.vl r).index
      · obtain ⟨n, hn⟩ := List.mem_iff_getElem?.1 hxr
        exact ⟨_, hA.set b n 0 x hL hn⟩
      · rw [hA.frame b x 0 (.inl hxr)]
        obtain ⟨p, hp⟩ := Option.isSome_iff_exists.1
          (h.stored l hl box (List.mem_of_getElem? h2) (by rw [← h4]; exact hact) x hx)
        exact ⟨p 0, by simp [DState.val, h2, hpos, hp]⟩
    obtain ⟨y, hy⟩ := hv
    simp only [DState.val, h1] at hy
    split at hy
    · cases hx' : box'.v x with
      | none => rw [hx'] at hy; cases hy
      | some p => rfl
    · cases hy
  · apply D.mask_eq
    intro b n i hn hl
    have hlt : n < (st.vl r).index.length := by rw [h.len r hr]; exact hn
    have := hA.set b n i _ ((h.live b i).2 hl) (List.getElem?_eq_getElem hlt)
    simp only [DState.compVal, hA.index, List.getElem?_eq_getElem hlt, Option.bind_some, this,
      Option.getD_some]
  · apply D.mask_eq
    intro b n i hn _
    have hlt : n < (st.vl l).index.length := by rw [h.len l hl]; exact hn
    simp only [DState.compVal, hA.index, List.getElem?_eq_getElem hlt, Option.bind_some]
    rw [hA.frame b _ i (.inl (h.apart l hl r hr hne _ (List.getElem_mem hlt)))]

/-- The lists of the family have the fields and times `V`. -/
structure Rep [Zero K] (S : List Nat) (D : Dom) (st : DState K) (V : Nat → Fld K × K) : Prop where
  fam : st.Family S D
  fld : ∀ l ∈ S, st.fld D l = (V l).1
  time : ∀ l ∈ S, (st.vl l).time = (V l).2

section
variable [Zero K] {S : List Nat} {D : Dom} {st : DState K} {V : Nat → Fld K × K}

theorem Rep.masked (h : Rep S D st V) {l : Nat} (hl : l ∈ S) : D.mask (V l).1 = (V l).1 := by
  rw [← h.fld l hl, fld_mask]

theorem Rep.assign (h : Rep S D st V) {r : Nat} (hr : r ∈ S) {st' : DState K} {new : Fld K} {t : K}
    (hA : Spec.Assigned st st' r new t) :
    Rep S D st' (Function.update V r (D.mask new, t)) := by
  obtain ⟨h1, h2, h3, h4⟩ := h.fam.assign hr hA
  refine ⟨h1, fun l hl => ?_, fun l hl => ?_⟩
  · by_cases he : l = r
    · subst he; rw [Function.update_self, h2]
    · rw [Function.update_of_ne he, (h4 l hl he).1, h.fld l hl]
  · by_cases he : l = r
    · subst he; rw [Function.update_self, h3]
    · rw [Function.update_of_ne he, (h4 l hl he).2, h.time l hl]

theorem Rep.mask_compVal (h : Rep S D st V) {l : Nat} (hl : l ∈ S) :
    D.mask (fun b n i => st.compVal (some l) b n i) = (V l).1 := h.fld l hl

theorem Rep.compVal (h : Rep S D st V) {l : Nat} (hl : l ∈ S) {b n i : Nat} (hn : n < D.n)
    (hi : D.live b i) : st.compVal (some l) b n i = (V l).1 b n i := by
  rw [← h.fld l hl]
  simp [DState.fld, Dom.mask, hn, hi]

theorem Rep.vlcopy (h : Rep S D st V) {v u : Nat} (hv : v ∈ S) (hu : u ∈ S) :
    ∃ st', vlcopy st v u = .ok st' ∧ Rep S D st' (Function.update V v (V u)) := by
  obtain ⟨st', h1, h2⟩ := C14_vlcopy_partial st v u (h.fam.nodup v hv) (h.fam.stored v hv)
    (DState.Family.operand h.fam hv hu)
  refine ⟨st', h1, ?_⟩
  have := h.assign hv h2
  rwa [h.mask_compVal hu, h.time u hu] at this

/-- Setting the time of a list. -/
theorem Rep.setTime (h : Rep S D st V) (r : Nat) (t : K) :
    Rep S D (st.setTime r t) (Function.update V r ((V r).1, t)) := by
  have hidx : ∀ l, ((st.setTime r t).vl l).index = (st.vl l).index := by
    intro l; simp only [DState.setTime]; split <;> rfl
  refine ⟨⟨h.fam.pts, h.fam.live, fun l hl => by rw [hidx]; exact h.fam.len l hl,
    fun l hl => by rw [hidx]; exact h.fam.nodup l hl, ?_,
    fun l hl l' hl' hne => by rw [hidx, hidx]; exact h.fam.apart l hl l' hl' hne⟩, ?_, ?_⟩
  · intro l hl box hb hact x hx
    rw [hidx] at hx
    exact h.fam.stored l hl box hb hact x hx
  · intro l hl
    have : (st.setTime r t).fld D l = st.fld D l := by
      unfold DState.fld
      congr 1
      funext b n i
      simp only [DState.compVal, hidx]
      rfl
    rw [this, h.fld l hl]
    by_cases he : l = r
    · subst he; rw [Function.update_self]
    · rw [Function.update_of_ne he]
  · intro l hl
    by_cases he : l = r
    · subst he; simp [DState.setTime]
    · rw [Function.update_of_ne he, ← h.time l hl]; simp [DState.setTime, he]
end

section
variable [Field K] [DecidableEq K] {S : List Nat} {D : Dom} {st : DState K}
  {V : Nat → Fld K × K}

omit [DecidableEq K] in
theorem Dom.mask_comb (D : Dom) (a b : K) {φ ψ : Fld K} (h1 : D.mask φ = φ) (h2 : D.mask ψ = ψ) :
    D.mask (a • φ + b • ψ) = a • φ + b • ψ := by
  funext x n i
  have e1 := congrFun (congrFun (congrFun h1 x) n) i
  have e2 := congrFun (congrFun (congrFun h2 x) n) i
  simp only [Dom.mask, Pi.add_apply, Pi.smul_apply, smul_eq_mul] at *
  split
  · rfl
  · next hh => rw [if_neg hh] at e1 e2; rw [← e1, ← e2]; simp

theorem Rep.vladd (h : Rep S D st V) {r : Nat} (hr : r ∈ S) (ca cb : K) {a b : Nat}
    (ha : a ∈ S) (hb : b ∈ S) :
    ∃ st', vladd st r ca (some a) cb (some b) = .ok st' ∧
      Rep S D st' (Function.update V r (ca • (V a).1 + cb • (V b).1, ca * (V a).2 + cb * (V b).2)) := by
  obtain ⟨st', h1, h2⟩ := C14_vladd_partial st r ca cb (some a) (some b) (h.fam.nodup r hr)
    (h.fam.stored r hr) (fun _ => ⟨a, rfl, DState.Family.operand h.fam hr ha⟩)
    (fun _ => ⟨b, rfl, DState.Family.operand h.fam hr hb⟩)
  refine ⟨st', h1, ?_⟩
  have := h.assign hr h2
  rw [show D.mask (fun bx n i => ca * st.compVal (some a) bx n i + cb * st.compVal (some b) bx n i)
    = ca • (V a).1 + cb • (V b).1 from ?_] at this
  · simpa only [DState.timeVal, h.time a ha, h.time b hb] using this
  · rw [← D.mask_comb ca cb (h.masked ha) (h.masked hb)]
    apply D.mask_eq
    intro x n i hn hi
    simp [h.compVal ha hn hi, h.compVal hb hn hi]

theorem Rep.vladdto (h : Rep S D st V) {r : Nat} (hr : r ∈ S) (ca : K) {a : Nat} (ha : a ∈ S) :
    ∃ st', vladdto st r ca (some a) = .ok st' ∧
      Rep S D st' (Function.update V r ((V r).1 + ca • (V a).1, (V r).2 + ca * (V a).2)) := by
  obtain ⟨st', h1, h2⟩ := C14_vladdto_partial st r ca (some a) (h.fam.nodup r hr)
    (h.fam.stored r hr) (fun _ => ⟨a, rfl, DState.Family.operand h.fam hr ha⟩)
  refine ⟨st', h1, ?_⟩
  have := h.assign hr h2
  rw [show D.mask (fun bx n i => st.compVal (some r) bx n i + ca * st.compVal (some a) bx n i)
    = (V r).1 + ca • (V a).1 from ?_] at this
  · simpa only [DState.timeVal, h.time a ha, h.time r hr] using this
  · have e := D.mask_comb 1 ca (h.masked hr) (h.masked ha)
    rw [one_smul] at e
    rw [← e]
    apply D.mask_eq
    intro x n i hn hi
    simp [h.compVal ha hn hi, h.compVal hr hn hi]

omit [DecidableEq K] in
theorem Rep.vlaverage (h : Rep S D st V) {r a b : Nat} (hr : r ∈ S) (ha : a ∈ S) (hb : b ∈ S) :
    ∃ st', vlaverage st r a b = .ok st' ∧
      Rep S D st' (Function.update V r
        ((1 / 2 : K) • ((V a).1 + (V b).1), ((V a).2 + (V b).2) / 2)) := by
  classical
  obtain ⟨st', h1, h2⟩ := C14_vlaverage_partial st r a b (h.fam.nodup r hr)
    (h.fam.stored r hr) (DState.Family.operand h.fam hr ha) (DState.Family.operand h.fam hr hb)
  refine ⟨st', h1, ?_⟩
  have := h.assign hr h2
  rw [show D.mask (fun bx n i => (st.compVal (some a) bx n i + st.compVal (some b) bx n i) / 2)
    = (1 / 2 : K) • ((V a).1 + (V b).1) from ?_] at this
  · simpa only [h.time a ha, h.time b hb] using this
  · have e := D.mask_comb (1 / 2) (1 / 2) (h.masked ha) (h.masked hb)
    rw [smul_add, ← e]
    apply D.mask_eq
    intro x n i hn hi
    simp only [h.compVal ha hn hi, h.compVal hb hn hi, Pi.add_apply, Pi.smul_apply, smul_eq_mul]
    ring

end

end Sgrid
