import Mathlib.Tactic.Linarith
import Mathlib.Data.List.Nodup
import Verif.Spec.VarArith

/-! Lemmas about the loops of Model/VarArith.lean. -/

namespace Sgrid
variable {K : Type}

namespace DBox

theorem rd_ok {box : DBox K} {x i : Nat} {p : Nat → K} (h : box.v x = some p)
    (hi : i < box.nnodes) : box.rd x i = .ok (p i) := by
  simp [rd, h, hi]

theorem wr_ok {box : DBox K} {x i : Nat} {p : Nat → K} (y : K) (h : box.v x = some p)
    (hi : i < box.nnodes) :
    box.wr x i y = .ok (box.setTo x fun j => if j = i then y else p j) := by
  simp [wr, h, hi]

@[simp] theorem setTo_nnodes (box : DBox K) (x : Nat) (p : Nat → K) :
    (box.setTo x p).nnodes = box.nnodes := rfl
@[simp] theorem setTo_inactive (box : DBox K) (x : Nat) (p : Nat → K) :
    (box.setTo x p).inactive = box.inactive := rfl
@[simp] theorem setTo_v_self (box : DBox K) (x : Nat) (p : Nat → K) :
    (box.setTo x p).v x = some p := by simp [setTo]
theorem setTo_v_ne (box : DBox K) {x y : Nat} (p : Nat → K) (h : y ≠ x) :
    (box.setTo x p).v y = box.v y := by simp [setTo, h]
@[simp] theorem setTo_setTo (box : DBox K) (x : Nat) (p q : Nat → K) :
    (box.setTo x p).setTo x q = box.setTo x q := by
  unfold setTo; congr 1; funext y; by_cases h : y = x <;> simp [h]
theorem setTo_same {box : DBox K} {x : Nat} {p : Nat → K} (h : box.v x = some p) :
    box.setTo x p = box := by
  obtain ⟨n, f, v⟩ := box
  simp only [setTo, mk.injEq, true_and]; funext y
  by_cases hy : y = x
  · subst hy; simpa using h.symm
  · simp [hy]

/-- Reading position `i` is not changed by an update of `x` that leaves position `i` alone. -/
theorem rd_setTo {box : DBox K} {x i : Nat} {p q : Nat → K} (h : box.v x = some p)
    (hq : q i = p i) (y : Nat) : (box.setTo x q).rd y i = box.rd y i := by
  by_cases hy : y = x
  · subst hy; simp [rd, h, hq]
  · simp only [rd, setTo_v_ne _ _ hy]; rfl

end DBox

/-- The loop over the points of a box that writes variable `x` at `i` from values at `i`. -/
theorem pointLoop {box : DBox K} {x : Nat} {p : Nat → K} (hx : box.v x = some p)
    (E : Nat → DBox K → Res K) (e : Nat → K)
    (hE : ∀ i q, i < box.nnodes → q i = p i → E i (box.setTo x q) = .ok (e i)) :
    forN box.nnodes (fun i b => (E i b).bind fun y => b.wr x i y) box
      = .ok (box.setTo x fun i => if i < box.nnodes then e i else p i) := by
  have := forN_inv (n := box.nnodes) (body := fun i b => (E i b).bind fun y => b.wr x i y)
    (s := box) (fun n b => b = box.setTo x fun i => if i < n then e i else p i)
    (by simp [DBox.setTo_same hx])
    (by
      rintro i hi t rfl
      refine ⟨_, ?_, rfl⟩
      have h1 := hE i (fun j => if j < i then e j else p j) hi (by simp)
      simp only [h1, Res.bind_ok]
      rw [DBox.wr_ok (p := fun j => if j < i then e j else p j) _ (by simp) (by simpa using hi),
        DBox.setTo_setTo]
      congr 2; funext j
      by_cases h : j = i
      · simp [h]
      · have : j < i + 1 ↔ j < i := by omega
        simp [h, this])
  obtain ⟨t, ht, rfl⟩ := this
  exact ht

/-- The loop over the components. `r` is the index list written to, `new n` the array
component `n` gets. -/
theorem compLoop {box : DBox K} (r : List Nat) (hr : r.Nodup)
    (C : Nat → DBox K → Res (DBox K)) (new : Nat → Nat → K)
    (hC : ∀ n (hn : n < r.length) (t : DBox K), t.nnodes = box.nnodes →
      (∀ y, (∀ m (hm : m < r.length), m < n → r[m] ≠ y) → t.v y = box.v y) →
      C n t = .ok (t.setTo r[n] (new n))) :
    ∃ t, forN r.length C box = .ok t ∧ t.nnodes = box.nnodes ∧ t.inactive = box.inactive ∧
      (∀ n (hn : n < r.length), t.v r[n] = some (new n)) ∧
      ∀ y, y ∉ r → t.v y = box.v y := by
  have := forN_inv (n := r.length) (body := C) (s := box)
    (fun k t => t.nnodes = box.nnodes ∧ t.inactive = box.inactive ∧
      (∀ n (hn : n < r.length), n < k → t.v r[n] = some (new n)) ∧
      ∀ y, (∀ m (hm : m < r.length), m < k → r[m] ≠ y) → t.v y = box.v y)
    ⟨rfl, rfl, by simp, by simp⟩
    (by
      rintro k hk t ⟨h1, h2, h3, h4⟩
      refine ⟨_, hC k hk t h1 h4, h1, h2, ?_, ?_⟩
      · intro n hn hnk
        by_cases h : n = k
        · subst h; simp
        · have hne : r[n] ≠ r[k] := fun he => h ((hr.getElem_inj_iff).1 he)
          rw [DBox.setTo_v_ne _ _ hne]
          exact h3 n hn (by omega)
      · intro y hy
        have hne : y ≠ r[k] := fun he => hy k hk (by omega) he.symm
        rw [DBox.setTo_v_ne _ _ hne]
        exact h4 y fun m hm hmk => hy m hm (by omega))
  obtain ⟨t, ht, h1, h2, h3, h4⟩ := this
  refine ⟨t, ht, h1, h2, fun n hn => h3 n hn hn, fun y hy => h4 y ?_⟩
  intro m hm _ he
  exact hy (he ▸ List.getElem_mem hm)

/-- forallboxes box by box. -/
theorem forallboxes_spec {body : DBox K → Res (DBox K)} {R : DBox K → DBox K → Prop}
    (bs : List (DBox K))
    (h : ∀ box ∈ bs, if box.inactive then R box box else ∃ t, body box = .ok t ∧ R box t) :
    ∃ bs', forallboxes body bs = .ok bs' ∧ List.Forall₂ R bs bs' := by
  induction bs with
  | nil => exact ⟨[], rfl, .nil⟩
  | cons box rest ih =>
    obtain ⟨rest', hr, hF⟩ := ih fun b hb => h b (List.mem_cons_of_mem _ hb)
    have hb := h box List.mem_cons_self
    by_cases hi : box.inactive
    · rw [if_pos hi] at hb
      exact ⟨box :: rest', by simp [forallboxes, hi, hr], .cons hb hF⟩
    · rw [if_neg hi] at hb
      obtain ⟨t, ht, hR⟩ := hb
      exact ⟨t :: rest', by simp [forallboxes, hi, ht, hr], .cons hR hF⟩

theorem DState.idx_some {st : DState K} {l n : Nat} (h : n < (st.vl l).index.length) :
    st.idx (some l) n = .ok (st.vl l).index[n] := by
  simp [idx, h]

/-- Value of component `n` of list `l` at point `i` of a box (0 if there is none). -/
def DBox.at [Zero K] (box : DBox K) (idx : List Nat) (n i : Nat) : K :=
  match idx[n]? with
  | none => 0
  | some x => match box.v x with
    | none => 0
    | some p => p i

/-- The double loop, given what one pass over a component does. -/
theorem loop_spec (st : DState K) (r : Nat) (hr : (st.vl r).index.Nodup)
    (hst : st.Stored r) (body : Nat → DBox K → Res (DBox K))
    (E : DBox K → Nat → Nat → K)
    (hC : ∀ box ∈ st.boxes, box.inactive = false →
      ∀ n (hn : n < (st.vl r).index.length) (t : DBox K) (p : Nat → K), t.nnodes = box.nnodes →
      (∀ y, (∀ m (hm : m < (st.vl r).index.length), m < n → (st.vl r).index[m] ≠ y) →
        t.v y = box.v y) →
      t.v (st.vl r).index[n] = some p →
      body n t = .ok (t.setTo (st.vl r).index[n]
        fun i => if i < t.nnodes then E box n i else p i)) :
    ∃ bs, st.loop r body = .ok { st with boxes := bs } ∧
      List.Forall₂ (fun box box' => box'.nnodes = box.nnodes ∧ box'.inactive = box.inactive ∧
        (if box.inactive then box' = box else
          (∀ n (hn : n < (st.vl r).index.length), ∃ q, box'.v (st.vl r).index[n] = some q ∧
            ∀ i, i < box.nnodes → q i = E box n i) ∧
          ∀ y, y ∉ (st.vl r).index → box'.v y = box.v y)) st.boxes bs := by
  have := forallboxes_spec (body := forN (st.vl r).index.length body)
    (R := fun box box' => box'.nnodes = box.nnodes ∧ box'.inactive = box.inactive ∧
        (if box.inactive then box' = box else
          (∀ n (hn : n < (st.vl r).index.length), ∃ q, box'.v (st.vl r).index[n] = some q ∧
            ∀ i, i < box.nnodes → q i = E box n i) ∧
          ∀ y, y ∉ (st.vl r).index → box'.v y = box.v y)) st.boxes
    (by
      intro box hb
      by_cases hi : box.inactive
      · simp [hi]
      · rw [if_neg hi]
        have hi' : box.inactive = false := by simpa using hi
        -- the array each component had before
        have hp : ∀ n, ∃ p : Nat → K, ∀ hn : n < (st.vl r).index.length,
            box.v (st.vl r).index[n] = some p := by
          intro n
          by_cases hn : n < (st.vl r).index.length
          · obtain ⟨p, hp⟩ := Option.isSome_iff_exists.1
              (hst box hb hi' _ (List.getElem_mem hn))
            exact ⟨p, fun _ => hp⟩
          · by_cases hK : Nonempty K
            · exact ⟨fun _ => hK.some, fun h => absurd h hn⟩
            · exact ⟨fun i => (hK ⟨E box 0 i⟩).elim, fun h => absurd h hn⟩
        choose p hp using hp
        obtain ⟨t, h1, h2, h3, h4, h5⟩ := compLoop (box := box) (st.vl r).index hr body
          (fun n i => if i < box.nnodes then E box n i else p n i)
          (by
            intro n hn t ht hy
            have hv : t.v (st.vl r).index[n] = some (p n) := by
              rw [hy _ ?_, hp n hn]
              intro m hm hmn he
              exact absurd ((hr.getElem_inj_iff).1 he) (by omega)
            rw [hC box hb hi' n hn t (p n) ht hy hv, ht])
        refine ⟨t, h1, h2, h3, ?_⟩
        rw [if_neg hi]
        exact ⟨fun n hn => ⟨_, h4 n hn, fun i hi => by simp [hi]⟩, h5⟩)
  obtain ⟨bs, h1, h2⟩ := this
  exact ⟨bs, by simp [DState.loop, h1], h2⟩

/-- From the box by box description to the values of single points. -/
theorem assigned_of_loop (st : DState K) (r : Nat) (E : DBox K → Nat → Nat → K)
    (new : Nat → Nat → Nat → K) (t : K) (bs : List (DBox K)) (vl' : Nat → VL K)
    (hnew : ∀ (b : Nat) (box : DBox K), st.boxes[b]? = some box → ∀ n i, i < box.nnodes →
      n < (st.vl r).index.length → E box n i = new b n i)
    (hbs : List.Forall₂ (fun box box' => box'.nnodes = box.nnodes ∧
        box'.inactive = box.inactive ∧
        (if box.inactive then box' = box else
          (∀ n (hn : n < (st.vl r).index.length), ∃ q, box'.v (st.vl r).index[n] = some q ∧
            ∀ i, i < box.nnodes → q i = E box n i) ∧
          ∀ y, y ∉ (st.vl r).index → box'.v y = box.v y)) st.boxes bs)
    (hi : ∀ l, (vl' l).index = (st.vl l).index) (ht : (vl' r).time = t)
    (ht' : ∀ l, l ≠ r → (vl' l).time = (st.vl l).time) :
    Spec.Assigned st { boxes := bs, vl := vl' } r new t := by
  have hlen := hbs.length_eq
  have hget : ∀ (b : Nat) (box : DBox K), st.boxes[b]? = some box → ∃ box', bs[b]? = some box' ∧
      (box'.nnodes = box.nnodes ∧
        box'.inactive = box.inactive ∧
        (if box.inactive then box' = box else
          (∀ n (hn : n < (st.vl r).index.length), ∃ q, box'.v (st.vl r).index[n] = some q ∧
            ∀ i, i < box.nnodes → q i = E box n i) ∧
          ∀ y, y ∉ (st.vl r).index → box'.v y = box.v y)) := by
    intro b box hb
    obtain ⟨hb1, rfl⟩ := List.getElem?_eq_some_iff.1 hb
    exact ⟨bs[b]'(by omega), by simp [← hlen, hb1], (List.forall₂_iff_get.1 hbs).2 b hb1 (by omega)⟩
  refine ⟨?_, ?_, hi, ht, ht', ?_⟩
  · rintro b n i x ⟨box, hb, hact, hin⟩ hx
    obtain ⟨hn, rfl⟩ := List.getElem?_eq_some_iff.1 hx
    obtain ⟨box', hb', h1, h2, h3⟩ := hget b box hb
    simp only [hact, Bool.false_eq_true, if_false] at h3
    obtain ⟨q, hq, hqi⟩ := h3.1 n hn
    simp only [DState.val, hb', h1, hin, if_true, hq, Option.map_some]
    rw [hqi i hin, hnew b box hb n i hin hn]
  · intro b x i h
    cases hb : st.boxes[b]? with
    | none =>
      have : bs[b]? = none := by
        rw [List.getElem?_eq_none_iff] at hb ⊢; omega
      simp [DState.val, hb, this]
    | some box =>
      obtain ⟨box', hb', h1, h2, h3⟩ := hget b box hb
      simp only [DState.val, hb, hb', h1]
      by_cases hin : i < box.nnodes
      · simp only [hin, if_true]
        by_cases hact : box.inactive
        · rw [if_pos hact] at h3; rw [h3]
        · rw [if_neg hact] at h3
          rcases h with h | h
          · rw [h3.2 x h]
          · exact absurd ⟨box, hb, by simpa using hact, hin⟩ h
      · simp [hin]
  · apply List.ext_getElem
    · simp [← hlen]
    · intro b h1 h2
      simp only [List.length_map] at h1 h2
      obtain ⟨box', hb', h3, h4, _⟩ := hget b _ (List.getElem?_eq_getElem h2)
      have : bs[b] = box' := by
        have := List.getElem?_eq_getElem h1
        rw [this] at hb'; exact Option.some.inj hb'
      simp [this, h3, h4]

end Sgrid
