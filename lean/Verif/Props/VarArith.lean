import Mathlib.Data.Rat.Defs
import Mathlib.Tactic.NormNum
import Mathlib.Tactic.Ring
import Verif.Lemmas.VarArith

/-! C14, C15: arithmetic on variable lists. -/

namespace Sgrid
variable {K : Type}

/-- A list without repetition can be its own operand. -/
theorem DState.Operand.self {st : DState K} {r : Nat} (hr : (st.vl r).index.Nodup)
    (hs : st.Stored r) : st.Operand r r := by
  refine ⟨hs, le_refl _, ?_⟩
  rintro m n x y hmn hx hy rfl
  obtain ⟨hm, rfl⟩ := List.getElem?_eq_some_iff.1 hx
  obtain ⟨hn, he⟩ := List.getElem?_eq_some_iff.1 hy
  exact absurd ((hr.getElem_inj_iff).1 he) (by omega)

/-- Lists without common variables can serve as operands. -/
theorem DState.Operand.of_disjoint {st : DState K} {r l : Nat} (hs : st.Stored l)
    (hlen : (st.vl r).index.length ≤ (st.vl l).index.length)
    (hd : ∀ x ∈ (st.vl r).index, x ∉ (st.vl l).index) : st.Operand r l := by
  refine ⟨hs, hlen, ?_⟩
  rintro m n x y _ hx hy rfl
  exact hd x (List.mem_of_getElem? hx) (List.mem_of_getElem? hy)

section
variable [Zero K]

theorem compVal_eq {st : DState K} {l b n i : Nat} {box : DBox K}
    (hb : st.boxes[b]? = some box) (hi : i < box.nnodes) :
    box.at (st.vl l).index n i = st.compVal (some l) b n i := by
  simp only [DBox.at, DState.compVal, DState.val, hb, hi, if_true]
  cases (st.vl l).index[n]? with
  | none => rfl
  | some x => cases h : box.v x <;> simp [h]

/-- What an operand gives at component `n`, when the components before are done. -/
theorem DState.Operand.read {st : DState K} {r l : Nat} (h : st.Operand r l) {box t : DBox K}
    (hb : box ∈ st.boxes) (hact : box.inactive = false) {n : Nat}
    (hn : n < (st.vl r).index.length)
    (hy : ∀ y, (∀ m (hm : m < (st.vl r).index.length), m < n → (st.vl r).index[m] ≠ y) →
        t.v y = box.v y) :
    ∃ x, st.idx (some l) n = .ok x ∧ t.v x = some (box.at (st.vl l).index n) := by
  have hn' : n < (st.vl l).index.length := lt_of_lt_of_le hn h.long
  refine ⟨(st.vl l).index[n], DState.idx_some hn', ?_⟩
  rw [hy]
  · obtain ⟨p, hp⟩ := Option.isSome_iff_exists.1 (h.stored box hb hact _ (List.getElem_mem hn'))
    rw [hp]; congr 1; funext i
    simp [DBox.at, hn', hp]
  · intro m hm hmn
    exact h.apart m n _ _ hmn (List.getElem?_eq_getElem hm) (List.getElem?_eq_getElem hn')
end

/-- Reading an operand inside the loop over the points. -/
theorem rd_operand {t : DBox K} {x y : Nat} {p q g : Nat → K} {i : Nat}
    (hp : t.v x = some p) (hq : q i = p i) (hi : i < t.nnodes) (hy : t.v y = some g) :
    (t.setTo x q).rd y i = .ok (g i) := by
  rw [DBox.rd_setTo hp hq, DBox.rd_ok hy hi]

section
variable [Field K] [DecidableEq K]

/-- C14/C15, vladd: every component of `r` gets `ca*a + cb*b` in every point of every active
box, its time the same combination of times, and nothing else changes. A list with coefficient
zero may be NULL or without storage. `a` and `b` may be `r`. The part left open: a variable of
`a` or `b` that appears at an earlier place in `r`, see `C14_counterexample`. -/
theorem C14_vladd_partial (st : DState K) (r : Nat) (ca cb : K) (a b : Option Nat)
    (hr : (st.vl r).index.Nodup) (hs : st.Stored r)
    (ha : ca ≠ 0 → ∃ l, a = some l ∧ st.Operand r l)
    (hb : cb ≠ 0 → ∃ l, b = some l ∧ st.Operand r l) :
    ∃ st', vladd st r ca a cb b = .ok st' ∧
      Spec.Assigned st st' r
        (fun bx n i => ca * st.compVal a bx n i + cb * st.compVal b bx n i)
        (ca * st.timeVal a + cb * st.timeVal b) := by
  let AT : Option Nat → DBox K → Nat → Nat → K := fun l box n i =>
    match l with
    | none => 0
    | some l => box.at (st.vl l).index n i
  have hAT : ∀ (l : Option Nat) (bx : Nat) (box : DBox K), st.boxes[bx]? = some box →
      ∀ n i, i < box.nnodes → AT l box n i = st.compVal l bx n i := by
    intro l bx box hbx n i hi
    cases l with
    | none => rfl
    | some l => exact compVal_eq hbx hi
  unfold vladd
  obtain ⟨bs, h1, h2⟩ := loop_spec st r hr hs
    (fun box n i => ca * AT a box n i + cb * AT b box n i) (body := fun n box =>
    (st.idx (some r) n).bind fun pr =>
    if ca = 0 ∧ cb = 0 then forN box.nnodes (fun i box => box.wr pr i 0) box
    else if ca = 0 then
      (st.idx b n).bind fun pb =>
      forN box.nnodes (fun i box => (box.rd pb i).bind fun y => box.wr pr i (cb * y)) box
    else if cb = 0 then
      (st.idx a n).bind fun pa =>
      forN box.nnodes (fun i box => (box.rd pa i).bind fun x => box.wr pr i (ca * x)) box
    else
      (st.idx a n).bind fun pa =>
      (st.idx b n).bind fun pb =>
      forN box.nnodes (fun i box =>
        (box.rd pa i).bind fun x => (box.rd pb i).bind fun y =>
          box.wr pr i (ca * x + cb * y)) box)
    (by
      intro box hbx hact n hn t p ht hy hp
      rw [DState.idx_some hn, Res.bind_ok]
      have hread : ∀ (c : K) (l : Option Nat), (c ≠ 0 → ∃ k, l = some k ∧ st.Operand r k) →
          c ≠ 0 → ∃ x, st.idx l n = .ok x ∧ t.v x = some (AT l box n) := by
        intro c l hl hc
        obtain ⟨k, rfl, hk⟩ := hl hc
        exact hk.read hbx hact hn hy
      by_cases h0 : ca = 0 ∧ cb = 0
      · rw [if_pos h0]
        refine (pointLoop hp (fun _ _ => .ok 0) (fun i => ca * AT a box n i + cb * AT b box n i)
          ?_)
        intro i q _ _; simp [h0.1, h0.2]
      · rw [if_neg h0]
        by_cases hca : ca = 0
        · have hcb : cb ≠ 0 := fun h => h0 ⟨hca, h⟩
          obtain ⟨y, hy1, hy2⟩ := hread cb b hb hcb
          rw [if_pos hca, hy1, Res.bind_ok]
          have := pointLoop hp (fun i box => (box.rd y i).bind fun y => .ok (cb * y))
            (fun i => ca * AT a box n i + cb * AT b box n i)
            (by
              intro i q hi hq
              rw [rd_operand hp hq hi hy2]
              simp [hca])
          rw [← this]
          refine forN_congr fun i _ s => ?_
          cases s.rd y i <;> rfl
        · rw [if_neg hca]
          obtain ⟨x, hx1, hx2⟩ := hread ca a ha hca
          by_cases hcb : cb = 0
          · rw [if_pos hcb, hx1, Res.bind_ok]
            have := pointLoop hp (fun i box => (box.rd x i).bind fun y => .ok (ca * y))
              (fun i => ca * AT a box n i + cb * AT b box n i)
              (by
                intro i q hi hq
                rw [rd_operand hp hq hi hx2]
                simp [hcb])
            rw [← this]
            refine forN_congr fun i _ s => ?_
            cases s.rd x i <;> rfl
          · rw [if_neg hcb, hx1, Res.bind_ok]
            obtain ⟨y, hy1, hy2⟩ := hread cb b hb hcb
            rw [hy1, Res.bind_ok]
            have := pointLoop hp (fun i box => (box.rd x i).bind fun u =>
                (box.rd y i).bind fun w => .ok (ca * u + cb * w))
              (fun i => ca * AT a box n i + cb * AT b box n i)
              (by
                intro i q hi hq
                rw [rd_operand hp hq hi hx2, rd_operand hp hq hi hy2]
                simp)
            rw [← this]
            refine forN_congr fun i _ s => ?_
            cases s.rd x i <;> cases s.rd y i <;> rfl)
  rw [h1, Res.bind_ok]
  have fin : ∀ t : K, t = ca * st.timeVal a + cb * st.timeVal b →
      Spec.Assigned st (DState.setTime { st with boxes := bs } r t) r
        (fun bx n i => ca * st.compVal a bx n i + cb * st.compVal b bx n i)
        (ca * st.timeVal a + cb * st.timeVal b) := by
    intro t ht
    refine assigned_of_loop st r _ _ _ bs _ ?_ h2 ?_ ?_ ?_
    · intro bx box hbx n i hi _
      simp only [hAT _ _ _ hbx n i hi]
    · intro l; by_cases h : l = r <;> simp [h]
    · simp [ht]
    · intro l h; simp [h]
  have htime : ∀ (c : K) (l : Option Nat), (c ≠ 0 → ∃ k, l = some k ∧ st.Operand r k) → c ≠ 0 →
      DState.timeOf { st with boxes := bs } l = .ok (st.timeVal l) := by
    intro c l hl hc
    obtain ⟨k, rfl, _⟩ := hl hc
    rfl
  by_cases h0 : ca = 0 ∧ cb = 0
  · exact ⟨_, if_pos h0, fin 0 (by simp [h0.1, h0.2])⟩
  · rw [if_neg h0]
    by_cases hca : ca = 0
    · have hcb : cb ≠ 0 := fun h => h0 ⟨hca, h⟩
      rw [if_pos hca, htime cb b hb hcb]
      exact ⟨_, rfl, fin _ (by simp [hca])⟩
    · rw [if_neg hca]
      by_cases hcb : cb = 0
      · rw [if_pos hcb, htime ca a ha hca]
        exact ⟨_, rfl, fin _ (by simp [hcb])⟩
      · rw [if_neg hcb, htime ca a ha hca, htime cb b hb hcb]
        exact ⟨_, rfl, fin _ rfl⟩

/-- C15: with a zero coefficient the result does not depend on the list that goes with it. -/
theorem C15_vladd_zero_a (st : DState K) (r : Nat) (cb : K) (a a' b : Option Nat) :
    vladd st r 0 a cb b = vladd st r 0 a' cb b := by
  unfold vladd
  simp

/-- C15 for the second list. -/
theorem C15_vladd_zero_b (st : DState K) (r : Nat) (ca : K) (a b b' : Option Nat) :
    vladd st r ca a 0 b = vladd st r ca a 0 b' := by
  unfold vladd
  by_cases h : ca = 0 <;> simp [h]

/-- C15: a NULL list is fine if its coefficient is zero, and the result is the product with the
other coefficient. -/
theorem C15_vladd_null (st : DState K) (r l : Nat) (cb : K)
    (hr : (st.vl r).index.Nodup) (hs : st.Stored r) (hb : st.Operand r l) :
    ∃ st', vladd st r 0 none cb (some l) = .ok st' ∧
      Spec.Assigned st st' r (fun bx n i => cb * st.compVal (some l) bx n i)
        (cb * (st.vl l).time) := by
  have := C14_vladd_partial st r 0 cb none (some l) hr hs (by simp) fun _ => ⟨l, rfl, hb⟩
  simpa [DState.timeVal] using this

/-- C14/C15, vladdto: `r += ca*a`. With `ca = 0` the list `a` may be NULL. -/
theorem C14_vladdto_partial (st : DState K) (r : Nat) (ca : K) (a : Option Nat)
    (hr : (st.vl r).index.Nodup) (hs : st.Stored r)
    (ha : ca ≠ 0 → ∃ l, a = some l ∧ st.Operand r l) :
    ∃ st', vladdto st r ca a = .ok st' ∧
      Spec.Assigned st st' r
        (fun bx n i => st.compVal (some r) bx n i + ca * st.compVal a bx n i)
        ((st.vl r).time + ca * st.timeVal a) := by
  unfold vladdto
  by_cases hca : ca = 0
  · rw [if_pos hca]
    refine ⟨st, rfl, ?_, fun _ _ _ _ => rfl, fun _ => rfl, by simp [hca], fun _ _ => rfl, rfl⟩
    rintro b n i x ⟨box, hb, hact, hi⟩ hx
    obtain ⟨p, hp⟩ := Option.isSome_iff_exists.1
      (hs box (List.mem_of_getElem? hb) hact x (List.mem_of_getElem? hx))
    simp [DState.val, DState.compVal, hca, hb, hi, hx, hp]
  · rw [if_neg hca]
    obtain ⟨l, rfl, hl⟩ := ha hca
    have hself := DState.Operand.self hr hs
    obtain ⟨bs, h1, h2⟩ := loop_spec st r hr hs
      (fun box n i => box.at (st.vl r).index n i + ca * box.at (st.vl l).index n i)
      (body := fun n box =>
      (st.idx (some r) n).bind fun pr =>
      (st.idx (some l) n).bind fun pa =>
      if ca = 1 then
        forN box.nnodes (fun i box =>
          (box.rd pr i).bind fun x => (box.rd pa i).bind fun y => box.wr pr i (x + y)) box
      else if ca = -1 then
        forN box.nnodes (fun i box =>
          (box.rd pr i).bind fun x => (box.rd pa i).bind fun y => box.wr pr i (x - y)) box
      else
        forN box.nnodes (fun i box =>
          (box.rd pr i).bind fun x => (box.rd pa i).bind fun y =>
            box.wr pr i (x + ca * y)) box)
      (by
        intro box hbx hact n hn t p ht hy hp
        rw [DState.idx_some hn, Res.bind_ok]
        obtain ⟨x, hx1, hx2⟩ := hl.read hbx hact hn hy
        obtain ⟨z, hz1, hz2⟩ := hself.read hbx hact hn hy
        rw [DState.idx_some hn] at hz1
        cases hz1
        rw [hx1, Res.bind_ok]
        have key : ∀ f : K → K → K, (∀ u w, f u w = u + ca * w) →
            forN t.nnodes (fun i box => (box.rd (st.vl r).index[n] i).bind fun u =>
              (box.rd x i).bind fun w => box.wr (st.vl r).index[n] i (f u w)) t
            = .ok (t.setTo (st.vl r).index[n] fun i => if i < t.nnodes then
                box.at (st.vl r).index n i + ca * box.at (st.vl l).index n i else p i) := by
          intro f hf
          have := pointLoop hp (fun i b => (b.rd (st.vl r).index[n] i).bind fun u =>
              (b.rd x i).bind fun w => .ok (f u w))
            (fun i => box.at (st.vl r).index n i + ca * box.at (st.vl l).index n i)
            (by
              intro i q hi hq
              rw [rd_operand hp hq hi hx2, rd_operand hp hq hi hz2]
              simp [hf])
          rw [← this]
          refine forN_congr fun i _ s => ?_
          cases s.rd (st.vl r).index[n] i <;> cases s.rd x i <;> rfl
        by_cases c1 : ca = 1
        · rw [if_pos c1]; exact key _ (by simp [c1])
        · rw [if_neg c1]
          by_cases c2 : ca = -1
          · rw [if_pos c2]; exact key _ (by intro u w; rw [c2]; ring)
          · rw [if_neg c2]; exact key _ (by simp))
    rw [h1, Res.bind_ok]
    refine ⟨_, rfl, ?_⟩
    refine assigned_of_loop st r _ _ _ bs _ ?_ h2 ?_ ?_ ?_
    · intro bx box hbx n i hi _
      simp only [compVal_eq hbx hi]
    · intro l; by_cases h : l = r <;> simp [h]
    · simp [DState.timeVal]
    · intro l h; simp [h]

omit [DecidableEq K] in
/-- Functions that combine two lists, all coefficients being used. -/
theorem binary_spec (st : DState K) (r a b : Nat) (f : K → K → K)
    (hr : (st.vl r).index.Nodup) (hs : st.Stored r)
    (ha : st.Operand r a) (hb : st.Operand r b) :
    ∃ st', ((st.loop r fun n box =>
      (st.idx (some r) n).bind fun pr =>
      (st.idx (some a) n).bind fun pa =>
      (st.idx (some b) n).bind fun pb =>
      forN box.nnodes (fun i box =>
        (box.rd pa i).bind fun x => (box.rd pb i).bind fun y => box.wr pr i (f x y)) box).bind
      fun st => .ok (st.setTime r (f (st.vl a).time (st.vl b).time))) = .ok st' ∧
      Spec.Assigned st st' r
        (fun bx n i => f (st.compVal (some a) bx n i) (st.compVal (some b) bx n i))
        (f (st.vl a).time (st.vl b).time) := by
  obtain ⟨bs, h1, h2⟩ := loop_spec st r hr hs
    (fun box n i => f (box.at (st.vl a).index n i) (box.at (st.vl b).index n i))
    (body := fun n box =>
      (st.idx (some r) n).bind fun pr =>
      (st.idx (some a) n).bind fun pa =>
      (st.idx (some b) n).bind fun pb =>
      forN box.nnodes (fun i box =>
        (box.rd pa i).bind fun x => (box.rd pb i).bind fun y => box.wr pr i (f x y)) box)
    (by
      intro box hbx hact n hn t p ht hy hp
      rw [DState.idx_some hn, Res.bind_ok]
      obtain ⟨x, hx1, hx2⟩ := ha.read hbx hact hn hy
      obtain ⟨z, hz1, hz2⟩ := hb.read hbx hact hn hy
      rw [hx1, hz1, Res.bind_ok, Res.bind_ok]
      have := pointLoop hp (fun i b => (b.rd x i).bind fun u =>
          (b.rd z i).bind fun w => .ok (f u w))
        (fun i => f (box.at (st.vl a).index n i) (box.at (st.vl b).index n i))
        (by
          intro i q hi hq
          rw [rd_operand hp hq hi hx2, rd_operand hp hq hi hz2]
          simp)
      rw [← this]
      refine forN_congr fun i _ s => ?_
      cases s.rd x i <;> cases s.rd z i <;> rfl)
  rw [h1, Res.bind_ok]
  refine ⟨_, rfl, assigned_of_loop st r _ _ _ bs _ ?_ h2 ?_ ?_ ?_⟩
  · intro bx box hbx n i hi _
    simp only [compVal_eq hbx hi]
  · intro l; by_cases h : l = r <;> simp [h]
  · simp
  · intro l h; simp [h]

omit [DecidableEq K] in
/-- C14, vlaverage: `r = (a+b)/2`. -/
theorem C14_vlaverage_partial (st : DState K) (r a b : Nat)
    (hr : (st.vl r).index.Nodup) (hs : st.Stored r)
    (ha : st.Operand r a) (hb : st.Operand r b) :
    ∃ st', vlaverage st r a b = .ok st' ∧
      Spec.Assigned st st' r
        (fun bx n i => (st.compVal (some a) bx n i + st.compVal (some b) bx n i) / 2)
        (((st.vl a).time + (st.vl b).time) / 2) := by
  have := binary_spec st r a b (fun x y => (1 / 2) * (x + y)) hr hs ha hb
  simpa only [vlaverage, one_div, div_eq_inv_mul, mul_one] using this

omit [DecidableEq K] in
/-- C14, vlsubtract: `r = a - b`. -/
theorem C14_vlsubtract_partial (st : DState K) (r a b : Nat)
    (hr : (st.vl r).index.Nodup) (hs : st.Stored r)
    (ha : st.Operand r a) (hb : st.Operand r b) :
    ∃ st', vlsubtract st r a b = .ok st' ∧
      Spec.Assigned st st' r
        (fun bx n i => st.compVal (some a) bx n i - st.compVal (some b) bx n i)
        ((st.vl a).time - (st.vl b).time) :=
  binary_spec st r a b (fun x y => x - y) hr hs ha hb

end

/-- C14, vlsetconstant: every component becomes `c`, the time stays. Here the list may contain a
variable several times. -/
theorem C14_vlsetconstant (st : DState K) (u : Nat) (c : K) (hs : st.Stored u) :
    ∃ st', vlsetconstant st u c = .ok st' ∧
      Spec.Assigned st st' u (fun _ _ _ => c) (st.vl u).time := by
  have hbox : ∀ box ∈ st.boxes, box.inactive = false →
      ∃ t, forN (st.vl u).index.length (fun n box => (st.idx (some u) n).bind fun pu =>
        forN box.nnodes (fun i box => box.wr pu i c) box) box = .ok t ∧
        t.nnodes = box.nnodes ∧ t.inactive = box.inactive ∧
        (∀ n (hn : n < (st.vl u).index.length), n < (st.vl u).index.length →
          ∃ q, t.v (st.vl u).index[n] = some q ∧ ∀ i, i < box.nnodes → q i = c) ∧
        ∀ y, (∀ m (hm : m < (st.vl u).index.length), m < (st.vl u).index.length →
          (st.vl u).index[m] ≠ y) → t.v y = box.v y := by
    intro box hb hact
    refine forN_inv (fun k (t : DBox K) => t.nnodes = box.nnodes ∧ t.inactive = box.inactive ∧
        (∀ n (hn : n < (st.vl u).index.length), n < k →
          ∃ q, t.v (st.vl u).index[n] = some q ∧ ∀ i, i < box.nnodes → q i = c) ∧
        ∀ y, (∀ m (hm : m < (st.vl u).index.length), m < k →
          (st.vl u).index[m] ≠ y) → t.v y = box.v y) ⟨rfl, rfl, by simp, by simp⟩ ?_
    rintro k hk t ⟨h1, h2, h3, h4⟩
    have hp : ∃ p, t.v (st.vl u).index[k] = some p := by
      by_cases h : ∃ m, ∃ hm : m < (st.vl u).index.length, m < k ∧
          (st.vl u).index[m] = (st.vl u).index[k]
      · obtain ⟨m, hm, hmk, he⟩ := h
        obtain ⟨q, hq, _⟩ := h3 m hm hmk
        exact ⟨q, he ▸ hq⟩
      · rw [h4 _ fun m hm hmk he => h ⟨m, hm, hmk, he⟩]
        exact Option.isSome_iff_exists.1 (hs box hb hact _ (List.getElem_mem hk))
    obtain ⟨p, hp⟩ := hp
    refine ⟨t.setTo (st.vl u).index[k] fun i => if i < t.nnodes then c else p i, ?_, h1, h2, ?_,
      ?_⟩
    · rw [DState.idx_some hk, Res.bind_ok]
      exact pointLoop hp (fun _ _ => .ok c) (fun _ => c) fun _ _ _ _ => rfl
    · intro n hn hnk
      by_cases he : (st.vl u).index[n] = (st.vl u).index[k]
      · exact ⟨_, by rw [he]; exact DBox.setTo_v_self _ _ _, fun i hi => by simp [h1, hi]⟩
      · rw [DBox.setTo_v_ne _ _ he]
        refine h3 n hn ?_
        rcases Nat.lt_or_ge n k with h | h
        · exact h
        · exact absurd (by congr 1; omega) he
    · intro y hy
      rw [DBox.setTo_v_ne _ _ fun he => hy k hk (by omega) he.symm]
      exact h4 y fun m hm hmk => hy m hm (by omega)
  obtain ⟨bs, h1, h2⟩ := forallboxes_spec (R := fun box box' => box'.nnodes = box.nnodes ∧
        box'.inactive = box.inactive ∧
        (if box.inactive then box' = box else
          (∀ n (hn : n < (st.vl u).index.length), ∃ q, box'.v (st.vl u).index[n] = some q ∧
            ∀ i, i < box.nnodes → q i = c) ∧
          ∀ y, y ∉ (st.vl u).index → box'.v y = box.v y)) st.boxes (by
    intro box hb
    by_cases hact : box.inactive
    · simp [hact]
    · rw [if_neg hact]
      obtain ⟨t, h1, h2, h3, h4, h5⟩ := hbox box hb (by simpa using hact)
      refine ⟨t, h1, h2, h3, ?_⟩
      rw [if_neg hact]
      exact ⟨fun n hn => h4 n hn hn, fun y hy => h5 y fun m hm _ he =>
        hy (he ▸ List.getElem_mem hm)⟩)
  refine ⟨{ st with boxes := bs }, ?_, assigned_of_loop st u (fun _ _ _ => c) _ _ bs _
    (fun _ _ _ _ _ _ _ => rfl) h2 (fun _ => rfl) rfl fun _ _ => rfl⟩
  simp only [vlsetconstant, DState.loop, h1, Res.bind_ok]

@[simp] theorem setTime_index (st : DState K) (r : Nat) (t : K) (l : Nat) :
    ((st.setTime r t).vl l).index = (st.vl l).index := by
  by_cases h : l = r <;> simp [DState.setTime, h]

theorem Operand_setTime {st : DState K} {r l k : Nat} {t : K} (h : st.Operand r l) :
    (st.setTime k t).Operand r l := by
  refine ⟨?_, by simpa using h.long, by simpa using h.apart⟩
  intro box hb hact x hx
  exact h.stored box hb hact x (by simpa using hx)

section
variable [Zero K]

theorem compVal_setTime (st : DState K) (k : Nat) (t : K) (l : Option Nat) (b n i : Nat) :
    (st.setTime k t).compVal l b n i = st.compVal l b n i := by
  cases l with
  | none => rfl
  | some l => simp only [DState.compVal, setTime_index]; rfl

/-- C14, vlcopy: `v = u`, including the time. -/
theorem C14_vlcopy_partial (st : DState K) (v u : Nat)
    (hr : (st.vl v).index.Nodup) (hs : st.Stored v) (hu : st.Operand v u) :
    ∃ st', vlcopy st v u = .ok st' ∧
      Spec.Assigned st st' v (fun bx n i => st.compVal (some u) bx n i) (st.vl u).time := by
  let st1 := st.setTime v (st.vl u).time
  have hu1 : st1.Operand v u := Operand_setTime hu
  have hr1 : (st1.vl v).index.Nodup := by simpa [st1] using hr
  have hs1 : st1.Stored v := by
    intro box hb hact x hx
    exact hs box hb hact x (by simpa [st1] using hx)
  obtain ⟨bs, h1, h2⟩ := loop_spec st1 v hr1 hs1
    (fun box n i => box.at (st1.vl u).index n i)
    (body := fun n box =>
      (st1.idx (some u) n).bind fun pu =>
      (st1.idx (some v) n).bind fun pv =>
      forN box.nnodes (fun i box => (box.rd pu i).bind fun x => box.wr pv i x) box)
    (by
      intro box hbx hact n hn t p ht hy hp
      obtain ⟨x, hx1, hx2⟩ := hu1.read hbx hact hn hy
      rw [hx1, DState.idx_some hn, Res.bind_ok, Res.bind_ok]
      exact pointLoop hp (fun i b => b.rd x i) _ fun i q hi hq => rd_operand hp hq hi hx2)
  refine ⟨_, h1, ?_⟩
  have := assigned_of_loop st1 v _ (fun bx n i => st.compVal (some u) bx n i) (st.vl u).time bs
    st1.vl (by
      intro bx box hbx n i hi _
      simp only [compVal_eq hbx hi]
      exact compVal_setTime st v _ _ _ _ _) h2 (fun _ => rfl) (by simp [st1, DState.setTime])
    (fun _ _ => rfl)
  refine ⟨?_, ?_, ?_, this.time, ?_, this.shape⟩
  · intro b n i x hl hx; exact this.set b n i x hl (by simpa [st1] using hx)
  · intro b x i h; exact this.frame b x i (h.imp (by simp [st1]) id)
  · intro l; simp [st1]
  · intro l h; simp [st1, DState.setTime, h]

omit [Zero K] in
/-- The inner loop of vlswap. -/
theorem swapPoints {t : DBox K} {x y : Nat} {p q : Nat → K} (hx : t.v x = some p)
    (hy : t.v y = some q) :
    forN t.nnodes (fun i box =>
      (box.rd x i).bind fun temp =>
      (box.rd y i).bind fun z =>
      (box.wr x i z).bind fun box =>
      box.wr y i temp) t
      = .ok ((t.setTo x fun i => if i < t.nnodes then q i else p i).setTo y
          fun i => if i < t.nnodes then p i else q i) := by
  have := forN_inv (n := t.nnodes) (body := fun i box =>
      (box.rd x i).bind fun temp =>
      (box.rd y i).bind fun z =>
      (box.wr x i z).bind fun box =>
      box.wr y i temp) (s := t)
    (fun n b => b = (t.setTo x fun i => if i < n then q i else p i).setTo y
          fun i => if i < n then p i else q i)
    (by
      simp only [Nat.not_lt_zero, if_false]
      rw [DBox.setTo_same hx, DBox.setTo_same hy])
    (by
      rintro i hi s rfl
      refine ⟨_, ?_, rfl⟩
      have hj : ∀ j, j < i + 1 ↔ j = i ∨ j < i := by omega
      by_cases hxy : y = x
      · subst hxy
        have hpq : p = q := Option.some.inj (hx.symm.trans hy)
        subst hpq
        simp [DBox.rd, DBox.wr, DBox.setTo, hi]
        funext z; by_cases hz : z = y <;> simp [hz]
        funext j; by_cases h : j = i <;> simp [h]
      · have hxy' : ¬ x = y := fun h => hxy h.symm
        simp [DBox.rd, DBox.wr, DBox.setTo, hi, hxy, hxy']
        funext z
        by_cases hz : z = y
        · subst hz; simp; funext j; by_cases h : j = i <;> simp [h, hj]
        · by_cases hz' : z = x
          · subst hz'; simp [hz]; funext j; by_cases h : j = i <;> simp [h, hj]
          · simp [hz, hz'])
  obtain ⟨s, hs, rfl⟩ := this
  exact hs

omit [Zero K] in
/-- The loop over the components in vlswap, for the index lists `V` and `U`. -/
theorem swapComps {box : DBox K} (V U : List Nat) (hlen : V.length ≤ U.length)
    (hV : V.Nodup) (hU : (U.take V.length).Nodup)
    (hVU : ∀ (m n : Nat) (hm : m < V.length) (hn : n < V.length), m ≠ n →
      V[m] ≠ U[n]'(lt_of_lt_of_le hn hlen))
    (sV : ∀ x ∈ V, (box.v x).isSome) (sU : ∀ x ∈ U, (box.v x).isSome)
    (C : Nat → DBox K → Res (DBox K))
    (hC : ∀ (n : Nat) (hn : n < V.length) (t : DBox K), C n t =
      forN t.nnodes (fun i box =>
      (box.rd V[n] i).bind fun temp =>
      (box.rd (U[n]'(lt_of_lt_of_le hn hlen)) i).bind fun z =>
      (box.wr V[n] i z).bind fun box =>
      box.wr (U[n]'(lt_of_lt_of_le hn hlen)) i temp) t) :
    ∃ t, forN V.length C box = .ok t ∧ t.nnodes = box.nnodes ∧ t.inactive = box.inactive ∧
      (∀ (n : Nat) (hn : n < V.length), n < V.length → ∃ p q p' q',
        box.v V[n] = some p ∧ box.v (U[n]'(lt_of_lt_of_le hn hlen)) = some q ∧
        t.v V[n] = some p' ∧ t.v (U[n]'(lt_of_lt_of_le hn hlen)) = some q' ∧
        ∀ i, i < box.nnodes → p' i = q i ∧ q' i = p i) ∧
      ∀ y, (∀ (n : Nat) (hn : n < V.length), n < V.length →
        V[n] ≠ y ∧ U[n]'(lt_of_lt_of_le hn hlen) ≠ y) → t.v y = box.v y := by
  have hUinj : ∀ (m n : Nat) (hm : m < V.length) (hn : n < V.length),
      U[m]'(lt_of_lt_of_le hm hlen) = U[n]'(lt_of_lt_of_le hn hlen) → m = n := by
    intro m n hm hn he
    have hm' : m < (U.take V.length).length := by simp; omega
    have hn' : n < (U.take V.length).length := by simp; omega
    have : (U.take V.length)[m] = (U.take V.length)[n] := by simpa using he
    exact (hU.getElem_inj_iff).1 this
  refine forN_inv (fun k (t : DBox K) => t.nnodes = box.nnodes ∧ t.inactive = box.inactive ∧
      (∀ (n : Nat) (hn : n < V.length), n < k → ∃ p q p' q',
        box.v V[n] = some p ∧ box.v (U[n]'(lt_of_lt_of_le hn hlen)) = some q ∧
        t.v V[n] = some p' ∧ t.v (U[n]'(lt_of_lt_of_le hn hlen)) = some q' ∧
        ∀ i, i < box.nnodes → p' i = q i ∧ q' i = p i) ∧
      ∀ y, (∀ (n : Nat) (hn : n < V.length), n < k →
        V[n] ≠ y ∧ U[n]'(lt_of_lt_of_le hn hlen) ≠ y) → t.v y = box.v y)
    ⟨rfl, rfl, by simp, by simp⟩ ?_
  rintro k hk t ⟨h1, h2, h3, h4⟩
  have hkU : k < U.length := by omega
  obtain ⟨p, hp⟩ := Option.isSome_iff_exists.1 (sV _ (List.getElem_mem hk))
  obtain ⟨q, hq⟩ := Option.isSome_iff_exists.1 (sU _ (List.getElem_mem hkU))
  have hp' : t.v V[k] = some p := by
    rw [h4 _ fun n hn hnk => ⟨fun he => ?_, fun he => ?_⟩, hp]
    · exact absurd ((hV.getElem_inj_iff).1 he) (by omega)
    · exact hVU k n hk hn (by omega) he.symm
  have hq' : t.v U[k] = some q := by
    rw [h4 _ fun n hn hnk => ⟨fun he => ?_, fun he => ?_⟩, hq]
    · exact hVU n k hn hk (by omega) he
    · exact absurd (hUinj n k hn hk he) (by omega)
  have hstep := (hC k hk t).trans (swapPoints hp' hq')
  refine ⟨_, hstep, h1, h2, ?_, ?_⟩
  · intro n hn hnk
    by_cases h : n = k
    · subst h
      by_cases he : V[n] = U[n]
      · have hpq : p = q := by rw [he, hq] at hp; exact (Option.some.inj hp).symm
        subst hpq
        refine ⟨p, p, p, p, hp, hq, ?_, ?_, fun i _ => ⟨rfl, rfl⟩⟩
        · rw [he]; simp
        · simp
      · refine ⟨p, q, fun i => if i < t.nnodes then q i else p i, _, hp, hq, ?_,
          DBox.setTo_v_self _ _ _, ?_⟩
        · rw [DBox.setTo_v_ne _ _ he]; exact DBox.setTo_v_self _ _ _
        · intro i hi; rw [← h1] at hi; simp [hi]
    · obtain ⟨p1, q1, p2, q2, e1, e2, e3, e4, e5⟩ := h3 n hn (by omega)
      refine ⟨p1, q1, p2, q2, e1, e2, ?_, ?_, e5⟩
      · rw [DBox.setTo_v_ne _ _ (hVU n k hn hk h),
          DBox.setTo_v_ne _ _ fun he => h ((hV.getElem_inj_iff).1 he), e3]
      · rw [DBox.setTo_v_ne _ _ fun he => h (hUinj n k hn hk he),
          DBox.setTo_v_ne _ _ fun he => hVU k n hk hn (fun h' => h h'.symm) he.symm, e4]
  · intro y hy
    obtain ⟨a1, a2⟩ := hy k hk (by omega)
    rw [DBox.setTo_v_ne _ _ fun he => a2 he.symm, DBox.setTo_v_ne _ _ fun he => a1 he.symm]
    exact h4 y fun n hn hnk => hy n hn (by omega)

/-- C14, vlswap: components of `v` and `u` at the same place are exchanged, and so are the
times. The part left open: a variable at two different places. -/
theorem C14_vlswap_partial (st : DState K) (v u : Nat)
    (hlen : (st.vl v).index.length ≤ (st.vl u).index.length)
    (hV : (st.vl v).index.Nodup) (hU : ((st.vl u).index.take (st.vl v).index.length).Nodup)
    (hVU : ∀ (m n : Nat) (x y : Nat), m ≠ n → n < (st.vl v).index.length →
      (st.vl v).index[m]? = some x → (st.vl u).index[n]? = some y → x ≠ y)
    (sV : st.Stored v) (sU : st.Stored u) :
    ∃ st', vlswap st v u = .ok st' ∧ Spec.Swapped st st' v u := by
  let st1 := (st.setTime v (st.vl u).time).setTime u (st.vl v).time
  have hidx : ∀ l, (st1.vl l).index = (st.vl l).index := by intro l; simp [st1]
  have hidx' : ∀ (l n : Nat) (hn : n < (st.vl l).index.length),
      st1.idx (some l) n = .ok (st.vl l).index[n] := by
    intro l n hn; simp [DState.idx, hidx, hn]
  set V := (st.vl v).index with hVdef
  set U := (st.vl u).index with hUdef
  have hcomp := fun (box : DBox K) (hb : box ∈ st.boxes) (hact : box.inactive = false) =>
    swapComps (box := box) V U hlen hV hU
      (fun m n hm hn hmn => hVU m n _ _ hmn hn (List.getElem?_eq_getElem hm)
        (List.getElem?_eq_getElem _)) (sV box hb hact) (sU box hb hact)
      (fun n box =>
        (st1.idx (some u) n).bind fun pu =>
        (st1.idx (some v) n).bind fun pv =>
        forN box.nnodes (fun i box =>
          (box.rd pv i).bind fun temp =>
          (box.rd pu i).bind fun x =>
          (box.wr pv i x).bind fun box =>
          box.wr pu i temp) box)
      (by
        intro n hn t
        rw [hidx' u n (lt_of_lt_of_le hn hlen), hidx' v n hn]; rfl)
  obtain ⟨bs, h1, h2⟩ := forallboxes_spec (R := fun box box' => box'.nnodes = box.nnodes ∧
        box'.inactive = box.inactive ∧
        (if box.inactive then box' = box else
          (∀ (n : Nat) (hn : n < V.length), n < V.length → ∃ p q p' q',
            box.v V[n] = some p ∧ box.v (U[n]'(lt_of_lt_of_le hn hlen)) = some q ∧
            box'.v V[n] = some p' ∧ box'.v (U[n]'(lt_of_lt_of_le hn hlen)) = some q' ∧
            ∀ i, i < box.nnodes → p' i = q i ∧ q' i = p i) ∧
          ∀ y, (∀ (n : Nat) (hn : n < V.length), n < V.length →
            V[n] ≠ y ∧ U[n]'(lt_of_lt_of_le hn hlen) ≠ y) → box'.v y = box.v y)) st.boxes (by
    intro box hb
    by_cases hact : box.inactive
    · simp [hact]
    · rw [if_neg hact]
      obtain ⟨t, h1, h2, h3, h4⟩ := hcomp box hb (by simpa using hact)
      exact ⟨t, h1, h2, h3, by rw [if_neg hact]; exact h4⟩)
  have hrun : vlswap st v u = .ok { st1 with boxes := bs } := by
    have hl : (st1.vl v).index.length = V.length := by rw [hidx]
    show st1.loop v _ = _
    rw [DState.loop, hl]
    change (forallboxes _ st.boxes).bind _ = _
    have : (fun pu => Res.ok { st1 with boxes := pu }) = fun bs => Res.ok { st1 with boxes := bs } :=
      rfl
    erw [h1]; rfl
  refine ⟨_, hrun, ?_⟩
  have hl := h2.length_eq
  have hget : ∀ (b : Nat) (box : DBox K), st.boxes[b]? = some box → ∃ box', bs[b]? = some box' ∧
      (box'.nnodes = box.nnodes ∧
        box'.inactive = box.inactive ∧
        (if box.inactive then box' = box else
          (∀ (n : Nat) (hn : n < V.length), n < V.length → ∃ p q p' q',
            box.v V[n] = some p ∧ box.v (U[n]'(lt_of_lt_of_le hn hlen)) = some q ∧
            box'.v V[n] = some p' ∧ box'.v (U[n]'(lt_of_lt_of_le hn hlen)) = some q' ∧
            ∀ i, i < box.nnodes → p' i = q i ∧ q' i = p i) ∧
          ∀ y, (∀ (n : Nat) (hn : n < V.length), n < V.length →
            V[n] ≠ y ∧ U[n]'(lt_of_lt_of_le hn hlen) ≠ y) → box'.v y = box.v y)) := by
    intro b box hb
    obtain ⟨hb1, rfl⟩ := List.getElem?_eq_some_iff.1 hb
    exact ⟨bs[b]'(by omega), by simp [← hl, hb1],
      (List.forall₂_iff_get.1 h2).2 b hb1 (by omega)⟩
  refine ⟨?_, ?_, ?_, hidx, ?_, ?_, ?_, ?_⟩
  · rintro b n i x ⟨box, hb, hact, hi⟩ hx
    obtain ⟨hn, rfl⟩ := List.getElem?_eq_some_iff.1 hx
    obtain ⟨box', hb', e1, e2, e3⟩ := hget b box hb
    simp only [hact, Bool.false_eq_true, if_false] at e3
    obtain ⟨p, q, p', q', f1, f2, f3, f4, f5⟩ := e3.1 n hn hn
    simp only [DState.val, DState.compVal, hb', e1, hi, if_true, ← hUdef,
      List.getElem?_eq_getElem (lt_of_lt_of_le hn hlen), Option.bind_some, hb, f2,
      Option.map_some, Option.getD_some]
    have f3' : box'.v (st.vl v).index[n] = some p' := f3
    rw [f3']; simp [(f5 i hi).1]
  · rintro b n i y ⟨box, hb, hact, hi⟩ hn hy
    obtain ⟨hn', rfl⟩ := List.getElem?_eq_some_iff.1 hy
    obtain ⟨box', hb', e1, e2, e3⟩ := hget b box hb
    simp only [hact, Bool.false_eq_true, if_false] at e3
    obtain ⟨p, q, p', q', f1, f2, f3, f4, f5⟩ := e3.1 n hn hn
    simp only [DState.val, DState.compVal, hb', e1, hi, if_true, ← hVdef,
      List.getElem?_eq_getElem (show n < V.length from hn), Option.bind_some, hb, f1,
      Option.map_some, Option.getD_some]
    have f4' : box'.v (st.vl u).index[n] = some q' := f4
    rw [f4']; simp [(f5 i hi).2]
  · intro b x i h
    cases hb : st.boxes[b]? with
    | none =>
      have : bs[b]? = none := by
        rw [List.getElem?_eq_none_iff] at hb ⊢; omega
      simp [DState.val, hb, this]
    | some box =>
      obtain ⟨box', hb', e1, e2, e3⟩ := hget b box hb
      simp only [DState.val, hb, hb', e1]
      by_cases hi : i < box.nnodes
      · simp only [hi, if_true]
        by_cases hact : box.inactive
        · rw [if_pos hact] at e3; rw [e3]
        · rw [if_neg hact] at e3
          rcases h with ⟨hx1, hx2⟩ | h
          · rw [e3.2 x fun n hn _ => ⟨fun he => hx1 (he ▸ List.getElem_mem hn), fun he => hx2 ?_⟩]
            rw [← he, List.mem_take_iff_getElem]
            exact ⟨n, lt_min hn (lt_of_lt_of_le hn hlen), rfl⟩
          · exact absurd ⟨box, hb, by simpa using hact, hi⟩ h
      · simp [hi]
  · show (st1.vl v).time = _
    by_cases h : v = u
    · subst h; simp [st1, DState.setTime]
    · simp [st1, DState.setTime, h]
  · show (st1.vl u).time = _
    simp [st1, DState.setTime]
  · intro l h h'
    show (st1.vl l).time = _
    simp [st1, DState.setTime, h, h']
  · apply List.ext_getElem
    · simp [← hl]
    · intro b b1 b2
      simp only [List.length_map] at b1 b2
      obtain ⟨box', hb', e3, e4, _⟩ := hget b _ (List.getElem?_eq_getElem b2)
      have : bs[b] = box' := by
        have := List.getElem?_eq_getElem b1
        rw [this] at hb'; exact Option.some.inj hb'
      simp [this, e3, e4]

end

section examples

/-- A grid with one active box of two points and one inactive box, with three variables: 0 has
the values 1, 2 and variable 1 the values 10, 20; variable 2 has no storage. List 0 is variable
0, list 1 variable 1, list 2 variable 2, list 3 holds 0, 1 and list 4 holds 1, 0. -/
def exState : DState ℚ where
  boxes := [
    { nnodes := 2, inactive := false,
      v := fun x => if x = 0 then some (fun i => i + 1) else if x = 1 then
        some (fun i => 10 * i + 10) else none },
    { nnodes := 2, inactive := true, v := fun x => if x = 0 then some (fun _ => 7) else none }]
  vl := fun l => if l = 0 then ⟨[0], 5⟩ else if l = 1 then ⟨[1], 3⟩ else if l = 2 then ⟨[2], 0⟩
    else if l = 3 then ⟨[0, 1], 0⟩ else ⟨[1, 0], 0⟩

/-- Values of variables 0 and 1 in the active box, of variable 0 in the inactive box, and
the times of the lists 0 and 1. -/
def exView (st : DState ℚ) : List (Option ℚ) × List ℚ :=
  ([st.val 0 0 0, st.val 0 0 1, st.val 0 1 0, st.val 0 1 1, st.val 1 0 0],
   [(st.vl 0).time, (st.vl 1).time])

example : (vladd exState 0 2 (some 0) (-1) (some 1)).map exView =
    .ok ([some (-8), some (-16), some 10, some 20, some 7], [7, 3]) := by decide +kernel
example : (vladd exState 1 0 none 4 (some 1)).map exView =
    .ok ([some 1, some 2, some 40, some 80, some 7], [5, 12]) := by decide +kernel
example : (vladd exState 1 1 none 4 (some 1)).map exView = .ub := by decide +kernel
example : (vladd exState 1 1 (some 2) 4 (some 1)).map exView = .ub := by decide +kernel
example : (vladd exState 1 0 (some 2) 4 (some 1)).map exView =
    .ok ([some 1, some 2, some 40, some 80, some 7], [5, 12]) := by decide +kernel
example : (vladdto exState 0 (-1) (some 1)).map exView =
    .ok ([some (-9), some (-18), some 10, some 20, some 7], [2, 3]) := by decide +kernel
example : (vladdto exState 0 0 none).map exView =
    .ok ([some 1, some 2, some 10, some 20, some 7], [5, 3]) := by decide +kernel
example : (vlcopy exState 0 1).map exView =
    .ok ([some 10, some 20, some 10, some 20, some 7], [3, 3]) := by decide +kernel
example : (vlswap exState 0 1).map exView =
    .ok ([some 10, some 20, some 1, some 2, some 7], [3, 5]) := by decide +kernel
example : (vlaverage exState 0 0 1).map exView =
    .ok ([some (11/2), some 11, some 10, some 20, some 7], [4, 3]) := by decide +kernel
example : (vlsubtract exState 0 0 1).map exView =
    .ok ([some (-9), some (-18), some 10, some 20, some 7], [2, 3]) := by decide +kernel
example : (vlsetconstant exState 0 6).map exView =
    .ok ([some 6, some 6, some 10, some 20, some 7], [5, 3]) := by decide +kernel

/-- C14 fails for lists with a common variable at different places: after copying list 4
(variables 1, 0) to list 3 (variables 0, 1) variable 1 should have the value variable 0 had
before, which is 1, but it keeps its own 10, because variable 0 was overwritten first. -/
theorem C14_counterexample :
    exState.Stored 3 ∧ exState.Stored 4 ∧ (exState.vl 3).index.Nodup ∧
    (exState.vl 4).index.Nodup ∧
    exState.compVal (some 4) 0 1 0 = 1 ∧ (exState.vl 3).index[1]? = some 1 ∧
    (vlcopy exState 3 4).map (fun st => st.val 0 1 0) = .ok (some 10) := by
  refine ⟨?_, ?_, by decide, by decide, by decide +kernel, by decide, by decide +kernel⟩ <;>
  · intro box hb hact x hx
    simp only [exState, List.mem_cons, List.not_mem_nil, or_false] at hb
    rcases hb with rfl | rfl
    · simp [exState] at hx
      rcases hx with rfl | rfl <;> simp
    · simp at hact

end examples

end Sgrid
