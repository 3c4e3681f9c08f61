import Verif.Model.Jacobi
import Verif.Props.RootFind
import Verif.Props.Umfpack
import Verif.Lemmas.Parallel

/-!
C98: active boxes, and the Jacobi and block Jacobi preconditioners.
-/

namespace Sgrid
open Finset

/-! ## Active boxes -/

/-- How many active boxes come before box `b`. -/
def Spec.rank (g : GShape) (b : Nat) : Nat := #{b' ∈ range b | g.inactive b' = false}

theorem rank_succ (g : GShape) (b : Nat) :
    Spec.rank g (b + 1) = Spec.rank g b + if g.inactive b = false then 1 else 0 := by
  unfold Spec.rank
  rw [range_add_one, filter_insert]
  split
  · rw [card_insert_of_notMem (by simp)]
  · rfl

theorem rank_mono (g : GShape) {b b' : Nat} (h : b ≤ b') : Spec.rank g b ≤ Spec.rank g b' := by
  induction b', h using Nat.le_induction with
  | base => exact le_refl _
  | succ n _ ih => rw [rank_succ]; omega

/-- Active boxes have different numbers of active boxes before them. -/
theorem rank_lt (g : GShape) {b b' : Nat} (ha : g.inactive b = false) (h : b < b') :
    Spec.rank g b < Spec.rank g b' := by
  have := rank_mono g (show b + 1 ≤ b' from h)
  rw [rank_succ, if_pos ha] at this
  omega

theorem rank_le (g : GShape) (b : Nat) : Spec.rank g b ≤ b := by
  unfold Spec.rank
  exact (card_filter_le _ _).trans (by simp)

theorem activeCount (g : GShape) : g.forBoxes (fun _ n => n + 1) 0 = Spec.rank g g.nboxes := by
  unfold GShape.forBoxes
  refine upLoop_inv (Nat.zero_le _) (fun m n => n = Spec.rank g m) rfl ?_
  rintro j t _ _ rfl
  rw [rank_succ]
  cases g.inactive j <;> simp

/-- `set_ninactive` leaves the number of active boxes as the value of the macro `activeboxes`. -/
theorem C98_ninactive (g : GShape) : g.nboxes - setNinactive g = Spec.rank g g.nboxes := by
  have := rank_le g g.nboxes
  rw [setNinactive, activeCount]
  omega

theorem rank_all (g : GShape) (h : Spec.rank g g.nboxes = g.nboxes) {b : Nat} (hb : b ≤ g.nboxes) :
    Spec.rank g b = b ∧ ∀ b' < b, g.inactive b' = false := by
  have key : ∀ c, c ≤ g.nboxes → Spec.rank g g.nboxes ≤ Spec.rank g (g.nboxes - c) + c := by
    intro c
    induction c with
    | zero => simp
    | succ c ih =>
      intro hc
      have h1 := rank_succ g (g.nboxes - (c + 1))
      rw [show g.nboxes - (c + 1) + 1 = g.nboxes - c by omega] at h1
      have := ih (by omega)
      split at h1 <;> omega
  have hr : ∀ b ≤ g.nboxes, Spec.rank g b = b := by
    intro b hb
    have h1 := key (g.nboxes - b) (by omega)
    rw [show g.nboxes - (g.nboxes - b) = b by omega] at h1
    have := rank_le g b
    omega
  refine ⟨hr b hb, fun b' hb' => ?_⟩
  have h1 := rank_succ g b'
  rw [hr b' (by omega), hr (b' + 1) (by omega)] at h1
  by_contra hc
  rw [if_neg hc] at h1
  omega

/-- **C98**: `IndexOf_ith_ActiveBox` returns the active box that has `i` active boxes before it, for all grids
and all `i`, and -1 exactly if there is none. -/
theorem C98_active (g : GShape) (i : Int) :
    let r := indexOfActive g (setNinactive g) i
    (∀ b : Nat, r = b ↔ b < g.nboxes ∧ g.inactive b = false ∧ (Spec.rank g b : Int) = i) ∧
    (r = -1 ↔ i < 0 ∨ (Spec.rank g g.nboxes : Int) ≤ i) ∧
    (r = -1 ∨ ∃ b : Nat, r = b) := by
  have hle := rank_le g g.nboxes
  unfold indexOfActive
  by_cases h0 : setNinactive g = 0
  · have hr : Spec.rank g g.nboxes = g.nboxes := by
      rw [← C98_ninactive, h0]; omega
    simp only [h0, if_true]
    refine ⟨fun b => ?_, ?_, ?_⟩
    · constructor
      · intro h
        split at h
        · rename_i hc
          have hb : b < g.nboxes := by omega
          exact ⟨hb, (rank_all g hr (le_refl _)).2 b hb, by rw [(rank_all g hr hb.le).1]; exact h.symm⟩
        · omega
      · rintro ⟨hb, _, hi⟩
        rw [(rank_all g hr hb.le).1] at hi
        rw [if_pos (by omega), hi]
    · rw [hr]
      split <;> omega
    · split
      · exact Or.inr ⟨i.toNat, by omega⟩
      · exact Or.inl rfl
  · simp only [if_neg h0]
    refine (forRet_inv (n := g.nboxes) (body := activePass g i) (s := 0)
      (fun j nn => nn = Spec.rank g (j - 1) ∧ ∀ b < j - 1, g.inactive b = false → (Spec.rank g b : Int) ≠ i)
      (fun j b => b < g.nboxes ∧ g.inactive b = false ∧ (Spec.rank g b : Int) = i) ?_ ?_ ?_).elim ?_ ?_
    · exact ⟨by simp [Spec.rank], fun b hb => by omega⟩
    · rintro j nn x h1 h2 ⟨rfl, _⟩ hb
      unfold activePass at hb
      split at hb
      · simp at hb
      · rename_i hin
        split at hb
        · rename_i hi
          simp only [Sum.inl.injEq] at hb
          subst hb
          exact ⟨by omega, by simpa using hin, hi⟩
        · simp at hb
    · rintro j nn s' h1 h2 ⟨rfl, hno⟩ hb
      obtain ⟨m, rfl⟩ : ∃ m, j = m + 1 := ⟨j - 1, by omega⟩
      simp only [Nat.add_sub_cancel] at *
      unfold activePass at hb
      simp only [Nat.add_sub_cancel] at hb
      rw [rank_succ]
      split at hb
      · rename_i hin
        simp only [Sum.inr.injEq] at hb
        subst hb
        rw [if_neg (by simp [hin])]
        refine ⟨rfl, fun b hlt ha => ?_⟩
        rcases Nat.lt_succ_iff_lt_or_eq.mp hlt with h | rfl
        · exact hno b h ha
        · simp [hin] at ha
      · rename_i hin
        split at hb
        · simp at hb
        · rename_i hi
          simp only [Sum.inr.injEq] at hb
          subst hb
          rw [if_pos (by simpa using hin)]
          refine ⟨by push_cast; rfl, fun b hlt ha => ?_⟩
          rcases Nat.lt_succ_iff_lt_or_eq.mp hlt with h | rfl
          · exact hno b h ha
          · exact hi
    · rintro ⟨b, j, _, _, hf, hb, ha, hi⟩
      rw [hf]
      simp only [Nat.cast_inj]
      refine ⟨fun b' => ⟨?_, ?_⟩, ?_, Or.inr ⟨b, rfl⟩⟩
      · rintro rfl
        exact ⟨hb, ha, hi⟩
      · rintro ⟨hb', ha', hi'⟩
        rcases Nat.lt_trichotomy b b' with h | h | h
        · have := rank_lt g ha h; omega
        · exact h
        · have := rank_lt g ha' h; omega
      · have := rank_lt g ha hb
        omega
    · rintro ⟨s', hf, rfl, hno⟩
      rw [hf]
      simp only [Nat.add_sub_cancel] at hno
      refine ⟨fun b => ⟨fun h => by dsimp only at h; omega, fun ⟨hb, ha, hi⟩ => absurd hi (hno b hb ha)⟩, ?_, Or.inl rfl⟩
      simp only [true_iff]
      by_contra hc
      push Not at hc
      -- some box has this rank
      have key : ∀ m, i < (Spec.rank g m : Int) → ∃ b < m, g.inactive b = false ∧
          (Spec.rank g b : Int) = i := by
        intro m
        induction m with
        | zero => intro h; simp [Spec.rank] at h; omega
        | succ m ih =>
          intro h
          by_cases hm : i < (Spec.rank g m : Int)
          · obtain ⟨b, hb, r⟩ := ih hm
            exact ⟨b, by omega, r⟩
          · rw [rank_succ] at h
            split at h
            · rename_i ha
              exact ⟨m, by omega, ha, by omega⟩
            · omega
      obtain ⟨b, hb, ha, hi⟩ := key g.nboxes hc.2
      exact hno b hb ha hi

/-- After the flags are set, each box of the list has the new flag, the others have the old one, and
`ninactive` is the number of inactive boxes. -/
theorem C98_flags (g : GShape) (l : List Int) (fl : Bool) :
    (setInactiveFlags g l fl = .ub ↔ ∃ i ∈ l, i < 0 ∨ (g.nboxes : Int) ≤ i) ∧
    ∀ g' n, setInactiveFlags g l fl = .ok (g', n) →
      g'.nboxes = g.nboxes ∧ g'.nnodes = g.nnodes ∧
      (∀ b : Nat, g'.inactive b = if (b : Int) ∈ l then fl else g.inactive b) ∧
      n = #{b ∈ range g.nboxes | g'.inactive b = true} := by
  unfold setInactiveFlags
  have hany : (l.any (fun i => i < 0 || g.nboxes ≤ i) = true) ↔ ∃ i ∈ l, i < 0 ∨ (g.nboxes : Int) ≤ i := by
    simp
  refine ⟨?_, ?_⟩
  · rw [← hany]
    split <;> simp_all
  · intro g' n h
    split at h
    · simp at h
    · rename_i hc
      rw [hany] at hc
      push Not at hc
      simp only [Res.ok.injEq, Prod.mk.injEq] at h
      obtain ⟨rfl, rfl⟩ := h
      refine ⟨rfl, rfl, fun b => ?_, ?_⟩
      · have key : ∀ (l : List Int) (f : Nat → Bool), (∀ i ∈ l, 0 ≤ i) →
            l.foldl (fun f i => aset f i.toNat fl) f b = if (b : Int) ∈ l then fl else f b := by
          intro l
          induction l with
          | nil => simp
          | cons i l ih =>
            intro f hl
            rw [List.foldl_cons, ih _ fun i hi => hl i (List.mem_cons_of_mem _ hi)]
            have := hl i List.mem_cons_self
            by_cases hm : (b : Int) ∈ l
            · rw [if_pos hm, if_pos (List.mem_cons_of_mem _ hm)]
            · rw [if_neg hm]
              by_cases hb : (b : Int) = i
              · subst hb
                simp
              · rw [aset_ne _ _ (by omega), if_neg (by simp [hb, hm])]
        exact key l g.inactive fun i hi => (hc i hi).1
      · generalize hg : ({ g with inactive := l.foldl (fun f i => aset f i.toNat fl) g.inactive } : GShape) = g'
        have hn : g'.nboxes = g.nboxes := by rw [← hg]
        have h2 : setNinactive g' = #{b ∈ range g.nboxes | g'.inactive b = true} := by
          rw [setNinactive, activeCount, Spec.rank, hn]
          have := card_filter_add_card_filter_not (s := range g.nboxes) (fun b => g'.inactive b = false)
          simp only [Bool.not_eq_false, card_range] at this
          omega
        rw [← hg] at h2 ⊢
        exact h2

/-- All boxes get the flag. -/
theorem C98_allflags (g : GShape) (fl : Bool) :
    let r := setAllFlags g fl
    (∀ b < g.nboxes, r.1.inactive b = fl) ∧ r.2 = if fl then g.nboxes else 0 := by
  have h1 : ∀ b < g.nboxes, (setAllFlags g fl).1.inactive b = fl := by
    intro b hb
    have key := upLoop_inv (Nat.zero_le g.nboxes) (body := fun b f => aset f b fl) (s := g.inactive)
      (fun m f => ∀ b < m, f b = fl) (by omega) (by
        intro j f _ _ h b hb
        by_cases hj : b = j
        · subst hj; simp
        · rw [aset_ne _ _ hj]; exact h b (by omega))
    exact key b hb
  refine ⟨h1, ?_⟩
  have h2 : Spec.rank (setAllFlags g fl).1 g.nboxes = if fl then 0 else g.nboxes := by
    unfold Spec.rank
    rw [filter_congr (q := fun _ => fl = false) fun b hb => by rw [h1 b (mem_range.mp hb)]]
    cases fl <;> simp
  show setNinactive (setAllFlags g fl).1 = _
  rw [setNinactive, activeCount]
  show g.nboxes - Spec.rank (setAllFlags g fl).1 g.nboxes = _
  rw [h2]
  cases fl <;> simp

/-- Boxes 0 and 2 of four are inactive. -/
example : let g : GShape := ⟨4, fun _ => 1, fun b => b % 2 = 0⟩
    setNinactive g = 2 ∧ ([-1, 0, 1, 2].map (indexOfActive g 2)) = [-1, 1, 3, -1] ∧
    (setInactiveFlags g [0, 2] false).map (·.2) = .ok 0 ∧ (setAllFlags g true).2 = 4 ∧
    indexOfActive ⟨4, fun _ => 1, fun _ => false⟩ 0 3 = 3 ∧
    indexOfActive ⟨4, fun _ => 1, fun _ => false⟩ 0 4 = -1 := by decide +kernel

/-! ## Blocks -/

/-- The block is one of a variable of the list, an active box and a subbox. -/
def Spec.IsBlock (g : GShape) (n nsb1 nsb2 nsb3 : Nat) (q : BlockIdx) : Prop :=
  q.vi < n ∧ (∃ b : Nat, q.bi = b ∧ b < g.nboxes ∧ g.inactive b = false) ∧
  q.sbi < nsb1 ∧ q.sbj < nsb2 ∧ q.sbk < nsb3

theorem divmod_lt {a b x y : Nat} (hx : x < a) (hy : y < b) : a * y + x < a * b := by
  calc a * y + x < a * y + a := by omega
    _ = a * (y + 1) := by rw [Nat.mul_succ]
    _ ≤ a * b := Nat.mul_le_mul_left _ hy

theorem divmod_get {a x y : Nat} (hx : x < a) : (a * y + x) / a = y ∧ (a * y + x) % a = x := by
  refine ⟨?_, ?_⟩
  · rw [Nat.mul_add_div (by omega), Nat.div_eq_of_lt hx, Nat.add_zero]
  · rw [Nat.mul_add_mod, Nat.mod_eq_of_lt hx]

/-- **C98**: the passes of `forallVarsBoxesAndSubboxes_defIndices` are numbered by the blocks: each pass has the
indices of a block, and each block belongs to exactly one pass. -/
theorem C98_blocks (g : GShape) (n nsb1 nsb2 nsb3 : Nat) :
    let N := nBlocks g (setNinactive g) n nsb1 nsb2 nsb3
    let ix := blockIdx g (setNinactive g) nsb1 nsb2 nsb3
    (∀ x < N, Spec.IsBlock g n nsb1 nsb2 nsb3 (ix x)) ∧
    (∀ q, Spec.IsBlock g n nsb1 nsb2 nsb3 q → ∃! x, x < N ∧ ix x = q) ∧
    N = n * Spec.rank g g.nboxes * (nsb1 * nsb2 * nsb3) := by
  intro N ix
  have hix : ∀ x, ix x = ⟨x / (nsb1 * nsb2 * nsb3 * Spec.rank g g.nboxes),
      indexOfActive g (setNinactive g)
        ((x % (nsb1 * nsb2 * nsb3 * Spec.rank g g.nboxes) / (nsb1 * nsb2 * nsb3) : Nat)),
      x % (nsb1 * nsb2 * nsb3 * Spec.rank g g.nboxes) % (nsb1 * nsb2 * nsb3) % (nsb1 * nsb2) % nsb1,
      x % (nsb1 * nsb2 * nsb3 * Spec.rank g g.nboxes) % (nsb1 * nsb2 * nsb3) % (nsb1 * nsb2) / nsb1,
      x % (nsb1 * nsb2 * nsb3 * Spec.rank g g.nboxes) % (nsb1 * nsb2 * nsb3) / (nsb1 * nsb2)⟩ := by
    intro x
    simp only [ix, blockIdx, ← Nat.mod_def, C98_ninactive]
  have hN : N = nsb1 * nsb2 * nsb3 * Spec.rank g g.nboxes * n := by
    simp only [N, nBlocks, C98_ninactive]
  generalize hR : Spec.rank g g.nboxes = R at *
  have hget : ∀ a : Nat, a < R → ∃ b : Nat, indexOfActive g (setNinactive g) a = b ∧ b < g.nboxes ∧
      g.inactive b = false ∧ Spec.rank g b = a := by
    intro a ha
    obtain ⟨h1, h2, h3⟩ := C98_active g (a : Int)
    rcases h3 with h | ⟨b, hb⟩
    · rw [h2, hR] at h
      omega
    · obtain ⟨e1, e2, e3⟩ := (h1 b).mp hb
      exact ⟨b, hb, e1, e2, by exact_mod_cast e3⟩
  refine ⟨?_, ?_, ?_⟩
  · intro x hx
    rw [hN] at hx
    have hpos : 0 < nsb1 * nsb2 * nsb3 * R := by
      rcases Nat.eq_zero_or_pos (nsb1 * nsb2 * nsb3 * R) with h | h
      · rw [h] at hx; simp at hx
      · exact h
    have hM : 0 < nsb1 * nsb2 * nsb3 := Nat.pos_of_mul_pos_right hpos
    have hM2 : 0 < nsb1 * nsb2 := Nat.pos_of_mul_pos_right hM
    have hM1 : 0 < nsb1 := Nat.pos_of_mul_pos_right hM2
    rw [hix]
    have ha : x % (nsb1 * nsb2 * nsb3 * R) / (nsb1 * nsb2 * nsb3) < R :=
      Nat.div_lt_of_lt_mul (Nat.mod_lt _ hpos)
    obtain ⟨b, hb, h1, h2, _⟩ := hget _ ha
    exact ⟨Nat.div_lt_of_lt_mul hx, ⟨b, hb, h1, h2⟩, Nat.mod_lt _ hM1,
      Nat.div_lt_of_lt_mul (Nat.mod_lt _ hM2), Nat.div_lt_of_lt_mul (Nat.mod_lt _ hM)⟩
  · rintro ⟨vi, bi, sbi, sbj, sbk⟩ ⟨h1, ⟨b, hb, h2, h3⟩, h4, h5, h6⟩
    dsimp only at h1 hb h4 h5 h6
    have hrk : Spec.rank g b < R := by rw [← hR]; exact rank_lt g h3 h2
    have l1 := divmod_lt h4 h5
    have l2 := divmod_lt l1 h6
    have l3 := divmod_lt l2 hrk
    have l4 := divmod_lt l3 h1
    have g1 := divmod_get (y := sbj) h4
    have g2 := divmod_get (y := sbk) l1
    have g3 := divmod_get (y := Spec.rank g b) l2
    have g4 := divmod_get (y := vi) l3
    refine ⟨_, ⟨by rw [hN]; exact l4, ?_⟩, ?_⟩
    · rw [hix, g4.1, g4.2, g3.1, g3.2, g2.1, g2.2, g1.1, g1.2, hb]
      congr 1
      exact ((C98_active g (Spec.rank g b : Int)).1 b).mpr ⟨h2, h3, rfl⟩
    · rintro y ⟨hy, hq⟩
      rw [hN] at hy
      rw [hix, BlockIdx.mk.injEq] at hq
      obtain ⟨q1, q2, q3, q4, q5⟩ := hq
      have d1 := Nat.div_add_mod y (nsb1 * nsb2 * nsb3 * R)
      have d2 := Nat.div_add_mod (y % (nsb1 * nsb2 * nsb3 * R)) (nsb1 * nsb2 * nsb3)
      have d3 := Nat.div_add_mod (y % (nsb1 * nsb2 * nsb3 * R) % (nsb1 * nsb2 * nsb3)) (nsb1 * nsb2)
      have d4 := Nat.div_add_mod
        (y % (nsb1 * nsb2 * nsb3 * R) % (nsb1 * nsb2 * nsb3) % (nsb1 * nsb2)) nsb1
      have hab : y % (nsb1 * nsb2 * nsb3 * R) / (nsb1 * nsb2 * nsb3) = Spec.rank g b := by
        rw [hb] at q2
        have := ((C98_active g _).1 b).mp q2
        exact_mod_cast this.2.2.symm
      rw [q1] at d1
      rw [hab] at d2
      rw [q5] at d3
      rw [q4, q3] at d4
      rw [← d1, ← d2, ← d3, ← d4]
  · rw [hN]
    ring

example : let g : GShape := ⟨3, fun _ => 8, fun b => b = 1⟩
    nBlocks g 1 2 2 1 1 = 8 ∧ blockIdx g 1 2 1 1 5 = ⟨1, 0, 1, 0, 0⟩ ∧
    blockIdx g 1 2 1 1 6 = ⟨1, 2, 0, 0, 0⟩ ∧ blockIdx g 1 2 3 2 23 = ⟨0, 2, 1, 2, 1⟩ := by decide +kernel

/-! ## The diagonal -/

variable {K : Type} [Field K] [LinearOrder K]

omit [LinearOrder K] in
theorem diagEntry_none {A : Nat → SVec K} {c : Nat} (h : diagEntry A c = none) :
    Spec.entry (A c) c = 0 := by
  unfold diagEntry at h
  rw [Option.map_eq_none_iff, List.find?_eq_none] at h
  unfold Spec.entry
  apply List.sum_eq_zero
  intro x hx
  obtain ⟨e, he, rfl⟩ := List.mem_map.mp hx
  exact if_neg (by simpa using h e he)

omit [LinearOrder K] in
theorem diagEntry_some {A : Nat → SVec K} {c : Nat} {a : K} (h : diagEntry A c = some a) :
    ((c : Int), a) ∈ A c ∧ (((A c).map Prod.fst).Nodup → Spec.entry (A c) c = a) := by
  unfold diagEntry at h
  rw [Option.map_eq_some_iff] at h
  obtain ⟨⟨p, x⟩, h, rfl⟩ := h
  have hm := List.mem_of_find?_eq_some h
  have hp := List.find?_some h
  simp only [decide_eq_true_eq] at hp
  subst hp
  refine ⟨hm, fun hn => ?_⟩
  obtain ⟨l1, l2, hl⟩ := List.append_of_mem hm
  rw [hl] at hn ⊢
  rw [List.map_append, List.map_cons, List.nodup_append'] at hn
  obtain ⟨_, h2, hdis⟩ := hn
  rw [List.nodup_cons] at h2
  have z : ∀ l : SVec K, (c : Int) ∉ l.map Prod.fst → (l.map fun e => if e.1 = (c : Int) then e.2 else 0).sum = 0 := by
    intro l hl
    apply List.sum_eq_zero
    intro x hx
    obtain ⟨e, he, rfl⟩ := List.mem_map.mp hx
    refine if_neg fun h => hl ?_
    rw [← h]
    exact List.mem_map_of_mem he
  unfold Spec.entry
  rw [List.map_append, List.map_cons, List.sum_append, List.sum_cons, z l2 h2.1,
    z l1 fun h => hdis h List.mem_cons_self]
  simp

/-- **C98** for the inverse diagonal: for all columns without repeated positions the program ends with an error
exactly if an entry zero is stored on the diagonal; otherwise the array holds the inverse of each entry on the
diagonal, and zero where the diagonal is zero. -/
theorem C98_diaginv (A : Nat → SVec K) (n : Nat) (hn : ∀ c < n, ((A c).map Prod.fst).Nodup) :
    (diagInv A n = .abort ↔ ∃ c : Nat, c < n ∧ ((c : Int), (0 : K)) ∈ A c) ∧ diagInv A n ≠ .ub ∧
    ∀ D, diagInv A n = .ok D →
      (∀ c < n, Spec.entry (A c) c ≠ 0 → D c * Spec.entry (A c) c = 1) ∧
      (∀ c < n, Spec.entry (A c) c = 0 → D c = 0) ∧ ∀ c, n ≤ c → D c = 0 := by
  have huniq : ∀ c < n, ∀ x y : K, ((c : Int), x) ∈ A c → ((c : Int), y) ∈ A c → x = y := by
    intro c hc x y hx hy
    have := List.inj_on_of_nodup_map (hn c hc) hx hy rfl
    simpa using this
  have hfound : ∀ c, (∃ x : K, ((c : Int), x) ∈ A c) → diagEntry A c ≠ none := by
    rintro c ⟨x, hx⟩ h
    unfold diagEntry at h
    rw [Option.map_eq_none_iff, List.find?_eq_none] at h
    exact h _ hx (by simp)
  refine (forRet_inv (n := n) (body := diagInvPass A) (s := fun _ => (0 : K))
    (fun j D => (∀ c < j - 1, Spec.entry (A c) c ≠ 0 → D c * Spec.entry (A c) c = 1) ∧
      (∀ c < j - 1, Spec.entry (A c) c = 0 → D c = 0) ∧ (∀ c, j - 1 ≤ c → D c = 0) ∧
      ∀ c < j - 1, ((c : Int), (0 : K)) ∉ A c)
    (fun _ _ => ∃ c : Nat, c < n ∧ ((c : Int), (0 : K)) ∈ A c) ?_ ?_ ?_).elim ?_ ?_
  · exact ⟨by omega, by omega, fun _ _ => rfl, by omega⟩
  · rintro j D x h1 h2 _ hb
    unfold diagInvPass at hb
    split at hb
    · simp at hb
    · rename_i a ha
      split at hb
      · rename_i h0
        subst h0
        exact ⟨j - 1, by omega, (diagEntry_some ha).1⟩
      · simp at hb
  · rintro j D D' h1 h2 ⟨p1, p2, p3, p4⟩ hb
    obtain ⟨m, rfl⟩ : ∃ m, j = m + 1 := ⟨j - 1, by omega⟩
    unfold diagInvPass at hb
    simp only [Nat.add_sub_cancel] at *
    split at hb
    · rename_i hno
      simp only [Sum.inr.injEq] at hb
      subst hb
      have h0 := diagEntry_none hno
      refine ⟨fun c hc he => ?_, fun c hc he => ?_, fun c hc => p3 c (by omega), fun c hc hm => ?_⟩
      · rcases Nat.lt_succ_iff_lt_or_eq.mp hc with h | rfl
        · exact p1 c h he
        · exact absurd h0 he
      · rcases Nat.lt_succ_iff_lt_or_eq.mp hc with h | rfl
        · exact p2 c h he
        · exact p3 c (le_refl _)
      · rcases Nat.lt_succ_iff_lt_or_eq.mp hc with h | rfl
        · exact p4 c h hm
        · exact hfound c ⟨_, hm⟩ hno
    · rename_i a ha
      obtain ⟨hm, he⟩ := diagEntry_some ha
      have he := he (hn m (by omega))
      split at hb
      · simp at hb
      · rename_i h0
        simp only [Sum.inr.injEq] at hb
        subst hb
        refine ⟨fun c hc hne => ?_, fun c hc hz => ?_, fun c hc => ?_, fun c hc hmm => ?_⟩
        · rcases Nat.lt_succ_iff_lt_or_eq.mp hc with h | rfl
          · rw [aset_ne _ _ (by omega)]; exact p1 c h hne
          · rw [aset_self, he]; field_simp
        · rcases Nat.lt_succ_iff_lt_or_eq.mp hc with h | rfl
          · rw [aset_ne _ _ (by omega)]; exact p2 c h hz
          · exact absurd (he.symm.trans hz) h0
        · rw [aset_ne _ _ (by omega)]; exact p3 c (by omega)
        · rcases Nat.lt_succ_iff_lt_or_eq.mp hc with h | rfl
          · exact p4 c h hmm
          · exact h0 (huniq c (by omega) _ _ hm hmm)
  · rintro ⟨x, j, _, _, hf, hQ⟩
    unfold diagInv
    rw [hf]
    exact ⟨⟨fun _ => hQ, fun _ => rfl⟩, by simp, fun D h => by simp at h⟩
  · rintro ⟨D, hf, p1, p2, p3, p4⟩
    simp only [Nat.add_sub_cancel] at p1 p2 p3 p4
    unfold diagInv
    rw [hf]
    refine ⟨⟨fun h => by simp at h, fun ⟨c, hc, hm⟩ => absurd hm (p4 c hc)⟩, by simp, fun D' h => ?_⟩
    simp only [Res.ok.injEq] at h
    subst h
    exact ⟨p1, p2, p3⟩

/-- The list `vlx` may be the list `vlb`, but a variable of `vlx` must not be another variable of `vlb`. -/
def Spec.Parallel (n : Nat) (vlx vlb : VIdx) : Prop :=
  ∀ j < n, ∀ j' < n, vlx.index j = vlb.index j' → j = j'

omit [LinearOrder K] in
theorem jacobi_fold (D : Nat → K) (g : GShape) (n : Nat) (vlx vlb : VIdx)
    (hd : ∀ j < n, ∀ j' < n, vlx.index j = vlx.index j' → j = j') (hp : Spec.Parallel n vlx vlb)
    (M : List (Nat × Nat × Nat)) (hM : M.Nodup) (hs : ∀ q ∈ M, Spec.Slot g n q.1 q.2.1 q.2.2)
    (v : GData K) (c : Nat) :
    let v' := (M.foldl (fun s q => jacobiEntry D vlx vlb q.1 q.2.1 q.2.2 s) (v, c)).1
    (∀ m q, M[m]? = some q → v' q.1 (vlx.index q.2.2) q.2.1 =
      v q.1 (vlb.index q.2.2) q.2.1 * D (c + m)) ∧
    ∀ b y i, (∀ q ∈ M, ¬ (b = q.1 ∧ y = vlx.index q.2.2 ∧ i = q.2.1)) → v' b y i = v b y i := by
  induction M generalizing v c with
  | nil => simp
  | cons q M ih =>
    rw [List.nodup_cons] at hM
    have hsM : ∀ q ∈ M, Spec.Slot g n q.1 q.2.1 q.2.2 := fun q hq => hs q (List.mem_cons_of_mem _ hq)
    obtain ⟨i1, i2⟩ := ih hM.2 hsM (jacobiEntry D vlx vlb q.1 q.2.1 q.2.2 (v, c)).1 (c + 1)
    have hq := hs q List.mem_cons_self
    simp only [List.foldl_cons]
    refine ⟨fun m q' hm => ?_, fun b y i hno => ?_⟩
    · cases m with
      | zero =>
        simp only [List.getElem?_cons_zero, Option.some.injEq] at hm
        subst hm
        refine (i2 q.1 (vlx.index q.2.2) q.2.1 ?_).trans ?_
        · rintro q' hq' ⟨e1, e2, e3⟩
          have := hd _ hq.2.2.2 _ (hsM q' hq').2.2.2 e2
          exact hM.1 (by
            have : q = q' := Prod.ext e1 (Prod.ext e3 this)
            rwa [this])
        · simp [jacobiEntry, GData.set]
      | succ m =>
        simp only [List.getElem?_cons_succ] at hm
        have hq' := List.mem_of_getElem? hm
        refine (i1 m q' hm).trans ?_
        rw [show c + 1 + m = c + (m + 1) by omega]
        congr 1
        simp only [jacobiEntry, GData.set]
        rw [if_neg]
        rintro ⟨e1, e2, e3⟩
        have := hp _ hq.2.2.2 _ (hsM q' hq').2.2.2 e2.symm
        exact hM.1 (by
          have : q = q' := Prod.ext e1.symm (Prod.ext e3.symm this)
          rwa [this])
    · refine (i2 b y i fun q' hq' => hno q' (List.mem_cons_of_mem _ hq')).trans ?_
      simp only [jacobiEntry, GData.set]
      rw [if_neg]
      rintro ⟨e1, e2, e3⟩
      exact hno q List.mem_cons_self ⟨e1, e2, e3⟩

omit [LinearOrder K] in
/-- **C98** for `Jacobi_Preconditioner_from_DiagM`: each value of `vlb` is multiplied with the number at its place
and goes to `vlx`; nothing else changes. -/
theorem C98_apply (D : Nat → K) (g : GShape) (vlx vlb : VIdx) (hd : Spec.Distinct vlx)
    (hp : Spec.Parallel vlx.n vlx vlb) (v : GData K) :
    ∃ v', jacobiPrecon (some D) g vlx vlb v = .ok v' ∧
      (∀ b i j, Spec.Slot g vlx.n b i j →
        v' b (vlx.index j) i = v b (vlb.index j) i * D (Spec.pos g vlx.n .points b i j)) ∧
      ∀ b y i, (∀ j, Spec.Slot g vlx.n b i j → vlx.index j ≠ y) → v' b y i = v b y i := by
  refine ⟨_, rfl, ?_⟩
  rw [loopPoints_eq]
  obtain ⟨h1, h2⟩ := jacobi_fold D g vlx.n vlx vlb (fun j hj j' hj' h => hd j j' hj hj' h) hp
    (slotList g vlx.n .points) (slotList_nodup .points g vlx.n)
    (fun q hq => (mem_slotList_iff _ _ _ _).mp hq) v 0
  refine ⟨fun b i j hs => ?_, fun b y i hno => h2 b y i ?_⟩
  · obtain ⟨m, hm⟩ := List.getElem?_of_mem ((mem_slotList_iff .points g vlx.n (b, i, j)).mpr hs)
    have := h1 m _ hm
    rw [Nat.zero_add, ← (mem_slotList hm).2] at this
    exact this
  · rintro q hq ⟨rfl, rfl, rfl⟩
    exact hno q.2.2 ((mem_slotList_iff _ _ _ _).mp hq) rfl

variable {g : GShape} {vlFx vlx : VIdx} {Fx : GData K → GData K} {Inv : GData K → Prop}
  {Out : Nat → Nat → Nat → Prop} {L : Field3 K →ₗ[K] Field3 K} {drop : K}

/-- **C98** for `linSolve_with_Jacobi_precon`: the matrix is read from a linear operator. For all numbers of
threads and all orders of the adds the set-up succeeds, and the preconditioner that the solver gets divides
each value by the diagonal element of the operator; where the element is not larger than `drop` it gives
zero. -/
theorem C98_jacobi [IsStrictOrderedRing K]
    (hL : Spec.LinearOp g vlFx vlx Fx Inv (Spec.Slot g vlx.n) L) (hd : Spec.Distinct vlx)
    (h0 : 0 ≤ drop) (v0 v : GData K) (hi : Inv (copyGrid g v0 (zeroList g vlx v)))
    (shares : Nat → List (List Nat)) (hsh : Spec.Shares g shares) (ev : List (MEvent K))
    (hev : MatrixEventsPar g Fx vlFx vlx drop v0 v shares ev) (lsolver : PreconSolver K) :
    ∃ D, linSolveJacobi lsolver g ev v vlx =
        (lsolver (fun x b => jacobiPrecon (some D) g x b) (zeroList g vlx v)).bind (fun r => .ok (r, none)) ∧
      ∀ x b, x.n = vlx.n → Spec.Distinct x → Spec.Parallel x.n x b → ∀ w : GData K,
      ∃ w', jacobiPrecon (some D) g x b w = .ok w' ∧ ∀ bo i j, Spec.Slot g vlx.n bo i j →
        w' bo (x.index j) i =
          if drop < |L (Spec.unit (bo, i, j)) bo i j| then
            w bo (b.index j) i / L (Spec.unit (bo, i, j)) bo i j else 0 := by
  have hrun := par_run hL hd v0 v hi shares hsh ev hev
  have hasc := fun c => par_ascending hL hd v0 v hi shares hsh ev hev c
  obtain ⟨h1, h2, h3⟩ := C98_diaginv (columnsOf ev) (gridLines g vlx.n)
    fun c _ => ascending_nodup (hasc c)
  have hne : diagInv (columnsOf ev) (gridLines g vlx.n) ≠ .abort := by
    intro h
    obtain ⟨c, _, hc⟩ := h1.mp h
    rw [columnsOf_eq] at hc
    obtain ⟨m, hm, he⟩ := List.mem_map.mp hc
    have := hrun.mem_iff.mp (List.mem_of_mem_filter hm)
    simp only [List.mem_flatMap, keepEntry] at this
    obtain ⟨s, _, q, _, hm'⟩ := this
    split at hm'
    · rename_i hlt
      rw [List.mem_singleton] at hm'
      subst hm'
      simp only [Prod.mk.injEq] at he
      rw [he.2, abs_zero] at hlt
      exact absurd hlt (not_lt_of_ge h0)
    · simp at hm'
  cases hD : diagInv (columnsOf ev) (gridLines g vlx.n) with
  | abort => exact absurd hD hne
  | ub => exact absurd hD h2
  | ok D =>
    obtain ⟨a1, a2, _⟩ := h3 D hD
    refine ⟨D, by unfold linSolveJacobi; rw [hD]; rfl, fun x b hxn hdx hp w => ?_⟩
    obtain ⟨w', hw, hv, _⟩ := C98_apply D g x b hdx hp w
    refine ⟨w', hw, fun bo i j hs => ?_⟩
    have hs' : Spec.Slot g x.n bo i j := by rw [hxn]; exact hs
    rw [hv bo i j hs', hxn]
    have hent := run_entry hrun (q := (bo, i, j)) (s := (bo, i, j)) hs hs
    have hlt : Spec.pos g vlx.n .points bo i j < gridLines g vlx.n := by
      rw [gridLines_eq]; exact slotPos_lt .points g vlx.n hs
    rw [← entry_columnsOf] at hent
    dsimp only at hent
    have b1 := a1 _ hlt
    have b2 := a2 _ hlt
    rw [hent] at b1 b2
    unfold Spec.dropped at b1 b2
    split
    · rename_i hc
      rw [if_pos hc] at b1
      have hLne : L (Spec.unit (bo, i, j)) bo i j ≠ 0 := by
        intro h
        rw [h, abs_zero] at hc
        exact absurd hc (not_lt_of_ge h0)
      rw [div_eq_mul_inv, eq_inv_of_mul_eq_one_left (b1 hLne)]
    · rename_i hc
      rw [if_neg hc] at b2
      rw [b2 rfl, mul_zero]

/-- The operator that swaps two points has a diagonal that is zero. There is no error message "DiagM is
singular", and the preconditioner maps everything to zero. -/
theorem C98_singular_counterexample :
    let A : Nat → SVec ℚ := fun c => [((1 - c : Nat), 1)]
    (diagInv A 2).map (fun D => (List.range 2).map D) = .ok [0, 0] ∧
    ((diagInv A 2).bind fun D => (jacobiPrecon (some D) ⟨1, fun _ => 2, fun _ => false⟩ ⟨1, fun _ => 0⟩
      ⟨1, fun _ => 1⟩ fun _ _ _ => 5).map fun v => (List.range 2).map (v 0 0)) = .ok [0, 0] := by
  decide +kernel

omit [LinearOrder K] in
/-- The solvers `templates_qmr` and `templates_bicg` with the Jacobi preconditioner: the pointer
`DiagMinv_JacobiPrecon` is NULL or points to freed memory, so that the first use of the preconditioner is
undefined behaviour if there is at least one point and one variable. -/
theorem C98_unset_counterexample (g : GShape) (x b : VIdx) (v : GData K) {bo i j : Nat}
    (hs : Spec.Slot g x.n bo i j) (k : GData K → Res (GData K × Int)) :
    solveJacobiUnset (fun precon v => (precon x b v).bind k) none g v = .ub := by
  have hlt := slotPos_lt .points g x.n hs
  unfold solveJacobiUnset jacobiPrecon
  simp only
  rw [if_neg]
  · rfl
  · rw [gridLines_eq]; omega

/-- After `linSolve_with_Jacobi_precon` the pointer points to freed memory. -/
theorem C98_freed (lsolver : PreconSolver K) (g : GShape) (ev : List (MEvent K)) (v : GData K)
    (vlx : VIdx) (r : GData K × Int) (p : Option (Nat → K))
    (h : linSolveJacobi lsolver g ev v vlx = .ok (r, p)) : p = none := by
  unfold linSolveJacobi at h
  rw [Res.bind_eq_ok] at h
  obtain ⟨D, _, h⟩ := h
  rw [Res.bind_eq_ok] at h
  obtain ⟨r', _, h⟩ := h
  simp only [Res.ok.injEq, Prod.mk.injEq] at h
  exact h.2.symm

/-- The matrix with lines `(2 1)`, `(0 4)` and right hand side `(6, 6)`. -/
example :
    let A : Nat → SVec ℚ := fun c => if c = 0 then [(0, 2)] else [(0, 1), (1, 4)]
    (diagInv A 2).map (fun D => (List.range 3).map D) = .ok [1 / 2, 1 / 4, 0] ∧
    (diagInv (fun _ => [(0, (0 : ℚ))]) 1).map (fun D => D 0) = .abort ∧
    ((diagInv A 2).bind fun D => (jacobiPrecon (some D) ⟨1, fun _ => 2, fun _ => false⟩ ⟨1, fun _ => 0⟩
      ⟨1, fun _ => 1⟩ fun _ _ _ => 6).map fun v => (List.range 2).map (v 0 0)) = .ok [3, 3 / 2] := by
  decide +kernel

/-! ## The columns of a block -/

omit [Field K] [LinearOrder K] in
/-- Adds of threads that work on different columns, each in ascending order. -/
theorem ascending_of_threads (threads : List (List (MEvent K))) (ev : List (MEvent K))
    (hperm : ev.Perm threads.flatten) (hsub : ∀ t ∈ threads, t.Sublist ev)
    (hord : ∀ t ∈ threads, ColOrdered t)
    (hdis : threads.Pairwise fun t t' => ∀ e ∈ t, ∀ e' ∈ t', e.2.1 ≠ e'.2.1) (c : Nat) :
    Spec.Ascending (columnsOf ev c) := by
  apply ascending_of_filter
  by_cases hne : ev.filter (fun e => e.2.1 = c) = []
  · rw [hne]; exact List.Pairwise.nil
  · obtain ⟨e0, he0⟩ := List.exists_mem_of_ne_nil _ hne
    obtain ⟨he0, hc0⟩ := List.mem_filter.mp he0
    have hc0 := of_decide_eq_true hc0
    obtain ⟨t, ht, het⟩ := List.mem_flatten.mp (hperm.mem_iff.mp he0)
    obtain ⟨l1, l2, hl⟩ := List.append_of_mem ht
    rw [hl, List.pairwise_append, List.pairwise_cons] at hdis
    obtain ⟨_, ⟨d2, _⟩, d1⟩ := hdis
    have z1 : l1.flatten.filter (fun e => e.2.1 = c) = [] := by
      rw [List.filter_eq_nil_iff]
      intro e he hc
      obtain ⟨t', ht', he⟩ := List.mem_flatten.mp he
      exact d1 t' ht' t List.mem_cons_self e he e0 het ((of_decide_eq_true hc).trans hc0.symm)
    have z2 : l2.flatten.filter (fun e => e.2.1 = c) = [] := by
      rw [List.filter_eq_nil_iff]
      intro e he hc
      obtain ⟨t', ht', he⟩ := List.mem_flatten.mp he
      exact d2 t' ht' e0 het e he (hc0.trans (of_decide_eq_true hc).symm)
    have hp := hperm.filter (fun e => decide (e.2.1 = c))
    rw [hl, List.flatten_append, List.flatten_cons, List.filter_append, List.filter_append, z1, z2,
      List.nil_append, List.append_nil] at hp
    have hs := (hsub t ht).filter (fun e => decide (e.2.1 = c))
    rw [← hs.eq_of_length hp.length_eq.symm]
    exact (hord t ht).filter c

theorem colOrdered_gen {α β : Type} (drop : K) (M : List α) (col : α → Nat) (N : List β) (row : β → Nat)
    (E : α → β → K) (hM : M.Pairwise fun s s' => col s ≠ col s')
    (hN : N.Pairwise fun q q' => row q < row q') :
    ColOrdered (M.flatMap fun s => N.flatMap fun q => keepEntry drop (row q) (col s) (E s q)) := by
  have hmem : ∀ s e, (e ∈ N.flatMap fun q => keepEntry drop (row q) (col s) (E s q)) →
      e.2.1 = col s := by
    intro s e he
    obtain ⟨q, _, he⟩ := List.mem_flatMap.mp he
    unfold keepEntry at he
    split at he
    · rw [List.mem_singleton.mp he]
    · simp at he
  unfold ColOrdered
  rw [List.pairwise_flatMap]
  refine ⟨fun s _ => ?_, hM.imp ?_⟩
  · rw [List.pairwise_flatMap]
    refine ⟨fun q _ => ?_, hN.imp ?_⟩
    · unfold keepEntry
      split <;> simp
    · intro q q' hlt x hx y hy _
      unfold keepEntry at hx hy
      split at hx
      · split at hy
        · rw [List.mem_singleton.mp hx, List.mem_singleton.mp hy]
          exact hlt
        · simp at hy
      · simp at hx
  · intro s s' hne x hx y hy he
    exact absurd (by rw [← hmem s x hx, ← hmem s' y hy, he]) hne

/-- The loops go through the places of a subbox in ascending order. -/
theorem subList_ascending (d : Dims) (sbi sbj sbk nsb1 nsb2 nsb3 : Nat) :
    (subList d sbi sbj sbk nsb1 nsb2 nsb3).Pairwise fun q q' =>
      Spec.subIdx d sbi sbj sbk nsb1 nsb2 nsb3 q.1 q.2.1 q.2.2 <
        Spec.subIdx d sbi sbj sbk nsb1 nsb2 nsb3 q'.1 q'.2.1 q'.2.2 := by
  unfold subList Spec.subIdx Dims.idx Spec.subDims
  generalize subboxRange d.n1 sbi nsb1 = r1
  generalize subboxRange d.n2 sbj nsb2 = r2
  generalize subboxRange d.n3 sbk nsb3 = r3
  rw [List.pairwise_flatMap]
  refine ⟨fun k _ => ?_, (List.pairwise_lt_range' (s := r3.1) (n := r3.2 - r3.1)).imp_of_mem ?_⟩
  · rw [List.pairwise_flatMap]
    refine ⟨fun j _ => ?_, (List.pairwise_lt_range' (s := r2.1) (n := r2.2 - r2.1)).imp_of_mem ?_⟩
    · rw [List.pairwise_map]
      refine (List.pairwise_lt_range' (s := r1.1) (n := r1.2 - r1.1)).imp_of_mem ?_
      intro i i' hi hi' h
      rw [List.mem_range'_1] at hi hi'
      dsimp only
      omega
    · intro j j' hj hj' h x hx y hy
      simp only [List.mem_map, List.mem_range'_1] at hx hy hj hj'
      obtain ⟨i, hi, rfl⟩ := hx
      obtain ⟨i', hi', rfl⟩ := hy
      dsimp only
      have e : j - r2.1 + (r2.2 - r2.1) * (k - r3.1) + 1 ≤ j' - r2.1 + (r2.2 - r2.1) * (k - r3.1) := by
        omega
      have e := Nat.mul_le_mul_left (r1.2 - r1.1) e
      rw [Nat.mul_add, Nat.mul_one] at e
      omega
  · intro k k' hk hk' h x hx y hy
    simp only [List.mem_flatMap, List.mem_map, List.mem_range'_1] at hx hy hk hk'
    obtain ⟨j, hj, i, hi, rfl⟩ := hx
    obtain ⟨j', hj', i', hi', rfl⟩ := hy
    dsimp only
    have e : k - r3.1 + 1 ≤ k' - r3.1 := by omega
    have e := Nat.mul_le_mul_left (r2.2 - r2.1) e
    rw [Nat.mul_add, Nat.mul_one] at e
    have e : j - r2.1 + (r2.2 - r2.1) * (k - r3.1) + 1 ≤
        j' - r2.1 + (r2.2 - r2.1) * (k' - r3.1) := by omega
    have e := Nat.mul_le_mul_left (r1.2 - r1.1) e
    rw [Nat.mul_add, Nat.mul_one] at e
    omega

/-- The adds of a run of `SetMatrixColumns_ForOneVarInOneSubBox_slowly`: `shares` are the values of `i` of the
threads, each thread makes its adds in its order. -/
structure SubBoxRun (g : GShape) (d : Dims) (Fx : GData K → GData K) (vlFx vlx : VIdx) (drop : K)
    (v0 v : GData K) (vi b sbi sbj sbk nsb1 nsb2 nsb3 : Nat) (shares : List (List Nat))
    (ev : List (MEvent K)) : Prop where
  share : shares.flatten.Perm (List.range' (subboxRange d.n1 sbi nsb1).1
    ((subboxRange d.n1 sbi nsb1).2 - (subboxRange d.n1 sbi nsb1).1))
  perm : ev.Perm (shares.flatMap
    (subBoxEvents g d Fx vlFx vlx drop v0 v vi b sbi sbj sbk nsb1 nsb2 nsb3))
  order : ∀ is ∈ shares,
    (subBoxEvents g d Fx vlFx vlx drop v0 v vi b sbi sbj sbk nsb1 nsb2 nsb3 is).Sublist ev

section
variable (d : Dims) {vi b sbi sbj sbk nsb1 nsb2 nsb3 : Nat}

theorem subBox_mem {shares : List (List Nat)}
    (hsh : shares.flatten.Perm (List.range' (subboxRange d.n1 sbi nsb1).1
      ((subboxRange d.n1 sbi nsb1).2 - (subboxRange d.n1 sbi nsb1).1))) :
    ∀ is ∈ shares, ∀ i ∈ is, (subboxRange d.n1 sbi nsb1).1 ≤ i ∧
      i < (subboxRange d.n1 sbi nsb1).2 := by
  intro is hp i hi
  have := hsh.mem_iff.mp (List.mem_flatten.mpr ⟨is, hp, hi⟩)
  rw [List.mem_range'_1] at this
  omega

theorem subCols_inSub {is : List Nat} (his : ∀ i ∈ is, (subboxRange d.n1 sbi nsb1).1 ≤ i ∧
      i < (subboxRange d.n1 sbi nsb1).2) : ∀ t ∈ subCols d sbj sbk nsb2 nsb3 is,
      t.1 ∈ is ∧ Spec.InSub d sbi sbj sbk nsb1 nsb2 nsb3 t.1 t.2.1 t.2.2 := by
  intro t ht
  simp only [subCols, List.mem_flatMap, List.mem_map, List.mem_range'_1] at ht
  obtain ⟨i, hi, k, hk, j, hj, rfl⟩ := ht
  have := his i hi
  refine ⟨hi, ?_⟩
  simp only [Spec.InSub]
  omega

/-- The columns of a block are in ascending order and fit. -/
theorem subBox_columns (hL : Spec.LinearOp g vlFx vlx Fx Inv Out L) (hd : Spec.Distinct vlx)
    (hb : b < g.nboxes) (ha : g.inactive b = false) (hj : vi < vlx.n)
    (hnn : g.nnodes b = d.n1 * d.n2 * d.n3)
    (s1 : sbi < nsb1) (s2 : sbj < nsb2) (s3 : sbk < nsb3)
    (hout : ∀ i j k, Spec.InSub d sbi sbj sbk nsb1 nsb2 nsb3 i j k → Out b (d.idx i j k) vi)
    (v0 v : GData K) (hi : Inv (zeroList g vlx (copyGrid g v0 v)))
    {shares : List (List Nat)} {ev : List (MEvent K)}
    (hev : SubBoxRun g d Fx vlFx vlx drop v0 v vi b sbi sbj sbk nsb1 nsb2 nsb3 shares ev) (c : Nat) :
    Spec.Ascending (columnsOf ev c) ∧
    Spec.Fits (columnsOf ev c) (blockCols d sbi sbj sbk nsb1 nsb2 nsb3) := by
  have hmem := subBox_mem d hev.share
  have hthr : ∀ is ∈ shares, _ := fun is his =>
    subBox_thread (drop := drop) d hL hd hb ha hj hnn s1 s2 s3 hout v0 v hi is (hmem is his)
  have hcol : ∀ is ∈ shares, ∀ e ∈ subBoxEvents g d Fx vlFx vlx drop v0 v vi b sbi sbj sbk nsb1 nsb2 nsb3 is,
      (∃ t : Nat × Nat × Nat, t.1 ∈ is ∧ Spec.InSub d sbi sbj sbk nsb1 nsb2 nsb3 t.1 t.2.1 t.2.2 ∧
        e.2.1 = Spec.subIdx d sbi sbj sbk nsb1 nsb2 nsb3 t.1 t.2.1 t.2.2) ∧
      ∃ q : Nat × Nat × Nat, Spec.InSub d sbi sbj sbk nsb1 nsb2 nsb3 q.1 q.2.1 q.2.2 ∧
        e.1 = Spec.subIdx d sbi sbj sbk nsb1 nsb2 nsb3 q.1 q.2.1 q.2.2 := by
    intro is his e he
    rw [hthr is his] at he
    obtain ⟨t, ht, he⟩ := List.mem_flatMap.mp he
    obtain ⟨q, hq, he⟩ := List.mem_flatMap.mp he
    obtain ⟨m1, m2⟩ := subCols_inSub d (hmem is his) t ht
    unfold keepEntry at he
    split at he
    · rw [List.mem_singleton] at he
      subst he
      exact ⟨⟨t, m1, m2, rfl⟩, q, (mem_subList q).mp hq, rfl⟩
    · simp at he
  have hslots := C83_slots (d := d) (sbi := sbi) (sbj := sbj) (sbk := sbk) (nsb1 := nsb1) (nsb2 := nsb2)
    (nsb3 := nsb3)
  refine ⟨?_, ?_⟩
  · refine ascending_of_threads (shares.map
      (subBoxEvents g d Fx vlFx vlx drop v0 v vi b sbi sbj sbk nsb1 nsb2 nsb3)) ev ?_ ?_ ?_ ?_ c
    · rw [← List.flatMap_def]; exact hev.perm
    · intro t ht
      obtain ⟨is, his, rfl⟩ := List.mem_map.mp ht
      exact hev.order is his
    · intro t ht
      obtain ⟨is, his, rfl⟩ := List.mem_map.mp ht
      rw [hthr is his]
      refine colOrdered_gen drop _ (fun t : Nat × Nat × Nat =>
        Spec.subIdx d sbi sbj sbk nsb1 nsb2 nsb3 t.1 t.2.1 t.2.2) _ (fun q : Nat × Nat × Nat =>
        Spec.subIdx d sbi sbj sbk nsb1 nsb2 nsb3 q.1 q.2.1 q.2.2) _ ?_ (subList_ascending ..)
      have hnd : (subCols d sbj sbk nsb2 nsb3 is).Nodup := by
        have his' : is.Nodup := by
          have := hev.share.nodup_iff.mpr List.nodup_range'
          exact (List.nodup_flatten.mp this).1 is his
        unfold subCols
        rw [List.nodup_flatMap]
        refine ⟨fun i _ => ?_, his'.imp ?_⟩
        · rw [List.nodup_flatMap]
          refine ⟨fun k _ => List.Nodup.map (fun a c h => by simpa using h) List.nodup_range', ?_⟩
          refine List.Pairwise.imp ?_ List.nodup_range'
          intro k k' hne x hx hx'
          simp only [List.mem_map] at hx hx'
          obtain ⟨_, _, rfl⟩ := hx
          obtain ⟨_, _, e⟩ := hx'
          simp only [Prod.mk.injEq] at e
          exact hne e.2.2.symm
        · intro i i' hne x hx hx'
          simp only [List.mem_flatMap, List.mem_map] at hx hx'
          obtain ⟨_, _, _, _, rfl⟩ := hx
          obtain ⟨_, _, _, _, e⟩ := hx'
          simp only [Prod.mk.injEq] at e
          exact hne e.1.symm
      refine hnd.imp_of_mem ?_
      intro s s' hs hs' hne he
      obtain ⟨e1, e2, e3⟩ := hslots.2.1 _ _ _ _ _ _ (subCols_inSub d (hmem is his) s hs).2
        (subCols_inSub d (hmem is his) s' hs').2 he
      exact hne (Prod.ext e1 (Prod.ext e2 e3))
    · rw [List.pairwise_map]
      have hfl := hev.share.nodup_iff.mpr List.nodup_range'
      refine (List.nodup_flatten.mp hfl).2.imp_of_mem ?_
      intro is is' his his' hdis e he e' he' heq
      obtain ⟨t, ht, hin, h1⟩ := (hcol is his e he).1
      obtain ⟨t', ht', hin', h2⟩ := (hcol is' his' e' he').1
      rw [h1, h2] at heq
      obtain ⟨e1, _⟩ := hslots.2.1 _ _ _ _ _ _ hin hin' heq
      exact hdis ht (e1 ▸ ht')
  · intro e he
    rw [columnsOf_eq] at he
    obtain ⟨m, hm, rfl⟩ := List.mem_map.mp he
    obtain ⟨is, his, hm⟩ := List.mem_flatMap.mp (hev.perm.mem_iff.mp (List.mem_of_mem_filter hm))
    obtain ⟨q, hq, hrow⟩ := (hcol is his m hm).2
    have := hslots.1 _ _ _ hq
    have hbc : blockCols d sbi sbj sbk nsb1 nsb2 nsb3 =
      (Spec.subDims d sbi sbj sbk nsb1 nsb2 nsb3).n1 * (Spec.subDims d sbi sbj sbk nsb1 nsb2 nsb3).n2 *
      (Spec.subDims d sbi sbj sbk nsb1 nsb2 nsb3).n3 := rfl
    rw [hbc]
    dsimp only
    omega

end

/-! ## The preconditioner made of blocks -/

omit [LinearOrder K] in
theorem diagOf_eq (A : Nat → SVec K) (n : Nat) (hn : ∀ c < n, ((A c).map Prod.fst).Nodup) :
    ∀ c < n, diagOf A n c = Spec.entry (A c) c := by
  have key := upLoop_inv (Nat.zero_le n) (body := fun col D => match diagEntry A col with
    | none => D
    | some a => aset D col a) (s := fun _ => (0 : K))
    (fun m D => (∀ c < m, D c = Spec.entry (A c) c) ∧ ∀ c, m ≤ c → D c = 0)
    ⟨fun c hc => by omega, fun _ _ => rfl⟩ ?_
  · exact key.1
  · rintro m D _ hm ⟨h1, h2⟩
    cases ha : diagEntry A m with
    | none =>
      dsimp only
      refine ⟨fun c hc => ?_, fun c hc => h2 c (by omega)⟩
      rcases Nat.lt_succ_iff_lt_or_eq.mp hc with h | rfl
      · exact h1 c h
      · rw [diagEntry_none ha]; exact h2 c (le_refl _)
    | some a =>
      dsimp only
      refine ⟨fun c hc => ?_, fun c hc => ?_⟩
      · rcases Nat.lt_succ_iff_lt_or_eq.mp hc with h | rfl
        · rw [aset_ne _ _ (by omega)]; exact h1 c h
        · rw [aset_self, (diagEntry_some ha).2 (hn c hm)]
      · rw [aset_ne _ _ (by omega)]; exact h2 c (by omega)

omit [LinearOrder K] in
theorem blockSolve_fallback [DecidableEq K] (B : JBlock K) (x b : Nat → K) :
    ∀ k < B.dim, upLoop 0 B.dim (fun k x => if B.diag k ≠ 0 then aset x k (b k / B.diag k) else aset x k 0) x k =
      if B.diag k ≠ 0 then b k / B.diag k else 0 := by
  refine upLoop_inv (Nat.zero_le B.dim)
    (fun m (x : Nat → K) => ∀ k < m, x k = if B.diag k ≠ 0 then b k / B.diag k else 0) (fun k hk => by omega) ?_
  intro m x _ _ h k hk
  by_cases he : k = m
  · subst he
    split <;> rw [aset_self]
  · have := h k (by omega)
    split <;> rw [aset_ne _ _ he, this]

instance (d : Dims) (sbi sbj sbk nsb1 nsb2 nsb3 i j k : Nat) :
    Decidable (Spec.InSub d sbi sbj sbk nsb1 nsb2 nsb3 i j k) := by
  unfold Spec.InSub; infer_instance

/-- The points of a subbox. -/
def Spec.subPoints (d : Dims) (sbi sbj sbk nsb1 nsb2 nsb3 : Nat) : Finset (Nat × Nat × Nat) :=
  {p ∈ range d.n1 ×ˢ range d.n2 ×ˢ range d.n3 | Spec.InSub d sbi sbj sbk nsb1 nsb2 nsb3 p.1 p.2.1 p.2.2}

theorem sum_subPoints {M : Type} [AddCommMonoid M] (d : Dims) {sbi sbj sbk nsb1 nsb2 nsb3 : Nat} (s1 : sbi < nsb1)
    (s2 : sbj < nsb2) (s3 : sbk < nsb3) (f : Nat → M) :
    ∑ l ∈ range (blockCols d sbi sbj sbk nsb1 nsb2 nsb3), f l =
      ∑ p ∈ Spec.subPoints d sbi sbj sbk nsb1 nsb2 nsb3,
        f (Spec.subIdx d sbi sbj sbk nsb1 nsb2 nsb3 p.1 p.2.1 p.2.2) := by
  have hslots := C83_slots (d := d) (sbi := sbi) (sbj := sbj) (sbk := sbk) (nsb1 := nsb1) (nsb2 := nsb2)
    (nsb3 := nsb3)
  symm
  refine sum_bij (fun p _ => Spec.subIdx d sbi sbj sbk nsb1 nsb2 nsb3 p.1 p.2.1 p.2.2) ?_ ?_ ?_ ?_
  · intro p hp
    rw [Spec.subPoints, mem_filter] at hp
    exact mem_range.mpr (hslots.1 _ _ _ hp.2)
  · intro p hp p' hp' h
    rw [Spec.subPoints, mem_filter] at hp hp'
    obtain ⟨e1, e2, e3⟩ := hslots.2.1 _ _ _ _ _ _ hp.2 hp'.2 h
    exact Prod.ext e1 (Prod.ext e2 e3)
  · intro l hl
    obtain ⟨i, j, k, hin, rfl⟩ := hslots.2.2 l (mem_range.mp hl)
    have hb := inSub_inBox s1 s2 s3 hin
    exact ⟨(i, j, k), by
      rw [Spec.subPoints, mem_filter]
      exact ⟨by simp only [mem_product, mem_range]; exact hb, hin⟩, rfl⟩
  · intro p _
    rfl

/-- What the accesses of a block do. -/
theorem block_foldl {α β : Type} (M : List α) (f : α → β) (l : List β) :
    M.foldl (fun acts p => acts ++ [f p]) l = l ++ M.map f := by
  induction M generalizing l with
  | nil => simp
  | cons a M ih => rw [List.foldl_cons, ih]; simp

omit [Field K] [LinearOrder K] in
theorem blockProg_eq (dims : Nat → Dims) (q : BlockIdx) (nsb1 nsb2 nsb3 : Nat) (vlx vlb : VIdx)
    (solve : (Nat → K) → Nat → K) :
    blockProg dims q nsb1 nsb2 nsb3 vlx vlb solve =
      ((subList (dims q.bi.toNat) q.sbi q.sbj q.sbk nsb1 nsb2 nsb3).map fun p =>
        Act.load (Spec.subIdx (dims q.bi.toNat) q.sbi q.sbj q.sbk nsb1 nsb2 nsb3 p.1 p.2.1 p.2.2)
          (q.bi.toNat, vlb.index q.vi, (dims q.bi.toNat).idx p.1 p.2.1 p.2.2)) ++
      (subList (dims q.bi.toNat) q.sbi q.sbj q.sbk nsb1 nsb2 nsb3).map fun p =>
        Act.store (q.bi.toNat, vlx.index q.vi, (dims q.bi.toNat).idx p.1 p.2.1 p.2.2)
          fun ρ => solve ρ (Spec.subIdx (dims q.bi.toNat) q.sbi q.sbj q.sbk nsb1 nsb2 nsb3 p.1 p.2.1 p.2.2) := by
  unfold blockProg
  simp only [loopSubbox_eq, block_foldl, List.nil_append]

section
variable {A : Type} [DecidableEq A]
omit [Field K] [LinearOrder K]

theorem block_loads {α : Type} (M : List α) (r : α → Nat) (x : α → A) (m : A → K) (ρ : Nat → K) :
    runPass (M.map fun p => Act.load (r p) (x p)) (m, ρ) =
      (m, M.foldl (fun ρ p => aset ρ (r p) (m (x p))) ρ) := by
  induction M generalizing ρ with
  | nil => rfl
  | cons a M ih =>
    rw [List.map_cons, List.foldl_cons, ← ih]
    rfl

theorem block_stores {α : Type} (M : List α) (x : α → A) (f : α → (Nat → K) → K)
    (hinj : ∀ p ∈ M, ∀ p' ∈ M, x p = x p' → p = p') (m : A → K) (ρ : Nat → K) :
    ∀ p ∈ M, (runPass (M.map fun p => Act.store (x p) (f p)) (m, ρ)).1 (x p) = f p ρ := by
  induction M generalizing m with
  | nil => intro p hp; cases hp
  | cons a M ih =>
    intro p hp
    have e : runPass ((a :: M).map fun p => Act.store (x p) (f p)) (m, ρ) =
        runPass (M.map fun p => Act.store (x p) (f p)) (Function.update m (x a) (f a ρ), ρ) := rfl
    rw [e]
    by_cases hm : p ∈ M
    · exact ih (fun p hp p' hp' => hinj p (List.mem_cons_of_mem _ hp) p' (List.mem_cons_of_mem _ hp')) _ p hm
    · obtain rfl : p = a := by
        rcases List.mem_cons.mp hp with h | h
        · exact h
        · exact absurd h hm
      rw [runPass_frame]
      · simp
      · rintro ⟨e, he⟩
        obtain ⟨p', hp', he⟩ := List.mem_map.mp he
        simp only [Act.store.injEq] at he
        exact hm (hinj p' (List.mem_cons_of_mem _ hp') p List.mem_cons_self he.1 ▸ hp')

end

omit [Field K] [LinearOrder K] in
theorem blockProg_writes (dims : Nat → Dims) (q : BlockIdx) (nsb1 nsb2 nsb3 : Nat) (vlx vlb : VIdx)
    (solve : (Nat → K) → Nat → K) (x : Nat × Nat × Nat) :
    (Spec.Writes (blockProg dims q nsb1 nsb2 nsb3 vlx vlb solve) x ↔ ∃ i j k,
      Spec.InSub (dims q.bi.toNat) q.sbi q.sbj q.sbk nsb1 nsb2 nsb3 i j k ∧
      x = (q.bi.toNat, vlx.index q.vi, (dims q.bi.toNat).idx i j k)) ∧
    (Spec.Reads (blockProg dims q nsb1 nsb2 nsb3 vlx vlb solve) x ↔ ∃ i j k,
      Spec.InSub (dims q.bi.toNat) q.sbi q.sbj q.sbk nsb1 nsb2 nsb3 i j k ∧
      x = (q.bi.toNat, vlb.index q.vi, (dims q.bi.toNat).idx i j k)) := by
  rw [blockProg_eq]
  constructor
  · constructor
    · rintro ⟨e, he⟩
      simp only [List.mem_append, List.mem_map, reduceCtorEq, and_false, exists_false, false_or,
        Act.store.injEq] at he
      obtain ⟨p, hp, h1, _⟩ := he
      exact ⟨_, _, _, (mem_subList p).mp hp, h1.symm⟩
    · rintro ⟨i, j, k, hin, rfl⟩
      exact ⟨_, List.mem_append_right _ (List.mem_map.mpr ⟨(i, j, k), (mem_subList _).mpr hin, rfl⟩)⟩
  · constructor
    · rintro ⟨e, he⟩
      simp only [List.mem_append, List.mem_map, reduceCtorEq, and_false, exists_false, or_false,
        Act.load.injEq] at he
      obtain ⟨p, hp, _, h1⟩ := he
      exact ⟨_, _, _, (mem_subList p).mp hp, h1.symm⟩
    · rintro ⟨i, j, k, hin, rfl⟩
      exact ⟨_, List.mem_append_left _ (List.mem_map.mpr ⟨(i, j, k), (mem_subList _).mpr hin, rfl⟩)⟩

/-- The numbers of points of the active boxes. -/
def Spec.BoxDims (g : GShape) (dims : Nat → Dims) : Prop :=
  ∀ b < g.nboxes, g.inactive b = false → g.nnodes b = (dims b).n1 * (dims b).n2 * (dims b).n3

omit [Field K] [LinearOrder K] in
/-- No block writes what another block reads or writes. -/
theorem blocks_norace (g : GShape) (dims : Nat → Dims) (nsb1 nsb2 nsb3 : Nat) (vlx vlb : VIdx)
    (hd : Spec.Distinct vlx) (hp : Spec.Parallel vlx.n vlx vlb) (solve : Nat → (Nat → K) → Nat → K) :
    Spec.NoRace (nBlocks g (setNinactive g) vlx.n nsb1 nsb2 nsb3) fun x =>
      blockProg dims (blockIdx g (setNinactive g) nsb1 nsb2 nsb3 x) nsb1 nsb2 nsb3 vlx vlb (solve x) := by
  obtain ⟨h1, h2, _⟩ := C98_blocks g vlx.n nsb1 nsb2 nsb3
  intro x y hx hy hne z hw
  beta_reduce at hw ⊢
  have bx := h1 x hx
  have bY := h1 y hy
  obtain ⟨_, _, hu⟩ := h2 _ bY
  have hdiff : blockIdx g (setNinactive g) nsb1 nsb2 nsb3 x ≠ blockIdx g (setNinactive g) nsb1 nsb2 nsb3 y := by
    intro e
    exact hne ((hu x ⟨hx, e⟩).trans (hu y ⟨hy, rfl⟩).symm)
  generalize blockIdx g (setNinactive g) nsb1 nsb2 nsb3 x = q at *
  generalize blockIdx g (setNinactive g) nsb1 nsb2 nsb3 y = q' at *
  obtain ⟨a1, ⟨b, hb, _, _⟩, a3, a4, a5⟩ := bx
  obtain ⟨c1, ⟨b', hb', _, _⟩, c3, c4, c5⟩ := bY
  obtain ⟨i, j, k, hin, rfl⟩ := (blockProg_writes ..).1.mp hw
  -- the same variable of the list and the same place: the same block
  have key : ∀ i' j' k', Spec.InSub (dims q'.bi.toNat) q'.sbi q'.sbj q'.sbk nsb1 nsb2 nsb3 i' j' k' →
      q.vi = q'.vi → q.bi.toNat = q'.bi.toNat →
      (dims q.bi.toNat).idx i j k = (dims q'.bi.toNat).idx i' j' k' → False := by
    intro i' j' k' hin' e1 e2 e3
    rw [← e2] at hin' e3
    have hbox := inSub_inBox a3 a4 a5 hin
    have hbox' := inSub_inBox c3 c4 c5 hin'
    obtain ⟨rfl, rfl, rfl⟩ := idx_inj hbox.1 hbox'.1 hbox.2.1 hbox'.2.1 e3
    obtain ⟨s, _, hs⟩ := C83_point (d := dims q.bi.toNat) (nsb1 := nsb1) (nsb2 := nsb2) (nsb3 := nsb3)
      (by omega) (by omega) (by omega) hbox
    have t1 := hs (q.sbi, q.sbj, q.sbk) ⟨⟨a3, a4, a5⟩, hin⟩
    have t2 := hs (q'.sbi, q'.sbj, q'.sbk) ⟨⟨c3, c4, c5⟩, hin'⟩
    rw [← t2] at t1
    simp only [Prod.mk.injEq] at t1
    apply hdiff
    rw [BlockIdx.mk.injEq]
    refine ⟨e1, ?_, t1.1, t1.2.1, t1.2.2⟩
    omega
  refine ⟨fun hw' => ?_, fun hr => ?_⟩
  · obtain ⟨i', j', k', hin', e⟩ := (blockProg_writes ..).1.mp hw'
    simp only [Prod.mk.injEq] at e
    exact key i' j' k' hin' (hd _ _ a1 c1 e.2.1) e.1 e.2.2
  · obtain ⟨i', j', k', hin', e⟩ := (blockProg_writes ..).2.mp hr
    simp only [Prod.mk.injEq] at e
    exact key i' j' k' hin' (hp _ a1 _ c1 e.2.1) e.1 e.2.2

omit [Field K] [LinearOrder K] in
/-- **C98** for `BlockJacobi_Preconditioner_from_Blocks`: for all numbers of threads and all interleavings, each
block is solved with the values that `vlb` had in its subbox at the beginning, the solution goes to the places
of the subbox in `vlx`, and nothing else is changed. Each value of `vlx` at an active point is in exactly one
block (`C98_blocks`, `C83_point`). -/
theorem C98_precon (g : GShape) (dims : Nat → Dims) (hdims : Spec.BoxDims g dims) (nsb1 nsb2 nsb3 : Nat)
    (vlx vlb : VIdx) (hd : Spec.Distinct vlx) (hp : Spec.Parallel vlx.n vlx vlb)
    (solve : Nat → (Nat → K) → Nat → K) (ρ : Nat → Nat → K) (m : Nat × Nat × Nat → K) (sched : List Nat)
    (hs : Spec.Complete (nBlocks g (setNinactive g) vlx.n nsb1 nsb2 nsb3) (fun x => blockProg dims
      (blockIdx g (setNinactive g) nsb1 nsb2 nsb3 x) nsb1 nsb2 nsb3 vlx vlb (solve x)) sched) :
    let m' := parLoop (fun x => blockProg dims (blockIdx g (setNinactive g) nsb1 nsb2 nsb3 x) nsb1 nsb2 nsb3
      vlx vlb (solve x)) ρ m sched
    (∀ x < nBlocks g (setNinactive g) vlx.n nsb1 nsb2 nsb3, ∀ vi b sbi sbj sbk : Nat,
      blockIdx g (setNinactive g) nsb1 nsb2 nsb3 x = ⟨vi, b, sbi, sbj, sbk⟩ → ∃ bb : Nat → K,
        (∀ i j k, Spec.InSub (dims b) sbi sbj sbk nsb1 nsb2 nsb3 i j k →
          bb (Spec.subIdx (dims b) sbi sbj sbk nsb1 nsb2 nsb3 i j k) =
            m (b, vlb.index vi, (dims b).idx i j k)) ∧
        ∀ i j k, Spec.InSub (dims b) sbi sbj sbk nsb1 nsb2 nsb3 i j k →
          m' (b, vlx.index vi, (dims b).idx i j k) =
            solve x bb (Spec.subIdx (dims b) sbi sbj sbk nsb1 nsb2 nsb3 i j k)) ∧
    ∀ b y i, (∀ j, Spec.Slot g vlx.n b i j → vlx.index j ≠ y) → m' (b, y, i) = m (b, y, i) := by
  obtain ⟨hB, _⟩ := C98_blocks g vlx.n nsb1 nsb2 nsb3
  have hres := parLoop_result _ _ ρ m (blocks_norace g dims nsb1 nsb2 nsb3 vlx vlb hd hp solve) sched hs
  intro m'
  refine ⟨?_, ?_⟩
  · intro x hx vi b sbi sbj sbk hq
    have hb := hB x hx
    have hon := fun z => hres.on x z hx
    simp only [hq] at hon hb
    obtain ⟨_, ⟨b', e, hb1, hb2⟩, s1, s2, s3⟩ := hb
    dsimp only at e s1 s2 s3
    have hslots := C83_slots (d := dims b) (sbi := sbi) (sbj := sbj) (sbk := sbk) (nsb1 := nsb1)
      (nsb2 := nsb2) (nsb3 := nsb3)
    refine ⟨(subList (dims b) sbi sbj sbk nsb1 nsb2 nsb3).foldl (fun ρ p =>
      aset ρ (Spec.subIdx (dims b) sbi sbj sbk nsb1 nsb2 nsb3 p.1 p.2.1 p.2.2)
        (m (b, vlb.index vi, (dims b).idx p.1 p.2.1 p.2.2))) (ρ x), ?_, ?_⟩
    · intro i j k hin
      have hw := walk_set (subList (dims b) sbi sbj sbk nsb1 nsb2 nsb3)
        (fun p => Spec.subIdx (dims b) sbi sbj sbk nsb1 nsb2 nsb3 p.1 p.2.1 p.2.2)
        (fun p => m (b, vlb.index vi, (dims b).idx p.1 p.2.1 p.2.2)) (ρ x) (by
          rintro ⟨i, j, k⟩ h ⟨i', j', k'⟩ h' e
          obtain ⟨rfl, rfl, rfl⟩ := hslots.2.1 i j k i' j' k' ((mem_subList _).mp h) ((mem_subList _).mp h') e
          rfl)
      exact hw.1 (i, j, k) ((mem_subList _).mpr hin)
    · intro i j k hin
      have := hon _ ((blockProg_writes ..).1.mpr ⟨i, j, k, hin, rfl⟩)
      refine Eq.trans this ?_
      rw [blockProg_eq, runPass_append]
      simp only [Int.toNat_natCast]
      rw [block_loads]
      exact block_stores (subList (dims b) sbi sbj sbk nsb1 nsb2 nsb3)
        (fun p => (b, vlx.index vi, (dims b).idx p.1 p.2.1 p.2.2))
        (fun p ρ => solve x ρ (Spec.subIdx (dims b) sbi sbj sbk nsb1 nsb2 nsb3 p.1 p.2.1 p.2.2)) (by
          rintro ⟨i, j, k⟩ h ⟨i', j', k'⟩ h' e
          have a := inSub_inBox s1 s2 s3 ((mem_subList _).mp h)
          have a' := inSub_inBox s1 s2 s3 ((mem_subList _).mp h')
          simp only [Prod.mk.injEq, true_and] at e
          obtain ⟨rfl, rfl, rfl⟩ := idx_inj a.1 a'.1 a.2.1 a'.2.1 e
          rfl) m _ (i, j, k) ((mem_subList _).mpr hin)
  · intro b y i hno
    refine hres.off _ ?_
    intro x hx hw
    obtain ⟨a1, ⟨b', e, hb1, hb2⟩, s1, s2, s3⟩ := hB x hx
    obtain ⟨i', j', k', hin, e'⟩ := (blockProg_writes ..).1.mp hw
    rw [e] at e' hin
    simp only [Int.toNat_natCast, Prod.mk.injEq] at e' hin
    obtain ⟨rfl, rfl, rfl⟩ := e'
    refine hno _ ⟨hb1, hb2, ?_, a1⟩ rfl
    rw [hdims b hb1 hb2]
    exact idx_lt (inSub_inBox s1 s2 s3 hin)

/-- **C98** for a block whose matrix is read from a linear operator. `x` is what `Matrix_BlockJacobi_Solve` makes of
`rhs`. If the factorisation and the solution succeed, the block of the operator without the dropped entries
times `x` is `rhs`; if not, `x` is `rhs` divided by the diagonal, and zero where the diagonal is zero. -/
theorem C98_block_solve [IsStrictOrderedRing K] (d : Dims) {vi b sbi sbj sbk nsb1 nsb2 nsb3 : Nat}
    (hL : Spec.LinearOp g vlFx vlx Fx Inv Out L) (hd : Spec.Distinct vlx)
    (hb : b < g.nboxes) (ha : g.inactive b = false) (hj : vi < vlx.n)
    (hnn : g.nnodes b = d.n1 * d.n2 * d.n3)
    (s1 : sbi < nsb1) (s2 : sbj < nsb2) (s3 : sbk < nsb3)
    (hout : ∀ i j k, Spec.InSub d sbi sbj sbk nsb1 nsb2 nsb3 i j k → Out b (d.idx i j k) vi)
    (v0 v : GData K) (hi : Inv (zeroList g vlx (copyGrid g v0 v)))
    {shares : List (List Nat)} {ev : List (MEvent K)}
    (hev : SubBoxRun g d Fx vlFx vlx drop v0 v vi b sbi sbj sbk nsb1 nsb2 nsb3 shares ev)
    (drop2 : K) (s : Csc K) (numeric : Int) (solve : UmfSolver K) (hsol : Spec.SolvesUmfpack solve)
    (x0 rhs : Nat → K) :
    let B := setBlock (columnsOf ev) (blockCols d sbi sbj sbk nsb1 nsb2 nsb3) drop2 s
    let x := blockSolve numeric solve B x0 rhs
    let at_ := fun p : Nat × Nat × Nat => Spec.subIdx d sbi sbj sbk nsb1 nsb2 nsb3 p.1 p.2.1 p.2.2
    let a := fun p' p : Nat × Nat × Nat =>
      L (Spec.unit (b, d.idx p.1 p.2.1 p.2.2, vi)) b (d.idx p'.1 p'.2.1 p'.2.2) vi
    Spec.Umfpack B.dim B.csc.Ap B.csc.Ai B.csc.Ax (fun i j => Spec.dropped drop2 (Spec.entry (columnsOf ev j) i)) ∧
    (numeric = 0 → (solve B.dim B.csc.Ap B.csc.Ai B.csc.Ax rhs).1 = 0 →
      ∀ p' ∈ Spec.subPoints d sbi sbj sbk nsb1 nsb2 nsb3,
        ∑ p ∈ Spec.subPoints d sbi sbj sbk nsb1 nsb2 nsb3,
          Spec.dropped drop2 (Spec.dropped drop (a p' p)) * x (at_ p) = rhs (at_ p')) ∧
    (numeric ≠ 0 ∨ (solve B.dim B.csc.Ap B.csc.Ai B.csc.Ax rhs).1 ≠ 0 →
      ∀ p ∈ Spec.subPoints d sbi sbj sbk nsb1 nsb2 nsb3,
        x (at_ p) = if Spec.dropped drop (a p p) ≠ 0 then rhs (at_ p) / Spec.dropped drop (a p p) else 0) := by
  intro B x at_ a
  have hcols := subBox_columns d hL hd hb ha hj hnn s1 s2 s3 hout v0 v hi hev
  have hN : ∀ p ∈ Spec.subPoints d sbi sbj sbk nsb1 nsb2 nsb3,
      Spec.InSub d sbi sbj sbk nsb1 nsb2 nsb3 p.1 p.2.1 p.2.2 := by
    intro p hp
    rw [Spec.subPoints, mem_filter] at hp
    exact hp.2
  have hent : ∀ p ∈ Spec.subPoints d sbi sbj sbk nsb1 nsb2 nsb3,
      ∀ p' ∈ Spec.subPoints d sbi sbj sbk nsb1 nsb2 nsb3,
      Spec.entry (columnsOf ev (at_ p)) (at_ p' : Nat) = Spec.dropped drop (a p' p) := by
    intro p hp p' hp'
    exact C84_subbox d hL hd hb ha hj hnn s1 s2 s3 hout v0 v hi shares hev.share ev hev.perm (hN p hp) (hN p' hp')
  have hlt : ∀ p ∈ Spec.subPoints d sbi sbj sbk nsb1 nsb2 nsb3,
      at_ p < blockCols d sbi sbj sbk nsb1 nsb2 nsb3 := fun p hp => C83_slots.1 _ _ _ (hN p hp)
  have hfmt := (C97_columns_partial (columnsOf ev) (blockCols d sbi sbj sbk nsb1 nsb2 nsb3) drop2 s
    (fun c _ => (hcols c).2) fun c _ => (hcols c).1).1
  refine ⟨hfmt, ?_, ?_⟩
  · intro hnum hinfo p' hp'
    have hx : x = (solve B.dim B.csc.Ap B.csc.Ai B.csc.Ax rhs).2 := by
      simp only [x, blockSolve]
      rw [if_pos hnum, hinfo]
      simp
    have h := hsol _ _ _ _ _ rhs hfmt hinfo (at_ p') (hlt p' hp')
    rw [← h]
    refine Eq.trans ?_ (sum_subPoints d s1 s2 s3 _).symm
    refine sum_congr rfl fun p hp => ?_
    have e := congrFun hx (at_ p)
    rw [e, ← hent p hp p' hp']
    rfl
  · intro hfail p hp
    have hx : x = upLoop 0 B.dim (fun k x => if B.diag k ≠ 0 then aset x k (rhs k / B.diag k) else aset x k 0)
        (if numeric = 0 then solve B.dim B.csc.Ap B.csc.Ai B.csc.Ax rhs else (-6662442, x0)).2 := by
      simp only [x, blockSolve]
      rw [if_pos]
      by_cases h : numeric = 0
      · rw [if_pos h]
        exact hfail.resolve_left (fun hn => hn h)
      · rw [if_neg h]
        exact by norm_num
    have hdiag : B.diag (at_ p) = Spec.dropped drop (a p p) := by
      rw [← hent p hp p hp]
      exact diagOf_eq _ _ (fun c _ => ascending_nodup (hcols c).1) _ (hlt p hp)
    rw [hx, blockSolve_fallback B _ _ _ (hlt p hp), hdiag]

/-- A box of 4 points in two subboxes, as blocks that are divided by 2 and 3, in an order in which the accesses
are mixed; and a block with a failed factorisation. -/
example :
    let g : GShape := ⟨1, fun _ => 4, fun _ => false⟩
    let dims : Nat → Dims := fun _ => ⟨4, 1, 1⟩
    let prog := fun x => blockProg dims (blockIdx g (setNinactive g) 2 1 1 x) 2 1 1 ⟨1, fun _ => 1⟩ ⟨1, fun _ => 0⟩
      fun b l => b l / (if x = 0 then (2 : ℚ) else 3)
    nBlocks g (setNinactive g) 1 2 1 1 = 2 ∧
    (List.range 4).map (fun i => parLoop prog (fun _ _ => 0) (fun x => if x.2.1 = 0 then 6 * (x.2.2 + 1) else 0)
      [1, 0, 0, 1, 0, 1, 1, 0] (0, 1, i)) = [3, 6, 6, 8] ∧
    (List.range 2).map (blockSolve 1 (fun _ _ _ _ _ => (0, fun _ => (7 : ℚ)))
      (setBlock (fun c => if c = 0 then [(0, 2), (1, 5)] else [(0, 1)]) 2 0 ⟨fun _ => 0, fun _ => 0, fun _ => 0, 0⟩)
      (fun _ => 9) fun _ => 8) = [4, 0] := by
  decide +kernel

end Sgrid
