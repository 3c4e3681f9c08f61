import Verif.Lemmas.Parallel
import Verif.Model.ParLoops
import Verif.Props.Lines
import Verif.Props.VarArith

/-! C62, C74: parallel loops over points and over grid lines give the result of the serial loops. -/

namespace Sgrid
open Spec
variable {K : Type}

/-! ## Points -/

theorem pointProg_writes (xs : List Nat) (dst : Nat) (e : (Nat → K) → K) (i : Nat) (x : Place) :
    Writes (pointProg xs dst e i) x ↔ x = (dst, i) := by
  unfold Writes pointProg
  constructor
  · rintro ⟨f, hf⟩
    rw [List.mem_append] at hf
    rcases hf with hf | hf
    · rw [List.mem_map] at hf
      obtain ⟨r, -, hr⟩ := hf
      cases hr
    · rw [List.mem_singleton] at hf
      cases hf
      rfl
  · rintro rfl
    exact ⟨e, by simp⟩

theorem pointProg_reads (xs : List Nat) (dst : Nat) (e : (Nat → K) → K) (i : Nat) (x : Place)
    (h : Reads (pointProg xs dst e i) x) : x.2 = i := by
  obtain ⟨r, hr⟩ := h
  unfold pointProg at hr
  rw [List.mem_append] at hr
  rcases hr with hr | hr
  · rw [List.mem_map] at hr
    obtain ⟨r, -, hr⟩ := hr
    cases hr
    rfl
  · rw [List.mem_singleton] at hr
    cases hr

/-- The point loops have no conflicting accesses, also when `dst` is one of the arrays read. -/
theorem pointProg_noRace (xs : List Nat) (dst : Nat) (e : (Nat → K) → K) (n : Nat) :
    NoRace n (pointProg xs dst e) := by
  intro i j _ _ hij x hw
  rw [pointProg_writes] at hw
  subst hw
  refine ⟨fun h => ?_, fun h => ?_⟩
  · rw [pointProg_writes] at h
    exact hij (congrArg Prod.snd h)
  · exact hij (pointProg_reads _ _ _ _ _ h)

/-- Reads into local variables. -/
theorem run_loads {L : Type} [DecidableEq L] (f : Nat → L) (n : Nat) (m : L → K) (ρ : Nat → K) :
    runPass ((List.range n).map fun r => Act.load r (f r)) (m, ρ) =
      (m, fun r => if r < n then m (f r) else ρ r) := by
  induction n with
  | zero => simp [runPass]
  | succ n ih =>
    rw [List.range_succ, List.map_append, runPass_append, ih]
    refine Prod.ext rfl ?_
    funext r
    change Function.update (fun r => if r < n then m (f r) else ρ r) n (m (f n)) r =
      if r < n + 1 then m (f r) else ρ r
    by_cases h : r = n
    · subst h; simp
    · rw [Function.update_of_ne h]
      by_cases h2 : r < n
      · rw [if_pos h2, if_pos (by omega)]
      · rw [if_neg h2, if_neg (by omega)]

/-- **C74, points.** For every schedule the loop sets `dst` at every point `i < n` to `e` of the values the
arrays had at point `i` before the loop, and changes nothing else. The expression `e` uses the values read
only. Arrays may occur several times and `dst` may be among them. -/
theorem C74_points (xs : List Nat) (dst : Nat) (e : (Nat → K) → K)
    (he : ∀ r r' : Nat → K, (∀ q, q < xs.length → r q = r' q) → e r = e r') (n : Nat)
    (ρ : Nat → Nat → K) (m : Place → K) (sched : List Nat)
    (hs : Complete n (pointProg xs dst e) sched) (a p : Nat) :
    parLoop (pointProg xs dst e) ρ m sched (a, p) =
      if a = dst ∧ p < n then e fun r => m (xs.getD r 0, p) else m (a, p) := by
  have h := parLoop_result n _ ρ m (pointProg_noRace xs dst e n) sched hs
  by_cases hp : a = dst ∧ p < n
  · obtain ⟨rfl, hp⟩ := hp
    rw [if_pos ⟨rfl, hp⟩, h.on p _ hp ((pointProg_writes _ _ _ _ _).2 rfl)]
    unfold pointProg
    rw [runPass_append, run_loads fun r => (xs.getD r 0, p)]
    change Function.update m (a, p) (e _) (a, p) = _
    rw [Function.update_self]
    exact he _ _ fun q hq => if_pos hq
  · rw [if_neg hp]
    refine h.off _ fun i hi hw => ?_
    rw [pointProg_writes] at hw
    cases hw
    exact hp ⟨rfl, hi⟩

/-- The arrays of a box as a memory. -/
def boxMem [Zero K] (box : DBox K) : Place → K := fun x =>
  match box.v x.1 with
  | none => 0
  | some p => p x.2

/-- The pass of a serial loop over points: read the arrays `xs`, then write `dst`. -/
def pointBody (xs : List Nat) (dst : Nat) (e : List K → K) (i : Nat) (box : DBox K) : Res (DBox K) :=
  (xs.foldr (fun x r => (box.rd x i).bind fun y => r.map (y :: ·)) (.ok [])).bind fun vs =>
    box.wr dst i (e vs)

theorem pointBody_ok [Zero K] (xs : List Nat) (dst : Nat) (e : List K → K) (i : Nat) (box : DBox K)
    (hx : ∀ x ∈ xs, (box.v x).isSome) (q : Nat → K) (hd : box.v dst = some q) (hi : i < box.nnodes) :
    pointBody xs dst e i box =
      .ok (box.setTo dst fun j => if j = i then e (xs.map fun x => boxMem box (x, i)) else q j) := by
  have h : xs.foldr (fun x r => (box.rd x i).bind fun y => r.map (y :: ·)) (.ok []) =
      .ok (xs.map fun x => boxMem box (x, i)) := by
    induction xs with
    | nil => rfl
    | cons x xs ih =>
      rw [List.foldr_cons, ih fun y hy => hx y (List.mem_cons_of_mem _ hy)]
      obtain ⟨p, hp⟩ := Option.isSome_iff_exists.1 (hx x List.mem_cons_self)
      have hrd : box.rd x i = .ok (p i) := by simp [DBox.rd, hp, hi]
      have hm : boxMem box (x, i) = p i := by simp [boxMem, hp]
      rw [hrd, Res.bind_ok, List.map_cons, hm]
      rfl
  unfold pointBody
  rw [h, Res.bind_ok]
  simp [DBox.wr, hd, hi]

/-- **C74.** The serial loops over points of the model (C14) and the parallel loops under any schedule give
the same box. -/
theorem C74_points_serial [Zero K] (xs : List Nat) (dst : Nat) (e : List K → K) (box : DBox K)
    (hx : ∀ x ∈ xs, (box.v x).isSome) (hd : (box.v dst).isSome) (ρ : Nat → Nat → K)
    (sched : List Nat)
    (hs : Complete box.nnodes
      (pointProg xs dst fun r => e ((List.range xs.length).map r)) sched) :
    forN box.nnodes (pointBody xs dst e) box =
      .ok ⟨box.nnodes, box.inactive, fun y => (box.v y).map fun _ i =>
        parLoop (pointProg xs dst fun r => e ((List.range xs.length).map r)) ρ (boxMem box) sched (y, i)⟩ := by
  obtain ⟨q, hq⟩ := Option.isSome_iff_exists.1 hd
  have hval : ∀ i, (List.range xs.length).map (fun r => boxMem box (xs.getD r 0, i)) =
      xs.map fun x => boxMem box (x, i) := by
    intro i
    refine List.ext_getElem (by simp) fun k h1 h2 => ?_
    rw [List.length_map, List.length_range] at h1
    simp [List.getElem?_eq_getElem h1]
  have key : ∀ n, n ≤ box.nnodes → forN n (pointBody xs dst e) box =
      .ok (box.setTo dst fun j => if j < n then e (xs.map fun x => boxMem box (x, j)) else q j) := by
    intro n hn
    obtain ⟨s, h1, h2⟩ := forN_inv (n := n) (body := pointBody xs dst e) (s := box)
      (fun k s => s = box.setTo dst fun j => if j < k then e (xs.map fun x => boxMem box (x, j)) else q j)
      (by
        simp only [Nat.not_lt_zero, if_false]
        unfold DBox.setTo
        have : (fun y => if y = dst then some q else box.v y) = box.v := by
          funext y
          by_cases h : y = dst
          · subst h; rw [if_pos rfl, hq]
          · rw [if_neg h]
        rw [show (fun y => if y = dst then some (fun j => q j) else box.v y) = box.v from this])
      (by
        intro k hk s hs
        subst hs
        have hmem : ∀ x, boxMem (box.setTo dst fun j =>
            if j < k then e (xs.map fun x => boxMem box (x, j)) else q j) (x, k) = boxMem box (x, k) := by
          intro x
          by_cases h : x = dst
          · subst h
            simp [boxMem, DBox.setTo, hq]
          · simp [boxMem, DBox.setTo, h]
        refine ⟨_, pointBody_ok xs dst e k _ ?_ _ (by simp [DBox.setTo]; rfl) (by
          change k < box.nnodes; omega), ?_⟩
        · intro x hxs
          by_cases h : x = dst
          · simp [DBox.setTo, h]
          · simpa [DBox.setTo, h] using hx x hxs
        · simp only [hmem]
          unfold DBox.setTo
          simp only [DBox.mk.injEq, true_and]
          funext y
          by_cases h : y = dst
          · rw [if_pos h, if_pos h]
            congr 1
            funext j
            by_cases hj : j = k
            · subst hj; rw [if_pos rfl, if_pos (by omega)]
            · rw [if_neg hj]
              by_cases hjk : j < k
              · rw [if_pos hjk, if_pos (by omega)]
              · rw [if_neg hjk, if_neg (by omega)]
          · rw [if_neg h, if_neg h, if_neg h])
    rw [h1, h2]
  rw [key _ le_rfl]
  congr 1
  unfold DBox.setTo
  congr 1
  funext y
  by_cases h : y = dst
  · subst h
    rw [if_pos rfl, hq, Option.map_some]
    congr 1
    funext i
    rw [C74_points xs y _ (fun r r' hr => congrArg e (List.map_congr_left fun k hk =>
      hr k (List.mem_range.1 hk))) _ ρ _ sched hs]
    by_cases hi : i < box.nnodes
    · rw [if_pos hi, if_pos ⟨rfl, hi⟩, hval]
    · rw [if_neg hi, if_neg fun h => hi h.2]
      simp [boxMem, hq]
  · rw [if_neg h]
    cases hy : box.v y with
    | none => rfl
    | some p =>
      rw [Option.map_some]
      congr 1
      funext i
      rw [C74_points xs dst _ (fun r r' hr => congrArg e (List.map_congr_left fun k hk =>
        hr k (List.mem_range.1 hk))) _ ρ _ sched hs, if_neg fun h' => h h'.1]
      simp [boxMem, hy]

/-- The passes of vlsetconstant, vlcopy, vlaverage, vlsubtract, vladd and vladdto in the model are
`pointBody`. -/
theorem C74_bodies [Field K] (pr pa pb i : Nat) (c ca cb : K) (box : DBox K) :
    box.wr pr i c = pointBody [] pr (fun _ => c) i box ∧
    ((box.rd pa i).bind fun x => box.wr pr i x) = pointBody [pa] pr (fun l => l.getD 0 0) i box ∧
    ((box.rd pa i).bind fun x => box.wr pr i (ca * x)) =
      pointBody [pa] pr (fun l => ca * l.getD 0 0) i box ∧
    ((box.rd pa i).bind fun x => (box.rd pb i).bind fun y => box.wr pr i ((1 / 2) * (x + y))) =
      pointBody [pa, pb] pr (fun l => (1 / 2) * (l.getD 0 0 + l.getD 1 0)) i box ∧
    ((box.rd pa i).bind fun x => (box.rd pb i).bind fun y => box.wr pr i (x - y)) =
      pointBody [pa, pb] pr (fun l => l.getD 0 0 - l.getD 1 0) i box ∧
    ((box.rd pa i).bind fun x => (box.rd pb i).bind fun y => box.wr pr i (ca * x + cb * y)) =
      pointBody [pa, pb] pr (fun l => ca * l.getD 0 0 + cb * l.getD 1 0) i box ∧
    ((box.rd pr i).bind fun x => (box.rd pa i).bind fun y => box.wr pr i (x + ca * y)) =
      pointBody [pr, pa] pr (fun l => l.getD 0 0 + ca * l.getD 1 0) i box := by
  have h1 : ∀ (x : Nat) (f : K → K), ((box.rd x i).bind fun y => box.wr pr i (f y)) =
      pointBody [x] pr (fun l => f (l.getD 0 0)) i box := by
    intro x f
    unfold pointBody
    simp only [List.foldr_cons, List.foldr_nil]
    cases box.rd x i <;> rfl
  have h2 : ∀ (x z : Nat) (f : K → K → K),
      ((box.rd x i).bind fun y => (box.rd z i).bind fun w => box.wr pr i (f y w)) =
      pointBody [x, z] pr (fun l => f (l.getD 0 0) (l.getD 1 0)) i box := by
    intro x z f
    unfold pointBody
    simp only [List.foldr_cons, List.foldr_nil]
    cases box.rd x i <;> cases box.rd z i <;> rfl
  exact ⟨rfl, h1 pa id, h1 pa _, h2 pa pb _, h2 pa pb fun x y => x - y, h2 pa pb fun x y => ca * x + cb * y,
    h2 pr pa fun x y => x + ca * y⟩

/-! ## vlswap -/

/-- **C62 fails**: two points, the two passes interleaved. `pv` = (1, 2), `pu` = (3, 4); the second pass
overwrites `temp` before the first has used it and `pu` becomes (2, 2), so that the value 1 is lost. -/
theorem C62_counterexample :
    let prog := swapProg (K := ℚ) 0 1
    let m : Option Place → ℚ := fun x =>
      match x with
      | none => 0
      | some (a, p) => 2 * a + p + 1
    let sched := [0, 0, 1, 1, 0, 0, 0, 0, 1, 1, 1, 1]
    let m' := parLoop prog (fun _ _ => 0) m sched
    Complete 2 prog sched ∧
    (m (some (0, 0)), m (some (0, 1)), m (some (1, 0)), m (some (1, 1))) = (1, 2, 3, 4) ∧
    (m' (some (0, 0)), m' (some (0, 1)), m' (some (1, 0)), m' (some (1, 1))) = (3, 4, 2, 2) := by
  refine ⟨?_, by decide +kernel, by decide +kernel⟩
  intro i
  rcases i with _ | _ | i
  · decide
  · decide
  · have h1 : ¬ i + 2 < 2 := by omega
    have h2 : ∀ x ∈ [0, 0, 1, 1, 0, 0, 0, 0, 1, 1, 1, 1], x ≠ i + 2 := by
      intro x hx
      have : x ≤ 1 := by revert x; decide
      omega
    rw [if_neg h1]
    exact List.count_eq_zero.2 fun h => h2 _ h rfl

/-- One pass of vlswap alone. -/
theorem swapProg_run (pv pu i : Nat) (m : Option Place → K) (ρ : Nat → K) (x : Place) :
    (runPass (swapProg pv pu i) (m, ρ)).1 (some x) =
      if x = (pu, i) then m (some (pv, i)) else if x = (pv, i) then m (some (pu, i)) else m (some x) := by
  simp only [swapProg, runPass, List.foldl_cons, List.foldl_nil, Act.run, Function.update_apply,
    Option.some.injEq, reduceCtorEq, if_false, if_true]

/-- **C62 as far as it holds**: if the passes do not overlap in time (as with one thread), in whatever
order they run, the two arrays are exchanged. The same array may be given twice. What fails is
overlapping passes, see `C62_counterexample`. -/
theorem C62_swap_partial (pv pu n : Nat) (ρ : Nat → Nat → K) (m : Option Place → K) (order : List Nat)
    (ho : order.Nodup) (hn : ∀ i, i ∈ order ↔ i < n) (a p : Nat) :
    order.foldl (fun m i => (runPass (swapProg pv pu i) (m, ρ i)).1) m (some (a, p)) =
      if p < n then m (some (if a = pu then pv else if a = pv then pu else a, p)) else m (some (a, p)) := by
  have key : ∀ l : List Nat, l.Nodup → ∀ m : Option Place → K,
      l.foldl (fun m i => (runPass (swapProg pv pu i) (m, ρ i)).1) m (some (a, p)) =
      if p ∈ l then m (some (if a = pu then pv else if a = pv then pu else a, p)) else m (some (a, p)) := by
    intro l
    induction l with
    | nil => intro _ m; simp
    | cons i l ih =>
      intro hl m
      rw [List.nodup_cons] at hl
      rw [List.foldl_cons, ih hl.2, swapProg_run, swapProg_run]
      by_cases hp : p = i
      · subst hp
        rw [if_neg hl.1, if_pos List.mem_cons_self]
        by_cases h1 : a = pu
        · simp [h1]
        · by_cases h2 : a = pv
          · subst h2; simp [h1]
          · simp [h1, h2]
      · by_cases hl' : p ∈ l
        · simp [hl', hp]
        · simp [hl', hp]
  rw [key order ho m]
  by_cases h : p < n
  · rw [if_pos ((hn p).2 h), if_pos h]
  · rw [if_neg fun h' => h ((hn p).1 h'), if_neg h]

/-! ## Lines -/

/-- Accesses of one line as work on the arrays; the local variables are kept in the first buffer. -/
def progT (p : Nat → Nat → List (Act Place K)) (j k : Nat) (s : LState K) : LState K :=
  let t := runPass (p j k) (fun x => s.mem x.1 x.2, s.ul)
  { s with mem := fun a q => t.1 (a, q), ul := t.2 }

/-- The accesses of one line stay on this line and do there what `G` says. -/
structure LineProg (d : Dims) (ax : Axis) (G : Arrays K → Arrays K)
    (p : Nat → Nat → List (Act Place K)) : Prop where
  act : LineAct d ax G (progT p)
  acc : ∀ j k x, Writes (p j k) x ∨ Reads (p j k) x → ∃ i, i < d.len ax ∧ x.2 = d.place ax j k i

theorem LineProg.append {d : Dims} {ax : Axis} {G H : Arrays K → Arrays K}
    {p q : Nat → Nat → List (Act Place K)} (hp : LineProg d ax G p) (hq : LineProg d ax H q) :
    LineProg d ax (fun m => H (G m)) (fun j k => p j k ++ q j k) := by
  refine ⟨?_, ?_⟩
  · have := hp.act.comp hq.act
    have e : (progT fun j k => p j k ++ q j k) = fun j k s => progT q j k (progT p j k s) := by
      funext j k s
      unfold progT
      simp only [runPass_append]
    rw [e]
    exact this
  · intro j k x h
    rcases h with ⟨e, h⟩ | ⟨r, h⟩
    · rcases List.mem_append.1 h with h | h
      · exact hp.acc j k x (Or.inl ⟨e, h⟩)
      · exact hq.acc j k x (Or.inl ⟨e, h⟩)
    · rcases List.mem_append.1 h with h | h
      · exact hp.acc j k x (Or.inr ⟨r, h⟩)
      · exact hq.acc j k x (Or.inr ⟨r, h⟩)

/-- Different lines share no places. -/
theorem LineProg.noRace {d : Dims} {ax : Axis} {G : Arrays K → Arrays K}
    {p : Nat → Nat → List (Act Place K)} (h : LineProg d ax G p) :
    NoRace (d.outer ax) (linesProg d ax p) := by
  have hmem : ∀ k a, a ∈ linesProg d ax p k → ∃ j, j < d.inner ax ∧ a ∈ p j k := by
    intro k a ha
    unfold linesProg at ha
    obtain ⟨j, hj, hja⟩ := List.mem_flatMap.1 ha
    exact ⟨j, List.mem_range.1 hj, hja⟩
  have hacc : ∀ k x, Writes (linesProg d ax p k) x ∨ Reads (linesProg d ax p k) x →
      ∃ j i, j < d.inner ax ∧ i < d.len ax ∧ x.2 = d.place ax j k i := by
    intro k x hx
    rcases hx with ⟨e, hx⟩ | ⟨r, hx⟩
    · obtain ⟨j, hj, hja⟩ := hmem k _ hx
      obtain ⟨i, hi, hxi⟩ := h.acc j k x (Or.inl ⟨e, hja⟩)
      exact ⟨j, i, hj, hi, hxi⟩
    · obtain ⟨j, hj, hja⟩ := hmem k _ hx
      obtain ⟨i, hi, hxi⟩ := h.acc j k x (Or.inr ⟨r, hja⟩)
      exact ⟨j, i, hj, hi, hxi⟩
  have hdiff : ∀ k k' x, k < d.outer ax → k' < d.outer ax → k ≠ k' →
      (Writes (linesProg d ax p k) x ∨ Reads (linesProg d ax p k) x) →
      (Writes (linesProg d ax p k') x ∨ Reads (linesProg d ax p k') x) → False := by
    intro k k' x hk hk' hne h1 h2
    obtain ⟨j, i, hj, hi, e1⟩ := hacc k x h1
    obtain ⟨j', i', hj', hi', e2⟩ := hacc k' x h2
    exact hne (place_inj hj hk hi hj' hk' hi' (e1.symm.trans e2)).2.1
  intro k k' hk hk' hne x hw
  exact ⟨fun h' => hdiff k k' x hk hk' hne (Or.inl hw) (Or.inl h'),
    fun h' => hdiff k k' x hk hk' hne (Or.inl hw) (Or.inr h')⟩

/-- **C74, lines.** If the accesses of a line do what the body of the serial loop does, the parallel loop
over lines gives the arrays of the serial loop, for every schedule and whatever the buffers hold at
first. -/
theorem C74_lines {d : Dims} {ax : Axis} {G : Arrays K → Arrays K}
    {p : Nat → Nat → List (Act Place K)} (h : LineProg d ax G p)
    {T : Nat → Nat → LState K → LState K} (hT : LineAct d ax G T)
    (g : Nat → (Nat → K) × (Nat → K) × (Nat → K)) (ρ : Nat → Nat → K) (mem : Arrays K)
    (sched : List Nat) (hs : Complete (d.outer ax) (linesProg d ax p) sched) :
    (fun a q => parLoop (linesProg d ax p) ρ (fun x => mem x.1 x.2) sched (a, q)) =
      forLinesAlloc d ax g T mem := by
  rw [parLoop_eq_seq _ _ ρ _ h.noRace sched hs]
  have hinner : ∀ n k (s : LState K),
      runPass ((List.range n).flatMap fun j => p j k) (fun x => s.mem x.1 x.2, s.ul) =
        ((fun x => (upLoop 0 n (fun j s => progT p j k s) s).mem x.1 x.2),
          (upLoop 0 n (fun j s => progT p j k s) s).ul) := by
    intro n k s
    induction n with
    | zero => rw [upLoop_nil (le_refl 0)]; rfl
    | succ n ih =>
      rw [List.range_succ, List.flatMap_append, runPass_append, ih, upLoop_succ (Nat.zero_le n)]
      simp [progT]
  have hseq : (fun a q => seqLoop (d.outer ax) (linesProg d ax p) ρ (fun x => mem x.1 x.2) (a, q)) =
      forLinesAlloc d ax (fun k => (ρ k, ρ k, ρ k)) (progT p) mem := by
    unfold seqLoop forLinesAlloc
    generalize d.outer ax = n
    have : upLoop 0 n (fun i m => (runPass (linesProg d ax p i) (m, ρ i)).1) (fun x => mem x.1 x.2) =
        fun x => upLoop 0 n (fun k mem => (upLoop 0 (d.inner ax) (fun j s => progT p j k s)
          ⟨mem, ρ k, ρ k, ρ k⟩).mem) mem x.1 x.2 := by
      induction n with
      | zero => rw [upLoop_nil (le_refl 0), upLoop_nil (le_refl 0)]
      | succ n ih =>
        rw [upLoop_succ (Nat.zero_le n), upLoop_succ (Nat.zero_le n), ih]
        unfold linesProg
        have := hinner (d.inner ax) n ⟨upLoop 0 n (fun k mem => (upLoop 0 (d.inner ax)
          (fun j s => progT p j k s) ⟨mem, ρ k, ρ k, ρ k⟩).mem) mem, ρ n, ρ n, ρ n⟩
        exact congrArg Prod.fst this
    rw [this]
  rw [hseq]
  exact done_unique (forLinesAlloc_done h.act _ mem) (forLinesAlloc_done hT g mem)

/-! ### The programs of one line -/

/-- One more entry of array `dst`. -/
theorem update_aset (mem : Arrays K) (u : Nat → K) (dst p : Nat) (y : K) (a q : Nat) :
    Function.update (fun x : Place => aset mem dst u x.1 x.2) (dst, p) y (a, q) =
      aset mem dst (aset u p y) a q := by
  by_cases h : a = dst
  · subst h
    rw [aset_self]
    by_cases hq : q = p
    · subst hq; rw [Function.update_self, aset_self]
    · rw [Function.update_of_ne (by simp [hq]), aset_ne _ _ hq, aset_self]
  · rw [Function.update_of_ne (by simp [h]), aset_ne _ _ h, aset_ne _ _ h]

theorem run_put (d : Dims) (ax : Axis) (f : (Nat → K) → Nat → K) (dst j k : Nat) (mem : Arrays K)
    (s : LState K) (hs : s.mem = mem) (ρ : Nat → K) :
    runPass (linePut d ax f dst j k) (fun x => mem x.1 x.2, ρ) =
      ((fun x => (s.put d ax j k dst (f ρ)).mem x.1 x.2), ρ) := by
  subst hs
  unfold linePut LState.put putMemline
  generalize d.len ax = n
  induction n with
  | zero =>
    rw [upLoop_nil (le_refl 0)]
    refine Prod.ext ?_ rfl
    funext x
    change s.mem x.1 x.2 = aset s.mem dst (s.mem dst) x.1 x.2
    by_cases h : x.1 = dst
    · rw [h, aset_self]
    · rw [aset_ne _ _ h]
  | succ n ih =>
    rw [List.range_succ, List.map_append, runPass_append, ih, upLoop_succ (Nat.zero_le n)]
    refine Prod.ext ?_ rfl
    funext ⟨a, q⟩
    generalize upLoop 0 n (fun i u => aset u (d.place ax j k i) (f ρ i)) (s.mem dst) = u
    exact update_aset s.mem u dst _ _ a q

theorem lineLoads_acc (d : Dims) (ax : Axis) (src j k : Nat) (x : Place)
    (h : Writes (lineLoads (K := K) d ax src j k) x ∨ Reads (lineLoads (K := K) d ax src j k) x) :
    ∃ i, i < d.len ax ∧ x.2 = d.place ax j k i := by
  unfold lineLoads at h
  rcases h with ⟨e, h⟩ | ⟨r, h⟩
  · obtain ⟨i, -, hx⟩ := List.mem_map.1 h
    cases hx
  · obtain ⟨i, hi, hx⟩ := List.mem_map.1 h
    cases hx
    exact ⟨_, List.mem_range.1 hi, rfl⟩

theorem linePut_acc (d : Dims) (ax : Axis) (f : (Nat → K) → Nat → K) (dst j k : Nat) (x : Place)
    (h : Writes (linePut d ax f dst j k) x ∨ Reads (linePut d ax f dst j k) x) :
    ∃ i, i < d.len ax ∧ x.2 = d.place ax j k i := by
  unfold linePut at h
  rcases h with ⟨e, h⟩ | ⟨r, h⟩
  · obtain ⟨i, hi, hx⟩ := List.mem_map.1 h
    cases hx
    exact ⟨_, List.mem_range.1 hi, rfl⟩
  · obtain ⟨i, -, hx⟩ := List.mem_map.1 h
    cases hx

theorem acc_append {p q : List (Act Place K)} {x : Place} {P : Prop}
    (hp : Writes p x ∨ Reads p x → P) (hq : Writes q x ∨ Reads q x → P)
    (h : Writes (p ++ q) x ∨ Reads (p ++ q) x) : P := by
  rcases h with ⟨e, h⟩ | ⟨r, h⟩
  · rcases List.mem_append.1 h with h | h
    · exact hp (Or.inl ⟨e, h⟩)
    · exact hq (Or.inl ⟨e, h⟩)
  · rcases List.mem_append.1 h with h | h
    · exact hp (Or.inr ⟨r, h⟩)
    · exact hq (Or.inr ⟨r, h⟩)

/-- The local variables after reading a line. -/
def loaded (d : Dims) (ax : Axis) (src j k : Nat) (s : LState K) : Nat → K :=
  fun r => if r < d.len ax then s.mem src (d.place ax j k r) else s.ul r

theorem run_lineLoads (d : Dims) (ax : Axis) (src j k : Nat) (s : LState K) :
    runPass (lineLoads d ax src j k) (fun x => s.mem x.1 x.2, s.ul) =
      (fun x => s.mem x.1 x.2, loaded d ax src j k s) :=
  run_loads (fun i => (src, d.place ax j k i)) _ _ _

theorem bufProg_line (d : Dims) (ax : Axis) (f : (Nat → K) → Nat → K) (hf : LocalFun f (d.len ax))
    (src dst : Nat) : LineProg d ax (lineG f src dst) (bufProg d ax f src dst) := by
  refine ⟨LineAct.write hf src dst _ fun j k s => ⟨f (loaded d ax src j k s), ?_, fun i hi => ?_⟩, ?_⟩
  · change (fun a q => (runPass (bufProg d ax f src dst j k) (fun x => s.mem x.1 x.2, s.ul)).1 (a, q)) = _
    unfold bufProg
    rw [runPass_append, run_lineLoads, run_put d ax f dst j k s.mem s rfl]
  · exact hf _ _ (fun r hr => if_pos hr) i hi
  · intro j k x h
    exact acc_append (lineLoads_acc d ax src j k x) (linePut_acc d ax f dst j k x) h

theorem buf2Prog_line (d : Dims) (ax : Axis) (f h : (Nat → K) → Nat → K) (hf : LocalFun f (d.len ax))
    (hh : LocalFun h (d.len ax)) (src d1 d2 : Nat) (hne : src ≠ d1) :
    LineProg d ax (fun m => lineG h src d2 (lineG f src d1 m)) (buf2Prog d ax f h src d1 d2) := by
  refine ⟨LineAct.write2 hf hh src d1 d2 hne _ fun j k s =>
    ⟨f (loaded d ax src j k s), h (loaded d ax src j k s), ?_, fun i hi => ?_, fun i hi => ?_⟩, ?_⟩
  · change (fun a q => (runPass (buf2Prog d ax f h src d1 d2 j k)
      (fun x => s.mem x.1 x.2, s.ul)).1 (a, q)) = _
    unfold buf2Prog
    rw [runPass_append, run_lineLoads, runPass_append, run_put d ax f d1 j k s.mem s rfl,
      run_put d ax h d2 j k _ (s.put d ax j k d1 (f (loaded d ax src j k s))) rfl]
  · exact hf _ _ (fun r hr => if_pos hr) i hi
  · exact hh _ _ (fun r hr => if_pos hr) i hi
  · intro j k x h'
    exact acc_append (lineLoads_acc d ax src j k x)
      (acc_append (linePut_acc d ax f d1 j k x) (linePut_acc d ax h d2 j k x)) h'

theorem directProg_line (d : Dims) (f : (Nat → K) → Nat → K) (hf : LocalFun f d.n1)
    (src dst : Nat) (hne : src ≠ dst) :
    LineProg d .one (lineG f src dst) (directProg d f src dst) := by
  have hrun : ∀ j k (s : LState K) n, n ≤ d.n1 → ∃ ρ,
      runPass ((List.range n).flatMap fun i =>
        lineLoads d .one src j k ++ [Act.store (dst, d.place .one j k i) (fun r => f r i)])
        (fun x => s.mem x.1 x.2, s.ul) =
      ((fun x => aset s.mem dst (upLoop 0 n (fun i u => aset u (d.place .one j k i)
        (f (fun r => s.mem src (d.place .one j k r)) i)) (s.mem dst)) x.1 x.2), ρ) := by
    intro j k s n
    induction n with
    | zero =>
      intro _
      refine ⟨s.ul, ?_⟩
      rw [upLoop_nil (le_refl 0)]
      refine Prod.ext ?_ rfl
      funext x
      change s.mem x.1 x.2 = aset s.mem dst (s.mem dst) x.1 x.2
      by_cases h : x.1 = dst
      · rw [h, aset_self]
      · rw [aset_ne _ _ h]
    | succ n ih =>
      intro hn
      obtain ⟨ρ, hρ⟩ := ih (by omega)
      rw [List.range_succ, List.flatMap_append, runPass_append, hρ, List.flatMap_cons, List.flatMap_nil,
        List.append_nil, runPass_append, upLoop_succ (Nat.zero_le n)]
      generalize hu : upLoop 0 n (fun i u => aset u (d.place .one j k i)
        (f (fun r => s.mem src (d.place .one j k r)) i)) (s.mem dst) = u
      have hl := run_lineLoads d .one src j k ⟨aset s.mem dst u, ρ, ρ, ρ⟩
      rw [hl]
      refine ⟨_, Prod.ext ?_ rfl⟩
      have hv : f (loaded d .one src j k ⟨aset s.mem dst u, ρ, ρ, ρ⟩) n =
          f (fun r => s.mem src (d.place .one j k r)) n := by
        refine hf _ _ (fun r hr => ?_) n (by omega)
        unfold loaded
        rw [if_pos (show r < d.len .one from hr)]
        change aset s.mem dst u src _ = _
        rw [aset_ne _ _ hne]
      funext ⟨a, q⟩
      change Function.update (fun x : Place => aset s.mem dst u x.1 x.2) (dst, d.place .one j k n)
        (f (loaded d .one src j k ⟨aset s.mem dst u, ρ, ρ, ρ⟩) n) (a, q) = aset s.mem dst _ a q
      rw [hv]
      exact update_aset s.mem u dst _ _ a q
  refine ⟨LineAct.write (ax := .one) hf src dst _ fun j k s =>
    ⟨f (lineAt d .one s.mem j k src), ?_, fun i _ => rfl⟩, ?_⟩
  · obtain ⟨ρ, hρ⟩ := hrun j k s d.n1 le_rfl
    change (fun a q => (runPass (directProg d f src dst j k) (fun x => s.mem x.1 x.2, s.ul)).1 (a, q)) = _
    unfold directProg
    rw [hρ]
    rfl
  · intro j k x h
    unfold directProg at h
    have hsub : ∀ a ∈ (List.range d.n1).flatMap (fun i =>
        lineLoads d .one src j k ++ [Act.store (dst, d.place .one j k i) (fun r => f r i)]),
        a ∈ lineLoads d .one src j k ∨ ∃ i, i < d.n1 ∧ a = Act.store (dst, d.place .one j k i) (fun r => f r i) := by
      intro a ha
      obtain ⟨i, hi, ha⟩ := List.mem_flatMap.1 ha
      rcases List.mem_append.1 ha with ha | ha
      · exact Or.inl ha
      · exact Or.inr ⟨i, List.mem_range.1 hi, List.mem_singleton.1 ha⟩
    rcases h with ⟨e, h⟩ | ⟨r, h⟩
    · rcases hsub _ h with h | ⟨i, hi, h⟩
      · exact lineLoads_acc d .one src j k x (Or.inl ⟨e, h⟩)
      · cases h
        exact ⟨i, hi, rfl⟩
    · rcases hsub _ h with h | ⟨i, hi, h⟩
      · exact lineLoads_acc d .one src j k x (Or.inr ⟨r, h⟩)
      · cases h

/-! ### The spectral routines -/

section
variable [Field K] (g : Nat → (Nat → K) × (Nat → K) × (Nat → K))

/-- **C74.** `spec_analysis1` under any schedule. -/
theorem C74_analysis (b : LBox K) (ax : Axis) (h : BoxLinear b ax) (u c : Nat) (mem : Arrays K)
    (ρ : Nat → Nat → K) (sched : List Nat)
    (hs : Complete (b.d.outer ax) (linesProg b.d ax (bufProg b.d ax (coeffsOp b ax) u c)) sched) :
    (fun a q => parLoop (linesProg b.d ax (bufProg b.d ax (coeffsOp b ax) u c)) ρ
      (fun x => mem x.1 x.2) sched (a, q)) = specAnalysis1 g b ax u c mem := by
  have hp := bufProg_line b.d ax (coeffsOp b ax) (coeffsOp_local h) u c
  unfold specAnalysis1
  split
  · rename_i hf
    have e : coeffsOp b ax = funOp (b.coeffs ax) (b.d.len ax) := if_pos hf
    rw [e] at hp hs ⊢
    exact C74_lines hp (lineFun_act _ _ _ h.coeffs u c) g ρ mem sched hs
  · rename_i hf
    have e : coeffsOp b ax = matOp (b.Mcoeffs ax) (b.d.len ax) := if_neg hf
    rw [e] at hp hs ⊢
    exact C74_lines hp (lineMat_act _ _ _ u c) g ρ mem sched hs

/-- **C74.** `spec_synthesis1` under any schedule. -/
theorem C74_synthesis (b : LBox K) (ax : Axis) (h : BoxLinear b ax) (u c : Nat) (mem : Arrays K)
    (ρ : Nat → Nat → K) (sched : List Nat)
    (hs : Complete (b.d.outer ax) (linesProg b.d ax (bufProg b.d ax (evalOp b ax) c u)) sched) :
    (fun a q => parLoop (linesProg b.d ax (bufProg b.d ax (evalOp b ax) c u)) ρ
      (fun x => mem x.1 x.2) sched (a, q)) = specSynthesis1 g b ax u c mem := by
  have hp := bufProg_line b.d ax (evalOp b ax) (evalOp_local h) c u
  unfold specSynthesis1
  split
  · rename_i hf
    have e : evalOp b ax = funOp (b.eval ax) (b.d.len ax) := if_pos hf
    rw [e] at hp hs ⊢
    exact C74_lines hp (lineFun_act _ _ _ h.eval c u) g ρ mem sched hs
  · rename_i hf
    have e : evalOp b ax = matOp (b.Meval ax) (b.d.len ax) := if_neg hf
    rw [e] at hp hs ⊢
    exact C74_lines hp (lineMat_act _ _ _ c u) g ρ mem sched hs

/-- The accesses of one line in a step of `spec_allDerivs`, `spec_Deriv1`: matrices in direction 1 work on
the arrays, everything else on buffers. -/
def stepProg (b : LBox K) (ax : Axis) (st : DStep) (j k : Nat) : List (Act Place K) :=
  if ax = .one ∧ b.fft ax = false then
    match st with
    | .both src d1 d2 => directProg b.d (d1Op b ax) src d1 j k ++ directProg b.d (d2Op b ax) src d2 j k
    | .one src dst => directProg b.d (d1Op b ax) src dst j k
  else
    match st with
    | .both src d1 d2 => buf2Prog b.d ax (d1Op b ax) (d2Op b ax) src d1 d2 j k
    | .one src dst => bufProg b.d ax (d1Op b ax) src dst j k

theorem stepProg_line (b : LBox K) (ax : Axis) (h : BoxLinear b ax) (st : DStep) (hst : st.ok) :
    LineProg b.d ax (stepG b ax st) (stepProg b ax st) := by
  by_cases hc : ax = .one ∧ b.fft ax = false
  · cases st with
    | both src d1 d2 =>
      have e : stepProg b ax (.both src d1 d2) = fun j k =>
          directProg b.d (d1Op b ax) src d1 j k ++ directProg b.d (d2Op b ax) src d2 j k := by
        funext j k; exact if_pos hc
      rw [e]
      obtain ⟨rfl, -⟩ := hc
      exact (directProg_line b.d _ (d1Op_local h) src d1 hst.1).append
        (directProg_line b.d _ (d2Op_local h) src d2 hst.2)
    | one src dst =>
      have e : stepProg b ax (.one src dst) = directProg b.d (d1Op b ax) src dst := by
        funext j k; exact if_pos hc
      rw [e]
      obtain ⟨rfl, -⟩ := hc
      exact directProg_line b.d _ (d1Op_local h) src dst hst
  · cases st with
    | both src d1 d2 =>
      have e : stepProg b ax (.both src d1 d2) =
          buf2Prog b.d ax (d1Op b ax) (d2Op b ax) src d1 d2 := by
        funext j k; exact if_neg hc
      rw [e]
      exact buf2Prog_line b.d ax _ _ (d1Op_local h) (d2Op_local h) src d1 d2 hst.1
    | one src dst =>
      have e : stepProg b ax (.one src dst) = bufProg b.d ax (d1Op b ax) src dst := by
        funext j k; exact if_neg hc
      rw [e]
      exact bufProg_line b.d ax _ (d1Op_local h) src dst

/-- **C74.** `spec_Deriv1` under any schedule. -/
theorem C74_deriv1 (b : LBox K) (ax : Axis) (h : BoxLinear b ax) (u du : Nat) (hne : u ≠ du)
    (mem : Arrays K) (ρ : Nat → Nat → K) (sched : List Nat)
    (hs : Complete (b.d.outer ax) (linesProg b.d ax (stepProg b ax (.one u du))) sched) :
    (fun a q => parLoop (linesProg b.d ax (stepProg b ax (.one u du))) ρ
      (fun x => mem x.1 x.2) sched (a, q)) = specDeriv1 g b ax u du mem := by
  have hp := stepProg_line b ax h (.one u du) hne
  unfold specDeriv1
  split
  · rename_i hf
    have e : d1Op b ax = derivOp b ax := if_pos hf
    unfold stepG at hp
    rw [e] at hp
    exact C74_lines hp (lineDeriv_act h u du) g ρ mem sched hs
  · rename_i hf
    have e : d1Op b ax = matOp (b.D ax) (b.d.len ax) := if_neg hf
    unfold stepG at hp
    rw [e] at hp
    exact C74_lines hp (lineMatD_act _ _ _ u du fun _ => hne) g ρ mem sched hs

/-- The accesses of one line in a loop of `spec_allDerivs`: its steps one after the other. -/
def stepsProg (b : LBox K) (ax : Axis) (steps : List DStep) (j k : Nat) : List (Act Place K) :=
  steps.flatMap fun st => stepProg b ax st j k

theorem stepsProg_line (b : LBox K) (ax : Axis) (h : BoxLinear b ax) (steps : List DStep)
    (hst : ∀ st ∈ steps, st.ok) :
    LineProg b.d ax (fun m => steps.foldl (fun m st => stepG b ax st m) m) (stepsProg b ax steps) ∧
    LineAct b.d ax (fun m => steps.foldl (fun m st => stepG b ax st m) m)
      (fun i1 i2 s => steps.foldl (fun s st => stepBody b ax st i1 i2 s) s) := by
  induction steps using List.reverseRecOn with
  | nil =>
    have : ∀ T : Nat → Nat → LState K → LState K, (∀ i1 i2 s, (T i1 i2 s).mem = s.mem) →
        LineAct b.d ax (fun m => m) T := by
      intro T hT
      refine ⟨fun i1 i2 _ _ s a i _ => ?_, fun i1 i2 _ _ s a p _ => ?_, fun m m' hm a i hi => hm a i hi⟩
      · rw [hT]; rfl
      · rw [hT]
    refine ⟨⟨this _ fun _ _ _ => rfl, ?_⟩, this _ fun _ _ _ => rfl⟩
    intro j k x hx
    rcases hx with ⟨e, hx⟩ | ⟨e, hx⟩ <;> exact absurd hx (by simp [stepsProg])
  | append_singleton steps st ih =>
    obtain ⟨h1, h2⟩ := ih fun s hs => hst s (by simp [hs])
    have hok : st.ok := hst st (by simp)
    have e1 : stepsProg b ax (steps ++ [st]) = fun j k => stepsProg b ax steps j k ++ stepProg b ax st j k := by
      funext j k
      simp [stepsProg]
    refine ⟨?_, ?_⟩
    · rw [e1]
      simp only [List.foldl_append, List.foldl_cons, List.foldl_nil]
      exact h1.append (stepProg_line b ax h st hok)
    · simp only [List.foldl_append, List.foldl_cons, List.foldl_nil]
      exact h2.comp (stepBody_act h st hok)

/-- **C74.** Every loop over lines of `spec_allDerivs` under any schedule. -/
theorem C74_all_derivs (b : LBox K) (order : Int) (ax : Axis) (steps : List DStep) (h : BoxLinear b ax)
    (hst : ∀ st ∈ steps, st.ok) (ho : b.fft ax = true → order = 123) (mem : Arrays K)
    (ρ : Nat → Nat → K) (sched : List Nat)
    (hs : Complete (b.d.outer ax) (linesProg b.d ax (stepsProg b ax steps)) sched) :
    derivPass g b order mem (ax, steps) =
      .ok (fun a q => parLoop (linesProg b.d ax (stepsProg b ax steps)) ρ
        (fun x => mem x.1 x.2) sched (a, q)) := by
  obtain ⟨h1, h2⟩ := stepsProg_line b ax h steps hst
  have key := C74_lines h1 h2 g ρ mem sched hs
  rw [key]
  unfold derivPass
  by_cases hf : b.fft ax = true
  · rw [if_pos hf, if_pos (ho hf)]
    congr 3
    funext i1 i2 s
    congr 1
    funext s st
    exact (if_pos hf).symm
  · rw [if_neg hf]
    congr 2
    funext i1 i2 s
    congr 1
    funext s st
    exact (if_neg hf).symm

end

/-- Example: ten times the values in a box with 2 × 1 × 2 points along direction 2 (one point per line, two
lines in each of the two passes) with the accesses of the two passes mixed. -/
example :
    let d : Dims := ⟨2, 1, 2⟩
    let prog := linesProg (K := ℚ) d .two (bufProg d .two (fun l i => 10 * l i) 0 1)
    let sched := [0, 1, 1, 0, 0, 1, 0, 1]
    (∀ i, i < 2 → sched.count i = (prog i).length) ∧
    (List.range 5).map (fun q => parLoop prog (fun _ _ => 0) (fun x => x.2) sched (1, q)) =
      [0, 10, 20, 30, 4] := by
  decide +kernel

end Sgrid
