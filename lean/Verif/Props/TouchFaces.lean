import Mathlib.Algebra.BigOperators.Group.Finset.Basic
import Verif.Model.TouchFaces
import Verif.Props.FaceSplit

/-!
C146: the search for faces with the same points (Model/TouchFaces).
-/

namespace Sgrid

open Finset Spec

section

variable {b0 nb : Nat} {d : Nat → Dims} {hit : Nat → Nat → Nat → Nat → Option Nat}

/-! ### One pair of faces -/

/-- The points found on the other face. -/
def foundPts (d : Nat → Dims) (hit : Nat → Nat → Nat → Nat → Option Nat) (b fi b2 fi2 : Nat) : List Nat :=
  (facePlanePts (d b) fi).filterMap fun q => hit b q b2 fi2

def PairOk (b0 : Nat) (d : Nat → Dims) (hit : Nat → Nat → Nat → Nat → Option Nat) (b fi b2 fi2 : Nat) : Prop :=
  facePlanePts (d b) fi ≠ [] ∧ foundPts d hit b fi b2 fi2 ≠ [] ∧
    (b0 = 0 → (facePlanePts (d b) fi).length = (foundPts d hit b fi b2 fi2).length)

def faceOne (b0 : Nat) (d : Nat → Dims) (b fi b2 fi2 : Nat) : TouchFace :=
  ⟨(b0 + b2 : Nat), fi2, true, true, false, false, some (facePlanePts (d b) fi)⟩

def faceTwo (b0 : Nat) (d : Nat → Dims) (hit : Nat → Nat → Nat → Nat → Option Nat) (b fi b2 fi2 : Nat) : TouchFace :=
  ⟨(b0 + b : Nat), fi, true, true, true, false, some (foundPts d hit b fi b2 fi2)⟩

def ptsOf (l : List Nat) : Option (List Nat) := if l = [] then none else some l

theorem addTouch_fold (l : List Nat) (x : TouchFace) :
    l.foldl addTouch x = { x with fpts := if l = [] then x.fpts else some (x.fpts.getD [] ++ l) } := by
  induction l generalizing x with
  | nil => simp
  | cons a l ih =>
    rw [List.foldl_cons, ih]
    by_cases hl : l = []
    · simp [hl, addTouch]
    · simp [hl, addTouch]

theorem both_fold (h : Nat → Option Nat) (l : List Nat) (r : TouchFace × TouchFace) :
    l.foldl (fun (r : TouchFace × TouchFace) ind => (addTouch r.1 ind, addFound r.2 (h ind))) r = (l.foldl addTouch r.1, (l.filterMap h).foldl addTouch r.2) := by
  induction l generalizing r with
  | nil => rfl
  | cons a l ih =>
    rw [List.foldl_cons, ih]
    cases ha : h a with
    | none => simp [ha, addFound]
    | some v => simp [ha, addFound]

theorem putFace_at (s : Nat → Nat → TouchFace) (b fi : Nat) (x : TouchFace) : putFace s b fi x b fi = x := by
  simp [putFace]

theorem putFace_off (s : Nat → Nat → TouchFace) {b fi c gi : Nat} (x : TouchFace) (h : ¬(c = b ∧ gi = fi)) :
    putFace s b fi x c gi = s c gi := by
  unfold putFace
  by_cases hc : c = b
  · subst hc
    rw [aset_self, aset_ne _ _ fun hg => h ⟨rfl, hg⟩]
  · rw [aset_ne _ _ hc]

theorem putFace_same (s : Nat → Nat → TouchFace) (b fi : Nat) : putFace s b fi (s b fi) = s := by
  funext c gi
  by_cases h : c = b ∧ gi = fi
  · obtain ⟨rfl, rfl⟩ := h
    rw [putFace_at]
  · rw [putFace_off _ _ h]

open Classical in
theorem tryFaces_eq {b b2 fi fi2 : Nat} {s : TouchState} (h1 : s.face b fi = emptyTouch)
    (h2 : s.face b2 fi2 = emptyTouch) :
    tryFaces b0 d hit b b2 fi fi2 s = if PairOk b0 d hit b fi b2 fi2 then
      (⟨putFace (putFace s.face b fi (faceOne b0 d b fi b2 fi2)) b2 fi2 (faceTwo b0 d hit b fi b2 fi2), s.ifaces + 1⟩, true)
      else (s, false) := by
  have hback : (⟨putFace (putFace s.face b fi emptyTouch) b2 fi2 emptyTouch, s.ifaces⟩ : TouchState) = s := by
    have e1 : putFace s.face b fi emptyTouch = s.face := by rw [← h1, putFace_same]
    rw [e1]
    have e2 : putFace s.face b2 fi2 emptyTouch = s.face := by rw [← h2, putFace_same]
    rw [e2]
  unfold tryFaces
  rw [both_fold (fun q => hit b q b2 fi2), addTouch_fold, addTouch_fold, h1, h2]
  change (match (if facePlanePts (d b) fi = [] then none else some ([] ++ facePlanePts (d b) fi)),
    (if foundPts d hit b fi b2 fi2 = [] then none else some ([] ++ foundPts d hit b fi b2 fi2)) with
    | some l, some l2 => _
    | _, _ => _) = _
  by_cases hl : facePlanePts (d b) fi = []
  · rw [if_pos hl, if_neg (fun h : PairOk b0 d hit b fi b2 fi2 => h.1 hl)]
    exact congrArg (fun s => (s, false)) hback
  by_cases hl2 : foundPts d hit b fi b2 fi2 = []
  · rw [if_neg hl, if_pos hl2, if_neg (fun h : PairOk b0 d hit b fi b2 fi2 => h.2.1 hl2)]
    exact congrArg (fun s => (s, false)) hback
  rw [if_neg hl, if_neg hl2]
  dsimp only
  have hn : npointsAt b0 b ([] ++ facePlanePts (d b) fi) = npointsAt b0 b2 ([] ++ foundPts d hit b fi b2 fi2) ↔
      PairOk b0 d hit b fi b2 fi2 := by
    unfold npointsAt PairOk
    by_cases h0 : b0 = 0
    · subst h0
      simp [hl, hl2]
    · rw [if_neg (by omega), if_neg (by omega)]
      simp [h0, hl, hl2]
  by_cases hp : PairOk b0 d hit b fi b2 fi2
  · rw [if_pos (hn.mpr hp), if_pos hp]
    have hl2' : ¬ (facePlanePts (d b) fi).filterMap (fun q => hit b q b2 fi2) = [] := hl2
    simp only [faceOne, faceTwo, emptyTouch, foundPts, if_neg hl, if_neg hl2', Option.getD_none, List.nil_append, if_true]
  · rw [if_neg (fun h => hp (hn.mp h)), if_neg hp]
    exact congrArg (fun s => (s, false)) hback

/-! ### The whole search -/

def JoinedAt (b0 : Nat) (d : Nat → Dims) (hit : Nat → Nat → Nat → Nat → Option Nat) (s : Nat → Nat → TouchFace)
    (b fi b2 fi2 : Nat) : Prop :=
  PairOk b0 d hit b fi b2 fi2 ∧ s b fi = faceOne b0 d b fi b2 fi2 ∧ s b2 fi2 = faceTwo b0 d hit b fi b2 fi2

def hasOther (s : Nat → Nat → TouchFace) (b fi : Nat) : Prop := 0 ≤ (s b fi).ob

instance (s : Nat → Nat → TouchFace) (b fi : Nat) : Decidable (hasOther s b fi) := inferInstanceAs (Decidable (_ ≤ _))

structure TouchInv (b0 nb : Nat) (d : Nat → Dims) (hit : Nat → Nat → Nat → Nat → Option Nat) (s : TouchState) : Prop where
  form : ∀ b fi, b < nb → fi < 6 → s.face b fi = emptyTouch ∨ ∃ b2 fi2, b2 < nb ∧ fi2 < 6 ∧ b2 ≠ b ∧
    (JoinedAt b0 d hit s.face b fi b2 fi2 ∨ JoinedAt b0 d hit s.face b2 fi2 b fi)
  count : ∑ b ∈ range nb, ∑ fi ∈ range 6, (if hasOther s.face b fi then 1 else 0) = 2 * s.ifaces

theorem faceOne_other (b fi b2 fi2 : Nat) : 0 ≤ (faceOne b0 d b fi b2 fi2).ob := Int.natCast_nonneg _

theorem faceTwo_other (b fi b2 fi2 : Nat) : 0 ≤ (faceTwo b0 d hit b fi b2 fi2).ob := Int.natCast_nonneg _

theorem TouchInv.empty {s : TouchState} (h : TouchInv b0 nb d hit s) {b fi : Nat} (hb : b < nb) (hf : fi < 6)
    (ho : ¬ 0 ≤ (s.face b fi).ob) : s.face b fi = emptyTouch := by
  rcases h.form b fi hb hf with h1 | ⟨b2, fi2, _, _, _, ⟨_, h1, _⟩ | ⟨_, _, h1⟩⟩
  · exact h1
  · exact absurd (by rw [h1]; exact faceOne_other ..) ho
  · exact absurd (by rw [h1]; exact faceTwo_other ..) ho

/-- Faces that have another box keep everything. -/
def KeepsFaces (s t : TouchState) : Prop := ∀ b fi, 0 ≤ (s.face b fi).ob → t.face b fi = s.face b fi

theorem KeepsFaces.rfl {s : TouchState} : KeepsFaces s s := fun _ _ _ => Eq.refl _

theorem KeepsFaces.trans {s t u : TouchState} (h1 : KeepsFaces s t) (h2 : KeepsFaces t u) : KeepsFaces s u := by
  intro b fi h
  rw [h2 b fi (by rw [h1 b fi h]; exact h), h1 b fi h]

/-- The pair has been looked at. -/
def Tried (b0 : Nat) (d : Nat → Dims) (hit : Nat → Nat → Nat → Nat → Option Nat) (b fi b2 fi2 : Nat) (s : TouchState) :
    Prop :=
  0 ≤ (s.face b fi).ob ∨ 0 ≤ (s.face b2 fi2).ob ∨ ¬ PairOk b0 d hit b fi b2 fi2

theorem Tried.keep {b fi b2 fi2 : Nat} {s t : TouchState} (h : Tried b0 d hit b fi b2 fi2 s) (hk : KeepsFaces s t) :
    Tried b0 d hit b fi b2 fi2 t := by
  rcases h with h | h | h
  · exact Or.inl (by rw [hk b fi h]; exact h)
  · exact Or.inr (Or.inl (by rw [hk b2 fi2 h]; exact h))
  · exact Or.inr (Or.inr h)

theorem sum_upd (nb : Nat) (f g : Nat → Nat → Nat) {b fi b2 fi2 : Nat} (hb : b < nb) (hf : fi < 6) (hb2 : b2 < nb)
    (hf2 : fi2 < 6) (hne : b ≠ b2) (h1 : f b fi = 0) (h2 : f b2 fi2 = 0) (g1 : g b fi = 1) (g2 : g b2 fi2 = 1)
    (he : ∀ c gi, ¬(c = b ∧ gi = fi) → ¬(c = b2 ∧ gi = fi2) → g c gi = f c gi) :
    ∑ c ∈ range nb, ∑ gi ∈ range 6, g c gi = (∑ c ∈ range nb, ∑ gi ∈ range 6, f c gi) + 2 := by
  have hg : ∀ c gi, g c gi = f c gi + ((if c = b then if gi = fi then 1 else 0 else 0) +
      (if c = b2 then if gi = fi2 then 1 else 0 else 0)) := by
    intro c gi
    by_cases e1 : c = b ∧ gi = fi
    · obtain ⟨rfl, rfl⟩ := e1
      simp [g1, h1, hne]
    · by_cases e2 : c = b2 ∧ gi = fi2
      · obtain ⟨rfl, rfl⟩ := e2
        simp [g2, h2, Ne.symm hne]
      · rw [he c gi e1 e2]
        have n1 : (if c = b then if gi = fi then 1 else 0 else 0) = 0 := by
          split
          · rw [if_neg fun h => e1 ⟨‹_›, h⟩]
          · rfl
        have n2 : (if c = b2 then if gi = fi2 then 1 else 0 else 0) = 0 := by
          split
          · rw [if_neg fun h => e2 ⟨‹_›, h⟩]
          · rfl
        omega
  have one : ∀ b fi : Nat, b < nb → fi < 6 →
      ∑ c ∈ range nb, ∑ gi ∈ range 6, (if c = b then if gi = fi then 1 else 0 else 0) = 1 := by
    intro b fi hb hf
    rw [sum_eq_single b, sum_eq_single fi]
    · simp
    · intro c _ hc; simp [hc]
    · intro h; exact absurd (mem_range.mpr hf) h
    · intro c _ hc; simp [hc]
    · intro h; exact absurd (mem_range.mpr hb) h
  simp only [hg, sum_add_distrib]
  rw [one b fi hb hf, one b2 fi2 hb2 hf2]

theorem join_inv {s : TouchState} (h : TouchInv b0 nb d hit s) {b fi b2 fi2 : Nat} (hb : b < nb) (hf : fi < 6)
    (hb2 : b2 < nb) (hf2 : fi2 < 6) (hne : b ≠ b2) (h1 : s.face b fi = emptyTouch) (h2 : s.face b2 fi2 = emptyTouch)
    (hp : PairOk b0 d hit b fi b2 fi2) :
    TouchInv b0 nb d hit ⟨putFace (putFace s.face b fi (faceOne b0 d b fi b2 fi2)) b2 fi2 (faceTwo b0 d hit b fi b2 fi2),
      s.ifaces + 1⟩ ∧
    KeepsFaces s ⟨putFace (putFace s.face b fi (faceOne b0 d b fi b2 fi2)) b2 fi2 (faceTwo b0 d hit b fi b2 fi2),
      s.ifaces + 1⟩ ∧
    putFace (putFace s.face b fi (faceOne b0 d b fi b2 fi2)) b2 fi2 (faceTwo b0 d hit b fi b2 fi2) b fi =
      faceOne b0 d b fi b2 fi2 := by
  set F := putFace (putFace s.face b fi (faceOne b0 d b fi b2 fi2)) b2 fi2 (faceTwo b0 d hit b fi b2 fi2) with hF
  have e1 : F b fi = faceOne b0 d b fi b2 fi2 := by
    rw [hF, putFace_off _ _ (fun h => hne h.1), putFace_at]
  have e2 : F b2 fi2 = faceTwo b0 d hit b fi b2 fi2 := putFace_at ..
  have e3 : ∀ c gi, ¬(c = b ∧ gi = fi) → ¬(c = b2 ∧ gi = fi2) → F c gi = s.face c gi := by
    intro c gi n1 n2
    rw [hF, putFace_off _ _ n2, putFace_off _ _ n1]
  have hk : ∀ c gi, 0 ≤ (s.face c gi).ob → F c gi = s.face c gi := by
    intro c gi ho
    refine e3 c gi ?_ ?_
    · rintro ⟨rfl, rfl⟩
      rw [h1] at ho; exact absurd ho (by decide)
    · rintro ⟨rfl, rfl⟩
      rw [h2] at ho; exact absurd ho (by decide)
  refine ⟨⟨?_, ?_⟩, hk, e1⟩
  · intro c gi hc hg
    by_cases n1 : c = b ∧ gi = fi
    · obtain ⟨rfl, rfl⟩ := n1
      exact Or.inr ⟨b2, fi2, hb2, hf2, Ne.symm hne, Or.inl ⟨hp, e1, e2⟩⟩
    by_cases n2 : c = b2 ∧ gi = fi2
    · obtain ⟨rfl, rfl⟩ := n2
      exact Or.inr ⟨b, fi, hb, hf, hne, Or.inr ⟨hp, e1, e2⟩⟩
    rcases h.form c gi hc hg with h3 | ⟨c2, g2, hc2, hg2, hcc, h3⟩
    · exact Or.inl (by rw [← h3]; exact e3 c gi n1 n2)
    · refine Or.inr ⟨c2, g2, hc2, hg2, hcc, ?_⟩
      rcases h3 with ⟨p, a1, a2⟩ | ⟨p, a1, a2⟩
      · refine Or.inl ⟨p, ?_, ?_⟩
        · exact (hk _ _ (by rw [a1]; exact faceOne_other ..)).trans a1
        · exact (hk _ _ (by rw [a2]; exact faceTwo_other ..)).trans a2
      · refine Or.inr ⟨p, ?_, ?_⟩
        · exact (hk _ _ (by rw [a1]; exact faceOne_other ..)).trans a1
        · exact (hk _ _ (by rw [a2]; exact faceTwo_other ..)).trans a2
  · have := sum_upd nb (fun c gi => if hasOther s.face c gi then 1 else 0) (fun c gi => if hasOther F c gi then 1 else 0)
      hb hf hb2 hf2 hne (by
        rw [if_neg]; unfold hasOther; rw [h1]; decide) (by
        rw [if_neg]; unfold hasOther; rw [h2]; decide) (by
        rw [if_pos]; unfold hasOther; rw [e1]; exact faceOne_other ..) (by
        rw [if_pos]; unfold hasOther; rw [e2]; exact faceTwo_other ..) (by
        intro c gi n1 n2
        have : hasOther F c gi ↔ hasOther s.face c gi := by unfold hasOther; rw [e3 c gi n1 n2]
        simp only [this])
    rw [h.count] at this
    exact this.trans (by ring)

theorem tryFace_inv {s : TouchState} (h : TouchInv b0 nb d hit s) {b fi b2 : Nat} (hb : b < nb) (hf : fi < 6)
    (hb2 : b2 < nb) (hne : b ≠ b2) :
    TouchInv b0 nb d hit (tryFace b0 d hit b b2 fi s) ∧ KeepsFaces s (tryFace b0 d hit b b2 fi s) ∧
      ∀ fi2, fi2 < 6 → Tried b0 d hit b fi b2 fi2 (tryFace b0 d hit b b2 fi s) := by
  unfold tryFace
  by_cases ho : 0 ≤ (s.face b fi).ob
  · rw [if_pos ho]
    exact ⟨h, KeepsFaces.rfl, fun _ _ => Or.inl ho⟩
  rw [if_neg ho]
  have key := upLoop_inv (Nat.zero_le 6) (body := fun fi2 (r : TouchState × Bool) =>
    if r.2 then r
    else if 0 ≤ (r.1.face b2 fi2).ob then r
    else tryFaces b0 d hit b b2 fi fi2 r.1) (s := (s, false))
    (fun m r => TouchInv b0 nb d hit r.1 ∧ KeepsFaces s r.1 ∧ (r.2 = true ↔ 0 ≤ (r.1.face b fi).ob) ∧
      ∀ fi2, fi2 < m → Tried b0 d hit b fi b2 fi2 r.1)
    ⟨h, KeepsFaces.rfl, by simpa using ho, by intros; omega⟩ (by
      rintro m ⟨r, br⟩ _ hm ⟨i1, i2, i3, i4⟩
      dsimp only at i1 i2 i3 i4 ⊢
      by_cases hbr : br = true
      · rw [if_pos hbr]
        exact ⟨i1, i2, i3, fun _ _ => Or.inl (i3.mp hbr)⟩
      rw [if_neg hbr]
      by_cases ho2 : 0 ≤ (r.face b2 m).ob
      · rw [if_pos ho2]
        refine ⟨i1, i2, i3, fun fi2 hl => ?_⟩
        rcases Nat.lt_succ_iff_lt_or_eq.mp hl with hl | rfl
        · exact i4 fi2 hl
        · exact Or.inr (Or.inl ho2)
      rw [if_neg ho2]
      have hx := i1.empty hb hf (fun hh => hbr (i3.mpr hh))
      have hx2 := i1.empty hb2 hm ho2
      classical
      rw [tryFaces_eq hx hx2]
      by_cases hp : PairOk b0 d hit b fi b2 m
      · rw [if_pos hp]
        obtain ⟨j1, j2, j3⟩ := join_inv i1 hb hf hb2 hm hne hx hx2 hp
        have j4 : 0 ≤ (putFace (putFace r.face b fi (faceOne b0 d b fi b2 m)) b2 m (faceTwo b0 d hit b fi b2 m) b fi).ob :=
          by rw [j3]; exact faceOne_other ..
        exact ⟨j1, i2.trans j2, ⟨fun _ => j4, fun _ => Eq.refl _⟩, fun _ _ => Or.inl j4⟩
      · rw [if_neg hp]
        refine ⟨i1, i2, ⟨fun hh => absurd hh Bool.false_ne_true, fun hh => absurd (i3.mpr hh) hbr⟩, fun fi2 hl => ?_⟩
        rcases Nat.lt_succ_iff_lt_or_eq.mp hl with hl | rfl
        · exact i4 fi2 hl
        · exact Or.inr (Or.inr hp))
  exact ⟨key.1, key.2.1, key.2.2.2⟩

theorem touchFaces_inv (b0 nb : Nat) (d : Nat → Dims) (hit : Nat → Nat → Nat → Nat → Option Nat)
    (old : Nat → Nat → TouchFace) :
    TouchInv b0 nb d hit (touchFaces b0 nb d hit old) ∧
      ∀ b fi b2 fi2, b < nb → fi < 6 → b2 < nb → fi2 < 6 → b ≠ b2 →
        Tried b0 d hit b fi b2 fi2 (touchFaces b0 nb d hit old) := by
  unfold touchFaces
  have hstart : ∀ b, b < nb →
      upLoop 0 nb (fun b (s : Nat → Nat → TouchFace) => aset s b fun _ => emptyTouch) old b = fun _ => emptyTouch := by
    refine upLoop_inv (Nat.zero_le nb) (fun m (s : Nat → Nat → TouchFace) => ∀ b, b < m → s b = fun _ => emptyTouch)
      (by intros; omega) ?_
    intro m t _ _ ht b hb
    by_cases e : b = m
    · rw [e, aset_self]
    · rw [aset_ne _ _ e, ht b (by omega)]
  generalize upLoop 0 nb (fun b (s : Nat → Nat → TouchFace) => aset s b fun _ => emptyTouch) old = start at hstart
  have h0 : TouchInv b0 nb d hit ⟨start, 0⟩ := by
    refine ⟨fun b fi hb _ => Or.inl (by simp only [hstart b hb]), ?_⟩
    refine sum_eq_zero fun b hb => sum_eq_zero fun fi _ => ?_
    rw [if_neg]
    unfold hasOther
    change ¬ 0 ≤ (start b fi).ob
    rw [hstart b (mem_range.mp hb)]
    exact (by decide : ¬ 0 ≤ emptyTouch.ob)
  have key := upLoop_inv (Nat.zero_le nb) (body := fun b s => upLoop 0 nb (fun b2 s =>
    if b2 = b then s else upLoop 0 6 (fun fi s => tryFace b0 d hit b b2 fi s) s) s) (s := (⟨start, 0⟩ : TouchState))
    (fun m s => TouchInv b0 nb d hit s ∧ ∀ b fi b2 fi2, b < m → fi < 6 → b2 < nb → fi2 < 6 → b ≠ b2 →
      Tried b0 d hit b fi b2 fi2 s) ⟨h0, by intros; omega⟩ (by
    rintro m s _ hm ⟨i1, i2⟩
    have k2 := upLoop_inv (Nat.zero_le nb) (body := fun b2 s =>
      if b2 = m then s else upLoop 0 6 (fun fi s => tryFace b0 d hit m b2 fi s) s) (s := s)
      (fun m2 t => TouchInv b0 nb d hit t ∧ KeepsFaces s t ∧ ∀ fi b2 fi2, fi < 6 → b2 < m2 → fi2 < 6 → m ≠ b2 →
        Tried b0 d hit m fi b2 fi2 t) ⟨i1, KeepsFaces.rfl, by intros; omega⟩ (by
      rintro m2 t _ hm2 ⟨j1, j2, j3⟩
      by_cases e : m2 = m
      · rw [if_pos e]
        refine ⟨j1, j2, fun fi b2 fi2 hf hb2 hf2 hne => j3 fi b2 fi2 hf (by omega) hf2 hne⟩
      rw [if_neg e]
      have k3 := upLoop_inv (Nat.zero_le 6) (body := fun fi s => tryFace b0 d hit m m2 fi s) (s := t)
        (fun m3 u => TouchInv b0 nb d hit u ∧ KeepsFaces t u ∧ ∀ fi fi2, fi < m3 → fi2 < 6 → Tried b0 d hit m fi m2 fi2 u)
        ⟨j1, KeepsFaces.rfl, by intros; omega⟩ (by
        rintro m3 u _ hm3 ⟨l1, l2, l3⟩
        obtain ⟨q1, q2, q3⟩ := tryFace_inv l1 hm hm3 hm2 (Ne.symm e)
        refine ⟨q1, l2.trans q2, fun fi fi2 hl hf2 => ?_⟩
        rcases Nat.lt_succ_iff_lt_or_eq.mp hl with hl | rfl
        · exact (l3 fi fi2 hl hf2).keep q2
        · exact q3 fi2 hf2)
      refine ⟨k3.1, j2.trans k3.2.1, fun fi b2 fi2 hf hb2 hf2 hne => ?_⟩
      rcases Nat.lt_succ_iff_lt_or_eq.mp hb2 with hl | rfl
      · exact (j3 fi b2 fi2 hf hl hf2 hne).keep k3.2.1
      · exact k3.2.2 fi fi2 hf hf2)
    refine ⟨k2.1, fun b fi b2 fi2 hb hf hb2 hf2 hne => ?_⟩
    rcases Nat.lt_succ_iff_lt_or_eq.mp hb with hl | rfl
    · exact (i2 b fi b2 fi2 hl hf hb2 hf2 hne).keep k2.2.1
    · exact k2.2.2 fi b2 fi2 hf hb2 hf2 hne)
  exact key

/-! ### What the search has found -/

theorem filterMap_full {f : Nat → Option Nat} {l : List Nat} (h : l.length = (l.filterMap f).length) :
    l.map f = (l.filterMap f).map some := by
  induction l with
  | nil => rfl
  | cons a l ih =>
    cases ha : f a with
    | none =>
      rw [List.filterMap_cons_none ha] at h
      have := List.length_filterMap_le f l
      rw [List.length_cons] at h
      omega
    | some v =>
      rw [List.filterMap_cons_some ha] at h ⊢
      rw [List.map_cons, List.map_cons, ih (by simpa using h), ha]

theorem filterMap_all {f : Nat → Option Nat} {l : List Nat} (h : ∀ q ∈ l, (f q).isSome) :
    l.length = (l.filterMap f).length := by
  induction l with
  | nil => rfl
  | cons a l ih =>
    obtain ⟨v, hv⟩ := Option.isSome_iff_exists.mp (h a (by simp))
    rw [List.filterMap_cons_some hv, List.length_cons, List.length_cons, ih fun q hq => h q (by simp [hq])]

theorem mem_facePlane {d : Dims} (hd : 0 < d.n1 ∧ 0 < d.n2 ∧ 0 < d.n3) (fi q : Nat) :
    q ∈ facePlanePts d fi ↔ onBoxFace d fi q := by
  unfold facePlanePts
  rw [Nat.mul_comm]
  refine lastPlane ?_ q
  obtain ⟨h1, h2, h3⟩ := hd
  cases faceAxis fi <;> simpa [Dims.len]

theorem exists_onBoxFace {d : Dims} (hd : 0 < d.n1 ∧ 0 < d.n2 ∧ 0 < d.n3) (fi : Nat) : ∃ q, onBoxFace d fi q := by
  obtain ⟨h1, h2, h3⟩ := hd
  have hl : 0 < d.len (faceAxis fi) := by cases faceAxis fi <;> simpa [Dims.len]
  unfold onBoxFace
  have hpl : (if fi % 2 = 1 then d.len (faceAxis fi) - 1 else 0) < d.len (faceAxis fi) := by split <;> omega
  generalize (if fi % 2 = 1 then d.len (faceAxis fi) - 1 else 0) = p at hpl
  unfold onPlane inBox coord
  cases hax : faceAxis fi
  · rw [hax] at hpl
    exact ⟨_, p, 0, 0, ⟨hpl, h2, h3⟩, rfl, rfl⟩
  · rw [hax] at hpl
    exact ⟨_, 0, p, 0, ⟨h1, hpl, h3⟩, rfl, rfl⟩
  · rw [hax] at hpl
    exact ⟨_, 0, 0, p, ⟨h1, h2, hpl⟩, rfl, rfl⟩

end

/-- **C146**. After the search a face either has no other box, no points and no flags, or it touches a face of another
box that touches it, with the same points; of the two one sets the normal derivative and the other does not. -/
theorem C146_pairs (b0 nb : Nat) (d : Nat → Dims) (hit : Nat → Nat → Nat → Nat → Option Nat)
    (old : Nat → Nat → TouchFace) {b fi : Nat} (hb : b < nb) (hf : fi < 6) :
    let s := (touchFaces b0 nb d hit old).face
    (s b fi = ⟨-1, -1, false, false, false, false, none⟩) ∨
    ∃ b2 fi2 : Nat, b2 < nb ∧ fi2 < 6 ∧ b2 ≠ b ∧
      (s b fi).ob = b0 + b2 ∧ (s b fi).ofi = fi2 ∧ (s b fi).touch = true ∧ (s b fi).same = true ∧
      (s b2 fi2).ob = b0 + b ∧ (s b2 fi2).ofi = fi ∧ (s b2 fi2).touch = true ∧ (s b2 fi2).same = true ∧
      (s b fi).snd ≠ (s b2 fi2).snd ∧ (s b fi).outer = false := by
  intro s
  rcases (touchFaces_inv b0 nb d hit old).1.form b fi hb hf with h | ⟨b2, fi2, hb2, hf2, hne, h⟩
  · exact Or.inl h
  · refine Or.inr ⟨b2, fi2, hb2, hf2, hne, ?_⟩
    rcases h with ⟨_, h1, h2⟩ | ⟨_, h2, h1⟩
    · change s b fi = _ at h1
      change s b2 fi2 = _ at h2
      rw [h1, h2]
      simp [faceOne, faceTwo]
    · change s b fi = _ at h1
      change s b2 fi2 = _ at h2
      rw [h1, h2]
      simp [faceOne, faceTwo]

/-- **C146**. With `b0 = 0`: of two faces that were found, the one that does not set the normal derivative has all its
points, each once, and point number `n` of the other one is the point that was found at the place of its point
number `n`. -/
theorem C146_points (nb : Nat) (d : Nat → Dims) (hd : ∀ b, 0 < (d b).n1 ∧ 0 < (d b).n2 ∧ 0 < (d b).n3)
    (hit : Nat → Nat → Nat → Nat → Option Nat) (old : Nat → Nat → TouchFace) {b fi b2 fi2 : Nat} (hb : b < nb)
    (hf : fi < 6) :
    let s := (touchFaces 0 nb d hit old).face
    (s b fi).ob = b2 → (s b fi).ofi = fi2 → (s b fi).snd = false →
    ∃ l l2, (s b fi).fpts = some l ∧ (s b2 fi2).fpts = some l2 ∧ l.Nodup ∧ (∀ q, q ∈ l ↔ onBoxFace (d b) fi q) ∧
      l.map (fun q => hit b q b2 fi2) = l2.map some := by
  intro s ho hi hsnd
  rcases (touchFaces_inv 0 nb d hit old).1.form b fi hb hf with h | ⟨c2, g2, _, _, _, ⟨hp, h1, h2⟩ | ⟨_, _, h1⟩⟩
  · change s b fi = _ at h
    rw [h] at ho
    exact absurd ho (by change ¬ (-1 : Int) = b2; omega)
  · change s b fi = _ at h1
    change s c2 g2 = _ at h2
    have e1 : c2 = b2 := by
      rw [h1] at ho
      have : ((0 + c2 : Nat) : Int) = b2 := ho
      omega
    have e2 : g2 = fi2 := by
      rw [h1] at hi
      have : (g2 : Int) = fi2 := hi
      omega
    subst e1 e2
    refine ⟨facePlanePts (d b) fi, foundPts d hit b fi c2 g2, by rw [h1]; rfl, by rw [h2]; rfl, planeN_nodup .., ?_, ?_⟩
    · exact mem_facePlane (hd b) fi
    · exact filterMap_full (hp.2.2 rfl)
  · change s b fi = _ at h1
    rw [h1] at hsnd
    exact absurd hsnd (by simp [faceTwo])

/-- **C146**. With `b0 = 0` no pair is left out: if every point of face `fi` of box `b` has a point of face `fi2` of
another box at its place, then at least one of the two faces has been given another box. -/
theorem C146_found (nb : Nat) (d : Nat → Dims) (hd : ∀ b, 0 < (d b).n1 ∧ 0 < (d b).n2 ∧ 0 < (d b).n3)
    (hit : Nat → Nat → Nat → Nat → Option Nat) (old : Nat → Nat → TouchFace) {b fi b2 fi2 : Nat} (hb : b < nb)
    (hf : fi < 6) (hb2 : b2 < nb) (hf2 : fi2 < 6) (hne : b ≠ b2)
    (hall : ∀ q, onBoxFace (d b) fi q → (hit b q b2 fi2).isSome) :
    let s := (touchFaces 0 nb d hit old).face
    0 ≤ (s b fi).ob ∨ 0 ≤ (s b2 fi2).ob := by
  intro s
  rcases (touchFaces_inv 0 nb d hit old).2 b fi b2 fi2 hb hf hb2 hf2 hne with h | h | h
  · exact Or.inl h
  · exact Or.inr h
  · refine absurd ?_ h
    have hlen := filterMap_all (f := fun q => hit b q b2 fi2) (l := facePlanePts (d b) fi)
      (fun q hq => hall q ((mem_facePlane (hd b) fi q).mp hq))
    have hn : facePlanePts (d b) fi ≠ [] := by
      obtain ⟨q, hq⟩ := exists_onBoxFace (hd b) fi
      exact List.ne_nil_of_mem ((mem_facePlane (hd b) fi q).mpr hq)
    refine ⟨hn, fun h0 => hn ?_, fun _ => hlen⟩
    have : (facePlanePts (d b) fi).length = 0 := by
      rw [hlen]
      exact List.length_eq_zero_iff.mpr h0
    exact List.length_eq_zero_iff.mp this

/-- **C146**. The value returned is the number of pairs: half the number of faces with another box. -/
theorem C146_number (b0 nb : Nat) (d : Nat → Dims) (hit : Nat → Nat → Nat → Nat → Option Nat)
    (old : Nat → Nat → TouchFace) :
    let s := touchFaces b0 nb d hit old
    ∑ b ∈ range nb, ((range 6).filter fun fi => 0 ≤ (s.face b fi).ob).card = 2 * s.ifaces := by
  intro s
  rw [← (touchFaces_inv b0 nb d hit old).1.count]
  refine sum_congr rfl fun b _ => ?_
  rw [card_filter]
  exact sum_congr rfl fun fi _ => if_congr Iff.rfl rfl rfl

/-- **C146**. set_all_bfaces_with_ob_minus1_to_outerbound: a face with no other box and no points gets all its points and
the mark, the other faces are as before. -/
theorem C146_outer (nb : Nat) (d : Nat → Dims) (hd : ∀ b, 0 < (d b).n1 ∧ 0 < (d b).n2 ∧ 0 < (d b).n3)
    (s : Nat → Nat → TouchFace) {b fi : Nat} (hb : b < nb) (hf : fi < 6) :
    ((s b fi).ob ≠ -1 → markOuterFaces nb d s b fi = s b fi) ∧
    ((s b fi).ob = -1 → (s b fi).fpts = none → ∃ l, l.Nodup ∧ (∀ q, q ∈ l ↔ onBoxFace (d b) fi q) ∧
      markOuterFaces nb d s b fi = { s b fi with outer := true, fpts := some l }) := by
  let mark : Nat → Nat → TouchFace → TouchFace := fun b fi x => if x.ob ≠ -1 then x else
    { (facePlanePts (d b) fi).foldl addTouch x with outer := true }
  have key : ∀ c gi, markOuterFaces nb d s c gi = if c < nb ∧ gi < 6 then mark c gi (s c gi) else s c gi := by
    refine upLoop_inv (Nat.zero_le nb) (fun m (t : Nat → Nat → TouchFace) => ∀ c gi, t c gi =
      if c < m ∧ gi < 6 then mark c gi (s c gi) else s c gi) (by intro c gi; rw [if_neg (by omega)]) ?_
    intro m t _ _ ht
    have k2 := upLoop_inv (Nat.zero_le 6) (body := fun fi (s : Nat → Nat → TouchFace) =>
      if (s m fi).ob ≠ -1 then s
      else
        let x := (facePlanePts (d m) fi).foldl addTouch (s m fi)
        putFace s m fi { x with outer := true }) (s := t) (fun m2 (u : Nat → Nat → TouchFace) => ∀ c gi, u c gi =
      if c = m ∧ gi < m2 then mark c gi (s c gi) else t c gi) (by intro c gi; rw [if_neg (by omega)]) (by
      intro m2 u _ hm2 hu c gi
      have hum : u m m2 = s m m2 := by
        rw [hu m m2, if_neg (by omega), ht m m2, if_neg (by omega)]
      dsimp only
      by_cases e : c = m ∧ gi = m2
      · obtain ⟨rfl, rfl⟩ := e
        rw [if_pos (⟨rfl, by omega⟩ : c = c ∧ gi < gi + 1), hum]
        change _ = if (s c gi).ob ≠ -1 then _ else _
        split
        · exact hum
        · rw [putFace_at]
      · have e1 : (c = m ∧ gi < m2 + 1) ↔ (c = m ∧ gi < m2) := by omega
        simp only [e1, ← hu c gi]
        split
        · rfl
        · rw [putFace_off _ _ e])
    intro c gi
    refine (k2 c gi).trans ?_
    by_cases e : c = m
    · subst e
      by_cases e2 : gi < 6
      · rw [if_pos ⟨rfl, e2⟩, if_pos ⟨by omega, e2⟩]
      · rw [if_neg (by omega), if_neg (by omega), ht, if_neg (by omega)]
    · rw [if_neg (by omega), ht]
      have : (c < m ∧ gi < 6) ↔ (c < m + 1 ∧ gi < 6) := by omega
      simp only [this]
  rw [key b fi, if_pos ⟨hb, hf⟩]
  change ((s b fi).ob ≠ -1 → (if (s b fi).ob ≠ -1 then _ else _) = _) ∧ (_ → _ → ∃ l, _ ∧ _ ∧
    (if (s b fi).ob ≠ -1 then _ else _) = _)
  refine ⟨fun h => by rw [if_pos h], fun h hn => ?_⟩
  obtain ⟨q, hq⟩ := exists_onBoxFace (hd b) fi
  have hne : facePlanePts (d b) fi ≠ [] := List.ne_nil_of_mem ((mem_facePlane (hd b) fi q).mpr hq)
  refine ⟨facePlanePts (d b) fi, planeN_nodup .., mem_facePlane (hd b) fi, ?_⟩
  rw [if_neg (fun h2 => h2 h), addTouch_fold, if_neg hne, hn]
  rfl

/-! ### Examples -/

/-- Two boxes with 2 points in each direction, one after the other in direction 1. The numbers of points in directions
2 and 3 of the second box are `m`; it begins at `y`. The places are measured in halves. -/
def exDims (m : Nat) (b : Nat) : Dims := if b = 0 then ⟨2, 2, 2⟩ else ⟨2, m, m⟩

/-- The place of a point. -/
def exPlace (m y : Nat) (b q : Nat) : Nat × Nat × Nat :=
  let d := exDims m b
  let i := q % d.n1
  let j := q / d.n1 % d.n2
  let k := q / d.n1 / d.n2
  if b = 0 then (2 * i, 2 * j, 2 * k) else
  if m = 2 then (2 + 2 * i, y + 2 * j, y + 2 * k) else (2 + 2 * i, y + j, y + k)

/-- The point of the other face at the same place. -/
def exHit (m y : Nat) (b q b2 fi2 : Nat) : Option Nat :=
  (facePlanePts (exDims m b2) fi2).find? fun q2 => exPlace m y b q = exPlace m y b2 q2

/-- Two boxes that touch: face 1 of the first has the points of face 0 of the second. -/
example : let s := touchFaces 0 2 (exDims 2) (exHit 2 0) (fun _ _ => emptyTouch)
    s.face 0 1 = ⟨1, 0, true, true, false, false, some [1, 3, 5, 7]⟩ ∧
    s.face 1 0 = ⟨0, 1, true, true, true, false, some [0, 2, 4, 6]⟩ ∧ s.face 0 0 = emptyTouch ∧ s.ifaces = 1 ∧
    (markOuterFaces 2 (exDims 2) s.face 0 0).fpts = some [0, 2, 4, 6] := by decide +kernel

/-- **C146**. For `b0 ≠ 0` the numbers of points are asked for the wrong boxes and are always 0: two faces with only one
common point are joined, and are said to have the same points though one has 4 and the other one. -/
theorem C146_offset_counterexample :
    let s := touchFaces 1 2 (exDims 2) (exHit 2 2) (fun _ _ => emptyTouch)
    s.face 0 1 = ⟨2, 0, true, true, false, false, some [1, 3, 5, 7]⟩ ∧
    s.face 1 0 = ⟨1, 1, true, true, true, false, some [0]⟩ ∧
    (touchFaces 0 2 (exDims 2) (exHit 2 2) (fun _ _ => emptyTouch)).ifaces = 0 := by decide +kernel

/-- **C146**. Only the points of the first face are counted. If the other face has more points, the faces are joined, are
said to have the same points, and the rest of the points of the other face is in no list, also after
set_all_bfaces_with_ob_minus1_to_outerbound: here point 8 in the middle of the face, which is on no other face. -/
theorem C146_superset_counterexample :
    let s := (touchFaces 0 2 (exDims 3) (exHit 3 0) (fun _ _ => emptyTouch)).face
    s 0 1 = ⟨1, 0, true, true, false, false, some [1, 3, 5, 7]⟩ ∧
    s 1 0 = ⟨0, 1, true, true, true, false, some [0, 4, 12, 16]⟩ ∧
    8 ∈ facePlanePts (exDims 3 1) 0 ∧
    ∀ fi ∈ List.range 6, ∀ l ∈ (markOuterFaces 2 (exDims 3) s 1 fi).fpts, 8 ∉ l := by decide +kernel

end Sgrid
