import Verif.Model.ScalarBoundary
import Verif.Model.ScalarKerr
import Verif.Lemmas.Lines
import Verif.Props.AdmIndex
import Mathlib.Analysis.SpecialFunctions.Sqrt
import Mathlib.Algebra.BigOperators.Fin
import Mathlib.Tactic.FinCases
import Mathlib.Tactic.Positivity
import Mathlib.Tactic.Ring
import Mathlib.Tactic.FieldSimp
import Mathlib.Tactic.LinearCombination
import Mathlib.Algebra.Order.Field.Rat

/-!
# C132: the scalar field between two shells (first order version)
-/

set_option linter.unusedSimpArgs false

namespace Sgrid

variable {K : Type}

/-! ## Loops -/

/-- A loop in which no step changes what is looked at. -/
theorem foldl_none {σ τ ι : Type} (get : σ → τ) (step : σ → ι → σ) (l : List ι)
    (h : ∀ s, ∀ t ∈ l, get (step s t) = get s) (s : σ) : get (l.foldl step s) = get s := by
  induction l generalizing s with
  | nil => rfl
  | cons a l ih =>
    rw [List.foldl_cons, ih (fun s t ht => h s t (List.mem_cons_of_mem _ ht)), h s a List.mem_cons_self]

/-- A loop in which the step `t0`, which may come several times but has no effect the second time, is the only one that changes what is
looked at. -/
theorem foldl_idem {σ τ ι : Type} (get : σ → τ) (step : σ → ι → σ) (l : List ι) (t0 : ι) (F : τ → τ) (hF : ∀ x, F (F x) = F x)
    (ht0 : t0 ∈ l) (h0 : ∀ s, get (step s t0) = F (get s)) (h : ∀ s, ∀ t ∈ l, t ≠ t0 → get (step s t) = get s) (s : σ) :
    get (l.foldl step s) = F (get s) := by
  classical
  have key : ∀ (l : List ι), (∀ s, ∀ t ∈ l, t ≠ t0 → get (step s t) = get s) → ∀ s, (get s = F (get s)) →
      get (l.foldl step s) = get s := by
    intro l
    induction l with
    | nil => intro _ s _; rfl
    | cons a l ih =>
      intro h s hs
      rw [List.foldl_cons]
      have e : get (step s a) = get s := by
        by_cases ha : a = t0
        · subst ha; rw [h0, ← hs]
        · exact h s a List.mem_cons_self ha
      rw [ih (fun s t ht => h s t (List.mem_cons_of_mem _ ht)) _ (by rw [e, ← hs]), e]
  induction l generalizing s with
  | nil => cases ht0
  | cons a l ih =>
    rw [List.foldl_cons]
    by_cases ha : a = t0
    · subst ha
      rw [key l (fun s t ht => h s t (List.mem_cons_of_mem _ ht)) _ (by rw [h0, hF]), h0]
    · rw [ih ((List.mem_cons.1 ht0).resolve_left (Ne.symm ha)) (fun s t ht => h s t (List.mem_cons_of_mem _ ht)),
        h s a List.mem_cons_self ha]

theorem mem_plane1 {d : Dims} {j k : Nat} : (j, k) ∈ plane1 d ↔ j < d.n2 ∧ k < d.n3 := by
  simp only [plane1, List.mem_flatMap, List.mem_range, List.mem_map, Prod.mk.injEq]
  constructor
  · rintro ⟨k', hk', j', hj', rfl, rfl⟩; exact ⟨hj', hk'⟩
  · rintro ⟨hj, hk⟩; exact ⟨k, hk, j, hj, rfl, rfl⟩

theorem CharMem.upd_same (s : CharMem K) (b p : Nat) (f : CharPt K → CharPt K) : s.upd b p f b p = f (s b p) := by
  simp [CharMem.upd]

theorem CharMem.upd_ne (s : CharMem K) {b p b' p' : Nat} (f : CharPt K → CharPt K) (h : b ≠ b' ∨ p ≠ p') :
    s.upd b' p' f b p = s b p := by
  unfold CharMem.upd
  by_cases hb : b = b'
  · subst hb
    rw [aset_self, aset_ne _ _ (h.resolve_left fun e => e rfl)]
  · rw [aset_ne _ _ hb]

section first
variable [Field K]

theorem setChar_idem (g : RadialPt K) (v : CharPt K) : setChar g (setChar g v) = setChar g v := rfl

theorem fromChar_idem (g : RadialPt K) (v : CharPt K) : fromChar g (fromChar g v) = fromChar g v := rfl

variable {nb : Nat} {d : Nat → Dims} {pts : Nat → List Nat} {geo : Nat → Nat → RadialPt K}

/-- After the first loop. -/
theorem setCharLoop_in (s : CharMem K) {b p : Nat} (hb : b < nb) (hp : p ∈ pts b) :
    setCharLoop nb pts geo s b p = setChar (geo b p) (s b p) := by
  refine foldl_idem (fun s : CharMem K => s b p) _ _ b (setChar (geo b p)) (setChar_idem _) (List.mem_range.2 hb)
    (fun s => ?_) (fun s b' _ hb' => ?_) s
  · exact foldl_idem (fun s : CharMem K => s b p) _ _ p (setChar (geo b p)) (setChar_idem _) hp
      (fun s => CharMem.upd_same ..) (fun s p' _ hp' => CharMem.upd_ne _ _ (Or.inr (Ne.symm hp'))) s
  · exact foldl_none (fun s : CharMem K => s b p) _ _ (fun s p' _ => CharMem.upd_ne _ _ (Or.inl (Ne.symm hb'))) s

/-- The first loop does not touch psi, Pi and phi. -/
theorem setCharLoop_keep (s : CharMem K) (b p : Nat) :
    (setCharLoop nb pts geo s b p).psi = (s b p).psi ∧ (setCharLoop nb pts geo s b p).Pi = (s b p).Pi ∧
      (setCharLoop nb pts geo s b p).phi = (s b p).phi := by
  have key : ∀ s : CharMem K, ∀ b' p', ∀ g : RadialPt K,
      ((s.upd b' p' (setChar g) b p).psi, (s.upd b' p' (setChar g) b p).Pi, (s.upd b' p' (setChar g) b p).phi) =
        ((s b p).psi, (s b p).Pi, (s b p).phi) := by
    intro s b' p' g
    by_cases h : b = b' ∧ p = p'
    · obtain ⟨rfl, rfl⟩ := h
      rw [CharMem.upd_same]; rfl
    · rw [CharMem.upd_ne _ _ (by omega)]
  have := foldl_none (fun s : CharMem K => ((s b p).psi, (s b p).Pi, (s b p).phi)) (fun (s : CharMem K) b =>
    (pts b).foldl (fun s p => s.upd b p (setChar (geo b p))) s) (List.range nb) (fun s b' _ =>
      foldl_none (fun s : CharMem K => ((s b p).psi, (s b p).Pi, (s b p).phi)) _ _ (fun s p' _ => key s b' p' _) s) s
  simp only [Prod.mk.injEq] at this
  exact this

/-- Two loops written as one. -/
theorem foldl_nested {σ ι κ : Type} (L : List ι) (f : ι → List κ) (h : σ → ι → κ → σ) (s : σ) :
    L.foldl (fun s a => (f a).foldl (fun s t => h s a t) s) s =
      (L.flatMap fun a => (f a).map fun t => (a, t)).foldl (fun s x => h s x.1 x.2) s := by
  induction L generalizing s with
  | nil => rfl
  | cons a L ih => rw [List.foldl_cons, ih, List.flatMap_cons, List.foldl_append, List.foldl_map]

theorem mem_pairs {ι κ : Type} {L : List ι} {f : ι → List κ} {x : ι × κ} :
    (x ∈ L.flatMap fun a => (f a).map fun t => (a, t)) ↔ x.1 ∈ L ∧ x.2 ∈ f x.1 := by
  obtain ⟨a, t⟩ := x
  simp only [List.mem_flatMap, List.mem_map, Prod.mk.injEq]
  constructor
  · rintro ⟨a', h, t', h', rfl, rfl⟩; exact ⟨h, h'⟩
  · rintro ⟨h, h'⟩; exact ⟨a, h, t, h', rfl, rfl⟩

/-- The upper end of the line of points `j,k` in box `b`. -/
def upPt (d : Nat → Dims) (b j k : Nat) : Nat := (d b).idx ((d b).n1 - 1) j k

/-- The lower end. -/
def loPt (d : Nat → Dims) (b j k : Nat) : Nat := (d b).idx 0 j k

variable (hn1 : ∀ b, b < nb → 2 ≤ (d b).n1) (hn2 : ∀ b, b < nb → (d b).n2 = (d 0).n2) (hn3 : ∀ b, b < nb → (d b).n3 = (d 0).n3)
include hn1 hn2

theorem up_ne_lo {b j k j' k' : Nat} (hb : b < nb) (hj : j < (d 0).n2) (hj' : j' < (d 0).n2) : upPt d b j k ≠ loPt d b j' k' := by
  intro e
  have := hn1 b hb
  have := idx_inj (by omega) (by omega) (by rw [hn2 b hb]; exact hj) (by rw [hn2 b hb]; exact hj') e
  omega

theorem up_inj {b j k j' k' : Nat} (hb : b < nb) (hj : j < (d 0).n2) (hj' : j' < (d 0).n2) (e : upPt d b j k = upPt d b j' k') :
    j = j' ∧ k = k' := by
  have := hn1 b hb
  exact (idx_inj (by omega) (by omega) (by rw [hn2 b hb]; exact hj) (by rw [hn2 b hb]; exact hj') e).2

theorem lo_inj {b j k j' k' : Nat} (hb : b < nb) (hj : j < (d 0).n2) (hj' : j' < (d 0).n2) (e : loPt d b j k = loPt d b j' k') :
    j = j' ∧ k = k' := by
  have := hn1 b hb
  exact (idx_inj (by omega) (by omega) (by rw [hn2 b hb]; exact hj) (by rw [hn2 b hb]; exact hj') e).2

omit [Field K] in
theorem transferChar_up (s : CharMem K) {b j k b' j' k' : Nat} (hb : b < nb) (hb' : b' + 1 < nb) (hj : j < (d 0).n2) (hj' : j' < (d 0).n2) :
    transferChar d b' (j', k') s b (upPt d b j k) =
      if b' = b ∧ j' = j ∧ k' = k then
        { s b (upPt d b j k) with Um := (s (b + 1) (loPt d (b + 1) j k)).Um, psi := (s (b + 1) (loPt d (b + 1) j k)).psi,
                                  U0 := (s (b + 1) (loPt d (b + 1) j k)).U0 }
      else s b (upPt d b j k) := by
  have e1 : ∀ f, s.upd (b' + 1) (loPt d (b' + 1) j' k') f b (upPt d b j k) = s b (upPt d b j k) := by
    intro f
    by_cases hbb : b = b' + 1
    · subst hbb
      exact CharMem.upd_ne _ _ (Or.inr (up_ne_lo hn1 hn2 hb hj hj'))
    · exact CharMem.upd_ne _ _ (Or.inl hbb)
  unfold transferChar
  simp only
  change CharMem.upd _ b' (upPt d b' j' k') _ b (upPt d b j k) = _
  split_ifs with h
  · obtain ⟨rfl, rfl, rfl⟩ := h
    rw [CharMem.upd_same]
    have e2 := CharMem.upd_same s (b' + 1) (loPt d (b' + 1) j' k') fun v => { v with Up := (s b' (upPt d b' j' k')).Up }
    have e3 := e1 fun v => { v with Up := (s b' (upPt d b' j' k')).Up }
    simp only [upPt, loPt] at e2 e3 ⊢
    rw [e2, e3]
  · rw [CharMem.upd_ne, ← e1]
    · rfl
    · by_contra hc
      simp only [not_or, not_not] at hc
      obtain ⟨rfl, hc⟩ := hc
      obtain ⟨rfl, rfl⟩ := up_inj hn1 hn2 hb hj hj' hc
      exact h ⟨rfl, rfl, rfl⟩

omit [Field K] in
theorem transferChar_lo (s : CharMem K) {b j k b' j' k' : Nat} (hb : b + 1 < nb) (hb' : b' + 1 < nb) (hj : j < (d 0).n2) (hj' : j' < (d 0).n2) :
    transferChar d b' (j', k') s (b + 1) (loPt d (b + 1) j k) =
      if b' = b ∧ j' = j ∧ k' = k then { s (b + 1) (loPt d (b + 1) j k) with Up := (s b (upPt d b j k)).Up }
      else s (b + 1) (loPt d (b + 1) j k) := by
  unfold transferChar
  simp only
  change CharMem.upd _ b' (upPt d b' j' k') _ (b + 1) (loPt d (b + 1) j k) = _
  rw [CharMem.upd_ne]
  · change s.upd (b' + 1) (loPt d (b' + 1) j' k') _ (b + 1) (loPt d (b + 1) j k) = _
    split_ifs with h
    · obtain ⟨rfl, rfl, rfl⟩ := h
      rw [CharMem.upd_same]; rfl
    · rw [CharMem.upd_ne]
      by_contra hc
      simp only [not_or, not_not] at hc
      obtain ⟨hbb, hc⟩ := hc
      obtain rfl : b = b' := by omega
      obtain ⟨rfl, rfl⟩ := lo_inj hn1 hn2 hb hj hj' hc
      exact h ⟨rfl, rfl, rfl⟩
  · by_cases hbb : b + 1 = b'
    · subst hbb
      exact Or.inr (Ne.symm (up_ne_lo hn1 hn2 hb hj' hj))
    · exact Or.inl hbb

include hn3

omit [Field K] in
/-- After the transfer, at the upper end. -/
theorem transferLoop_up (s : CharMem K) {b j k : Nat} (hb : b + 1 < nb) (hj : j < (d 0).n2) (hk : k < (d 0).n3) :
    transferLoop nb d s b (upPt d b j k) =
      { s b (upPt d b j k) with Um := (s (b + 1) (loPt d (b + 1) j k)).Um, psi := (s (b + 1) (loPt d (b + 1) j k)).psi,
                                U0 := (s (b + 1) (loPt d (b + 1) j k)).U0 } := by
  unfold transferLoop
  rw [foldl_nested (h := fun s b jk => transferChar d b jk s)]
  have := foldl_idem (fun s : CharMem K => (s b (upPt d b j k), ((s (b + 1) (loPt d (b + 1) j k)).Um,
      (s (b + 1) (loPt d (b + 1) j k)).psi, (s (b + 1) (loPt d (b + 1) j k)).U0)))
    (fun (s : CharMem K) (x : Nat × Nat × Nat) => transferChar d x.1 x.2 s)
    ((List.range (nb - 1)).flatMap fun a => (plane1 (d a)).map fun t => (a, t)) (b, j, k)
    (fun y => ({ y.1 with Um := y.2.1, psi := y.2.2.1, U0 := y.2.2.2 }, y.2)) (fun _ => rfl)
    (mem_pairs.2 ⟨List.mem_range.2 (by omega), mem_plane1.2 ⟨by rw [hn2 b (by omega)]; exact hj, by rw [hn3 b (by omega)]; exact hk⟩⟩)
    (fun s => by
      have e1 := transferChar_up hn1 hn2 s (k := k) (k' := k) (by omega : b < nb) hb hj hj
      have e2 := transferChar_lo hn1 hn2 s (k := k) (k' := k) hb hb hj hj
      rw [if_pos ⟨rfl, rfl, rfl⟩] at e1 e2
      simp only
      rw [e1, e2])
    (fun s t ht htne => by
      obtain ⟨b', j', k'⟩ := t
      obtain ⟨h1, h2⟩ := mem_pairs.1 ht
      have h1 := List.mem_range.1 h1
      have h2 := mem_plane1.1 h2
      simp only at h1 h2
      rw [hn2 b' (by omega)] at h2
      have hne : ¬ (b' = b ∧ j' = j ∧ k' = k) := by
        rintro ⟨rfl, rfl, rfl⟩; exact htne rfl
      have e1 := transferChar_up hn1 hn2 s (k := k) (k' := k') (by omega : b < nb) (by omega : b' + 1 < nb) hj h2.1
      have e2 := transferChar_lo hn1 hn2 s (k := k) (k' := k') hb (by omega : b' + 1 < nb) hj h2.1
      rw [if_neg hne] at e1 e2
      simp only
      rw [e1, e2]) s
  exact congrArg Prod.fst this

omit [Field K] in
/-- After the transfer, at the lower end. -/
theorem transferLoop_lo (s : CharMem K) {b j k : Nat} (hb : b + 1 < nb) (hj : j < (d 0).n2) (hk : k < (d 0).n3) :
    transferLoop nb d s (b + 1) (loPt d (b + 1) j k) = { s (b + 1) (loPt d (b + 1) j k) with Up := (s b (upPt d b j k)).Up } := by
  unfold transferLoop
  rw [foldl_nested (h := fun s b jk => transferChar d b jk s)]
  have := foldl_idem (fun s : CharMem K => (s (b + 1) (loPt d (b + 1) j k), (s b (upPt d b j k)).Up))
    (fun (s : CharMem K) (x : Nat × Nat × Nat) => transferChar d x.1 x.2 s)
    ((List.range (nb - 1)).flatMap fun a => (plane1 (d a)).map fun t => (a, t)) (b, j, k)
    (fun y => ({ y.1 with Up := y.2 }, y.2)) (fun _ => rfl)
    (mem_pairs.2 ⟨List.mem_range.2 (by omega), mem_plane1.2 ⟨by rw [hn2 b (by omega)]; exact hj, by rw [hn3 b (by omega)]; exact hk⟩⟩)
    (fun s => by
      have e1 := transferChar_up hn1 hn2 s (k := k) (k' := k) (by omega : b < nb) hb hj hj
      have e2 := transferChar_lo hn1 hn2 s (k := k) (k' := k) hb hb hj hj
      rw [if_pos ⟨rfl, rfl, rfl⟩] at e1 e2
      simp only
      rw [e1, e2])
    (fun s t ht htne => by
      obtain ⟨b', j', k'⟩ := t
      obtain ⟨h1, h2⟩ := mem_pairs.1 ht
      have h1 := List.mem_range.1 h1
      have h2 := mem_plane1.1 h2
      simp only at h1 h2
      rw [hn2 b' (by omega)] at h2
      have hne : ¬ (b' = b ∧ j' = j ∧ k' = k) := by
        rintro ⟨rfl, rfl, rfl⟩; exact htne rfl
      have e1 := transferChar_up hn1 hn2 s (k := k) (k' := k') (by omega : b < nb) (by omega : b' + 1 < nb) hj h2.1
      have e2 := transferChar_lo hn1 hn2 s (k := k) (k' := k') hb (by omega : b' + 1 < nb) hj h2.1
      rw [if_neg hne] at e1 e2
      simp only
      rw [e1, e2]) s
  exact congrArg Prod.fst this

omit [Field K] hn1 hn3 in
/-- Points that are not on an interface. -/
theorem transferLoop_other (s : CharMem K) {b p : Nat}
    (h : ∀ b' j k, b' + 1 < nb → j < (d 0).n2 → (b = b' → p ≠ upPt d b' j k) ∧ (b = b' + 1 → p ≠ loPt d (b' + 1) j k)) :
    transferLoop nb d s b p = s b p := by
  unfold transferLoop
  rw [foldl_nested (h := fun s b jk => transferChar d b jk s)]
  refine foldl_none (fun s : CharMem K => s b p) _ _ (fun s t ht => ?_) s
  obtain ⟨b', j', k'⟩ := t
  obtain ⟨h1, h2⟩ := mem_pairs.1 ht
  have h1 := List.mem_range.1 h1
  have h2 := mem_plane1.1 h2
  simp only at h1 h2
  rw [hn2 b' (by omega)] at h2
  obtain ⟨g1, g2⟩ := h b' j' k' (by omega) h2.1
  unfold transferChar
  simp only
  rw [CharMem.upd_ne, CharMem.upd_ne]
  · by_cases e : b = b' + 1
    · exact Or.inr (g2 e)
    · exact Or.inl e
  · by_cases e : b = b'
    · exact Or.inr (g1 e)
    · exact Or.inl e

/-- The last loop at an end that it visits. -/
theorem computeFromChar_in (s : CharMem K) {b i j k : Nat} (hb : b < nb) (hi : i = 0 ∨ i = (d b).n1 - 1)
    (hv : ¬ ((b = 0 ∧ i = 0) ∨ (b = nb - 1 ∧ i = (d b).n1 - 1))) (hj : j < (d 0).n2) (hk : k < (d 0).n3) :
    computeFromChar nb d geo s b ((d b).idx i j k) = fromChar (geo b ((d b).idx i j k)) (s b ((d b).idx i j k)) := by
  have h2 := hn1 b hb
  refine foldl_idem (fun s : CharMem K => s b ((d b).idx i j k)) _ _ b (fromChar _) (fromChar_idem _) (List.mem_range.2 hb)
    (fun s => ?_) (fun s b' _ hb' => ?_) s
  · refine foldl_idem (fun s : CharMem K => s b ((d b).idx i j k)) _ _ i (fromChar _) (fromChar_idem _)
      (by rcases hi with rfl | rfl <;> simp) (fun s => ?_) (fun s i' hi' hne => ?_) s
    · rw [if_neg hv]
      refine foldl_idem (fun s : CharMem K => s b ((d b).idx i j k)) _ _ (j, k) (fromChar _) (fromChar_idem _)
        (mem_plane1.2 ⟨by rw [hn2 b hb]; exact hj, by rw [hn3 b hb]; exact hk⟩)
        (fun s => CharMem.upd_same ..) (fun s t ht hne => CharMem.upd_ne _ _ (Or.inr fun e => hne ?_)) s
      obtain ⟨j', k'⟩ := t
      obtain ⟨-, rfl, rfl⟩ := idx_inj (by omega) (by omega) (by rw [hn2 b hb]; exact hj) (mem_plane1.1 ht).1 e
      rfl
    · split_ifs
      · rfl
      · refine foldl_none (fun s : CharMem K => s b ((d b).idx i j k)) _ _
          (fun s t ht => CharMem.upd_ne _ _ (Or.inr fun e => hne ?_)) s
        have hi'' : i' < (d b).n1 := by
          simp only [List.mem_cons, List.not_mem_nil, or_false] at hi'
          omega
        exact ((idx_inj (by omega) hi'' (by rw [hn2 b hb]; exact hj) (mem_plane1.1 ht).1 e).1).symm
  · refine foldl_none (fun s : CharMem K => s b ((d b).idx i j k)) _ _ (fun s i' _ => ?_) s
    split_ifs
    · rfl
    · exact foldl_none (fun s : CharMem K => s b ((d b).idx i j k)) _ _
        (fun s t ht => CharMem.upd_ne _ _ (Or.inl (Ne.symm hb'))) s

omit hn1 hn3 in
/-- Points that the last loop does not visit. -/
theorem computeFromChar_other (s : CharMem K) {b p : Nat}
    (h : ∀ j k, j < (d 0).n2 → (0 < b → p ≠ loPt d b j k) ∧ (b + 1 < nb → p ≠ upPt d b j k)) :
    computeFromChar nb d geo s b p = s b p := by
  unfold computeFromChar
  refine foldl_none (fun s : CharMem K => s b p) _ _ (fun s b' hb' => ?_) s
  have hb' := List.mem_range.1 hb'
  refine foldl_none (fun s : CharMem K => s b p) _ _ (fun s i hi => ?_) s
  split_ifs with hv
  · rfl
  · refine foldl_none (fun s : CharMem K => s b p) _ _ (fun s t ht => CharMem.upd_ne _ _ ?_) s
    by_cases hbb : b = b'
    · subst hbb
      have h1 := (mem_plane1.1 ht).1
      rw [hn2 b hb'] at h1
      have := h t.1 t.2 h1
      refine Or.inr ?_
      simp only [List.mem_cons, List.not_mem_nil, or_false] at hi
      rcases hi with rfl | rfl
      · exact this.1 (by omega)
      · exact this.2 (by omega)
    · exact Or.inl hbb

/-- What the two functions leave at the interface between box `b` and box `b+1`. -/
theorem interface (hpts : ∀ b j k, b < nb → j < (d 0).n2 → k < (d 0).n3 → loPt d b j k ∈ pts b ∧ upPt d b j k ∈ pts b)
    (s : CharMem K) {b j k : Nat} (hb : b + 1 < nb) (hj : j < (d 0).n2) (hk : k < (d 0).n3) :
    let L := s b (upPt d b j k)
    let R := s (b + 1) (loPt d (b + 1) j k)
    let gL := geo b (upPt d b j k)
    let gR := geo (b + 1) (loPt d (b + 1) j k)
    let s' := computeFromChar nb d geo (setUpUmU0 nb d pts geo s)
    s' b (upPt d b j k) = fromChar gL { setChar gL L with Um := (setChar gR R).Um, psi := R.psi, U0 := (setChar gR R).U0 } ∧
    s' (b + 1) (loPt d (b + 1) j k) = fromChar gR { setChar gR R with Up := (setChar gL L).Up } := by
  have hL := setCharLoop_in (geo := geo) s (by omega : b < nb) (hpts b j k (by omega) hj hk).2
  have hR := setCharLoop_in (geo := geo) s hb (hpts (b + 1) j k hb hj hk).1
  have h1 := hn1 b (by omega)
  have h2 := hn1 (b + 1) hb
  constructor
  · refine (computeFromChar_in hn1 hn2 hn3 _ (by omega) (Or.inr rfl) (by omega) hj hk).trans ?_
    have := transferLoop_up hn1 hn2 hn3 (setCharLoop nb pts geo s) hb hj hk
    rw [hL, hR] at this
    exact congrArg _ this
  · refine (computeFromChar_in hn1 hn2 hn3 _ hb (Or.inl rfl) (by omega) hj hk).trans ?_
    have := transferLoop_lo hn1 hn2 hn3 (setCharLoop nb pts geo s) hb hj hk
    rw [hL, hR] at this
    exact congrArg _ this

end first

/-! ## The properties -/

namespace Spec

/-- `N` is the outward unit normal, as a covector, of the sphere through the point `x` in the metric with the inverse `γ`. -/
structure UnitNormal (γ : Fin 3 → Fin 3 → ℝ) (x N : Fin 3 → ℝ) : Prop where
  outward : ∃ l : ℝ, 0 < l ∧ ∀ i, N i = l * x i
  unit : ∑ i, ∑ j, γ i j * N i * N j = 1

/-- The component `γ^ij N_i v_j` of a covector along the normal. -/
def alongN {K : Type} [CommRing K] (γ : Fin 3 → Fin 3 → K) (N : Fin 3 → K) (v : Nat → K) : K := ∑ i, ∑ j, γ i j * N i * v j

/-- The same shell structure on all boxes: at least two points in the radial direction, the same points on the spheres. -/
structure Shells (nb : Nat) (d : Nat → Dims) : Prop where
  n1 : ∀ b, b < nb → 2 ≤ (d b).n1
  n2 : ∀ b, b < nb → (d b).n2 = (d 0).n2
  n3 : ∀ b, b < nb → (d b).n3 = (d 0).n3

end Spec

/-- The inverse metric of a point as a matrix, and its coordinates. -/
def RadialPt.γ (g : RadialPt K) (i j : Fin 3) : K := g.gup (Spec.sym2 i j)

/-- The coordinates by number. -/
def RadialPt.pos [Field K] (g : RadialPt K) (i : Fin 3) : K := [g.x, g.y, g.z].getD i 0

section real
variable {g : RadialPt ℝ} {N : Fin 3 → ℝ}

theorem radial_c (hs : g.sqrt = Real.sqrt) (hN : Spec.UnitNormal g.γ g.pos N) (i : Fin 3) : g.c i = N i := by
  obtain ⟨⟨l, hl, hNx⟩, hu⟩ := hN
  have h0 := hNx 0
  have h1 := hNx 1
  have h2 := hNx 2
  simp only [RadialPt.pos, Fin.val_zero, Fin.val_one, Fin.val_two, List.getD_cons_zero, List.getD_cons_succ] at h0 h1 h2
  set q := g.gup 0 * g.x * g.x + g.gup 3 * g.y * g.y + g.gup 5 * g.z * g.z +
    2 * (g.gup 1 * g.x * g.y + g.gup 2 * g.x * g.z + g.gup 4 * g.y * g.z) with hq
  have hlq : l ^ 2 * q = 1 := by
    simp only [Fin.sum_univ_three, RadialPt.γ, Spec.sym2, h0, h1, h2] at hu
    rw [← hu, hq]; ring
  have hqpos : 0 < q := by
    have : 0 < l ^ 2 := by positivity
    by_contra hc
    have := mul_nonpos_of_nonneg_of_nonpos this.le (not_lt.1 hc)
    linarith
  have hr2 : 0 < g.x * g.x + g.y * g.y + g.z * g.z := by
    by_contra hc
    have a1 := mul_self_nonneg g.x
    have a2 := mul_self_nonneg g.y
    have a3 := mul_self_nonneg g.z
    have e1 : g.x = 0 := mul_self_eq_zero.1 (by linarith)
    have e2 : g.y = 0 := mul_self_eq_zero.1 (by linarith)
    have e3 : g.z = 0 := mul_self_eq_zero.1 (by linarith)
    rw [e1, e2, e3] at hq
    simp only [mul_zero, zero_mul, add_zero] at hq
    linarith
  have hr : 0 < g.r := by
    unfold RadialPt.r; rw [hs]; exact Real.sqrt_pos.2 hr2
  have hgnn : g.gnn = q / g.r ^ 2 := by
    unfold RadialPt.gnn RadialPt.nx RadialPt.ny RadialPt.nz
    rw [hq]; field_simp
  have hsq : g.sqrt g.gnn = 1 / (l * g.r) := by
    rw [hs, hgnn, Real.sqrt_eq_iff_mul_self_eq (by positivity) (by positivity)]
    rw [show q = 1 / l ^ 2 by field_simp; linarith]
    field_simp
  fin_cases i
  · change g.nx / g.sqrt g.gnn = N 0
    rw [hsq, h0]; unfold RadialPt.nx; field_simp
  · change g.ny / g.sqrt g.gnn = N 1
    rw [hsq, h1]; unfold RadialPt.ny; field_simp
  · change g.nz / g.sqrt g.gnn = N 2
    rw [hsq, h2]; unfold RadialPt.nz; field_simp

theorem radial_along (hs : g.sqrt = Real.sqrt) (hN : Spec.UnitNormal g.γ g.pos N) (v : Nat → ℝ) :
    g.along v = Spec.alongN g.γ N v := by
  have e0 : g.cx = N 0 := radial_c hs hN 0
  have e1 : g.cy = N 1 := radial_c hs hN 1
  have e2 : g.cz = N 2 := radial_c hs hN 2
  simp only [RadialPt.along, Spec.alongN, RadialPt.cupx, RadialPt.cupy, RadialPt.cupz, e0, e1, e2, Fin.sum_univ_three, RadialPt.γ,
    Spec.sym2, Fin.val_zero, Fin.val_one, Fin.val_two]
  ring

theorem along_smul (γ : Fin 3 → Fin 3 → ℝ) (a : ℝ) (u v : Nat → ℝ) :
    Spec.alongN γ N (fun n => u n + a * v n) = Spec.alongN γ N u + a * Spec.alongN γ N v := by
  simp only [Spec.alongN, Fin.sum_univ_three]; ring

end real

section props
variable {nb : Nat} {d : Nat → Dims} {pts : Nat → List Nat} {geo : Nat → Nat → RadialPt ℝ}

/-- **C132.** After `set_Up_Um_U0_onBoundary` and `compute_unew_from_Up_Um_U0_onBoundary`, `psi`, `Pi` and `phi` have the same values on
both sides of every interface between two shells: `Pi + c^i phi_i`, which moves outward, is the one of the inner shell, and
`Pi - c^i phi_i`, the part of `phi` along the sphere and `psi` are the ones of the outer shell, where `c` is the outward unit normal.
For all shells, points, fields and metrics that agree on the two sides. -/
theorem C132 (hd : Spec.Shells nb d)
    (hpts : ∀ b j k, b < nb → j < (d 0).n2 → k < (d 0).n3 →
      (d b).idx 0 j k ∈ pts b ∧ (d b).idx ((d b).n1 - 1) j k ∈ pts b)
    (s : CharMem ℝ) (b j k : Nat) (hb : b + 1 < nb) (hj : j < (d 0).n2) (hk : k < (d 0).n3)
    (p q : Nat) (hp : p = (d b).idx ((d b).n1 - 1) j k) (hq : q = (d (b + 1)).idx 0 j k)
    (g : RadialPt ℝ) (hgL : geo b p = g) (hgR : geo (b + 1) q = g) (hs : g.sqrt = Real.sqrt)
    (N : Fin 3 → ℝ) (hN : Spec.UnitNormal g.γ g.pos N) :
    let s' := computeFromChar nb d geo (setUpUmU0 nb d pts geo s)
    let c := Spec.alongN g.γ N
    (s' b p).psi = (s (b + 1) q).psi ∧ (s' (b + 1) q).psi = (s (b + 1) q).psi ∧
    (s' b p).Pi = (s' (b + 1) q).Pi ∧ (∀ i : Fin 3, (s' b p).phi i = (s' (b + 1) q).phi i) ∧
    (s' b p).Pi + c (s' b p).phi = (s b p).Pi + c (s b p).phi ∧
    (s' b p).Pi - c (s' b p).phi = (s (b + 1) q).Pi - c (s (b + 1) q).phi ∧
    ∀ i : Fin 3, (s' b p).phi i - c (s' b p).phi * N i = (s (b + 1) q).phi i - c (s (b + 1) q).phi * N i := by
  intro s' c
  obtain ⟨e1, e2⟩ := interface (geo := geo) hd.n1 hd.n2 hd.n3 hpts s hb hj hk
  simp only [upPt, loPt] at e1 e2
  rw [← hp, ← hq, hgL, hgR] at e1 e2
  change s' b p = _ at e1
  change s' (b + 1) q = _ at e2
  have hal := radial_along hs hN
  have hc := fun i : Fin 3 => radial_c hs hN i
  have hNN : Spec.alongN g.γ N g.c = 1 := by
    rw [← hN.unit]
    simp only [Spec.alongN, hc]
  have hphi : (s' b p).phi = fun n => ((s (b + 1) q).phi n) + ((((s b p).Pi + c (s b p).phi) - ((s (b + 1) q).Pi - c (s (b + 1) q).phi)) *
      (1 / 2) - c (s (b + 1) q).phi) * g.c n := by
    rw [e1]
    funext n
    simp only [fromChar, setChar, hal]
    ring
  have hPi : (s' b p).Pi = (((s b p).Pi + c (s b p).phi) + ((s (b + 1) q).Pi - c (s (b + 1) q).phi)) * (1 / 2) := by
    rw [e1]
    simp only [fromChar, setChar, hal]
    rfl
  have hcphi : c (s' b p).phi = (((s b p).Pi + c (s b p).phi) - ((s (b + 1) q).Pi - c (s (b + 1) q).phi)) * (1 / 2) := by
    rw [hphi]
    change Spec.alongN _ _ _ = _
    rw [along_smul, hNN]
    simp only [c]
    ring
  refine ⟨by rw [e1]; rfl, by rw [e2]; rfl, by rw [e1, e2]; rfl, fun i => by rw [e1, e2]; rfl, ?_, ?_, fun i => ?_⟩
  · rw [hcphi, hPi]; ring
  · rw [hcphi, hPi]; ring
  · rw [hcphi, hphi, ← hc i]; ring

/-- **C132.** Fields that already agree on the two sides of an interface are not changed there. -/
theorem C132_smooth (hd : Spec.Shells nb d)
    (hpts : ∀ b j k, b < nb → j < (d 0).n2 → k < (d 0).n3 →
      (d b).idx 0 j k ∈ pts b ∧ (d b).idx ((d b).n1 - 1) j k ∈ pts b)
    (s : CharMem ℝ) (b j k : Nat) (hb : b + 1 < nb) (hj : j < (d 0).n2) (hk : k < (d 0).n3)
    (p q : Nat) (hp : p = (d b).idx ((d b).n1 - 1) j k) (hq : q = (d (b + 1)).idx 0 j k)
    (g : RadialPt ℝ) (hgL : geo b p = g) (hgR : geo (b + 1) q = g) (hs : g.sqrt = Real.sqrt)
    (N : Fin 3 → ℝ) (hN : Spec.UnitNormal g.γ g.pos N)
    (h : (s b p).psi = (s (b + 1) q).psi ∧ (s b p).Pi = (s (b + 1) q).Pi ∧ ∀ i : Fin 3, (s b p).phi i = (s (b + 1) q).phi i) :
    let s' := computeFromChar nb d geo (setUpUmU0 nb d pts geo s)
    ((s' b p).psi = (s b p).psi ∧ (s' b p).Pi = (s b p).Pi ∧ ∀ i : Fin 3, (s' b p).phi i = (s b p).phi i) ∧
    ((s' (b + 1) q).psi = (s b p).psi ∧ (s' (b + 1) q).Pi = (s b p).Pi ∧ ∀ i : Fin 3, (s' (b + 1) q).phi i = (s b p).phi i) := by
  intro s'
  obtain ⟨a1, a2, a3, a4, a5, a6, a7⟩ := C132 hd hpts s b j k hb hj hk p q hp hq g hgL hgR hs N hN
  obtain ⟨h1, h2, h3⟩ := h
  have hc : Spec.alongN g.γ N (s (b + 1) q).phi = Spec.alongN g.γ N (s b p).phi := by simp only [Spec.alongN, h3]
  rw [hc, ← h2] at a6
  have hPi : (s' b p).Pi = (s b p).Pi := by
    simp only [s']; linarith
  have hphic : Spec.alongN g.γ N (s' b p).phi = Spec.alongN g.γ N (s b p).phi := by
    simp only [s']; linarith
  have hphi : ∀ i : Fin 3, (s' b p).phi i = (s b p).phi i := by
    intro i
    have := a7 i
    rw [hc, ← h3 i] at this
    change _ - Spec.alongN g.γ N (s' b p).phi * _ = _ at this
    rw [hphic] at this
    simp only [s']; linarith
  exact ⟨⟨a1.trans h1.symm, hPi, hphi⟩, a2.trans h1.symm, a3.symm.trans hPi, fun i => (a4 i).symm.trans (hphi i)⟩

/-- **C132.** Away from the interfaces (and on the innermost and the outermost sphere) `psi`, `Pi` and `phi` are not changed. -/
theorem C132_other {K : Type} [Field K] {geo : Nat → Nat → RadialPt K} (hd : Spec.Shells nb d) (s : CharMem K) (b p : Nat)
    (h : ∀ j k, j < (d 0).n2 → (0 < b → p ≠ (d b).idx 0 j k) ∧ (b + 1 < nb → p ≠ (d b).idx ((d b).n1 - 1) j k)) :
    let s' := computeFromChar nb d geo (setUpUmU0 nb d pts geo s)
    (s' b p).psi = (s b p).psi ∧ (s' b p).Pi = (s b p).Pi ∧ (s' b p).phi = (s b p).phi := by
  intro s'
  have e : s' b p = setCharLoop nb pts geo s b p := by
    refine (computeFromChar_other hd.n2 _ h).trans (transferLoop_other hd.n2 _ fun b' j k hb' hj => ⟨?_, ?_⟩)
    · rintro rfl; exact (h j k hj).2 hb'
    · rintro rfl; exact (h j k hj).1 (by omega)
  rw [e]
  exact setCharLoop_keep s b p

end props

/-- **C132.** What is taken from which side is what moves in that direction: for the equations of `ScalarOnKerr_evolve_1stO`, with fields
that vary only along the normal `N` and without the terms of lower order, `Pi ± c^i phi_i` change with
`(beta^i N_i ∓ alpha) d_N (Pi ± c^i phi_i)`, so they move with the coordinate speeds `±alpha - beta^i N_i` along `N`, and the
part of `phi` along the sphere changes with `beta^i N_i d_N`. For every lapse, shift and metric. -/
theorem C132_speeds {K : Type} [Field K] (e : ScalarPt K) (N : Fin 3 → K) (γ : Fin 3 → Fin 3 → K) (hγ : ∀ i j, γ i j = e.gup (Spec.sym2 i j))
    (hN : ∑ i, ∑ j, γ i j * N i * N j = 1) (p : K) (q : Nat → K) (hPi : e.Pi = 0) (hphi : ∀ i : Fin 3, e.phi i = 0) (hrho : e.rho = 0)
    (hdPi : ∀ i : Fin 3, e.dPi i = N i * p) (hdphi : ∀ i j : Fin 3, e.dphi (3 * i + j) = N j * q i) :
    let βN := ∑ i : Fin 3, e.beta i * N i
    let c := Spec.alongN γ N
    ScalarFirst.rPi e + c (ScalarFirst.rphi e) = (βN - e.alpha) * (p + c q) ∧
    ScalarFirst.rPi e - c (ScalarFirst.rphi e) = (βN + e.alpha) * (p - c q) ∧
    ∀ i : Fin 3, ScalarFirst.rphi e i - c (ScalarFirst.rphi e) * N i = βN * (q i - c q * N i) := by
  intro βN c
  have f0 := hphi 0
  have f1 := hphi 1
  have f2 := hphi 2
  have p0 := hdPi 0
  have p1 := hdPi 1
  have p2 := hdPi 2
  have d0 := hdphi 0 0
  have d1 := hdphi 0 1
  have d2 := hdphi 0 2
  have d3 := hdphi 1 0
  have d4 := hdphi 1 1
  have d5 := hdphi 1 2
  have d6 := hdphi 2 0
  have d7 := hdphi 2 1
  have d8 := hdphi 2 2
  simp only [Fin.val_zero, Fin.val_one, Fin.val_two, Nat.mul_zero, Nat.zero_add, Nat.add_zero, Nat.mul_one, Nat.reduceMul, Nat.reduceAdd]
    at f0 f1 f2 p0 p1 p2 d0 d1 d2 d3 d4 d5 d6 d7 d8
  have hr : ∀ i : Fin 3, ScalarFirst.rphi e i = βN * q i - e.alpha * p * N i := by
    intro i
    fin_cases i
    · change ScalarFirst.rphix e = _
      simp only [ScalarFirst.rphix, ScalarFirst.b_dphix, ScalarFirst.phi_dbx, hPi, f0, f1, f2, p0, d0, d1, d2, βN, Fin.sum_univ_three,
        Fin.val_zero, Fin.val_one, Fin.val_two, Fin.zero_eta]
      ring
    · change ScalarFirst.rphiy e = _
      simp only [ScalarFirst.rphiy, ScalarFirst.b_dphiy, ScalarFirst.phi_dby, hPi, f0, f1, f2, p1, d3, d4, d5, βN, Fin.sum_univ_three,
        Fin.val_zero, Fin.val_one, Fin.val_two, Fin.mk_one]
      ring
    · change ScalarFirst.rphiz e = _
      simp only [ScalarFirst.rphiz, ScalarFirst.b_dphiz, ScalarFirst.phi_dbz, hPi, f0, f1, f2, p2, d6, d7, d8, βN, Fin.sum_univ_three,
        Fin.val_zero, Fin.val_one, Fin.val_two, Fin.reduceFinMk]
      ring
  have hcr : c (ScalarFirst.rphi e) = βN * c q - e.alpha * p := by
    have : c (ScalarFirst.rphi e) = βN * c q - e.alpha * p * ∑ i, ∑ j, γ i j * N i * N j := by
      simp only [c, Spec.alongN, hr, Fin.sum_univ_three]
      ring
    rw [this, hN, mul_one]
  have hrPi : ScalarFirst.rPi e = βN * p - e.alpha * c q := by
    simp only [ScalarFirst.rPi, ScalarFirst.beta_dPi, ScalarFirst.ag_dphi, ScalarFirst.aG_phi, ScalarFirst.g_phi_da, ScalarFirst.aKPi,
      hPi, hrho, f0, f1, f2, p0, p1, p2, d0, d1, d2, d3, d4, d5, d6, d7, d8, βN, c, Spec.alongN, hγ, Spec.sym2, Fin.sum_univ_three,
      Fin.val_zero, Fin.val_one, Fin.val_two]
    ring
  refine ⟨?_, ?_, fun i => ?_⟩
  · rw [hcr, hrPi]; ring
  · rw [hcr, hrPi]; ring
  · rw [hcr, hr]; ring

/-! ## Examples -/

/-- A point at `(3, 0, 4)` with the inverse metric `4 δ`. -/
def exRadial : RadialPt ℚ :=
  ⟨fun q => if q = 25 then 5 else if q = 4 then 2 else 0, 3, 0, 4, fun n => [4, 0, 0, 4, 0, 4].getD n 0⟩

/-- Fields in two boxes with two points. -/
def exChar : CharMem ℚ := fun b p => ⟨10 * b + p, b - p, 0, 0, fun n => [b + 2 * p, 1, 5 - b].getD n 0, fun _ => 0⟩

/-- Two shells with two points: `psi` is 1 and 10 at the interface, `Pi` is -1 and 1, `phi` is (2, 1, 5) and (1, 1, 4) before, and
10, 7/5 and (28/25, 1, 104/25) after. -/
example :
    let s := computeFromChar 2 (fun _ => ⟨2, 1, 1⟩) (fun _ _ => exRadial)
      (setUpUmU0 2 (fun _ => ⟨2, 1, 1⟩) (fun _ => [0, 1]) (fun _ _ => exRadial) exChar)
    ([0, 1].map fun b => [0, 1].map fun p => ((s b p).psi, (s b p).Pi, (s b p).phi 0, (s b p).phi 1, (s b p).phi 2)) =
      [[(0, 0, 0, 1, 5), (10, 7 / 5, 28 / 25, 1, 104 / 25)], [(10, 7 / 5, 28 / 25, 1, 104 / 25), (11, 0, 3, 1, 4)]] := by
  decide +kernel

end Sgrid
