import Mathlib.Algebra.Order.Field.Rat
import Verif.Model.InPlane
import Verif.Props.Boundary
import Verif.Props.Box3d
import Verif.Props.StdBox

/-!
# C104: coefficients and interpolation in planes and along lines
-/

namespace Sgrid
open Finset
variable {K : Type} [Field K]

namespace Spec

/-- The number of a direction. -/
def axNum : Axis → Int
  | .one => 1
  | .two => 2
  | .three => 3

omit [Field K] in
/-- In the plane `p` of the direction `pl` the array `dst` is the result of `f` along lines of the array
`src`; everything else is unchanged. -/
def ActsInPlane (d : Dims) (pl : Axis) (p : Nat) (ax : Axis) (f : (Nat → K) → Nat → K) (src dst : Nat)
    (mem mem' : Arrays K) : Prop :=
  (∀ i j k, inBox d i j k → coord pl i j k = p →
    view d mem' dst i j k = onLines ax f (view d mem src) i j k) ∧
  ∀ a q, a ≠ dst ∨ ¬ onPlane d pl p q → mem' a q = mem a q

/-- The two directions of a plane. -/
def fstAx : Axis → Axis
  | .one => .two
  | _ => .one

def sndAx : Axis → Axis
  | .three => .two
  | _ => .three

/-- The values of a function on a plane by the indices of its two directions. -/
def onPl {α : Type} (pl : Axis) (u : Nat → Nat → Nat → α) (p x y : Nat) : α :=
  match pl with
  | .one => u p x y
  | .two => u x p y
  | .three => u x y p

/-- The values of a function on a line by the index on the line. -/
def onLn {α : Type} (ax : Axis) (u : Nat → Nat → Nat → α) (i1 i2 l : Nat) : α :=
  match ax with
  | .one => u l i1 i2
  | .two => u i1 l i2
  | .three => u i1 i2 l

end Spec

/-! ### The loops -/

omit [Field K] in
theorem done_sel_inner {d : Dims} {ax : Axis} {G : Arrays K → Arrays K}
    {T : Nat → Nat → LState K → LState K} (hT : LineAct d ax G T) {mem0 : Arrays K} {s : LState K}
    {P : Nat → Nat → Prop} {lo hi k : Nat} (hhi : hi ≤ d.inner ax) (hk : k < d.outer ax)
    (hP : ∀ i1, ¬ P i1 k) (h : Done d ax G mem0 P s.mem) :
    Done d ax G mem0 (fun i1 i2 => P i1 i2 ∨ (i2 = k ∧ lo ≤ i1 ∧ i1 < hi))
      (upLoop lo hi (fun j s => T j k s) s).mem := by
  rcases Nat.le_total lo hi with hl | hl
  · exact upLoop_inv hl (body := fun j s => T j k s) (s := s)
      (fun m s => Done d ax G mem0 (fun i1 i2 => P i1 i2 ∨ (i2 = k ∧ lo ≤ i1 ∧ i1 < m)) s.mem)
      (done_congr (fun i1 i2 _ _ => ⟨Or.inl, fun h => h.elim id fun h => by omega⟩) h)
      (by
        intro m s hm1 hm2 ih
        refine done_step hT (by omega) hk (fun h => h.elim (hP m) fun h => by omega) (fun i1 i2 => ?_) ih
        constructor
        · rintro (h | ⟨h1, h2, h3⟩)
          · exact Or.inl (Or.inl h)
          · by_cases he : i1 = m
            · exact Or.inr ⟨he, h1⟩
            · exact Or.inl (Or.inr ⟨h1, h2, by omega⟩)
        · rintro ((h | ⟨h1, h2, h3⟩) | ⟨h1, h2⟩)
          · exact Or.inl h
          · exact Or.inr ⟨h1, h2, by omega⟩
          · exact Or.inr ⟨h2, by omega, by omega⟩)
  · rw [upLoop_nil hl]
    exact done_congr (fun i1 i2 _ _ => ⟨Or.inl, fun h => h.elim id fun h => by omega⟩) h

omit [Field K] in
/-- The selected lines are done, the others are as before. -/
theorem forLinesSel_done {d : Dims} {ax : Axis} {G : Arrays K → Arrays K}
    {T : Nat → Nat → LState K → LState K} (hT : LineAct d ax G T)
    (g : (Nat → K) × (Nat → K) × (Nat → K)) (sel : Int) (p : Nat) (mem : Arrays K) :
    Done d ax G mem (fun i1 i2 => (sel = 1 → i2 = p) ∧ (sel = 2 → i1 = p)) (forLinesSel d ax g sel p T mem) := by
  unfold forLinesSel selLoop
  generalize hlo2 : (if (sel == 1) = true then p else 0) = lo2
  generalize hhi2 : (if (sel == 1) = true then min (d.outer ax) (p + 1) else d.outer ax) = hi2
  generalize hlo1 : (if (sel == 2) = true then p else 0) = lo1
  generalize hhi1 : (if (sel == 2) = true then min (d.inner ax) (p + 1) else d.inner ax) = hi1
  have b1 : hi1 ≤ d.inner ax := by subst hhi1; split <;> omega
  have b2 : hi2 ≤ d.outer ax := by subst hhi2; split <;> omega
  have c1 : ∀ i, i < d.inner ax → ((lo1 ≤ i ∧ i < hi1) ↔ (sel = 2 → i = p)) := by
    intro i hi
    subst hlo1; subst hhi1
    by_cases h : sel = 2
    · subst h; simp; omega
    · simp [h, hi]
  have c2 : ∀ i, i < d.outer ax → ((lo2 ≤ i ∧ i < hi2) ↔ (sel = 1 → i = p)) := by
    intro i hi
    subst hlo2; subst hhi2
    by_cases h : sel = 1
    · subst h; simp; omega
    · simp [h, hi]
  have key : Done d ax G mem (fun i1 i2 => (lo2 ≤ i2 ∧ i2 < hi2) ∧ lo1 ≤ i1 ∧ i1 < hi1)
      (upLoop lo2 hi2 (fun k s => upLoop lo1 hi1 (fun j s => T j k s) s) ⟨mem, g.1, g.2.1, g.2.2⟩).mem := by
    rcases Nat.le_total lo2 hi2 with hl | hl
    · exact upLoop_inv hl (body := fun k s => upLoop lo1 hi1 (fun j s => T j k s) s)
        (s := ⟨mem, g.1, g.2.1, g.2.2⟩)
        (fun m s => Done d ax G mem (fun i1 i2 => (lo2 ≤ i2 ∧ i2 < m) ∧ lo1 ≤ i1 ∧ i1 < hi1) s.mem)
        ⟨by intro a i1 i2 i _ _ _ h; omega, fun _ _ _ => rfl⟩
        (by
          intro m s hm1 hm2 ih
          refine done_congr (fun i1 i2 _ _ => ?_)
            (done_sel_inner (lo := lo1) hT b1 (show m < d.outer ax by omega) (fun i1 h => by omega) ih)
          constructor
          · rintro (h | h) <;> omega
          · intro h
            by_cases he : i2 = m
            · exact Or.inr ⟨he, h.2⟩
            · exact Or.inl ⟨by omega, h.2⟩)
    · rw [upLoop_nil hl]
      exact ⟨by intro a i1 i2 i _ _ _ h; omega, fun _ _ _ => rfl⟩
  exact done_congr (fun i1 i2 h1 h2 => and_congr (c2 i2 h2) (c1 i1 h1)) key

omit [Field K] in
theorem actsInPlane_of_done {d : Dims} {ax pl : Axis} (hne : ax ≠ pl) {f : (Nat → K) → Nat → K}
    {src dst p : Nat} {mem mem' : Arrays K} (hf : LocalFun f (d.len ax))
    (h : Done d ax (lineG f src dst) mem
      (fun i1 i2 => (planeSel (Spec.axNum ax) (Spec.axNum pl) = 1 → i2 = p) ∧
        (planeSel (Spec.axNum ax) (Spec.axNum pl) = 2 → i1 = p)) mem') :
    Spec.ActsInPlane d pl p ax f src dst mem mem' := by
  have hv : ∀ (m : Arrays K) i j k a, Spec.view d m a i j k = m a (d.idx i j k) := fun _ _ _ _ _ => rfl
  refine ⟨?_, ?_⟩
  · intro i j k hb hc
    rw [hv mem']
    cases ax with
    | one =>
      have := h.1 dst j k i hb.2.1 hb.2.2 hb.1
        (by cases pl <;> simp [planeSel, Spec.axNum, Spec.coord] at hne hc ⊢ <;> exact hc)
      rw [place_one, lineG_dst] at this
      rw [this]
      exact hf _ _ (fun l _ => by unfold lineAt; rw [place_one, hv]) i hb.1
    | two =>
      have := h.1 dst i k j hb.1 hb.2.2 hb.2.1
        (by cases pl <;> simp [planeSel, Spec.axNum, Spec.coord] at hne hc ⊢ <;> exact hc)
      rw [place_two, lineG_dst] at this
      rw [this]
      exact hf _ _ (fun l _ => by unfold lineAt; rw [place_two, hv]) j hb.2.1
    | three =>
      have := h.1 dst i j k hb.1 hb.2.1 hb.2.2
        (by cases pl <;> simp [planeSel, Spec.axNum, Spec.coord] at hne hc ⊢ <;> exact hc)
      rw [place_three, lineG_dst] at this
      rw [this]
      exact hf _ _ (fun l _ => by unfold lineAt; rw [place_three, hv]) k hb.2.2
  · intro a q haq
    by_cases hp : ∃ i1 i2 i, i1 < d.inner ax ∧ i2 < d.outer ax ∧ i < d.len ax ∧
        ((planeSel (Spec.axNum ax) (Spec.axNum pl) = 1 → i2 = p) ∧
        (planeSel (Spec.axNum ax) (Spec.axNum pl) = 2 → i1 = p)) ∧ q = d.place ax i1 i2 i
    · obtain ⟨i1, i2, i, h1, h2, h3, h4, rfl⟩ := hp
      have ha : a ≠ dst := by
        refine haq.resolve_right fun hn => hn ?_
        cases ax with
        | one =>
          rw [place_one]
          refine ⟨i, i1, i2, ⟨h3, h1, h2⟩, rfl, ?_⟩
          cases pl <;> simp [planeSel, Spec.axNum, Spec.coord] at hne h4 ⊢ <;> exact h4
        | two =>
          rw [place_two]
          refine ⟨i1, i, i2, ⟨h1, h3, h2⟩, rfl, ?_⟩
          cases pl <;> simp [planeSel, Spec.axNum, Spec.coord] at hne h4 ⊢ <;> exact h4
        | three =>
          rw [place_three]
          refine ⟨i1, i2, i, ⟨h1, h2, h3⟩, rfl, ?_⟩
          cases pl <;> simp [planeSel, Spec.axNum, Spec.coord] at hne h4 ⊢ <;> exact h4
      rw [h.1 a i1 i2 i h1 h2 h3 h4, lineG_ne _ _ _ _ ha]
      rfl
    · exact h.2 a q fun i1 i2 i h1 h2 h3 h4 he => hp ⟨i1, i2, i, h1, h2, h3, h4, he⟩

theorem axNum_range (ax : Axis) : ¬ (Spec.axNum ax > 3 ∨ Spec.axNum ax < 1) := by
  cases ax <;> decide

theorem axNum_of (ax : Axis) : Axis.of (Spec.axNum ax) = .ok ax := by cases ax <;> rfl

theorem axNum_ne {ax pl : Axis} (h : ax ≠ pl) : Spec.axNum ax ≠ Spec.axNum pl := by
  cases ax <;> cases pl <;> first | exact absurd rfl h | decide

variable (g : (Nat → K) × (Nat → K) × (Nat → K))

/-- **C104.** `spec_analysis1_inplaneN` is the one-dimensional analysis on the lines of the plane and changes
nothing else, not even other planes of the result; the two arrays may be the same. -/
theorem C104_analysis (b : LBox K) (ax pl : Axis) (hne : ax ≠ pl) (h : BoxLinear b ax) (p u c : Nat)
    (mem : Arrays K) :
    ∃ mem', specAnalysis1InPlane g b (Spec.axNum ax) (Spec.axNum pl) p u c mem = .ok mem' ∧
      Spec.ActsInPlane b.d pl p ax (coeffsOp b ax) u c mem mem' := by
  unfold specAnalysis1InPlane coeffsOp
  rw [if_neg (axNum_range pl), if_neg (axNum_ne hne), axNum_of]
  simp only [Res.bind]
  split
  · exact ⟨_, rfl, actsInPlane_of_done hne (funOp_local h.coeffs)
      (forLinesSel_done (lineFun_act _ _ _ h.coeffs u c) g _ p mem)⟩
  · exact ⟨_, rfl, actsInPlane_of_done hne (matOp_local _ _)
      (forLinesSel_done (lineMat_act _ _ _ u c) g _ p mem)⟩

/-- **C104.** The same for `spec_synthesis1_inplaneN`. -/
theorem C104_synthesis (b : LBox K) (ax pl : Axis) (hne : ax ≠ pl) (h : BoxLinear b ax) (p u c : Nat)
    (mem : Arrays K) :
    ∃ mem', specSynthesis1InPlane g b (Spec.axNum ax) (Spec.axNum pl) p u c mem = .ok mem' ∧
      Spec.ActsInPlane b.d pl p ax (evalOp b ax) c u mem mem' := by
  unfold specSynthesis1InPlane evalOp
  rw [if_neg (axNum_range pl), if_neg (axNum_ne hne), axNum_of]
  simp only [Res.bind]
  split
  · exact ⟨_, rfl, actsInPlane_of_done hne (funOp_local h.eval)
      (forLinesSel_done (lineFun_act _ _ _ h.eval c u) g _ p mem)⟩
  · exact ⟨_, rfl, actsInPlane_of_done hne (matOp_local _ _)
      (forLinesSel_done (lineMat_act _ _ _ c u) g _ p mem)⟩

/-- **C104.** All other directions and planes stop the program. -/
theorem C104_abort (b : LBox K) (direc N : Int) (p u c : Nat) (mem : Arrays K)
    (h : ¬ ∃ ax pl, ax ≠ pl ∧ direc = Spec.axNum ax ∧ N = Spec.axNum pl) :
    specAnalysis1InPlane g b direc N p u c mem = .abort ∧
      specSynthesis1InPlane g b direc N p u c mem = .abort := by
  have key : N > 3 ∨ N < 1 ∨ direc = N ∨ Axis.of direc = .abort := by
    by_contra hc
    push Not at hc
    obtain ⟨h1, h2, h3, h4⟩ := hc
    have hN : N = 1 ∨ N = 2 ∨ N = 3 := by omega
    have hd : direc = 1 ∨ direc = 2 ∨ direc = 3 := by
      by_contra hd
      push Not at hd
      exact h4 (by unfold Axis.of; rw [if_neg hd.1, if_neg hd.2.1, if_neg hd.2.2])
    have ex : ∀ n : Int, n = 1 ∨ n = 2 ∨ n = 3 → ∃ ax, n = Spec.axNum ax := by
      rintro n (rfl | rfl | rfl)
      exacts [⟨.one, rfl⟩, ⟨.two, rfl⟩, ⟨.three, rfl⟩]
    obtain ⟨ax, hax⟩ := ex _ hd
    obtain ⟨pl, hpl⟩ := ex _ hN
    exact h ⟨ax, pl, fun e => h3 (by rw [hax, hpl, e]), hax, hpl⟩
  unfold specAnalysis1InPlane specSynthesis1InPlane
  split
  · exact ⟨rfl, rfl⟩
  · rename_i h1
    split
    · exact ⟨rfl, rfl⟩
    · rename_i h2
      have h4 : Axis.of direc = .abort := by
        rcases key with h | h | h | h
        · exact absurd (Or.inl h) h1
        · exact absurd (Or.inr h) h1
        · exact absurd h h2
        · exact h
      rw [h4]
      exact ⟨rfl, rfl⟩

/-! ### Both directions of a plane -/

omit [Field K] in
theorem plane_congr {d : Dims} {ax pl : Axis} (hne : ax ≠ pl) {p : Nat} {f : (Nat → K) → Nat → K}
    (hf : LocalFun f (d.len ax)) {u v : Nat → Nat → Nat → K}
    (h : ∀ i j k, Spec.inBox d i j k → Spec.coord pl i j k = p → u i j k = v i j k) (i j k : Nat)
    (hb : Spec.inBox d i j k) (hc : Spec.coord pl i j k = p) :
    Spec.onLines ax f u i j k = Spec.onLines ax f v i j k := by
  cases ax with
  | one =>
    refine hf _ _ (fun l hl => h l j k ⟨hl, hb.2.1, hb.2.2⟩ ?_) i hb.1
    cases pl <;> first | exact absurd rfl hne | exact hc
  | two =>
    refine hf _ _ (fun l hl => h i l k ⟨hb.1, hl, hb.2.2⟩ ?_) j hb.2.1
    cases pl <;> first | exact absurd rfl hne | exact hc
  | three =>
    refine hf _ _ (fun l hl => h i j l ⟨hb.1, hb.2.1, hl⟩ ?_) k hb.2.2
    cases pl <;> first | exact absurd rfl hne | exact hc

theorem fstAx_ne (pl : Axis) : Spec.fstAx pl ≠ pl := by cases pl <;> decide
theorem sndAx_ne (pl : Axis) : Spec.sndAx pl ≠ pl := by cases pl <;> decide
theorem fst_ne_snd (pl : Axis) : Spec.fstAx pl ≠ Spec.sndAx pl := by cases pl <;> decide

theorem specCoeffsInPlane_steps (b : LBox K) (pl : Axis) (p u c : Nat) (mem : Arrays K) :
    specCoeffsInPlane g b (Spec.axNum pl) p u c mem =
      (specAnalysis1InPlane g b (Spec.axNum (Spec.fstAx pl)) (Spec.axNum pl) p u c mem).bind fun mem =>
        specAnalysis1InPlane g b (Spec.axNum (Spec.sndAx pl)) (Spec.axNum pl) p c c mem := by
  cases pl <;> rfl

theorem specEvalInPlane_steps (b : LBox K) (pl : Axis) (p u c : Nat) (mem : Arrays K) :
    specEvalInPlane g b (Spec.axNum pl) p u c mem =
      (specSynthesis1InPlane g b (Spec.axNum (Spec.fstAx pl)) (Spec.axNum pl) p u c mem).bind fun mem =>
        specSynthesis1InPlane g b (Spec.axNum (Spec.sndAx pl)) (Spec.axNum pl) p u u mem := by
  cases pl <;> rfl

/-- **C104.** `spec_Coeffs_inplaneN` computes the coefficients in the two directions of the plane, from
values in this plane only, and changes nothing else. -/
theorem C104_coeffs (b : LBox K) (h : ∀ ax, BoxLinear b ax) (pl : Axis) (p u c : Nat) (mem : Arrays K) :
    ∃ mem', specCoeffsInPlane g b (Spec.axNum pl) p u c mem = .ok mem' ∧
      (∀ i j k, Spec.inBox b.d i j k → Spec.coord pl i j k = p → Spec.view b.d mem' c i j k =
        Spec.onLines (Spec.sndAx pl) (coeffsOp b (Spec.sndAx pl))
          (Spec.onLines (Spec.fstAx pl) (coeffsOp b (Spec.fstAx pl)) (Spec.view b.d mem u)) i j k) ∧
      ∀ a q, a ≠ c ∨ ¬ Spec.onPlane b.d pl p q → mem' a q = mem a q := by
  obtain ⟨m1, e1, h1⟩ := C104_analysis g b _ pl (fstAx_ne pl) (h _) p u c mem
  obtain ⟨m2, e2, h2⟩ := C104_analysis g b _ pl (sndAx_ne pl) (h _) p c c m1
  refine ⟨m2, ?_, ?_, fun a q haq => by rw [h2.2 a q haq, h1.2 a q haq]⟩
  · rw [specCoeffsInPlane_steps, e1]
    exact e2
  · intro i j k hb hc
    rw [h2.1 i j k hb hc]
    exact plane_congr (sndAx_ne pl) (coeffsOp_local (h _)) h1.1 i j k hb hc

/-- **C104.** `spec_Eval_inplaneN` evaluates in the two directions of the plane. -/
theorem C104_eval (b : LBox K) (h : ∀ ax, BoxLinear b ax) (pl : Axis) (p u c : Nat) (mem : Arrays K) :
    ∃ mem', specEvalInPlane g b (Spec.axNum pl) p u c mem = .ok mem' ∧
      (∀ i j k, Spec.inBox b.d i j k → Spec.coord pl i j k = p → Spec.view b.d mem' u i j k =
        Spec.onLines (Spec.sndAx pl) (evalOp b (Spec.sndAx pl))
          (Spec.onLines (Spec.fstAx pl) (evalOp b (Spec.fstAx pl)) (Spec.view b.d mem c)) i j k) ∧
      ∀ a q, a ≠ u ∨ ¬ Spec.onPlane b.d pl p q → mem' a q = mem a q := by
  obtain ⟨m1, e1, h1⟩ := C104_synthesis g b _ pl (fstAx_ne pl) (h _) p u c mem
  obtain ⟨m2, e2, h2⟩ := C104_synthesis g b _ pl (sndAx_ne pl) (h _) p u u m1
  refine ⟨m2, ?_, ?_, fun a q haq => by rw [h2.2 a q haq, h1.2 a q haq]⟩
  · rw [specEvalInPlane_steps, e1]
    exact e2
  · intro i j k hb hc
    rw [h2.1 i j k hb hc]
    exact plane_congr (sndAx_ne pl) (evalOp_local (h _)) h1.1 i j k hb hc

/-- **C104.** Evaluation after analysis gives back the values in the plane. -/
theorem C104_roundtrip (b : LBox K) (h : ∀ ax, BoxLinear b ax) (hinv : EvalCoeffs b) (pl : Axis)
    (p u c v : Nat) (mem : Arrays K) :
    ∃ mem', ((specCoeffsInPlane g b (Spec.axNum pl) p u c mem).bind fun m =>
        specEvalInPlane g b (Spec.axNum pl) p v c m) = .ok mem' ∧
      ∀ i j k, Spec.inBox b.d i j k → Spec.coord pl i j k = p →
        Spec.view b.d mem' v i j k = Spec.view b.d mem u i j k := by
  obtain ⟨m1, e1, h1, -⟩ := C104_coeffs g b h pl p u c mem
  obtain ⟨m2, e2, h2, -⟩ := C104_eval g b h pl p v c m1
  refine ⟨m2, by rw [e1]; exact e2, fun i j k hb hc => ?_⟩
  rw [h2 i j k hb hc]
  have s1 : ∀ i j k, Spec.inBox b.d i j k → Spec.coord pl i j k = p →
      Spec.onLines (Spec.fstAx pl) (evalOp b (Spec.fstAx pl)) (Spec.view b.d m1 c) i j k =
        Spec.onLines (Spec.sndAx pl) (coeffsOp b (Spec.sndAx pl)) (Spec.view b.d mem u) i j k := by
    intro i j k hb hc
    rw [plane_congr (fstAx_ne pl) (evalOp_local (h _)) h1 i j k hb hc,
      along_congr (evalOp_local (h _)) (fun i j k hb => along_comm (fst_ne_snd pl).symm
        (coeffsOp_isMat (h _)) (coeffsOp_isMat (h _)) _ i j k hb) i j k hb]
    exact along_inverse (hinv _) _ i j k hb
  rw [plane_congr (sndAx_ne pl) (evalOp_local (h _)) s1 i j k hb hc]
  exact along_inverse (hinv _) _ i j k hb

/-! ### Interpolation in a plane -/

/-- The sum in `spec_interpolate_inplaneN`. -/
theorem interpolateInPlane_sum (d : Dims) (basis : Axis → Nat → K → K) (pl : Axis) (p : Nat)
    (mem : Arrays K) (c : Nat) (X1 X2 : K) :
    specInterpolateInPlane d basis (Spec.axNum pl) p (mem c) X1 X2 =
      .ok (∑ y ∈ range (d.len (Spec.sndAx pl)), ∑ x ∈ range (d.len (Spec.fstAx pl)),
        Spec.onPl pl (Spec.view d mem c) p x y * basis (Spec.fstAx pl) x X1 * basis (Spec.sndAx pl) y X2) := by
  cases pl <;>
    · simp only [specInterpolateInPlane, Spec.axNum, upLoop_sum, Spec.fstAx, Spec.sndAx, Spec.onPl, Spec.view,
        Dims.len, Dims.idx, zero_add, range_eq_Ico]
      rfl

theorem coeffs2_sum (b : LBox K) (h : ∀ ax, BoxLinear b ax) (a1 a2 : Axis) (B1 B2 : Nat → K)
    (w : Nat → Nat → K) :
    ∑ y ∈ range (b.d.len a2), ∑ x ∈ range (b.d.len a1),
      coeffsOp b a2 (fun m => coeffsOp b a1 (fun l => w l m) x) y * B1 x * B2 y =
    lineValue b a2 B2 fun m => lineValue b a1 B1 fun l => w l m := by
  have e : (lineValue b a2 B2 fun m => lineValue b a1 B1 fun l => w l m) =
      ∑ x ∈ range (b.d.len a1), lineValue b a2 B2 (fun m => coeffsOp b a1 (fun l => w l m) x) * B1 x :=
    lineValue_sum (h a2) B2 (b.d.len a1) (fun x m => coeffsOp b a1 (fun l => w l m) x) B1
  rw [e, sum_comm]
  refine sum_congr rfl fun x _ => ?_
  unfold lineValue
  rw [sum_mul]
  exact sum_congr rfl fun y _ => by ring

/-- **C104.** `spec_interpolate_inplaneN` after `spec_Coeffs_inplaneN` interpolates the values in the plane
in one direction after the other. -/
theorem C104_interpolate (b : LBox K) (h : ∀ ax, BoxLinear b ax) (basis : Axis → Nat → K → K) (pl : Axis)
    (p u c : Nat) (hp : p < b.d.len pl) (mem : Arrays K) (X1 X2 : K) :
    ((specCoeffsInPlane g b (Spec.axNum pl) p u c mem).bind fun m =>
      specInterpolateInPlane b.d basis (Spec.axNum pl) p (m c) X1 X2) =
    .ok (lineValue b (Spec.sndAx pl) (fun k => basis (Spec.sndAx pl) k X2) fun y =>
      lineValue b (Spec.fstAx pl) (fun k => basis (Spec.fstAx pl) k X1) fun x =>
        Spec.onPl pl (Spec.view b.d mem u) p x y) := by
  obtain ⟨m1, e1, h1, -⟩ := C104_coeffs g b h pl p u c mem
  rw [e1]
  simp only [Res.bind]
  rw [interpolateInPlane_sum, ← coeffs2_sum b h]
  congr 1
  refine sum_congr rfl fun y hy => sum_congr rfl fun x hx => ?_
  congr 2
  rw [mem_range] at hx hy
  cases pl
  · exact h1 p x y ⟨hp, hx, hy⟩ rfl
  · exact h1 x p y ⟨hx, hp, hy⟩ rfl
  · exact h1 x y p ⟨hx, hy, hp⟩ rfl

/-- The three coordinates of a point in the plane. -/
def Spec.inPl {α : Type} (pl : Axis) (X0 X1 X2 : α) : Axis → α :=
  match pl with
  | .one => fun | .one => X0 | .two => X1 | .three => X2
  | .two => fun | .one => X1 | .two => X0 | .three => X2
  | .three => fun | .one => X1 | .two => X2 | .three => X0

/-- **C104.** Interpolation in a plane agrees with `spec_interpolate` at the same point, if in the direction
of the plane the basis functions at its coordinate `X0` reproduce the values on the grid. -/
theorem C104_agrees (b : LBox K) (h : ∀ ax, BoxLinear b ax) (basis : Axis → Nat → K → K) (pl : Axis)
    (gg : Nat → (Nat → K) × (Nat → K) × (Nat → K)) (p u c : Nat) (hp : p < b.d.len pl) (mem : Arrays K)
    (X0 X1 X2 : K) (h0 : ∀ v, lineValue b pl (fun k => basis pl k X0) v = v p) :
    ((specCoeffsInPlane g b (Spec.axNum pl) p u c mem).bind fun m =>
      specInterpolateInPlane b.d basis (Spec.axNum pl) p (m c) X1 X2) =
    .ok (specInterpolate b.d (specCoeffs gg b u c mem c)
      (fun k => basis .one k (Spec.inPl pl X0 X1 X2 .one)) (fun k => basis .two k (Spec.inPl pl X0 X1 X2 .two))
      (fun k => basis .three k (Spec.inPl pl X0 X1 X2 .three))) := by
  rw [C104_interpolate g b h basis pl p u c hp, interpolate_eq gg b h]
  congr 1
  cases pl
  · simp only [Spec.inPl, h0]
    rfl
  · simp only [Spec.inPl]
    have : ∀ k, (lineValue b .two (fun k => basis .two k X0) fun j => lineValue b .one (fun k => basis .one k X1)
        fun i => Spec.view b.d mem u i j k) = lineValue b .one (fun k => basis .one k X1)
        fun i => Spec.view b.d mem u i p k := fun k => h0 _
    simp only [this]
    rfl
  · simp only [Spec.inPl, h0]
    rfl

/-! ### Interpolation along a line -/

theorem interpolateInDir_sum (d : Dims) (basis : Axis → Nat → K → K) (ax : Axis) (i1 i2 : Nat)
    (mem : Arrays K) (c : Nat) (X : K) :
    specInterpolateInDir d basis (Spec.axNum ax) i1 i2 (mem c) X =
      .ok (∑ l ∈ range (d.len ax), Spec.onLn ax (Spec.view d mem c) i1 i2 l * basis ax l X) := by
  cases ax <;>
    · simp only [specInterpolateInDir, Spec.axNum, downLoop_range_sum]
      simp only [Spec.onLn, Spec.view, Dims.len, Dims.idx, zero_add]
      rfl

/-- **C104.** `spec_interpolate_in_dir_at_i1_i2` after `spec_analysis1` interpolates along the line. -/
theorem C104_line (b : LBox K) (ax : Axis) (h : BoxLinear b ax) (basis : Axis → Nat → K → K)
    (gg : Nat → (Nat → K) × (Nat → K) × (Nat → K)) (u c i1 i2 : Nat) (h1 : i1 < b.d.inner ax)
    (h2 : i2 < b.d.outer ax) (mem : Arrays K) (X : K) :
    specInterpolateInDir b.d basis (Spec.axNum ax) i1 i2 (specAnalysis1 gg b ax u c mem c) X =
      .ok (lineValue b ax (fun k => basis ax k X) (Spec.onLn ax (Spec.view b.d mem u) i1 i2)) := by
  rw [interpolateInDir_sum]
  congr 1
  refine sum_congr rfl fun l hl => ?_
  rw [mem_range] at hl
  have ha := (C41_analysis gg b ax h u c mem).1
  cases ax
  · exact congrArg (· * _) (ha l i1 i2 ⟨hl, h1, h2⟩)
  · exact congrArg (· * _) (ha i1 l i2 ⟨h1, hl, h2⟩)
  · exact congrArg (· * _) (ha i1 i2 l ⟨h1, h2, hl⟩)

/-- **C104.** The same after `spec_analysis1_inplaneN` for the lines of the plane. -/
theorem C104_line_inplane (b : LBox K) (ax pl : Axis) (hne : ax ≠ pl) (h : BoxLinear b ax)
    (basis : Axis → Nat → K → K) (p u c i1 i2 : Nat) (h1 : i1 < b.d.inner ax) (h2 : i2 < b.d.outer ax)
    (hp : Spec.onLn ax (Spec.coord pl) i1 i2 0 = p) (mem : Arrays K) (X : K) :
    ((specAnalysis1InPlane g b (Spec.axNum ax) (Spec.axNum pl) p u c mem).bind fun m =>
      specInterpolateInDir b.d basis (Spec.axNum ax) i1 i2 (m c) X) =
      .ok (lineValue b ax (fun k => basis ax k X) (Spec.onLn ax (Spec.view b.d mem u) i1 i2)) := by
  obtain ⟨m, e, ha, -⟩ := C104_analysis g b ax pl hne h p u c mem
  rw [e]
  simp only [Res.bind]
  rw [interpolateInDir_sum]
  congr 1
  refine sum_congr rfl fun l hl => ?_
  rw [mem_range] at hl
  cases ax
  · exact congrArg (· * _) (ha l i1 i2 ⟨hl, h1, h2⟩
      (by cases pl <;> first | exact absurd rfl hne | exact hp))
  · exact congrArg (· * _) (ha i1 l i2 ⟨h1, hl, h2⟩
      (by cases pl <;> first | exact absurd rfl hne | exact hp))
  · exact congrArg (· * _) (ha i1 i2 l ⟨h1, h2, hl⟩
      (by cases pl <;> first | exact absurd rfl hne | exact hp))

/-! ### The bases of the code -/

theorem stdBox_at (D : Axis → BDir) (hD : ∀ ax, (D ax).good) (fft : Axis → Bool) (W F : Axis → Nat → ℝ) (ax : Axis)
    (hg : (D ax).gridOk) (i : Nat) (hi : i < (D ax).n) (v : Nat → ℝ) :
    lineValue (stdBox D fft W F) ax (fun l => (D ax).basis l ((D ax).point i)) v = v i := by
  rw [← (D ax).at_point (hD ax) hg i hi v (fun _ => 0)]
  unfold lineValue
  rw [show (stdBox D fft W F).d.len ax = (D ax).n from dirDims_len D ax]
  exact sum_congr rfl fun k hk => by
    rw [stdBox_coeffsOp D fft W F ax _ (fun _ => 0) k (mem_range.1 hk)]

/-- **C104.** Interpolation in a plane is exact for functions that are, as functions of each of the two
coordinates of the plane, in the space of the direction (polynomials of degree below the number of
points, trigonometric sums). Values in other planes do not matter. -/
theorem C104_exact (gr : (Nat → ℝ) × (Nat → ℝ) × (Nat → ℝ)) (D : Axis → BDir) (hD : ∀ ax, (D ax).good)
    (fft : Axis → Bool) (W F : Axis → Nat → ℝ) (pl : Axis) (p u c : Nat) (hp : p < (D pl).n) (mem : Arrays ℝ)
    (P : ℝ → ℝ → ℝ) (h1 : ∀ Y, (D (Spec.fstAx pl)).space fun X => P X Y)
    (h2 : ∀ X, (D (Spec.sndAx pl)).space fun Y => P X Y)
    (hu : ∀ x y, x < (D (Spec.fstAx pl)).n → y < (D (Spec.sndAx pl)).n →
      Spec.onPl pl (Spec.view (dirDims D) mem u) p x y =
        P ((D (Spec.fstAx pl)).point x) ((D (Spec.sndAx pl)).point y))
    (X1 X2 : ℝ) (hX1 : (D (Spec.fstAx pl)).okAt X1) (hX2 : (D (Spec.sndAx pl)).okAt X2) :
    ((specCoeffsInPlane gr (stdBox D fft W F) (Spec.axNum pl) p u c mem).bind fun m =>
      specInterpolateInPlane (dirDims D) (fun ax k X => (D ax).basis k X) (Spec.axNum pl) p (m c) X1 X2) =
    .ok (P X1 X2) := by
  have hl := stdBox_linear D fft W F
  have h := C104_interpolate gr (stdBox D fft W F) hl (fun ax k X => (D ax).basis k X) pl p u c
    (by rw [show (stdBox D fft W F).d.len pl = (D pl).n from dirDims_len D pl]; exact hp) mem X1 X2
  refine h.trans ?_
  congr 1
  refine Eq.trans ?_ (exact2 (stdBox_exact D hD fft W F _ X1 hX1) (stdBox_exact D hD fft W F _ X2 hX2)
    (D (Spec.sndAx pl)).space_closed h1 h2)
  exact lineValue_local (hl _) _ _ _ fun y hy => lineValue_local (hl _) _ _ _ fun x hx =>
    hu x y (by rwa [← dirDims_len D]) (by rwa [← dirDims_len D])

/-- **C104.** Interpolation along a line is exact for functions in the space of the direction. -/
theorem C104_line_exact (gg : Nat → (Nat → ℝ) × (Nat → ℝ) × (Nat → ℝ)) (D : Axis → BDir)
    (hD : ∀ ax, (D ax).good) (fft : Axis → Bool) (W F : Axis → Nat → ℝ) (ax : Axis) (u c i1 i2 : Nat)
    (h1 : i1 < (dirDims D).inner ax) (h2 : i2 < (dirDims D).outer ax) (mem : Arrays ℝ) (P : ℝ → ℝ)
    (hP : (D ax).space P)
    (hu : ∀ l, l < (D ax).n → Spec.onLn ax (Spec.view (dirDims D) mem u) i1 i2 l = P ((D ax).point l))
    (X : ℝ) (hX : (D ax).okAt X) :
    specInterpolateInDir (dirDims D) (fun ax k X => (D ax).basis k X) (Spec.axNum ax) i1 i2
      (specAnalysis1 gg (stdBox D fft W F) ax u c mem c) X = .ok (P X) := by
  have hl := stdBox_linear D fft W F
  refine (C104_line (stdBox D fft W F) ax (hl ax) (fun ax k X => (D ax).basis k X) gg u c i1 i2 h1 h2
    mem X).trans ?_
  congr 1
  refine Eq.trans ?_ ((stdBox_exact D hD fft W F ax X hX).exact P hP)
  exact lineValue_local (hl _) _ _ _ fun l hl' => hu l (by rwa [← dirDims_len D])

/-- **C104.** In a plane of the grid interpolation in the plane and `spec_interpolate` give the same. -/
theorem C104_agrees_std (gr : (Nat → ℝ) × (Nat → ℝ) × (Nat → ℝ)) (gg : Nat → (Nat → ℝ) × (Nat → ℝ) × (Nat → ℝ))
    (D : Axis → BDir) (hD : ∀ ax, (D ax).good) (fft : Axis → Bool) (W F : Axis → Nat → ℝ) (pl : Axis)
    (hg : (D pl).gridOk) (p u c : Nat) (hp : p < (D pl).n) (mem : Arrays ℝ) (X1 X2 : ℝ) :
    let X := Spec.inPl pl ((D pl).point p) X1 X2
    ((specCoeffsInPlane gr (stdBox D fft W F) (Spec.axNum pl) p u c mem).bind fun m =>
      specInterpolateInPlane (dirDims D) (fun ax k X => (D ax).basis k X) (Spec.axNum pl) p (m c) X1 X2) =
    .ok (specInterpolate (dirDims D) (specCoeffs gg (stdBox D fft W F) u c mem c)
      (fun k => (D .one).basis k (X .one)) (fun k => (D .two).basis k (X .two))
      (fun k => (D .three).basis k (X .three))) :=
  C104_agrees gr (stdBox D fft W F) (stdBox_linear D fft W F) (fun ax k X => (D ax).basis k X) pl gg p u c
    (by rw [show (stdBox D fft W F).d.len pl = (D pl).n from dirDims_len D pl]; exact hp) mem _ X1 X2
    (stdBox_at D hD fft W F pl hg p hp)

/-! ### From one grid to another -/

omit [Field K] in
theorem foldBoxes {A : Type} (on : Nat → Bool) (f : Nat → A → A) (l : List Nat) (hl : l.Nodup) (m : Nat → A)
    (b : Nat) :
    l.foldl (fun m b => if on b then aset m b (f b (m b)) else m) m b =
      if b ∈ l ∧ on b = true then f b (m b) else m b := by
  induction l generalizing m with
  | nil => simp
  | cons a l ih =>
    rw [List.nodup_cons] at hl
    rw [List.foldl_cons, ih hl.2]
    by_cases hab : b = a
    · subst hab
      by_cases ho : on b = true
      · simp [hl.1, ho]
      · simp [ho]
    · by_cases ho : on a = true
      · simp [ho, hab, aset_ne _ _ hab]
      · simp [ho, hab]

omit [Field K] in
/-- The loop over the points of a box. -/
theorem varLoop (n v iX iY iZ : Nat) (hX : iX ≠ v) (hY : iY ≠ v) (hZ : iZ ≠ v) (F : K → K → K → K) (m : Arrays K) :
    upLoop 0 n (fun i (mb : Arrays K) => aset mb v (aset (mb v) i (F (mb iX i) (mb iY i) (mb iZ i)))) m =
      fun a i => if a = v ∧ i < n then F (m iX i) (m iY i) (m iZ i) else m a i := by
  refine upLoop_inv (Nat.zero_le n) (body := fun i (mb : Arrays K) =>
      aset mb v (aset (mb v) i (F (mb iX i) (mb iY i) (mb iZ i)))) (s := m)
    (fun q mm => mm = fun a i => if a = v ∧ i < q then F (m iX i) (m iY i) (m iZ i) else m a i) (by simp) ?_
  intro q mm _ _ ih
  subst ih
  simp only [hX, hY, hZ, false_and, if_false]
  funext a i
  by_cases ha : a = v
  · subst ha
    rw [aset_self]
    by_cases hi : i = q
    · subst hi; rw [aset_self, if_pos ⟨rfl, by omega⟩]
    · rw [aset_ne _ _ hi]
      by_cases hq : i < q
      · simp [hq, show i < q + 1 by omega]
      · simp [hq, show ¬ i < q + 1 by omega]
  · rw [aset_ne _ _ ha, if_neg (fun h => ha h.1), if_neg (fun h => ha h.1)]

/-- **C104.** `spec_interpolate_Var_from_grid2_to_grid1`: if a box is active and has the variable in both
grids, then after the call the variable at every point of the box of grid 1 is the function on grid 2 at
the coordinates of this point. On grid 1 nothing else changes. -/
theorem C104_var (g : Nat → Nat → (Nat → ℝ) × (Nat → ℝ) × (Nat → ℝ)) (bs1 bs2 : List Nat) (n1 : bs1.Nodup)
    (n2 : bs2.Nodup) (box1 box2 : Nat → IBox ℝ) (iX iY iZ vind cind : Nat) (hX : iX ≠ vind) (hY : iY ≠ vind)
    (hZ : iZ ≠ vind) (m1 m2 : Nat → Arrays ℝ) (D : Nat → Axis → BDir) (hD : ∀ b ax, (D b ax).good)
    (fft : Nat → Axis → Bool) (W F : Nat → Axis → Nat → ℝ)
    (hbox : ∀ b, (box2 b).lb = stdBox (D b) (fft b) (W b) (F b) ∧ (box2 b).basis = fun ax k X => (D b ax).basis k X)
    (P : Nat → ℝ → ℝ → ℝ → ℝ)
    (hP : ∀ b, Separately (D b .one).space (D b .two).space (D b .three).space (P b))
    (hm : ∀ b i j k, Spec.inBox (dirDims (D b)) i j k → Spec.view (dirDims (D b)) (m2 b) vind i j k =
      P b ((D b .one).point i) ((D b .two).point j) ((D b .three).point k)) :
    let r := interpolateVar g bs1 bs2 box1 box2 iX iY iZ vind cind m1 m2
    let has b i := b ∈ bs1 ∧ (box1 b).on = true ∧
      i < (box1 b).lb.d.n1 * (box1 b).lb.d.n2 * (box1 b).lb.d.n3
    (∀ b i, has b i → b ∈ bs2 → (box2 b).on = true → (D b .one).okAt (m1 b iX i) → (D b .two).okAt (m1 b iY i) →
      (D b .three).okAt (m1 b iZ i) → r.1 b vind i = P b (m1 b iX i) (m1 b iY i) (m1 b iZ i)) ∧
    ∀ b a i, a ≠ vind ∨ ¬ has b i → r.1 b a i = m1 b a i := by
  intro r has
  have e2 : ∀ b, b ∈ bs2 → (box2 b).on = true → r.2 b = specCoeffs (g b) (box2 b).lb vind cind (m2 b) := by
    intro b hb ho
    change bs2.foldl (fun m b => if (box2 b).on then aset m b (specCoeffs (g b) (box2 b).lb vind cind (m b)) else m)
      m2 b = _
    rw [foldBoxes (fun b => (box2 b).on) (fun b => specCoeffs (g b) (box2 b).lb vind cind) bs2 n2 m2 b,
      if_pos ⟨hb, ho⟩]
  have e1 : ∀ b, r.1 b = if b ∈ bs1 ∧ (box1 b).on = true then fun a i =>
      if a = vind ∧ i < (box1 b).lb.d.n1 * (box1 b).lb.d.n2 * (box1 b).lb.d.n3 then
        specInterpolate (box2 b).lb.d (r.2 b cind) (fun k => (box2 b).basis .one k (m1 b iX i))
          (fun k => (box2 b).basis .two k (m1 b iY i)) (fun k => (box2 b).basis .three k (m1 b iZ i))
      else m1 b a i else m1 b := by
    intro b
    refine (foldBoxes (fun b => (box1 b).on) (fun b mb =>
      upLoop 0 ((box1 b).lb.d.n1 * (box1 b).lb.d.n2 * (box1 b).lb.d.n3) (fun i mb =>
        aset mb vind (aset (mb vind) i (specInterpolate (box2 b).lb.d (r.2 b cind)
          (fun k => (box2 b).basis .one k (mb iX i)) (fun k => (box2 b).basis .two k (mb iY i))
          (fun k => (box2 b).basis .three k (mb iZ i))))) mb) bs1 n1 m1 b).trans ?_
    rw [varLoop _ vind iX iY iZ hX hY hZ (fun X Y Z => specInterpolate (box2 b).lb.d (r.2 b cind)
          (fun k => (box2 b).basis .one k X) (fun k => (box2 b).basis .two k Y)
          (fun k => (box2 b).basis .three k Z))]
  refine ⟨?_, ?_⟩
  · rintro b i ⟨h1, h2, h3⟩ hb ho o1 o2 o3
    rw [e1 b, if_pos ⟨h1, h2⟩]
    simp only [true_and, if_pos h3]
    rw [e2 b hb ho, (hbox b).1, (hbox b).2]
    exact C38_interpolate (g b) (D b) (hD b) (fft b) (W b) (F b) vind cind (m2 b) (P b) (hP b) (hm b) _ _ _ o1 o2 o3
  · intro b a i h
    rw [e1 b]
    split
    · rename_i hb
      simp only
      rw [if_neg]
      rintro ⟨ha, hi⟩
      exact h.elim (fun h => h ha) fun h => h ⟨hb.1, hb.2, hi⟩
    · rfl

/-! ### Examples -/

/-- A box of 2 × 3 × 2 points; the matrices add up the values of a line, the last entry is doubled. -/
def exPlane : LBox ℚ where
  d := ⟨2, 3, 2⟩
  coeffs := fun _ _ u _ => u
  deriv := fun _ _ u _ => u
  eval := fun _ _ u _ => u
  fft := fun _ => false
  D := fun _ _ => 0
  DD := fun _ _ => 0
  F := fun _ _ => 0
  Mcoeffs := fun ax p => match ax with
    | .one => if p = 3 then 2 else 1
    | .two => if p = 8 then 2 else 1
    | .three => if p = 3 then 2 else 1
  Meval := fun _ _ => 0

/-- The plane `j = 1` has the points 2, 3, 8, 9; only they are written. -/
example :
    ((specCoeffsInPlane (fun _ => 7, fun _ => 7, fun _ => 7) exPlane 2 1 0 1 (fun a p => if a = 0 then (p : ℚ) else -1)).bind
      fun m => .ok ((List.range 13).map (m 1))) =
    .ok [-1, -1, 22, 34, -1, -1, -1, -1, 39, 60, -1, -1, -1] := by decide +kernel

/-- Interpolation in this plane. -/
example :
    ((specCoeffsInPlane (fun _ => 7, fun _ => 7, fun _ => 7) exPlane 2 1 0 1 (fun a p => if a = 0 then (p : ℚ) else -1)).bind
      fun m => specInterpolateInPlane exPlane.d (fun ax k X => match ax with
        | .one => X ^ k | .two => 0 | .three => (X + 1) ^ k) 2 1 (m 1) 2 3) =
    .ok 726 := by decide +kernel

/-- Interpolation along the line `i = 1`, `k = 1`. -/
example :
    specInterpolateInDir exPlane.d (fun ax k X => if ax = .two then X ^ k else 0) 2 1 1 (fun p => (p : ℚ)) 2 = .ok 69 := by
  decide +kernel

end Sgrid
