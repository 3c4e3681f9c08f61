import Verif.Model.FaceSplit
import Verif.Props.Boundary

/-! C145: the points of a face of a box are split into bfaces. -/

namespace Sgrid

namespace Spec

/-- The bface `x` is where a point belongs: the smallest other box in which the place outside of it is found, or no
box. -/
def Owner (nboxes b : Nat) (hit : Nat → Bool) (ob : Int) : Prop :=
  (ob = -1 ∧ ∀ o, o < nboxes → o ≠ b → hit o = false) ∨
  (∃ o : Nat, ob = o ∧ o < nboxes ∧ o ≠ b ∧ hit o = true ∧ ∀ o', o' < o → o' ≠ b → hit o' = false)

/-- The last plane of a direction for odd faces, the first one for even faces. -/
def onBoxFace (d : Dims) (f : Nat) (q : Nat) : Prop :=
  onPlane d (faceAxis f) (if f % 2 = 1 then d.len (faceAxis f) - 1 else 0) q

end Spec

open Spec

theorem findOther_mem (hit : Nat → Bool) (l : List Nat) :
    findOther hit l = -1 ∨ ∃ o ∈ l, findOther hit l = (o : Int) := by
  induction l with
  | nil => exact .inl rfl
  | cons a l ih =>
    unfold findOther
    split
    · exact .inr ⟨a, List.mem_cons_self, rfl⟩
    · rcases ih with h | ⟨o, h1, h2⟩
      · exact .inl h
      · exact .inr ⟨o, List.mem_cons_of_mem _ h1, h2⟩

/-- The box that is found is the first one of a sorted list. -/
theorem findOther_owner (hit : Nat → Bool) {l : List Nat} (hl : l.Pairwise (· < ·)) :
    (findOther hit l = -1 ∧ ∀ o ∈ l, hit o = false) ∨
    (∃ o ∈ l, findOther hit l = (o : Int) ∧ hit o = true ∧ ∀ o' ∈ l, o' < o → hit o' = false) := by
  induction l with
  | nil => exact .inl ⟨rfl, by simp⟩
  | cons a l ih =>
    obtain ⟨h1, h2⟩ := List.pairwise_cons.1 hl
    unfold findOther
    by_cases ha : hit a = true
    · rw [if_pos ha]
      refine .inr ⟨a, List.mem_cons_self, rfl, ha, fun o' ho' hlt => ?_⟩
      rcases List.mem_cons.1 ho' with e | e
      · omega
      · have := h1 o' e; omega
    · rw [if_neg ha]
      have ha' : hit a = false := by simpa using ha
      rcases ih h2 with ⟨e1, e2⟩ | ⟨o, ho, e1, e2, e3⟩
      · refine .inl ⟨e1, fun o ho => ?_⟩
        rcases List.mem_cons.1 ho with e | e
        · rw [e]; exact ha'
        · exact e2 o e
      · refine .inr ⟨o, List.mem_cons_of_mem _ ho, e1, e2, fun o' ho' hlt => ?_⟩
        rcases List.mem_cons.1 ho' with e | e
        · rw [e]; exact ha'
        · exact e3 o' e hlt

theorem addToFace_skip {ob : Int} {f ijk : Nat} {bf rest : List FaceRec} (h : ∀ x ∈ bf, x.f ≠ f) :
    addToFace ob f ijk (bf ++ rest) = bf ++ addToFace ob f ijk rest := by
  induction bf with
  | nil => rfl
  | cons x bf ih =>
    rw [List.cons_append, addToFace, if_neg (fun e => h x List.mem_cons_self e.2),
      ih fun y hy => h y (List.mem_cons_of_mem _ hy), List.cons_append]

theorem addToFace_map {ob : Int} {f ijk : Nat} {obs : List Int} (hn : obs.Nodup) (hob : ob ∈ obs)
    {g : Int → FaceRec} (hg : ∀ o, (g o).ob = o ∧ (g o).f = f) :
    addToFace ob f ijk (obs.map g) = obs.map fun o =>
      if o = ob then { g o with fpts := some ((g o).fpts.getD [] ++ [ijk]) } else g o := by
  induction obs with
  | nil => simp at hob
  | cons a obs ih =>
    obtain ⟨h1, h2⟩ := List.nodup_cons.1 hn
    rw [List.map_cons, List.map_cons, addToFace]
    by_cases e : a = ob
    · subst e
      rw [if_pos (hg a), if_pos rfl]
      congr 1
      refine List.map_congr_left fun o ho => ?_
      have : o ≠ a := fun e => h1 (by rw [← e]; exact ho)
      rw [if_neg this]
    · rw [if_neg (fun x => e ((hg a).1.symm.trans x.1)), if_neg e]
      congr 1
      exact ih h2 (by
        rcases List.mem_cons.1 hob with x | x
        · exact absurd x.symm e
        · exact x)

/-- The points of a bface as they are stored. -/
def storedPts (l : List Nat) : Option (List Nat) := if l = [] then none else some l

theorem storedPts_add (l : List Nat) (q : Nat) : some ((storedPts l).getD [] ++ [q]) = storedPts (l ++ [q]) := by
  unfold storedPts
  by_cases h : l = []
  · simp [h]
  · simp [h]

/-- All points are put where they belong. -/
theorem addAll {f : Nat} {bf : List FaceRec} (hbf : ∀ x ∈ bf, x.f ≠ f) {obs : List Int} (hn : obs.Nodup)
    {own : Nat → Int} (ho : ∀ q, own q ∈ obs) (pts done : List Nat) :
    pts.foldl (fun bf ijk => addToFace (own ijk) f ijk bf)
      (bf ++ obs.map fun o => ⟨f, o, false, storedPts (done.filter fun q => own q = o)⟩) =
    bf ++ obs.map fun o => ⟨f, o, false, storedPts ((done ++ pts).filter fun q => own q = o)⟩ := by
  induction pts generalizing done with
  | nil => simp
  | cons q pts ih =>
    rw [List.foldl_cons, addToFace_skip hbf, addToFace_map hn (ho q)
      (g := fun o => ⟨f, o, false, storedPts (done.filter fun q => own q = o)⟩) (fun o => ⟨rfl, rfl⟩)]
    have e : (obs.map fun o => if o = own q then
        ({ f := f, ob := o, outer := false, fpts := some ((storedPts (done.filter fun q => own q = o)).getD [] ++ [q]) } :
          FaceRec)
        else ⟨f, o, false, storedPts (done.filter fun q => own q = o)⟩) =
        obs.map fun o => ⟨f, o, false, storedPts ((done ++ [q]).filter fun q => own q = o)⟩ := by
      refine List.map_congr_left fun o _ => ?_
      rw [List.filter_append]
      by_cases eo : o = own q
      · rw [if_pos eo, storedPts_add]
        simp [eo]
      · rw [if_neg eo]
        have : ¬ own q = o := fun x => eo x.symm
        simp [this]
    rw [e, ih (done ++ [q]), List.append_assoc]
    rfl

theorem foldl_addEmpty (f : Nat) (l : List Nat) (bf : List FaceRec) :
    l.foldl (fun bf i => bf ++ [⟨f, (i : Int), false, none⟩]) bf = bf ++ l.map fun i => ⟨f, (i : Int), false, none⟩ := by
  induction l generalizing bf with
  | nil => simp
  | cons a l ih => rw [List.foldl_cons, ih]; simp

/-- The other boxes, and -1 for none. -/
def otherList (nboxes b : Nat) : List Int := List.map (fun i : Nat => (i : Int)) ((List.range nboxes).filter fun i => i ≠ b) ++ [-1]

theorem otherList_nodup (nboxes b : Nat) : (otherList nboxes b).Nodup := by
  unfold otherList
  rw [List.nodup_append]
  refine ⟨?_, by simp, ?_⟩
  · exact ((List.nodup_range).filter _).map fun a c h => by simpa using h
  · intro a ha c hc e
    simp only [List.mem_map] at ha
    obtain ⟨i, -, rfl⟩ := ha
    simp only [List.mem_singleton] at hc
    omega

/-- The face as a whole: what set_bfaces_on_boxface appends to the list. -/
theorem setFacesOn_eq {nboxes b : Nat} {d : Dims} {hit : Nat → Nat → Bool} {bf : List FaceRec} {f : Nat}
    (hbf : ∀ x ∈ bf, x.f ≠ f) (hs : ∀ x ∈ bf, x.fpts.isSome = true) :
    (setFacesOn nboxes b d hit bf f).1 = bf ++
      ((otherList nboxes b).map fun o => (⟨f, o, false, storedPts ((planeN d (faceAxis f)
        ((d.len (faceAxis f) - 1) * (f % 2))).filter fun q =>
          findOther (fun o => hit o q) ((List.range nboxes).filter fun i => i ≠ b) = o)⟩ : FaceRec)).filter
        fun x => x.fpts.isSome := by
  have h0 := addAll hbf (otherList_nodup nboxes b)
    (own := fun q => findOther (fun o => hit o q) ((List.range nboxes).filter fun i => i ≠ b)) (fun q => by
      rcases findOther_mem (fun o => hit o q) ((List.range nboxes).filter fun i => i ≠ b) with h | ⟨o, h1, h2⟩
      · rw [h]; simp [otherList]
      · rw [h2]
        exact List.mem_append_left _ (List.mem_map.2 ⟨o, h1, rfl⟩))
    (planeN d (faceAxis f) ((d.len (faceAxis f) - 1) * (f % 2))) []
  unfold setFacesOn
  simp only [foldl_addEmpty]
  have e : (bf ++ List.map (fun i : Nat => (⟨f, (i : Int), false, none⟩ : FaceRec))
      ((List.range nboxes).filter fun i => i ≠ b)) ++ [⟨f, -1, false, none⟩] = bf ++ (otherList nboxes b).map fun o =>
        ⟨f, o, false, storedPts (([] : List Nat).filter fun q =>
          findOther (fun o => hit o q) ((List.range nboxes).filter fun i => i ≠ b) = o)⟩ := by
    simp [otherList, storedPts, List.map_map, Function.comp_def]
  rw [e, h0, List.filter_append, List.filter_eq_self.2 hs, List.nil_append]

theorem lastPlane {d : Dims} {f : Nat} (hl : 0 < d.len (faceAxis f)) (q : Nat) :
    q ∈ planeN d (faceAxis f) ((d.len (faceAxis f) - 1) * (f % 2)) ↔ onBoxFace d f q := by
  have hp : (d.len (faceAxis f) - 1) * (f % 2) = if f % 2 = 1 then d.len (faceAxis f) - 1 else 0 := by
    rcases Nat.mod_two_eq_zero_or_one f with h | h <;> simp [h]
  unfold planeN onBoxFace
  rw [hp]
  have hlt : (if f % 2 = 1 then d.len (faceAxis f) - 1 else 0) < d.len (faceAxis f) := by split <;> omega
  rw [if_pos hlt, mem_planePts hlt]

/-- **C145** (the six faces). -/
theorem C145_faces (d : Dims) (q : Nat) :
    (onBoxFace d 0 q ↔ onPlane d .one 0 q) ∧ (onBoxFace d 1 q ↔ onPlane d .one (d.n1 - 1) q) ∧
    (onBoxFace d 2 q ↔ onPlane d .two 0 q) ∧ (onBoxFace d 3 q ↔ onPlane d .two (d.n2 - 1) q) ∧
    (onBoxFace d 4 q ↔ onPlane d .three 0 q) ∧ (onBoxFace d 5 q ↔ onPlane d .three (d.n3 - 1) q) :=
  ⟨Iff.rfl, Iff.rfl, Iff.rfl, Iff.rfl, Iff.rfl, Iff.rfl⟩

theorem planeN_nodup (d : Dims) (ax : Axis) (p : Nat) : (planeN d ax p).Nodup := by
  unfold planeN
  split
  · rename_i h; exact planePts_nodup h
  · exact List.nodup_nil

theorem owner_iff {nboxes b : Nat} (hit : Nat → Bool) (ob : Int) :
    findOther hit ((List.range nboxes).filter fun i => i ≠ b) = ob ↔ Owner nboxes b hit ob := by
  have hsort : ((List.range nboxes).filter fun i => i ≠ b).Pairwise (· < ·) := List.pairwise_lt_range.filter _
  have hmem : ∀ o, o ∈ (List.range nboxes).filter (fun i => i ≠ b) ↔ o < nboxes ∧ o ≠ b := fun o => by simp
  have uniq : ∀ {x y : Int}, Owner nboxes b hit x → Owner nboxes b hit y → x = y := by
    rintro x y (⟨rfl, hx⟩ | ⟨o, rfl, h1, h2, h3, h4⟩) (⟨rfl, hy⟩ | ⟨o', rfl, h1', h2', h3', h4'⟩)
    · rfl
    · rw [hx o' h1' h2'] at h3'; cases h3'
    · rw [hy o h1 h2] at h3; cases h3
    · rcases Nat.lt_trichotomy o o' with h | h | h
      · rw [h4' o h h2] at h3; cases h3
      · rw [h]
      · rw [h4 o' h h2'] at h3'; cases h3'
  have main : Owner nboxes b hit (findOther hit ((List.range nboxes).filter fun i => i ≠ b)) := by
    rcases findOther_owner hit hsort with ⟨e1, e2⟩ | ⟨o, ho, e1, e2, e3⟩
    · exact .inl ⟨e1, fun o h1 h2 => e2 o ((hmem o).2 ⟨h1, h2⟩)⟩
    · obtain ⟨h1, h2⟩ := (hmem o).1 ho
      exact .inr ⟨o, e1, h1, h2, e2, fun o' h3 h4 => e3 o' ((hmem o').2 ⟨by omega, h4⟩) h3⟩
  exact ⟨fun h => h ▸ main, fun h => uniq main h⟩

namespace Spec

/-- A bface of the face `f` that was made from the points of this face. -/
def MadeFace (nboxes b : Nat) (d : Dims) (hit : Nat → Nat → Bool) (f : Nat) (x : FaceRec) : Prop :=
  x.f = f ∧ x.outer = false ∧ ∃ l, x.fpts = some l ∧ l ≠ [] ∧ l.Nodup ∧
    ∀ q, q ∈ l ↔ onBoxFace d f q ∧ Owner nboxes b (fun o => hit o q) x.ob

end Spec

/-- **C145**. set_bfaces_on_boxface appends bfaces to the list: each has the points of the face that belong to its other
box (all of them, and at least one), no two have the same other box, and every point of the face is in one of them. The
value returned is their number, which is not 0. -/
theorem C145_split {nboxes b : Nat} {d : Dims} {hit : Nat → Nat → Bool} {bf : List FaceRec} {f : Nat}
    (hbf : ∀ x ∈ bf, x.f ≠ f) (hs : ∀ x ∈ bf, x.fpts.isSome = true) (h1 : 0 < d.n1) (h2 : 0 < d.n2) (h3 : 0 < d.n3) :
    ∃ new, setFacesOn nboxes b d hit bf f = (bf ++ new, (new.length : Int)) ∧ new ≠ [] ∧
      new.Pairwise (fun x y => x.ob ≠ y.ob) ∧ (∀ x ∈ new, MadeFace nboxes b d hit f x) ∧
      ∀ q, onBoxFace d f q → ∃ x ∈ new, ∃ l, x.fpts = some l ∧ q ∈ l := by
  have hl : 0 < d.len (faceAxis f) := by
    cases faceAxis f <;> simpa [Dims.len]
  have he := setFacesOn_eq (nboxes := nboxes) (b := b) (d := d) (hit := hit) hbf hs
  set new := ((otherList nboxes b).map fun o => (⟨f, o, false, storedPts ((planeN d (faceAxis f)
        ((d.len (faceAxis f) - 1) * (f % 2))).filter fun q =>
          findOther (fun o => hit o q) ((List.range nboxes).filter fun i => i ≠ b) = o)⟩ : FaceRec)).filter
        fun x => x.fpts.isSome with hnew
  have hall : ∀ q, onBoxFace d f q → ∃ x ∈ new, ∃ l, x.fpts = some l ∧ q ∈ l := fun q hq => by
    have hq' := (lastPlane hl q).2 hq
    have hne : (planeN d (faceAxis f) ((d.len (faceAxis f) - 1) * (f % 2))).filter (fun q' =>
        findOther (fun o => hit o q') ((List.range nboxes).filter fun i => i ≠ b) =
          findOther (fun o => hit o q) ((List.range nboxes).filter fun i => i ≠ b)) ≠ [] := by
      apply List.ne_nil_of_mem (a := q)
      exact List.mem_filter.2 ⟨hq', by simp⟩
    refine ⟨⟨f, findOther (fun o => hit o q) ((List.range nboxes).filter fun i => i ≠ b), false, _⟩,
      List.mem_filter.2 ⟨List.mem_map.2 ⟨_, ?_, rfl⟩, ?_⟩,
      (planeN d (faceAxis f) ((d.len (faceAxis f) - 1) * (f % 2))).filter (fun q' =>
        findOther (fun o => hit o q') ((List.range nboxes).filter fun i => i ≠ b) =
          findOther (fun o => hit o q) ((List.range nboxes).filter fun i => i ≠ b)), ?_, ?_⟩
    · rcases findOther_mem (fun o => hit o q) ((List.range nboxes).filter fun i => i ≠ b) with h | ⟨o, h1, h2⟩
      · rw [h]; simp [otherList]
      · rw [h2]
        exact List.mem_append_left _ (List.mem_map.2 ⟨o, h1, rfl⟩)
    · simp only [storedPts, if_neg hne, Option.isSome_some]
    · simp only [storedPts, if_neg hne]
    · exact List.mem_filter.2 ⟨hq', by simp⟩
  refine ⟨new, ?_, ?_, ?_, ?_, hall⟩
  · refine Prod.ext he ?_
    have : (setFacesOn nboxes b d hit bf f).2 = ((setFacesOn nboxes b d hit bf f).1.length : Int) - bf.length := rfl
    rw [this, he, List.length_append]
    simp only
    omega
  · have hq : onBoxFace d f (d.idx (if faceAxis f = .one ∧ f % 2 = 1 then d.n1 - 1 else 0)
        (if faceAxis f = .two ∧ f % 2 = 1 then d.n2 - 1 else 0)
        (if faceAxis f = .three ∧ f % 2 = 1 then d.n3 - 1 else 0)) := by
      refine ⟨_, _, _, ⟨?_, ?_, ?_⟩, rfl, ?_⟩
      · split <;> omega
      · split <;> omega
      · split <;> omega
      · cases faceAxis f <;> simp [Spec.coord, Dims.len]
    obtain ⟨x, hx, -⟩ := hall _ hq
    exact List.ne_nil_of_mem hx
  · rw [hnew]
    apply List.Pairwise.filter
    rw [List.pairwise_map]
    exact (otherList_nodup nboxes b).imp fun h => h
  · intro x hx
    rw [hnew, List.mem_filter, List.mem_map] at hx
    obtain ⟨⟨o, -, rfl⟩, hsome⟩ := hx
    refine ⟨rfl, rfl, (planeN d (faceAxis f) ((d.len (faceAxis f) - 1) * (f % 2))).filter (fun q =>
      findOther (fun o => hit o q) ((List.range nboxes).filter fun i => i ≠ b) = o), ?_, ?_, ?_, ?_⟩
    · unfold storedPts at hsome ⊢
      simp only at hsome ⊢
      split at hsome
      · cases hsome
      · rename_i hne; rw [if_neg hne]
    · intro hnil
      simp only [storedPts, hnil, if_true, Option.isSome_none, Bool.false_eq_true] at hsome
    · exact (planeN_nodup _ _ _).filter _
    · intro q
      rw [List.mem_filter, lastPlane hl, decide_eq_true_eq, owner_iff]

/-- **C145**. All faces of a box: the bfaces that Coordinates_set_bfaces_oldWT makes are on external faces and have all
points of the face that belong to their other box; every point of an external face is in one of its bfaces, and there are
no two bfaces with the same face and the same other box. add_boxface_as_outerbound_bface is never needed. -/
theorem C145_box {nboxes b : Nat} {d : Dims} {hit : Nat → Nat → Nat → Bool} {extface : Nat → Bool}
    (h1 : 0 < d.n1) (h2 : 0 < d.n2) (h3 : 0 < d.n3) :
    (∀ x ∈ setFacesOfBox nboxes b d hit extface, x.f < 6 ∧ extface x.f = true ∧
      MadeFace nboxes b d (hit x.f) x.f x) ∧
    (setFacesOfBox nboxes b d hit extface).Pairwise (fun x y => x.f ≠ y.f ∨ x.ob ≠ y.ob) ∧
    ∀ f, f < 6 → extface f = true → ∀ q, onBoxFace d f q →
      ∃ x ∈ setFacesOfBox nboxes b d hit extface, x.f = f ∧ ∃ l, x.fpts = some l ∧ q ∈ l := by
  let step : List FaceRec → Nat → List FaceRec := fun bf f =>
      if extface f then
        if (setFacesOn nboxes b d (hit f) bf f).2 = 0 then addOuterFace d (setFacesOn nboxes b d (hit f) bf f).1 f
        else (setFacesOn nboxes b d (hit f) bf f).1
      else bf
  let R : Nat → List FaceRec := fun n => (List.range n).foldl step []
  have key : ∀ n, (∀ x ∈ R n, x.f < n ∧ extface x.f = true ∧ MadeFace nboxes b d (hit x.f) x.f x) ∧
      (R n).Pairwise (fun x y => x.f ≠ y.f ∨ x.ob ≠ y.ob) ∧
      ∀ f, f < n → extface f = true → ∀ q, onBoxFace d f q → ∃ x ∈ R n, x.f = f ∧ ∃ l, x.fpts = some l ∧ q ∈ l := by
    intro n
    induction n with
    | zero => exact ⟨fun x hx => absurd hx (List.not_mem_nil), List.Pairwise.nil, fun f hf => absurd hf (by omega)⟩
    | succ n ih =>
      obtain ⟨i1, i2, i3⟩ := ih
      have hstep : R (n + 1) = step (R n) n := by
        simp only [R, List.range_succ, List.foldl_append, List.foldl_cons, List.foldl_nil]
      rw [hstep]
      simp only [step]
      cases he : extface n
      · simp only [Bool.false_eq_true, if_false]
        refine ⟨fun x hx => ⟨by have := (i1 x hx).1; omega, (i1 x hx).2⟩, i2, fun f hf hef q hq => ?_⟩
        have : f ≠ n := fun e => by rw [e, he] at hef; cases hef
        exact i3 f (by omega) hef q hq
      · obtain ⟨new, e1, e2, e3, e4, e5⟩ := C145_split (nboxes := nboxes) (b := b) (d := d) (hit := hit n) (bf := R n)
          (f := n) (fun x hx => by have := (i1 x hx).1; omega) (fun x hx => by
            obtain ⟨-, -, -, -, l, hl, -⟩ := i1 x hx
            rw [hl]; rfl) h1 h2 h3
        have hz : ¬ ((new.length : Int) = 0) := by
          have := List.length_pos_iff.2 e2
          omega
        simp only [if_true, e1, if_neg hz]
        refine ⟨fun x hx => ?_, ?_, fun f hf hef q hq => ?_⟩
        · rcases List.mem_append.1 hx with hx | hx
          · exact ⟨by have := (i1 x hx).1; omega, (i1 x hx).2⟩
          · have hf := (e4 x hx).1
            rw [hf]
            exact ⟨by omega, he, e4 x hx⟩
        · rw [List.pairwise_append]
          refine ⟨i2, e3.imp fun h => .inr h, fun x hx y hy => .inl ?_⟩
          have := (i1 x hx).1
          have := (e4 y hy).1
          omega
        · by_cases e : f = n
          · subst e
            obtain ⟨x, hx, hl⟩ := e5 q hq
            exact ⟨x, List.mem_append_right _ hx, (e4 x hx).1, hl⟩
          · obtain ⟨x, hx, hl⟩ := i3 f (by omega) hef q hq
            exact ⟨x, List.mem_append_left _ hx, hl⟩
  exact key 6

/-- Box 0 of three; on face 1 (the plane i = 1 of 2 x 2 x 1 points) point 1 touches box 2 and point 3 no box. -/
example : setFacesOn 3 0 ⟨2, 2, 1⟩ (fun o q => o = 2 ∧ q = 1) [] 1 =
    ([⟨1, 2, false, some [1]⟩, ⟨1, -1, false, some [3]⟩], 2) := by decide

/-- **C145**. add_boxface_as_outerbound_bface takes the number of the plane from `n1` for all directions: with 2 x 3 x 1
points it adds the middle plane as face 3, and with 3 x 2 x 1 points no point at all. -/
theorem C145_outer_counterexample :
    addOuterFace ⟨2, 3, 1⟩ [] 3 = [⟨3, -1, true, some [2, 3]⟩] ∧
    (∀ q, onBoxFace ⟨2, 3, 1⟩ 3 q ↔ q = 4 ∨ q = 5) ∧
    addOuterFace ⟨3, 2, 1⟩ [] 3 = [⟨3, -1, true, none⟩] := by
  refine ⟨by decide, fun q => ?_, by decide⟩
  rw [← lastPlane (d := ⟨2, 3, 1⟩) (f := 3) (by decide)]
  rw [show planeN ⟨2, 3, 1⟩ (faceAxis 3) ((Dims.len ⟨2, 3, 1⟩ (faceAxis 3) - 1) * (3 % 2)) = [4, 5] by decide]
  simp

/-- **C145**. For as many points in all directions the plane is the right one. -/
theorem C145_outer_cubic {n : Nat} (hn : 0 < n) (bf : List FaceRec) (f : Nat) :
    ∃ l, addOuterFace ⟨n, n, n⟩ bf f = bf ++ [⟨f, -1, true, some l⟩] ∧ ∀ q, q ∈ l ↔ onBoxFace ⟨n, n, n⟩ f q := by
  have hlen : Dims.len ⟨n, n, n⟩ (faceAxis f) = n := by cases faceAxis f <;> rfl
  have hm := lastPlane (d := ⟨n, n, n⟩) (f := f) (by rw [hlen]; exact hn)
  rw [hlen] at hm
  obtain ⟨new, -, hne, -, hmade, -⟩ := C145_split (nboxes := 1) (b := 0) (d := ⟨n, n, n⟩) (hit := fun _ _ => false)
    (bf := []) (f := f) (by simp) (by simp) hn hn hn
  obtain ⟨x, hx⟩ := List.exists_mem_of_ne_nil _ hne
  obtain ⟨-, -, l, -, hl, -, hq⟩ := hmade x hx
  obtain ⟨q, hql⟩ := List.exists_mem_of_ne_nil _ hl
  have hq' := (hm q).2 ((hq q).1 hql).1
  refine ⟨_, ?_, hm⟩
  unfold addOuterFace
  simp only
  rw [if_neg (List.ne_nil_of_mem hq')]

end Sgrid
