import Verif.Model.ParFile
import Verif.Spec.ParFile

/-! Helper lemmas about the passes of the parameter file reader. -/

namespace Sgrid

open Spec

/-! #### white space passes -/

/-- White out, then collapse. -/
def cw (b : Bool) (s : CStr) : CStr := collapseGo b (whiteout false s)

theorem cw_comment (t rest : CStr) (ht : '\n' ∉ t) :
    collapseGo true (whiteout true (t ++ '\n' :: rest)) = cw true rest := by
  induction t with
  | nil => simp [whiteout, collapseGo, cw, isSpace]
  | cons c t ih =>
    simp only [List.mem_cons, not_or] at ht
    have : c ≠ '\n' := fun h => ht.1 h.symm
    simp only [List.cons_append, whiteout, this, if_false]
    rw [collapseGo]
    simp [isSpace, ih ht.2]

theorem cw_item (b : Bool) (x : GapItem) (hx : x.Ok) (rest : CStr) :
    cw b (x.render ++ rest) = (if b then [] else [' ']) ++ cw true rest := by
  cases x with
  | ws c =>
    simp only [GapItem.Ok] at hx
    have h1 : c ≠ '#' := by rintro rfl; simp [isSpace] at hx
    have h2 : c ≠ '"' := by rintro rfl; simp [isSpace] at hx
    simp only [GapItem.render, List.cons_append, List.nil_append, cw, whiteout, h1, h2, if_false]
    cases b <;> simp [collapseGo, hx]
  | quote =>
    simp only [GapItem.render, List.cons_append, List.nil_append, cw, whiteout]
    cases b <;> simp [collapseGo, isSpace]
  | comment t =>
    simp only [GapItem.Ok] at hx
    have h := cw_comment t rest hx.1
    have e : whiteout false (GapItem.render (.comment t) ++ rest) =
        ' ' :: whiteout true (t ++ '\n' :: rest) := by
      simp [GapItem.render, whiteout]
    unfold cw at *
    rw [e]
    cases b <;> simp [collapseGo, isSpace, h]

theorem cw_gap (b : Bool) (g : Gap) (hg : ∀ x ∈ g, x.Ok) (rest : CStr) :
    cw b (renderGap g ++ rest) =
      if g = [] then cw b rest else (if b then [] else [' ']) ++ cw true rest := by
  induction g generalizing b with
  | nil => rfl
  | cons x t ih =>
    have e : renderGap (x :: t) ++ rest = x.render ++ (renderGap t ++ rest) := by
      simp [renderGap]
    rw [e, cw_item b x (hg x (by simp)), ih true fun y hy => hg y (by simp [hy])]
    simp

theorem cw_word (b : Bool) (w : CStr) (hne : w ≠ [])
    (hw : ∀ c ∈ w, isSpace c = false ∧ c ≠ '#' ∧ c ≠ '"') (rest : CStr) :
    cw b (w ++ rest) = w ++ cw false rest := by
  induction w generalizing b with
  | nil => exact absurd rfl hne
  | cons c t ih =>
    obtain ⟨h1, h2, h3⟩ := hw c (by simp)
    have step : cw b (c :: t ++ rest) = c :: cw false (t ++ rest) := by
      simp [cw, whiteout, h2, h3, collapseGo, h1]
    rw [step]
    cases t with
    | nil => rfl
    | cons d u => rw [ih false (by simp) fun x hx => hw x (by simp [hx])]; rfl

theorem Spec.Word.plain {w : CStr} (h : Word w) :
    ∀ c ∈ w, isSpace c = false ∧ c ≠ '#' ∧ c ≠ '"' := fun c hc =>
  ⟨(h.2 c hc).1, (h.2 c hc).2.1, (h.2 c hc).2.2.1⟩

theorem Spec.Word.noBlank {w : CStr} (h : Word w) : ' ' ∉ w := fun hc => by
  have := (h.2 ' ' hc).1; simp [isSpace] at this

theorem Spec.Word.noEq {w : CStr} (h : Word w) : '=' ∉ w := fun hc => (h.2 '=' hc).2.2.2.1 rfl

/-- One blank, or nothing for an empty gap. -/
def sp (g : Gap) : CStr := if g = [] then [] else [' ']

/-- An entry after the white space passes, without its final blank. -/
def cHead (e : Entry) : CStr :=
  e.name ++ sp e.g1 ++ '=' :: (if e.vals = [] then [] else sp e.g2) ++
    joinBlank (e.vals.map (·.1))

theorem cw_vals (vals : List (CStr × Gap)) (hne : vals ≠ [])
    (hok : ∀ v ∈ vals, Word v.1 ∧ ∀ x ∈ v.2, x.Ok) (hsep : ∀ v ∈ vals.dropLast, v.2 ≠ [])
    (rest : CStr) (lg : Gap) (hlg : ∀ v, vals.getLast? = some v → v.2 = lg)
    (hend : cw false (renderGap lg ++ rest) = ' ' :: cw true rest) (b : Bool) :
    cw b ((vals.flatMap fun v => v.1 ++ renderGap v.2) ++ rest) =
      joinBlank (vals.map (·.1)) ++ ' ' :: cw true rest := by
  induction vals generalizing b with
  | nil => exact absurd rfl hne
  | cons v t ih =>
    obtain ⟨hw, hg⟩ := hok v (by simp)
    cases t with
    | nil =>
      have : v.2 = lg := hlg v (by simp)
      simp only [List.flatMap_cons, List.flatMap_nil, List.append_nil, List.append_assoc,
        List.map_cons, List.map_nil, joinBlank]
      rw [cw_word b v.1 hw.1 hw.plain, this, hend]
    | cons u t =>
      have hs : v.2 ≠ [] := hsep v (by simp [List.dropLast])
      have := ih (by simp) (fun x hx => hok x (by simp [hx]))
        (fun x hx => hsep x (by simp [List.dropLast] at hx ⊢; right; exact hx))
        (fun x hx => hlg x (by simpa [List.getLast?_cons_cons] using hx)) true
      rw [List.flatMap_cons, List.append_assoc, List.append_assoc,
        cw_word b v.1 hw.1 hw.plain, cw_gap false v.2 hg]
      simp only [hs, if_false, Bool.false_eq_true]
      rw [this]
      simp [joinBlank]

theorem cw_entry (e : Entry) (he : e.Ok) (rest : CStr)
    (hend : cw false (renderGap e.lastGap ++ rest) = ' ' :: cw true rest) (b : Bool) :
    cw b (e.render ++ rest) = cHead e ++ ' ' :: cw true rest := by
  have heq : ∀ (b : Bool) (r : CStr), cw b ('=' :: r) = '=' :: cw false r := fun b r => by
    have := cw_word b ['='] (by simp) (by simp [isSpace]) r
    simpa using this
  have hsp : ∀ (g : Gap), (∀ x ∈ g, x.Ok) → ∀ r, cw false (renderGap g ++ '=' :: r) =
      sp g ++ '=' :: cw false r := by
    intro g hg r
    rw [cw_gap false g hg]
    unfold sp
    split
    · simp [heq]
    · simp [heq]
  have hr : e.render ++ rest = e.name ++ (renderGap e.g1 ++ '=' :: (renderGap e.g2 ++
      ((e.vals.flatMap fun v => v.1 ++ renderGap v.2) ++ rest))) := by
    simp [Entry.render]
  rw [hr, cw_word b e.name he.name.1 he.name.plain, hsp e.g1 he.g1]
  by_cases hv : e.vals = []
  · have : e.lastGap = e.g2 := by simp [Entry.lastGap, hv]
    rw [this] at hend
    simp only [hv, List.flatMap_nil, List.nil_append]
    rw [hend]
    simp [cHead, hv, joinBlank]
  · have hlg : ∀ v, e.vals.getLast? = some v → v.2 = e.lastGap := by
      intro v h; simp [Entry.lastGap, h]
    have := fun b => cw_vals e.vals hv he.vals he.sep rest e.lastGap hlg hend b
    rw [cw_gap false e.g2 he.g2]
    by_cases hg : e.g2 = []
    · simp only [hg, if_true]
      rw [this]
      simp [cHead, hv, sp, hg]
    · simp only [hg, if_false, Bool.false_eq_true]
      rw [this]
      simp [cHead, hv, sp, hg]

/-- The end of the file behind the last gap. -/
def tailStr (f : File) : CStr := (match f.tail with
  | none => []
  | some t => '#' :: t) ++ [' ']

theorem cw_tail (f : File) (hf : f.Ok) (b : Bool) :
    cw b (tailStr f) = if b then [] else [' '] := by
  unfold tailStr
  cases ht : f.tail with
  | none => cases b <;> simp [cw, whiteout, collapseGo, isSpace]
  | some t =>
    have hn := (hf.tail t ht).1
    have key : ∀ t : CStr, '\n' ∉ t → collapseGo true (whiteout true (t ++ [' '])) = [] := by
      intro t
      induction t with
      | nil => intro _; simp [whiteout, collapseGo, isSpace]
      | cons c t ih =>
        intro h
        simp only [List.mem_cons, not_or] at h
        have hc : c ≠ '\n' := fun h' => h.1 h'.symm
        simp only [List.cons_append, whiteout, hc, if_false]
        rw [collapseGo]
        simp [isSpace, ih h.2]
    have e : whiteout false ('#' :: t ++ [' ']) = ' ' :: whiteout true (t ++ [' ']) := by
      simp [whiteout]
    simp only [cw, e]
    cases b <;> simp [collapseGo, isSpace, key t hn]

theorem cw_entries (f : File) (hf : f.Ok) (es : List Entry) (hes : ∀ e ∈ es, e.Ok)
    (hsep : ∀ e ∈ es.dropLast, e.lastGap ≠ []) :
    cw true (es.flatMap Entry.render ++ tailStr f) = es.flatMap fun e => cHead e ++ [' '] := by
  have lastGapOk : ∀ e : Entry, e.Ok → ∀ x ∈ e.lastGap, x.Ok := by
    intro e he x hx
    unfold Entry.lastGap at hx
    split at hx
    · exact he.g2 x hx
    · rename_i v hv; exact (he.vals v (List.mem_of_getLast? hv)).2 x hx
  induction es with
  | nil => simp [cw_tail f hf]
  | cons e t ih =>
    have he := hes e (by simp)
    rw [List.flatMap_cons, List.append_assoc, cw_entry e he]
    · rw [ih (fun x hx => hes x (by simp [hx])) (fun x hx => hsep x (by
        cases t with
        | nil => simp at hx
        | cons a b => simp [List.dropLast] at hx ⊢; right; exact hx))]
      simp
    · rw [cw_gap false _ (lastGapOk e he)]
      cases t with
      | nil =>
        simp only [List.flatMap_nil, List.nil_append]
        rw [cw_tail f hf, cw_tail f hf]
        split <;> simp
      | cons a b =>
        have : e.lastGap ≠ [] := hsep e (by simp [List.dropLast])
        simp [this]

/-! #### putting '#' in front of names -/

theorem mark_step {buf : CStr} {i j : Nat} (h1 : buf[i + 1]? ≠ some '=')
    (h2 : buf[i + 2]? ≠ some '=') (hl : i + 2 < buf.length) :
    markLoop buf i j = markLoop buf (i + 1) (if buf[i]? = some ' ' then i else j) := by
  conv => lhs; rw [markLoop]
  rw [if_pos hl, if_neg (by simp [h1, h2])]

/-- Running over a segment with no '=' ahead. -/
theorem mark_run (s pre rest : CStr) (a b : Char) (r : CStr) (hrest : rest = a :: b :: r)
    (ha : a ≠ '=') (hb : b ≠ '=') (hs : '=' ∉ s.tail) (j : Nat) :
    ∃ j', markLoop (pre ++ s ++ rest) pre.length j =
        markLoop (pre ++ s ++ rest) (pre.length + s.length) j' ∧ (' ' ∉ s → j' = j) := by
  induction s generalizing pre j with
  | nil => exact ⟨j, by simp, fun _ => rfl⟩
  | cons c t ih =>
    subst hrest
    simp only [List.tail_cons] at hs
    have hbuf : pre ++ (c :: t) ++ a :: b :: r = (pre ++ [c]) ++ t ++ a :: b :: r := by simp
    have h1 : (pre ++ (c :: t) ++ a :: b :: r)[pre.length + 1]? ≠ some '=' := by
      rw [hbuf, List.append_assoc, List.getElem?_append_right (by simp)]
      cases t with
      | nil => simpa using ha
      | cons d u =>
        simp only [List.mem_cons, not_or] at hs
        simpa using Ne.symm hs.1
    have h2 : (pre ++ (c :: t) ++ a :: b :: r)[pre.length + 2]? ≠ some '=' := by
      rw [hbuf, List.append_assoc, List.getElem?_append_right (by simp)]
      cases t with
      | nil => simpa using hb
      | cons d u =>
        simp only [List.mem_cons, not_or] at hs
        cases u with
        | nil => simpa using ha
        | cons d' u' =>
          simp only [List.mem_cons, not_or] at hs
          simpa using Ne.symm hs.2.1
    rw [mark_step h1 h2 (by simp; omega)]
    have hts : '=' ∉ t.tail := fun h => hs (List.mem_of_mem_tail h)
    have hc : (pre ++ (c :: t) ++ a :: b :: r)[pre.length]? = some c := by simp
    rw [hc]
    obtain ⟨j', e1, e2⟩ := ih (pre ++ [c]) hts (if some c = some ' ' then pre.length else j)
    refine ⟨j', ?_, ?_⟩
    · rw [← hbuf] at e1
      simp only [List.length_append, List.length_cons, List.length_nil] at e1 ⊢
      rw [show pre.length + (0 + 1) = pre.length + 1 by omega] at e1
      rw [e1]
      congr 1
      omega
    · intro hb'
      simp only [List.mem_cons, not_or] at hb'
      rw [e2 hb'.2, if_neg (by simp [Ne.symm hb'.1])]

/-- No '=' ahead until the end: nothing changes any more. -/
theorem mark_done (buf : CStr) (i j : Nat) (h : ∀ k, i < k → buf[k]? ≠ some '=') :
    markLoop buf i j = buf := by
  induction hn : buf.length - i using Nat.strongRecOn generalizing i j with
  | _ n ih =>
    by_cases hl : i + 2 < buf.length
    · rw [mark_step (h _ (by omega)) (h _ (by omega)) hl]
      exact ih _ (by omega) (i + 1) _ (fun k hk => h k (by omega)) rfl
    · rw [markLoop, if_neg hl]

/-- The name of an entry: from the blank before it to the '=' behind it. -/
theorem mark_name (pre name : CStr) (hn : Word name) (s1 : CStr) (hs1 : s1 = [] ∨ s1 = [' '])
    (tail : CStr) (j : Nat) :
    markLoop (pre ++ ' ' :: (name ++ s1 ++ '=' :: tail)) pre.length j =
      markLoop (pre ++ '#' :: (name ++ s1 ++ '=' :: tail))
        (pre.length + 1 + name.length + s1.length) pre.length := by
  have hnb := hn.noBlank
  have hne := hn.noEq
  -- the hit: at `p` with '=' at `p+2`
  have hit : ∀ (buf : CStr) (p j : Nat), buf[p + 2]? = some '=' → ∀ q,
      (if buf[p]? = some ' ' then p else j) = q →
      markLoop buf p j = markLoop (buf.set q '#') (p + 2) q := by
    intro buf p j h q hq
    have hl : p + 2 < buf.length := (List.getElem?_eq_some_iff.1 h).1
    conv => lhs; rw [markLoop]
    rw [if_pos hl]
    simp only [hq, h, or_true, if_true]
  have hset : (pre ++ ' ' :: (name ++ s1 ++ '=' :: tail)).set pre.length '#' =
      pre ++ '#' :: (name ++ s1 ++ '=' :: tail) := by
    rw [List.set_append_right _ _ (by simp)]; simp
  rcases hs1 with rfl | rfl
  · -- no blank before '='
    rcases List.eq_nil_or_concat name with h | ⟨u, y, h⟩
    · exact absurd h hn.1
    · rcases List.eq_nil_or_concat u with hu | ⟨w, x, hu⟩
      · subst hu
        simp only [List.concat_eq_append, List.nil_append] at h
        subst h
        rw [hit _ pre.length j (by simp) pre.length (by simp), hset]
        simp
      · subst hu
        simp only [List.concat_eq_append] at h
        subst h
        simp only [List.mem_append, List.mem_singleton, not_or] at hnb hne
        have hbuf : pre ++ ' ' :: (w ++ [x] ++ [y] ++ [] ++ '=' :: tail) =
            pre ++ (' ' :: w) ++ (x :: y :: '=' :: tail) := by simp
        -- step over the blank, then the word `w`
        have s0 : markLoop (pre ++ (' ' :: w) ++ (x :: y :: '=' :: tail)) pre.length j =
            markLoop (pre ++ (' ' :: w) ++ (x :: y :: '=' :: tail)) (pre.length + 1)
              pre.length := by
          have hc : (pre ++ (' ' :: w) ++ (x :: y :: '=' :: tail))[pre.length]? = some ' ' := by
            simp
          have := mark_step (buf := pre ++ (' ' :: w) ++ (x :: y :: '=' :: tail))
            (i := pre.length) (j := j) (by
              rw [List.append_assoc, List.getElem?_append_right (by simp)]
              cases w with
              | nil => simpa using Ne.symm hne.1.2
              | cons d u => simp at hne; simpa using Ne.symm hne.1.1.1) (by
              rw [List.append_assoc, List.getElem?_append_right (by simp)]
              cases w with
              | nil => simpa using Ne.symm hne.2
              | cons d u =>
                cases u with
                | nil => simpa using Ne.symm hne.1.2
                | cons d' u' => simp at hne; simpa using Ne.symm hne.1.1.2.1) (by simp; omega)
          rw [this, hc]; simp
        obtain ⟨j', e2, e3⟩ := mark_run w (pre ++ [' ']) (x :: y :: '=' :: tail) x y
          ('=' :: tail) rfl (Ne.symm hne.1.2) (Ne.symm hne.2)
          (fun h => hne.1.1 (List.mem_of_mem_tail h)) pre.length
        have e3 := e3 hnb.1.1
        subst e3
        rw [hbuf, s0]
        have hbuf2 : pre ++ (' ' :: w) ++ (x :: y :: '=' :: tail) =
            pre ++ [' '] ++ w ++ (x :: y :: '=' :: tail) := by simp
        rw [hbuf2, show pre.length + 1 = (pre ++ [' ']).length by simp, e2]
        rw [hit _ _ pre.length (by
          rw [← List.length_append, List.getElem?_append_right (by omega)]; simp) pre.length (by
          have : (pre ++ [' '] ++ w ++ (x :: y :: '=' :: tail))[(pre ++ [' ']).length +
              w.length]? = some x := by
            rw [← List.length_append, List.getElem?_append_right (Nat.le_refl _)]; simp
          rw [this, if_neg (by simp [Ne.symm hnb.1.2])])]
        rw [← hbuf2, ← hbuf, hset]
        congr 1
        simp; omega
  · -- one blank before '='
    rcases List.eq_nil_or_concat name with h | ⟨u, y, h⟩
    · exact absurd h hn.1
    · simp only [List.concat_eq_append] at h
      subst h
      simp only [List.mem_append, List.mem_singleton, not_or] at hnb hne
      have hbuf : pre ++ ' ' :: (u ++ [y] ++ [' '] ++ '=' :: tail) =
          pre ++ (' ' :: u) ++ (y :: ' ' :: '=' :: tail) := by simp
      have s0 : markLoop (pre ++ (' ' :: u) ++ (y :: ' ' :: '=' :: tail)) pre.length j =
          markLoop (pre ++ (' ' :: u) ++ (y :: ' ' :: '=' :: tail)) (pre.length + 1)
            pre.length := by
        have hc : (pre ++ (' ' :: u) ++ (y :: ' ' :: '=' :: tail))[pre.length]? = some ' ' := by
          simp
        have := mark_step (buf := pre ++ (' ' :: u) ++ (y :: ' ' :: '=' :: tail))
          (i := pre.length) (j := j) (by
            rw [List.append_assoc, List.getElem?_append_right (by simp)]
            cases u with
            | nil => simpa using Ne.symm hne.2
            | cons d u => simp at hne; simpa using Ne.symm hne.1.1) (by
            rw [List.append_assoc, List.getElem?_append_right (by simp)]
            cases u with
            | nil => simp
            | cons d u =>
              cases u with
              | nil => simpa using Ne.symm hne.2
              | cons d' u' => simp at hne; simpa using Ne.symm hne.1.2.1) (by simp; omega)
        rw [this, hc]; simp
      obtain ⟨j', e2, e3⟩ := mark_run u (pre ++ [' ']) (y :: ' ' :: '=' :: tail) y ' '
        ('=' :: tail) rfl (Ne.symm hne.2) (by decide)
        (fun h => hne.1 (List.mem_of_mem_tail h)) pre.length
      have e3 := e3 hnb.1
      subst e3
      rw [hbuf, s0]
      have hbuf2 : pre ++ (' ' :: u) ++ (y :: ' ' :: '=' :: tail) =
          pre ++ [' '] ++ u ++ (y :: ' ' :: '=' :: tail) := by simp
      rw [hbuf2, show pre.length + 1 = (pre ++ [' ']).length by simp, e2]
      rw [hit _ _ pre.length (by
        rw [← List.length_append, List.getElem?_append_right (by omega)]; simp) pre.length (by
        have : (pre ++ [' '] ++ u ++ (y :: ' ' :: '=' :: tail))[(pre ++ [' ']).length +
            u.length]? = some y := by
          rw [← List.length_append, List.getElem?_append_right (Nat.le_refl _)]; simp
        rw [this, if_neg (by simp [Ne.symm hnb.2])])]
      rw [← hbuf2, ← hbuf, hset]
      congr 1
      simp; omega

theorem joinBlank_noEq (vs : List CStr) (h : ∀ v ∈ vs, Word v) : '=' ∉ joinBlank vs := by
  induction vs with
  | nil => simp [joinBlank]
  | cons v t ih =>
    have hv := (h v (by simp)).noEq
    have ht := ih fun x hx => h x (by simp [hx])
    cases t with
    | nil => simpa [joinBlank] using hv
    | cons a b => simp [joinBlank, hv, ht]

theorem mark_entries (es : List Entry) (hes : ∀ e ∈ es, e.Ok) (hne : es ≠ []) (pre : CStr)
    (j : Nat) :
    markLoop (pre ++ ' ' :: es.flatMap fun e => cHead e ++ [' ']) pre.length j =
      pre ++ (es.flatMap fun e => '#' :: cHead e) ++ [' '] := by
  induction es generalizing pre j with
  | nil => exact absurd rfl hne
  | cons e t ih =>
    have he := hes e (by simp)
    let s2 : CStr := if e.vals = [] then [] else sp e.g2
    let body : CStr := s2 ++ joinBlank (e.vals.map (·.1))
    have hbody : '=' ∉ body := by
      have h1 : '=' ∉ s2 := by
        simp only [s2, sp]
        split
        · simp
        · split <;> simp
      have h2 : '=' ∉ joinBlank (e.vals.map (·.1)) := by
        refine joinBlank_noEq _ ?_
        intro v hv
        obtain ⟨x, hx, rfl⟩ := List.mem_map.1 hv
        exact (he.vals x hx).1
      simp [body, h1, h2]
    have hsp1 : sp e.g1 = [] ∨ sp e.g1 = [' '] := by simp only [sp]; split <;> simp
    have hc : cHead e = e.name ++ sp e.g1 ++ '=' :: body := by simp [cHead, body, s2]
    rw [List.flatMap_cons, List.flatMap_cons, hc]
    rw [show pre ++ ' ' :: (e.name ++ sp e.g1 ++ '=' :: body ++ [' '] ++
        t.flatMap fun e => cHead e ++ [' ']) =
      pre ++ ' ' :: (e.name ++ sp e.g1 ++ '=' :: (body ++ ' ' ::
        t.flatMap fun e => cHead e ++ [' '])) by simp]
    rw [mark_name pre e.name he.name (sp e.g1) hsp1]
    let pre' : CStr := pre ++ '#' :: (e.name ++ sp e.g1)
    have hpl : pre'.length = pre.length + 1 + e.name.length + (sp e.g1).length := by
      simp [pre']; omega
    rw [← hpl]
    rw [show pre ++ '#' :: (e.name ++ sp e.g1 ++ '=' :: (body ++ ' ' ::
        t.flatMap fun e => cHead e ++ [' '])) =
      pre' ++ ('=' :: body) ++ (' ' :: t.flatMap fun e => cHead e ++ [' ']) by simp [pre']]
    cases ht : t with
    | nil =>
      rw [mark_done]
      · simp [pre']
      · intro k hk
        simp only [List.flatMap_nil]
        rw [List.append_assoc, List.getElem?_append_right (by omega)]
        obtain ⟨m, hm⟩ : ∃ m, k - pre'.length = m + 1 := ⟨k - pre'.length - 1, by omega⟩
        rw [hm]
        simp only [List.cons_append, List.getElem?_cons_succ]
        intro h
        have := List.mem_of_getElem? h
        simp [hbody] at this
    | cons e2 t2 =>
      have he2 := hes e2 (by simp [ht])
      obtain ⟨c, n', hn'⟩ : ∃ c n', e2.name = c :: n' := by
        cases h : e2.name with
        | nil => exact absurd h he2.name.1
        | cons c n' => exact ⟨c, n', rfl⟩
      have hceq : c ≠ '=' := by
        have := he2.name.noEq; rw [hn'] at this; simp at this; exact Ne.symm this.1
      obtain ⟨j', e1, -⟩ := mark_run ('=' :: body) pre'
        (' ' :: (e2 :: t2).flatMap fun e => cHead e ++ [' ']) ' ' c
        (n' ++ sp e2.g1 ++ '=' :: (if e2.vals = [] then [] else sp e2.g2) ++
          joinBlank (e2.vals.map (·.1)) ++ [' '] ++ t2.flatMap fun e => cHead e ++ [' '])
        (by simp [cHead, hn']) (by decide) hceq (by simpa using hbody) pre.length
      rw [e1]
      have := ih (fun x hx => hes x (by simp [hx])) (by simp [ht]) (pre' ++ '=' :: body) j'
      rw [ht] at this
      simp only [List.length_append] at this ⊢
      rw [this]
      simp [pre']

/-! #### removing blanks around '=' -/

theorem drop_plain (w rest : CStr) (p : Char) (hw : ' ' ∉ w) (hne : w ≠ []) :
    ∃ q, q ∈ w ∧ dropAroundEq p (w ++ rest) = w ++ dropAroundEq q rest := by
  induction w generalizing p with
  | nil => exact absurd rfl hne
  | cons c t ih =>
    simp only [List.mem_cons, not_or] at hw
    have step : dropAroundEq p (c :: t ++ rest) = c :: dropAroundEq c (t ++ rest) := by
      simp [dropAroundEq, Ne.symm hw.1]
    rw [step]
    cases t with
    | nil => exact ⟨c, by simp, rfl⟩
    | cons d u =>
      obtain ⟨q, h1, h2⟩ := ih c hw.2 (by simp)
      exact ⟨q, by simp [h1], by rw [h2]; rfl⟩

theorem drop_vals (vs : List CStr) (hok : ∀ v ∈ vs, Word v) (hne : vs ≠ []) (p : Char)
    (rest : CStr) : ∃ q, q ≠ '=' ∧
      dropAroundEq p (joinBlank vs ++ rest) = joinBlank vs ++ dropAroundEq q rest := by
  induction vs generalizing p with
  | nil => exact absurd rfl hne
  | cons v t ih =>
    have hv := hok v (by simp)
    cases t with
    | nil =>
      obtain ⟨q, h1, h2⟩ := drop_plain v rest p hv.noBlank hv.1
      exact ⟨q, fun h => hv.noEq (h ▸ h1), by simpa [joinBlank] using h2⟩
    | cons u t =>
      have hu := hok u (by simp)
      obtain ⟨q, h1, h2⟩ := drop_plain v (' ' :: joinBlank (u :: t) ++ rest) p hv.noBlank hv.1
      obtain ⟨q', g1, g2⟩ := ih (fun x hx => hok x (by simp [hx])) (by simp) ' '
      refine ⟨q', g1, ?_⟩
      have hq : q ≠ '=' := fun h => hv.noEq (h ▸ h1)
      have hhead : (joinBlank (u :: t) ++ rest).head? ≠ some '=' := by
        obtain ⟨c, u', hcu⟩ : ∃ c u', u = c :: u' := by
          cases h : u with
          | nil => exact absurd h hu.1
          | cons c n' => exact ⟨c, n', rfl⟩
        have hc : c ≠ '=' := by
          have := hu.noEq; rw [hcu] at this; simp at this; exact Ne.symm this.1
        cases t <;> simp [joinBlank, hcu, hc]
      rw [show joinBlank (v :: u :: t) ++ rest = v ++ (' ' :: joinBlank (u :: t) ++ rest) by
        simp [joinBlank], h2]
      rw [show ' ' :: joinBlank (u :: t) ++ rest = ' ' :: (joinBlank (u :: t) ++ rest) by rfl]
      rw [dropAroundEq, if_pos (.inr ⟨hq, hhead⟩), g2]
      simp [joinBlank]

theorem drop_entry (e : Entry) (he : e.Ok) (p : Char) (rest : CStr) :
    ∃ q, (q = '=' ↔ e.vals = []) ∧
      dropAroundEq p ('#' :: cHead e ++ rest) =
        '#' :: (e.name ++ '=' :: joinBlank (e.vals.map (·.1))) ++ dropAroundEq q rest := by
  have hvals : ∀ v ∈ e.vals.map (·.1), Word v := by
    intro v hv
    obtain ⟨x, hx, rfl⟩ := List.mem_map.1 hv
    exact (he.vals x hx).1
  -- name and '='
  have hname : ∀ r, dropAroundEq '#' (e.name ++ sp e.g1 ++ '=' :: r) =
      e.name ++ '=' :: dropAroundEq '=' r := by
    intro r
    obtain ⟨q, h1, h2⟩ := drop_plain e.name (sp e.g1 ++ '=' :: r) '#' he.name.noBlank he.name.1
    rw [List.append_assoc, h2]
    congr 1
    unfold sp
    split
    · simp [dropAroundEq]
    · simp [dropAroundEq]
  have h0 : dropAroundEq p ('#' :: cHead e ++ rest) = '#' :: dropAroundEq '#' (cHead e ++ rest) := by
    simp [dropAroundEq]
  rw [h0]
  by_cases hv : e.vals = []
  · refine ⟨'=', by simp [hv], ?_⟩
    rw [show cHead e ++ rest = e.name ++ sp e.g1 ++ '=' :: rest by
      simp [cHead, hv, joinBlank], hname]
    simp [hv, joinBlank]
  · obtain ⟨q, g1, g2⟩ := drop_vals (e.vals.map (·.1)) hvals (by simpa using hv) '=' rest
    obtain ⟨q', g1', g2'⟩ := drop_vals (e.vals.map (·.1)) hvals (by simpa using hv) ' ' rest
    rw [show cHead e ++ rest = e.name ++ sp e.g1 ++ '=' :: (sp e.g2 ++
      (joinBlank (e.vals.map (·.1)) ++ rest)) by simp [cHead, hv], hname]
    by_cases hg : e.g2 = []
    · refine ⟨q, by simp [hv, g1], ?_⟩
      simp [sp, hg, g2]
    · refine ⟨q', by simp [hv, g1'], ?_⟩
      have : dropAroundEq '=' (sp e.g2 ++ (joinBlank (e.vals.map (·.1)) ++ rest)) =
          dropAroundEq ' ' (joinBlank (e.vals.map (·.1)) ++ rest) := by
        simp [sp, hg, dropAroundEq]
      rw [this, g2']
      simp

/-- The final buffer without the last clean-up. -/
def flat (es : List Entry) : CStr :=
  es.flatMap fun e => '#' :: (e.name ++ '=' :: joinBlank (e.vals.map (·.1)))

theorem drop_entries (es : List Entry) (hes : ∀ e ∈ es, e.Ok) (hne : es ≠ []) (p : Char) :
    ∃ r, dropAroundEq p ((es.flatMap fun e => '#' :: cHead e) ++ [' ']) = flat es ++ r ∧
      (r = [' '] ∨ (r = [] ∧ ∃ x, flat es = x ++ ['='])) := by
  induction es generalizing p with
  | nil => exact absurd rfl hne
  | cons e t ih =>
    have he := hes e (by simp)
    rw [List.flatMap_cons, List.append_assoc]
    obtain ⟨q, h1, h2⟩ := drop_entry e he p ((t.flatMap fun e => '#' :: cHead e) ++ [' '])
    rw [h2]
    cases t with
    | nil =>
      simp only [List.flatMap_nil, List.nil_append]
      by_cases hv : e.vals = []
      · have hq := h1.2 hv
        subst hq
        refine ⟨[], by simp [dropAroundEq, flat], .inr ⟨rfl, ?_⟩⟩
        exact ⟨'#' :: e.name, by simp [flat, hv, joinBlank]⟩
      · have hq : q ≠ '=' := fun h => hv (h1.1 h)
        exact ⟨[' '], by simp [dropAroundEq, hq, flat], .inl rfl⟩
    | cons e2 t2 =>
      obtain ⟨r, g1, g2⟩ := ih (fun x hx => hes x (by simp [hx])) (by simp) q
      refine ⟨r, ?_, ?_⟩
      · rw [g1]; simp [flat]
      · rcases g2 with g2 | ⟨g2, x, hx⟩
        · exact .inl g2
        · refine .inr ⟨g2, '#' :: (e.name ++ '=' :: joinBlank (e.vals.map (·.1))) ++ x, ?_⟩
          have : flat (e :: e2 :: t2) =
            '#' :: (e.name ++ '=' :: joinBlank (e.vals.map (·.1))) ++ flat (e2 :: t2) := by
            simp [flat]
          rw [this, hx]; simp

theorem unblank_entries (es : List Entry) (hes : ∀ e ∈ es, e.Ok) (hne : es ≠ []) :
    unblank ((es.flatMap fun e => '#' :: cHead e) ++ [' ']) = flat es := by
  obtain ⟨r, h1, h2⟩ := drop_entries es hes hne ' '
  obtain ⟨t, ht⟩ : ∃ t, (es.flatMap fun e => '#' :: cHead e) ++ [' '] = '#' :: t := by
    cases es with
    | nil => exact absurd rfl hne
    | cons e t => exact ⟨_, by rw [List.flatMap_cons, List.cons_append, List.cons_append]⟩
  rw [ht] at h1 ⊢
  have hd : dropAroundEq ' ' ('#' :: t) = '#' :: dropAroundEq '#' t := by simp [dropAroundEq]
  rw [hd] at h1
  simp only [unblank, h1]
  rcases h2 with rfl | ⟨rfl, x, hx⟩
  · simp
  · rw [hx]; simp

/-! #### splitting -/

/-- The buffer of NUL separated names and values. -/
def nulFlat (ps : List (CStr × CStr)) : CStr :=
  ps.flatMap fun p => '\x00' :: (p.1 ++ '\x00' :: p.2)

theorem strAt_nul (pre w rest : CStr) (hw : '\x00' ∉ w)
    (hr : rest = [] ∨ ∃ r, rest = '\x00' :: r) : strAt (pre ++ w ++ rest) pre.length = w := by
  unfold strAt
  rw [List.append_assoc, List.drop_left]
  induction w with
  | nil => rcases hr with rfl | ⟨r, rfl⟩ <;> simp
  | cons c t ih =>
    simp only [List.mem_cons, not_or] at hw
    have hc : c ≠ '\x00' := fun h => hw.1 h.symm
    simpa [List.takeWhile_cons, hc] using ih hw.2

theorem pairsFrom_spec (ps : List (CStr × CStr))
    (h : ∀ p ∈ ps, '\x00' ∉ p.1 ∧ '\x00' ∉ p.2) (pre : CStr) :
    pairsFrom (pre ++ nulFlat ps) (pre.length + 1) = .ok ps := by
  induction ps generalizing pre with
  | nil => rw [pairsFrom, if_neg (by simp [nulFlat])]
  | cons p t ih =>
    obtain ⟨h1, h2⟩ := h p (by simp)
    have hflat : nulFlat (p :: t) = '\x00' :: (p.1 ++ '\x00' :: p.2) ++ nulFlat t := by
      simp [nulFlat]
    have hnext : nulFlat t = [] ∨ ∃ r, nulFlat t = '\x00' :: r := by
      cases t with
      | nil => left; rfl
      | cons a b => right; exact ⟨_, by simp [nulFlat]; rfl⟩
    rw [pairsFrom, if_pos (by simp [hflat]; omega)]
    have e1 : strAt (pre ++ nulFlat (p :: t)) (pre.length + 1) = p.1 := by
      have := strAt_nul (pre ++ ['\x00']) p.1 ('\x00' :: (p.2 ++ nulFlat t)) h1 (.inr ⟨_, rfl⟩)
      simpa [hflat] using this
    have e2 : strAt (pre ++ nulFlat (p :: t)) (pre.length + 1 + p.1.length + 1) = p.2 := by
      have := strAt_nul (pre ++ '\x00' :: (p.1 ++ ['\x00'])) p.2 (nulFlat t) h2 hnext
      simp only [List.length_append, List.length_cons, List.length_nil] at this
      rw [show pre.length + (p.1.length + (0 + 1) + 1) = pre.length + 1 + p.1.length + 1 by omega]
        at this
      simpa [hflat] using this
    simp only [e1]
    rw [if_neg (by simp [hflat]; omega), e2]
    have := ih (fun x hx => h x (by simp [hx])) (pre ++ '\x00' :: (p.1 ++ '\x00' :: p.2))
    have hbuf : pre ++ nulFlat (p :: t) = pre ++ '\x00' :: (p.1 ++ '\x00' :: p.2) ++ nulFlat t := by
      simp [hflat]
    rw [hbuf]
    rw [show pre.length + 1 + p.1.length + p.2.length + 2 =
      (pre ++ '\x00' :: (p.1 ++ '\x00' :: p.2)).length + 1 by simp; omega, this]
    rfl

theorem nulls_word (w : CStr) (h : ∀ c ∈ w, c ≠ '#' ∧ c ≠ '=') : nulls w = w := by
  induction w with
  | nil => rfl
  | cons c t ih =>
    have hc := h c (by simp)
    simp only [nulls, List.map_cons] at ih ⊢
    rw [ih fun x hx => h x (by simp [hx])]
    simp [hc.1, hc.2]

theorem joinBlank_chars (vs : List CStr) (hok : ∀ v ∈ vs, Word v) :
    ∀ c ∈ joinBlank vs, c ≠ '#' ∧ c ≠ '=' ∧ c ≠ '\x00' := by
  induction vs with
  | nil => simp [joinBlank]
  | cons v t ih =>
    have hv := hok v (by simp)
    have hv' : ∀ c ∈ v, c ≠ '#' ∧ c ≠ '=' ∧ c ≠ '\x00' := fun c hc =>
      ⟨(hv.2 c hc).2.1, (hv.2 c hc).2.2.2.1, (hv.2 c hc).2.2.2.2⟩
    cases t with
    | nil => simpa [joinBlank] using hv'
    | cons u t =>
      intro c hc
      simp only [joinBlank, List.mem_append, List.mem_cons] at hc
      rcases hc with hc | rfl | hc
      · exact hv' c hc
      · decide
      · exact ih (fun x hx => hok x (by simp [hx])) c hc

theorem nulls_flat (es : List Entry) (hes : ∀ e ∈ es, e.Ok) :
    nulls (flat es) =
      nulFlat (es.map fun e => (e.name, joinBlank (e.vals.map (·.1)))) := by
  induction es with
  | nil => rfl
  | cons e t ih =>
    have he := hes e (by simp)
    have hvals : ∀ v ∈ e.vals.map (·.1), Word v := by
      intro v hv
      obtain ⟨x, hx, rfl⟩ := List.mem_map.1 hv
      exact (he.vals x hx).1
    have h1 := nulls_word e.name fun c hc => ⟨(he.name.2 c hc).2.1, (he.name.2 c hc).2.2.2.1⟩
    have h2 := nulls_word (joinBlank (e.vals.map (·.1))) fun c hc =>
      ⟨(joinBlank_chars _ hvals c hc).1, (joinBlank_chars _ hvals c hc).2.1⟩
    have h3 := ih fun x hx => hes x (by simp [hx])
    simp only [nulls, flat, nulFlat, List.flatMap_cons, List.map_cons, List.map_append] at *
    rw [h1, h2, h3]
    simp

end Sgrid
