import Verif.Model.CheckpointFiles
import Mathlib.Tactic.Common

/-!
# C24 and C65: a crash never loses the newest checkpoint
-/

namespace Sgrid

namespace Spec

/-- The newest complete checkpoint after some work, if it was `last` before. -/
def newest (last : Option CStr) : List Work → Option CStr
  | [] => last
  | .checkpoint chunks :: ws => newest (some chunks.flatten) ws
  | .output _ _ :: ws => newest last ws

/-- The checkpoint `last` can be found: it is in `outdir`, or there is none in `outdir` and it is
in `outdir_previous`. -/
def Safe (fs : FS) (last : Option CStr) : Prop :=
  fileIn fs.cur .ckpt = last ∨ (fileIn fs.cur .ckpt = none ∧ fileIn fs.prev .ckpt = last)

/-- All files of a directory are in a list. -/
def Covers (ord : List FName) (d : Option Dir) : Prop := ∀ f, fileIn d f ≠ none → f ∈ ord

end Spec

open Spec

theorem FS.run_nil (fs : FS) : fs.run [] = fs := rfl

theorem FS.run_cons (fs : FS) (o : FOp) (os : List FOp) : fs.run (o :: os) = (fs.step o).run os := rfl

theorem FS.run_append (fs : FS) (a b : List FOp) : fs.run (a ++ b) = (fs.run a).run b := by
  simp [FS.run, List.foldl_append]

theorem prefix_append_cases {α : Type} {p a b : List α} (h : p <+: a ++ b) :
    p <+: a ∨ ∃ q, q <+: b ∧ p = a ++ q := by
  rcases List.prefix_or_prefix_of_prefix h (List.prefix_append a b) with h' | h'
  · exact .inl h'
  · obtain ⟨q, rfl⟩ := h'
    exact .inr ⟨q, (List.prefix_append_right_inj a).1 h, rfl⟩

theorem FS.run_inv {P : FS → Prop} {ops : List FOp} (h : ∀ o ∈ ops, ∀ fs, P fs → P (fs.step o)) :
    ∀ fs, P fs → P (fs.run ops) := by
  induction ops with
  | nil => intro fs hp; exact hp
  | cons o os ih =>
    intro fs hp
    exact ih (fun o' ho' => h o' (List.mem_cons_of_mem _ ho')) _ (h o List.mem_cons_self fs hp)

theorem FS.run_prefix_inv {P : FS → Prop} {ops p : List FOp}
    (h : ∀ o ∈ ops, ∀ fs, P fs → P (fs.step o)) (hp : p <+: ops) (fs : FS) (h0 : P fs) :
    P (fs.run p) :=
  FS.run_inv (fun o ho => h o (hp.subset ho)) fs h0

theorem Dir.put_same (d : Dir) (f : FName) (c : Option CStr) : d.put f c f = c := by simp [Dir.put]

theorem Dir.put_other (d : Dir) {f g : FName} (c : Option CStr) (h : g ≠ f) : d.put f c g = d g := by
  simp [Dir.put, h]

/-- While the new file is written, nothing else changes. -/
theorem writing_inv {fs : FS} {d : Dir} (hd : fs.cur = some d) {chunks : List CStr} {p : List FOp}
    (hp : p <+: FOp.writeOpen :: chunks.map FOp.writeChunk) :
    (fs.run p).prev = fs.prev ∧ ∃ d', (fs.run p).cur = some d' ∧ ∀ f, f ≠ .ckptNew → d' f = d f := by
  refine FS.run_prefix_inv (P := fun x => x.prev = fs.prev ∧
    ∃ d', x.cur = some d' ∧ ∀ f, f ≠ .ckptNew → d' f = d f) ?_ hp fs ⟨rfl, d, hd, fun _ _ => rfl⟩
  rintro o ho x ⟨hx1, d', hx2, hx3⟩
  rcases List.mem_cons.1 ho with rfl | ho
  · refine ⟨hx1, d'.put .ckptNew (some []), by simp [FS.step, hx2], fun f hf => ?_⟩
    rw [Dir.put_other _ _ hf, hx3 f hf]
  · obtain ⟨s, _, rfl⟩ := List.mem_map.1 ho
    refine ⟨hx1, d'.put .ckptNew ((d' .ckptNew).map (· ++ s)), by simp [FS.step, hx2], fun f hf => ?_⟩
    rw [Dir.put_other _ _ hf, hx3 f hf]

theorem chunks_run (chunks : List CStr) : ∀ (fs : FS) (d : Dir) (t : CStr), fs.cur = some d →
    d .ckptNew = some t →
    fileIn (fs.run (chunks.map FOp.writeChunk)).cur .ckptNew = some (t ++ chunks.flatten) := by
  induction chunks with
  | nil => intro fs d t hd ht; simp [FS.run_nil, fileIn, hd, ht]
  | cons c cs ih =>
    intro fs d t hd ht
    rw [List.map_cons, FS.run_cons, ih (fs.step (.writeChunk c)) (d.put .ckptNew (some (t ++ c)))
      (t ++ c) (by simp [FS.step, hd, ht]) (Dir.put_same _ _ _)]
    simp

theorem written_text {fs : FS} {d : Dir} (hd : fs.cur = some d) (chunks : List CStr) :
    fileIn (fs.run (.writeOpen :: chunks.map FOp.writeChunk)).cur .ckptNew =
      some chunks.flatten := by
  rw [FS.run_cons, chunks_run chunks _ (d.put .ckptNew (some [])) [] (by simp [FS.step, hd])
    (Dir.put_same _ _ _)]
  simp

theorem write_complete {fs : FS} {d : Dir} (hd : fs.cur = some d) (chunks : List CStr) :
    (fs.run (writeOps chunks)).prev = fs.prev ∧
    ∃ d', (fs.run (writeOps chunks)).cur = some d' ∧ d' .ckpt = some chunks.flatten ∧
      d' .ckptNew = none ∧ ∀ n, d' (.other n) = d (.other n) := by
  obtain ⟨h1, d', h2, h3⟩ := writing_inv hd (chunks := chunks) (List.prefix_refl _)
  have h4 := written_text hd chunks
  rw [fileIn, h2, Option.bind_some] at h4
  unfold writeOps
  rw [FS.run_append]
  set x := fs.run (.writeOpen :: chunks.map FOp.writeChunk) with hx
  refine ⟨by simpa [FS.run, FS.step] using h1, (d'.put .ckpt (some chunks.flatten)).put .ckptNew none,
    by simp [FS.run, FS.step, h2, h4], ?_, Dir.put_same _ _ _, fun n => ?_⟩
  · rw [Dir.put_other _ _ (by decide), Dir.put_same]
  · rw [Dir.put_other _ _ (by simp), Dir.put_other _ _ (by simp), h3 _ (by simp)]

/-- **C24.** However the text of a checkpoint is cut into pieces and whenever the program stops
while it is writing, the file `checkpoint.0` is either the old one or the complete new one; it is
the new one only if everything has been done, and then it is. All other files and `outdir_previous`
are left alone. -/
theorem C24_atomic (fs : FS) (d : Dir) (hd : fs.cur = some d) (chunks : List CStr) (k : Nat) :
    let fs' := fs.run ((writeOps chunks).take k)
    (k ≤ chunks.length + 1 → fileIn fs'.cur .ckpt = d .ckpt) ∧
    (chunks.length + 2 ≤ k → fileIn fs'.cur .ckpt = some chunks.flatten) ∧
    (∀ n, fileIn fs'.cur (.other n) = d (.other n)) ∧ fs'.prev = fs.prev := by
  intro fs'
  have hlen : (writeOps chunks).length = chunks.length + 2 := by simp [writeOps]
  by_cases hk : k ≤ chunks.length + 1
  · have hp : (writeOps chunks).take k <+: .writeOpen :: chunks.map FOp.writeChunk := by
      unfold writeOps
      rw [List.take_append_of_le_length (by simpa using hk)]
      exact List.take_prefix _ _
    obtain ⟨h1, d', h2, h3⟩ := writing_inv hd hp
    refine ⟨fun _ => ?_, fun h => by omega, fun n => ?_, h1⟩
    · rw [fileIn, h2, Option.bind_some, h3 _ (by decide)]
    · rw [fileIn, h2, Option.bind_some, h3 _ (by simp)]
  · have hall : (writeOps chunks).take k = writeOps chunks := List.take_of_length_le (by omega)
    obtain ⟨h1, d', h2, h3, -, h4⟩ := write_complete hd chunks
    refine ⟨fun h => by omega, fun _ => ?_, fun n => ?_, ?_⟩
    · simp only [fs', hall]; rw [fileIn, h2, Option.bind_some, h3]
    · simp only [fs', hall]; rw [fileIn, h2, Option.bind_some, h4]
    · simp only [fs', hall]; exact h1

/-- After any number of checkpoints, the last of which may be interrupted, the file is one of the
complete texts. -/
theorem C24_many (fs : FS) (d : Dir) (hd : fs.cur = some d) (old : CStr) (ho : d .ckpt = some old)
    (cs : List (List CStr)) (p : List FOp) (hp : p <+: cs.flatMap writeOps) :
    ∃ t ∈ old :: cs.map List.flatten, fileIn (fs.run p).cur .ckpt = some t := by
  induction cs generalizing fs d old p with
  | nil =>
    rw [List.flatMap_nil, List.prefix_nil] at hp
    subst hp
    exact ⟨old, by simp, by simp [FS.run_nil, fileIn, hd, ho]⟩
  | cons c cs ih =>
    rw [List.flatMap_cons] at hp
    rcases prefix_append_cases hp with h | ⟨q, hq, rfl⟩
    · have h1 := C24_atomic fs d hd c p.length
      rw [← List.prefix_iff_eq_take.1 h] at h1
      by_cases hk : p.length ≤ c.length + 1
      · exact ⟨old, by simp, by rw [h1.1 hk, ho]⟩
      · exact ⟨c.flatten, by simp, h1.2.1 (by omega)⟩
    · obtain ⟨-, d', h2, h3, -⟩ := write_complete hd c
      rw [FS.run_append]
      obtain ⟨t, ht, h⟩ := ih _ d' h2 _ h3 q hq
      refine ⟨t, ?_, h⟩
      simp only [List.mem_cons, List.map_cons] at ht ⊢
      exact .inr ht

/-- What the code does not protect against: nobody looks at the results of `fprintf`, `fwrite` and
`fclose`. If the disk is full and only a part of the text is written, the part still replaces the
good checkpoint. -/
theorem C24_disk_full_counterexample : ∃ (fs : FS) (old text : CStr) (written : List CStr),
    fileIn fs.cur .ckpt = some old ∧ written.flatten <+: text ∧
    fileIn (fs.run (writeOps written)).cur .ckpt ≠ some old ∧
    fileIn (fs.run (writeOps written)).cur .ckpt ≠ some text := by
  refine ⟨⟨some (Dir.empty.put .ckpt (some "good".toList)), none⟩, "good".toList, "newer".toList,
    ["ne".toList], by simp [fileIn, Dir.put], by decide, ?_⟩
  obtain ⟨-, d', h2, h3, -⟩ := write_complete
    (fs := ⟨some (Dir.empty.put .ckpt (some "good".toList)), none⟩) rfl ["ne".toList]
  rw [fileIn, h2, Option.bind_some, h3]
  decide

/-! ## Restarts -/

theorem remove_files (ord : List FName) (fs : FS) :
    (fs.run (ord.map (FOp.rmFile true))).cur = fs.cur ∧
    (fs.run (ord.map (FOp.rmFile true))).prev =
      fs.prev.map fun d f => if f ∈ ord then none else d f := by
  induction ord generalizing fs with
  | nil => refine ⟨rfl, ?_⟩; cases h : fs.prev <;> simp [FS.run_nil, h]
  | cons o os ih =>
    rw [List.map_cons, FS.run_cons]
    obtain ⟨h1, h2⟩ := ih (fs.step (.rmFile true o))
    refine ⟨by rw [h1]; rfl, ?_⟩
    rw [h2]
    cases hp : fs.prev with
    | none => simp [FS.step, hp]
    | some d =>
      simp only [FS.step, hp, Option.map_some, Option.some.injEq]
      funext f
      by_cases hf : f ∈ os <;> by_cases ho : f = o <;> simp [Dir.put, hf, ho]

theorem remove_files_cur (ord : List FName) (fs : FS) :
    (fs.run (ord.map (FOp.rmFile false))).prev = fs.prev ∧
    (fs.run (ord.map (FOp.rmFile false))).cur =
      fs.cur.map fun d f => if f ∈ ord then none else d f := by
  induction ord generalizing fs with
  | nil => refine ⟨rfl, ?_⟩; cases h : fs.cur <;> simp [FS.run_nil, h]
  | cons o os ih =>
    rw [List.map_cons, FS.run_cons]
    obtain ⟨h1, h2⟩ := ih (fs.step (.rmFile false o))
    refine ⟨by rw [h1]; rfl, ?_⟩
    rw [h2]
    cases hp : fs.cur with
    | none => simp [FS.step, hp]
    | some d =>
      simp only [FS.step, hp, Option.map_some, Option.some.injEq]
      funext f
      by_cases hf : f ∈ os <;> by_cases ho : f = o <;> simp [Dir.put, hf, ho]

theorem rmEmpty_cover {ord : List FName} {d : Option Dir} (h : Covers ord d) :
    rmEmpty (d.map fun d f => if f ∈ ord then none else d f) = none := by
  cases d with
  | none => rfl
  | some d =>
    simp only [Option.map_some, rmEmpty, ite_eq_left_iff, reduceCtorEq, imp_false, not_not]
    intro f
    by_cases hf : f ∈ ord
    · simp [hf]
    · intro _
      by_contra hne
      exact hf (h f hne)

/-- Removing `outdir_previous` removes all of it. -/
theorem removeOps_prev {ord : List FName} {fs : FS} (h : Covers ord fs.prev) :
    (fs.run (removeOps true ord)).cur = fs.cur ∧ (fs.run (removeOps true ord)).prev = none := by
  obtain ⟨h1, h2⟩ := remove_files ord fs
  rw [removeOps, FS.run_append, FS.run_cons, FS.run_nil]
  refine ⟨h1, ?_⟩
  simp only [FS.step, h2]
  exact rmEmpty_cover h

theorem removeOps_cur {ord : List FName} {fs : FS} (h : Covers ord fs.cur) :
    (fs.run (removeOps false ord)).prev = fs.prev ∧ (fs.run (removeOps false ord)).cur = none := by
  obtain ⟨h1, h2⟩ := remove_files_cur ord fs
  rw [removeOps, FS.run_append, FS.run_cons, FS.run_nil]
  refine ⟨h1, ?_⟩
  simp only [FS.step, h2]
  exact rmEmpty_cover h

theorem removeOps_prev_safe {ord : List FName} {p : List FOp} (hp : p <+: removeOps true ord)
    (fs : FS) : (fs.run p).cur = fs.cur := by
  refine FS.run_prefix_inv (P := fun x => x.cur = fs.cur) ?_ hp fs rfl
  intro o ho x hx
  rcases List.mem_append.1 ho with ho | ho
  · obtain ⟨f, -, rfl⟩ := List.mem_map.1 ho
    exact hx
  · obtain rfl := List.mem_singleton.1 ho
    exact hx

theorem rmEmpty_cases (d : Option Dir) (f : FName) :
    fileIn (rmEmpty d) f = fileIn d f := by
  cases d with
  | none => rfl
  | some d =>
    unfold rmEmpty
    dsimp only
    split
    · next h => simp [fileIn, h f]
    · rfl

theorem removeOps_cur_safe {ord : List FName} {p : List FOp} (hp : p <+: removeOps false ord)
    (fs : FS) (h : fileIn fs.cur .ckpt = none) :
    (fs.run p).prev = fs.prev ∧ fileIn (fs.run p).cur .ckpt = none := by
  refine FS.run_prefix_inv (P := fun x => x.prev = fs.prev ∧ fileIn x.cur .ckpt = none) ?_ hp fs
    ⟨rfl, h⟩
  rintro o ho x ⟨hx, hc⟩
  rcases List.mem_append.1 ho with ho | ho
  · obtain ⟨f, -, rfl⟩ := List.mem_map.1 ho
    refine ⟨hx, ?_⟩
    simp only [FS.step]
    cases hcur : x.cur with
    | none => rfl
    | some d =>
      rw [hcur] at hc
      simp only [fileIn, Option.map_some, Option.bind_some, Dir.put] at hc ⊢
      split <;> simp [hc]
  · obtain rfl := List.mem_singleton.1 ho
    exact ⟨hx, by simp only [FS.step]; rw [rmEmpty_cases]; exact hc⟩

theorem output_safe {os : List (Nat × CStr)} {p : List FOp}
    (hp : p <+: os.map fun o => FOp.output o.1 o.2) (fs : FS) (c : Option CStr)
    (h : fileIn fs.cur .ckpt = c) :
    (fs.run p).prev = fs.prev ∧ fileIn (fs.run p).cur .ckpt = c := by
  refine FS.run_prefix_inv (P := fun x => x.prev = fs.prev ∧ fileIn x.cur .ckpt = c) ?_ hp fs
    ⟨rfl, h⟩
  rintro o ho x ⟨hx, hc⟩
  obtain ⟨f, -, rfl⟩ := List.mem_map.1 ho
  refine ⟨hx, ?_⟩
  simp only [FS.step]
  cases hcur : x.cur with
  | none => rw [hcur] at hc; exact hc
  | some d =>
    rw [hcur] at hc
    simp only [fileIn, Option.map_some, Option.bind_some, Dir.put] at hc ⊢
    simpa using hc

/-- Work: whatever is done, the checkpoint in `outdir` is the newest complete one. -/
theorem work_safe (ws : List Work) : ∀ (fs : FS) (d : Dir) (last : Option CStr) (p : List FOp),
    fs.cur = some d → d .ckpt = last → p <+: ws.flatMap workOps →
    ∃ done, done <+: ws ∧ fileIn (fs.run p).cur .ckpt = newest last done ∧
      (p = ws.flatMap workOps → done = ws) := by
  induction ws with
  | nil =>
    intro fs d last p hd hl hp
    rw [List.flatMap_nil, List.prefix_nil] at hp
    subst hp
    exact ⟨[], List.prefix_refl _, by simp [FS.run_nil, fileIn, hd, hl, newest], fun _ => rfl⟩
  | cons w ws ih =>
    intro fs d last p hd hl hp
    rw [List.flatMap_cons] at hp
    rcases prefix_append_cases hp with h | ⟨q, hq, rfl⟩
    · by_cases hpe : p = workOps w
      · subst hpe
        have hdone : ∀ (P : Prop), (fs.run (workOps w)).cur.isSome ∧
            fileIn (fs.run (workOps w)).cur .ckpt = newest last [w] := by
          intro _
          cases w with
          | checkpoint chunks =>
            obtain ⟨-, d', h2, h3, -⟩ := write_complete hd chunks
            exact ⟨by simp [workOps, h2], by simp [workOps, h2, fileIn, h3, newest]⟩
          | output n s =>
            simp [workOps, FS.run, FS.step, hd, fileIn, Dir.put, newest, hl]
        obtain ⟨hs, hf⟩ := hdone True
        obtain ⟨d', hd'⟩ := Option.isSome_iff_exists.1 hs
        obtain ⟨done, h1, h2, h3⟩ := ih _ d' (newest last [w]) [] hd'
          (by rw [hd'] at hf; exact hf) (List.nil_prefix)
        refine ⟨w :: done, (List.prefix_cons_inj w).2 h1, ?_, fun he => ?_⟩
        · rw [FS.run_nil] at h2
          rw [h2]
          cases w <;> rfl
        · rw [List.flatMap_cons] at he
          have : ws.flatMap workOps = [] := by
            have := congrArg List.length he
            rw [List.length_append] at this
            exact List.eq_nil_of_length_eq_zero (by omega)
          rw [h3 this.symm]
      · refine ⟨[], List.nil_prefix, ?_, fun he => ?_⟩
        · cases w with
          | checkpoint chunks =>
            have hlt : p.length < (writeOps chunks).length := by
              rcases Nat.lt_or_ge p.length (writeOps chunks).length with h' | h'
              · exact h'
              · exact absurd (h.eq_of_length_le h') hpe
            have h1 := C24_atomic fs d hd chunks p.length
            simp only [workOps] at h
            rw [← List.prefix_iff_eq_take.1 h] at h1
            rw [h1.1 (by simp [writeOps] at hlt; omega), hl]
            rfl
          | output n s =>
            have : p = [] := by
              have hl := h.length_le
              simp only [workOps, List.length_singleton] at hl
              rcases Nat.lt_or_ge p.length 1 with h' | h'
              · exact List.eq_nil_of_length_eq_zero (by omega)
              · exact absurd (h.eq_of_length_le (by simpa [workOps] using h')) hpe
            subst this
            simp [FS.run_nil, fileIn, hd, hl, newest]
        · exfalso
          apply hpe
          refine h.eq_of_length_le ?_
          rw [he, List.flatMap_cons, List.length_append]
          omega
    · have hdone : (fs.run (workOps w)).cur.isSome ∧
          fileIn (fs.run (workOps w)).cur .ckpt = newest last [w] := by
        cases w with
        | checkpoint chunks =>
          obtain ⟨-, d', h2, h3, -⟩ := write_complete hd chunks
          exact ⟨by simp [workOps, h2], by simp [workOps, h2, fileIn, h3, newest]⟩
        | output n s =>
          simp [workOps, FS.run, FS.step, hd, fileIn, Dir.put, newest, hl]
      obtain ⟨hs, hf⟩ := hdone
      obtain ⟨d', hd'⟩ := Option.isSome_iff_exists.1 hs
      obtain ⟨done, h1, h2, h3⟩ := ih _ d' (newest last [w]) q hd'
        (by rw [hd'] at hf; exact hf) hq
      refine ⟨w :: done, (List.prefix_cons_inj w).2 h1, ?_, fun he => ?_⟩
      · rw [FS.run_append, h2]
        cases w <;> rfl
      · rw [List.flatMap_cons, List.append_cancel_left_eq] at he
        rw [h3 he]

/-- What a run may find when it removes directories: all files that are there. -/
def RunData.Covers (r : RunData) (fs : FS) : Prop :=
  Spec.Covers r.ord1 fs.prev ∧
  Spec.Covers r.ord2 ((fs.run (startOps fs r.ord1)).run
    (r.before.map fun o => FOp.output o.1 o.2)).cur

/-- **C65.** If the newest complete checkpoint can be found before a run, the newest one can be found
after it, whenever the run crashes: there is a first part `done` of the work of the run such that
the newest checkpoint of it, or the old one if there is none, can be found. -/
theorem C65_run (fs : FS) (last : Option CStr) (r : RunData) (h : Safe fs last) (hc : r.Covers fs) :
    ∃ done, done <+: r.work ∧ Safe (fs.afterRun r) (newest last done) := by
  unfold FS.afterRun runOps
  split
  · exact ⟨[], List.nil_prefix, by simpa [FS.run_nil, newest] using h⟩
  · next hgo =>
    have hcur : fileIn fs.cur .ckpt = last := by
      rcases h with h | ⟨h1, h2⟩
      · exact h
      · simp only [not_and_or, h1, Option.isNone_none, not_true_eq_false, or_false] at hgo
        rw [h2] at hgo
        cases last with
        | none => exact h1
        | some c => simp at hgo
    have hstart : startOps fs r.ord1 = removeOps true r.ord1 ++ [.mvCurPrev, .mkCur] := by
      rw [startOps, if_neg hgo]
    obtain ⟨hr1, hr2⟩ := removeOps_prev hc.1
    -- the state after the start
    have hmv : ∀ x : FS, x.cur = fs.cur → x.prev = none →
        (x.step .mvCurPrev).cur = none ∧ fileIn (x.step .mvCurPrev).prev .ckpt = last := by
      intro x hx1 hx2
      simp only [FS.step, hx1, hx2]
      cases hcc : fs.cur with
      | none =>
        rw [hcc] at hcur
        exact ⟨rfl, hcur⟩
      | some d =>
        rw [hcc] at hcur
        simp only [renameDir, rmEmpty, if_true]
        exact ⟨trivial, hcur⟩
    obtain ⟨hm1, hm2⟩ := hmv _ hr1 hr2
    set y := (fs.run (removeOps true r.ord1)).step .mvCurPrev with hy
    have hst : fs.run (startOps fs r.ord1) = y.step .mkCur := by
      rw [hstart, FS.run_append]; rfl
    have hz1 : (y.step .mkCur).cur = some Dir.empty := by simp [FS.step, hm1]
    have hz2 : fileIn (y.step .mkCur).prev .ckpt = last := hm2
    -- crash during the start
    have hcrash : ∀ p, p <+: startOps fs r.ord1 → Safe (fs.run p) last := by
      intro p hp
      rw [hstart] at hp
      rcases prefix_append_cases hp with h1 | ⟨q, hq, rfl⟩
      · left
        rw [removeOps_prev_safe h1]
        exact hcur
      · rw [FS.run_append]
        rcases q with _ | ⟨a, q⟩
        · left; rw [FS.run_nil, hr1]; exact hcur
        · obtain ⟨ha, hq1⟩ := List.cons_prefix_cons.1 hq
          subst ha
          rcases q with _ | ⟨b, q⟩
          · right
            rw [FS.run_cons, FS.run_nil]
            exact ⟨by rw [← hy, hm1]; rfl, hm2⟩
          · obtain ⟨hb, hq'⟩ := List.cons_prefix_cons.1 hq1
            subst hb
            rw [List.prefix_nil] at hq'
            subst hq'
            right
            rw [FS.run_cons, FS.run_cons, FS.run_nil, ← hy]
            exact ⟨by rw [hz1]; rfl, hz2⟩
    have hpre := List.take_prefix r.crash (startOps fs r.ord1 ++
      if (fileIn (fs.run (startOps fs r.ord1)).prev .ckpt).isSome then
        r.before.map (fun o => FOp.output o.1 o.2) ++ moveBackOps r.ord2 ++ r.work.flatMap workOps
      else r.work.flatMap workOps)
    set p := List.take r.crash (startOps fs r.ord1 ++
      if (fileIn (fs.run (startOps fs r.ord1)).prev .ckpt).isSome then
        r.before.map (fun o => FOp.output o.1 o.2) ++ moveBackOps r.ord2 ++ r.work.flatMap workOps
      else r.work.flatMap workOps) with hpdef
    rcases prefix_append_cases hpre with h1 | ⟨q, hq, he⟩
    · exact ⟨[], List.nil_prefix, hcrash _ h1⟩
    · rw [he, FS.run_append, hst]
      rw [hst] at hq
      have hcz : fileIn (y.step .mkCur).cur .ckpt = none := by rw [hz1]; rfl
      split at hq
      · next hsome =>
        rw [List.append_assoc] at hq
        rcases prefix_append_cases hq with h2 | ⟨q2, hq2, rfl⟩
        · obtain ⟨h3, h4⟩ := output_safe h2 (y.step .mkCur) none hcz
          exact ⟨[], List.nil_prefix, .inr ⟨h4, by rw [h3]; exact hz2⟩⟩
        · obtain ⟨h3, h4⟩ := output_safe (List.prefix_refl
            (r.before.map fun o => FOp.output o.1 o.2)) (y.step .mkCur) none hcz
          rw [FS.run_append]
          have hcov := hc.2
          rw [hst] at hcov
          set z := (y.step .mkCur).run (r.before.map fun o => FOp.output o.1 o.2) with hzdef
          rw [moveBackOps, List.append_assoc] at hq2
          rcases prefix_append_cases hq2 with h5 | ⟨q3, hq3, rfl⟩
          · obtain ⟨h6, h7⟩ := removeOps_cur_safe h5 z h4
            exact ⟨[], List.nil_prefix, .inr ⟨h7, by rw [h6, h3]; exact hz2⟩⟩
          · obtain ⟨h6, h7⟩ := removeOps_cur hcov
            rw [FS.run_append]
            set u := z.run (removeOps false r.ord2) with hu
            rcases q3 with _ | ⟨a, q4⟩
            · refine ⟨[], List.nil_prefix, .inr ⟨?_, ?_⟩⟩
              · rw [FS.run_nil, h7]; rfl
              · rw [FS.run_nil, h6, h3]; exact hz2
            · rw [List.singleton_append] at hq3
              obtain ⟨rfl, hq4⟩ := List.cons_prefix_cons.1 hq3
              rw [FS.run_cons]
              have hup0 : u.prev = (y.step .mkCur).prev := by rw [h6, h3]
              obtain ⟨c, hcs⟩ := Option.isSome_iff_exists.1 hsome
              obtain ⟨d, hd1, hd2⟩ := Option.bind_eq_some_iff.1 hcs
              have hmc : (u.step .mvPrevCur).cur = some d := by
                simp only [FS.step, hup0.trans hd1, h7, renameDir, rmEmpty, if_true]
              have hlc : last = some c := by rw [← hz2]; exact hcs
              obtain ⟨done, h8, h9, -⟩ := work_safe r.work _ d last q4 hmc (by rw [hd2, hlc]) hq4
              exact ⟨done, h8, .inl h9⟩
      · next hnone =>
        have hln : last = none := by
          rw [← hz2]
          simpa using hnone
        obtain ⟨done, h8, h9, -⟩ := work_safe r.work (y.step .mkCur) Dir.empty last q hz1
          (by rw [hln]; rfl) hq
        exact ⟨done, h8, .inl h9⟩

/-- A series of runs. -/
inductive Runs : FS → List RunData → FS → Prop
  | nil (fs : FS) : Runs fs [] fs
  | cons (fs : FS) (r : RunData) (rs : List RunData) (fs' : FS) :
    r.Covers fs → Runs (fs.afterRun r) rs fs' → Runs fs (r :: rs) fs'

/-- **C65.** After any number of runs, each of which may have crashed anywhere, the newest complete
checkpoint can still be found: for each run there is a part of its work that was done, and the
checkpoint is the newest one among these. -/
theorem C65_runs (fs fs' : FS) (rs : List RunData) (last : Option CStr) (hr : Runs fs rs fs')
    (h : Safe fs last) :
    ∃ dones : List (List Work), List.Forall₂ (fun done r => done <+: r.work) dones rs ∧
      Safe fs' (newest last dones.flatten) := by
  induction hr generalizing last with
  | nil fs => exact ⟨[], .nil, h⟩
  | cons fs r rs fs' hc _ ih =>
    obtain ⟨done, h1, h2⟩ := C65_run fs last r h hc
    obtain ⟨dones, h3, h4⟩ := ih _ h2
    refine ⟨done :: dones, .cons h1 h3, ?_⟩
    rw [List.flatten_cons]
    have : ∀ (a b : List Work) (l : Option CStr), newest l (a ++ b) = newest (newest l a) b := by
      intro a b
      induction a with
      | nil => intro l; rfl
      | cons w a ih =>
        intro l
        cases w with
        | checkpoint c => exact ih _
        | output n s => exact ih _
    rw [this]
    exact h4

/-- **C65.** A run that does not crash and is not refused ends with its newest checkpoint in
`outdir`; if it wrote none, with the one it started from. -/
theorem C65_complete (fs : FS) (last : Option CStr) (r : RunData) (hcur : fileIn fs.cur .ckpt = last)
    (hgo : ¬((fileIn fs.prev .ckpt).isSome ∧ (fileIn fs.cur .ckpt).isNone)) (hc : r.Covers fs)
    (hk : (runOps fs r).length ≤ r.crash) :
    fileIn (fs.afterRun r).cur .ckpt = newest last r.work := by
  unfold FS.afterRun
  rw [List.take_of_length_le hk, runOps, if_neg hgo]
  have hstart : startOps fs r.ord1 = removeOps true r.ord1 ++ [.mvCurPrev, .mkCur] := by
    rw [startOps, if_neg hgo]
  obtain ⟨hr1, hr2⟩ := removeOps_prev hc.1
  have hm1 : ((fs.run (removeOps true r.ord1)).step .mvCurPrev).cur = none := by
    simp only [FS.step, hr1, hr2]
    cases fs.cur <;> simp [renameDir, rmEmpty]
  have hm2 : fileIn ((fs.run (removeOps true r.ord1)).step .mvCurPrev).prev .ckpt = last := by
    simp only [FS.step, hr1, hr2]
    cases hcc : fs.cur with
    | none => rw [hcc] at hcur; exact hcur
    | some d => rw [hcc] at hcur; simpa [renameDir, rmEmpty] using hcur
  set y := (fs.run (removeOps true r.ord1)).step .mvCurPrev with hy
  have hst : fs.run (startOps fs r.ord1) = y.step .mkCur := by
    rw [hstart, FS.run_append]; rfl
  have hz1 : (y.step .mkCur).cur = some Dir.empty := by simp [FS.step, hm1]
  have hz2 : fileIn (y.step .mkCur).prev .ckpt = last := hm2
  have hcz : fileIn (y.step .mkCur).cur .ckpt = none := by rw [hz1]; rfl
  rw [FS.run_append, hst]
  have hcov := hc.2
  rw [hst] at hcov
  split
  · next hsome =>
    rw [FS.run_append, FS.run_append]
    obtain ⟨h3, h4⟩ := output_safe (List.prefix_refl
      (r.before.map fun o => FOp.output o.1 o.2)) (y.step .mkCur) none hcz
    set z := (y.step .mkCur).run (r.before.map fun o => FOp.output o.1 o.2) with hzdef
    obtain ⟨h6, h7⟩ := removeOps_cur hcov
    rw [moveBackOps, FS.run_append]
    set u := z.run (removeOps false r.ord2) with hu
    have hup0 : u.prev = (y.step .mkCur).prev := by rw [h6, h3]
    obtain ⟨c, hcs⟩ := Option.isSome_iff_exists.1 hsome
    obtain ⟨d, hd1, hd2⟩ := Option.bind_eq_some_iff.1 hcs
    have hmc : (u.step .mvPrevCur).cur = some d := by
      simp only [FS.step, hup0.trans hd1, h7, renameDir, rmEmpty, if_true]
    have hlc : last = some c := by rw [← hz2]; exact hcs
    obtain ⟨done, -, h9, h10⟩ := work_safe r.work _ d last _ hmc (by rw [hd2, hlc])
      (List.prefix_refl _)
    rw [FS.run_cons, FS.run_nil, h9, h10 rfl]
  · next hnone =>
    have hln : last = none := by
      rw [← hz2]
      simpa using hnone
    obtain ⟨done, -, h9, h10⟩ := work_safe r.work (y.step .mkCur) Dir.empty last _ hz1
      (by rw [hln]; rfl) (List.prefix_refl _)
    rw [h9, h10 rfl]

/-- **C65, what is not safe.** If `checkpoint_previous` is not `no`, the old output is copied by
`cp -pr` instead of being moved. A run that is interrupted while it copies the checkpoint leaves a
part of it in `outdir`. The next start then removes the complete one in `outdir_previous`. -/
theorem C65_copy_counterexample : ∃ (fs : FS) (c : CStr) (files : List (FName × List CStr)) (k : Nat),
    fileIn fs.prev .ckpt = some c ∧ files = [(.ckpt, [c.take 1, c.drop 1])] ∧
    let fs1 := fs.run ((copyBackOps [] files).take k)
    let fs2 := fs1.run (startOps fs1 [.ckpt])
    fileIn fs1.prev .ckpt = some c ∧ Spec.Covers [.ckpt] fs1.prev ∧
    fileIn fs2.cur .ckpt = none ∧ fileIn fs2.prev .ckpt ≠ none ∧ fileIn fs2.prev .ckpt ≠ some c := by
  refine ⟨⟨some Dir.empty, some (Dir.empty.put .ckpt (some "data".toList))⟩, "data".toList, _, 3,
    by simp [fileIn, Dir.put], rfl, ?_⟩
  have e1 : (FS.mk (some Dir.empty) (some (Dir.empty.put .ckpt (some "data".toList)))).run
      ((copyBackOps [] [(.ckpt, ["data".toList.take 1, "data".toList.drop 1])]).take 3) =
      ⟨some (Dir.empty.put .ckpt (some "d".toList)),
        some (Dir.empty.put .ckpt (some "data".toList))⟩ := by
    simp only [copyBackOps, removeOps, List.map_nil, List.nil_append, List.flatMap_cons,
      List.flatMap_nil, List.map_cons, List.append_nil, List.cons_append, List.take_succ_cons,
      List.take_zero, FS.run, List.foldl_cons, List.foldl_nil, FS.step]
    have : rmEmpty (some Dir.empty) = none := by simp [rmEmpty, Dir.empty]
    rw [this]
    simp only [Option.getD_none, Option.map_some, Dir.put_same]
    congr 2
    funext f
    simp only [Dir.put]
    split <;> simp
  intro fs1 fs2
  have hfs1 : fs1 = ⟨some (Dir.empty.put .ckpt (some "d".toList)),
        some (Dir.empty.put .ckpt (some "data".toList))⟩ := e1
  have hcov : Spec.Covers [.ckpt] fs1.prev := by
    intro f hf
    rw [hfs1] at hf
    by_contra hne
    simp only [List.mem_singleton] at hne
    exact hf (by simp [fileIn, Dir.put, hne, Dir.empty])
  have hc1 : fileIn fs1.cur .ckpt = some "d".toList := by rw [hfs1]; simp [fileIn, Dir.put]
  have hst : startOps fs1 [.ckpt] = removeOps true [.ckpt] ++ [.mvCurPrev, .mkCur] := by
    rw [startOps, if_neg (by rw [hc1]; simp)]
  obtain ⟨hr1, hr2⟩ := removeOps_prev hcov
  have h2 : fs2 = ⟨some Dir.empty, fs1.cur⟩ := by
    show fs1.run (startOps fs1 [.ckpt]) = _
    rw [hst, FS.run_append, FS.run_cons, FS.run_cons, FS.run_nil]
    simp only [FS.step, hr1, hr2]
    rw [hfs1]
    simp [renameDir, rmEmpty]
  refine ⟨by rw [hfs1]; simp [fileIn, Dir.put], hcov, by rw [h2]; rfl, ?_, ?_⟩
  · rw [h2, hc1]; simp
  · rw [h2, hc1]; decide

/-- **C65.** Moving a directory onto one that holds a file has no effect: no file is lost. -/
theorem C65_rename_safe (src : Option Dir) (dst : Dir) (f : FName) (h : dst f ≠ none) :
    renameDir src (some dst) = (src, some dst) := by
  have : ¬ ∀ f, dst f = none := fun h' => h (h' f)
  cases src <;> simp [renameDir, rmEmpty, this]

/-- The initial state: no directories, no checkpoint. -/
example : Safe ⟨none, none⟩ none := .inl rfl

/-- Two checkpoints and some output; the second checkpoint is the newest. -/
example : newest (some "a".toList) [.checkpoint ["b".toList, "c".toList], .output 3 "x".toList,
    .checkpoint ["d".toList, "e".toList], .output 3 "y".toList] = some "de".toList := by
  decide

end Sgrid
