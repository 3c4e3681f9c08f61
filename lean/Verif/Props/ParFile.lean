import Verif.Lemmas.ParFile
import Verif.Props.Params

/-!
Property C03: parameter files are read back exactly, whatever their layout.
-/

namespace Sgrid

open Spec

theorem render_noNul (f : File) (hf : f.Ok) : '\x00' ∉ f.render := by
  have hgap : ∀ g : Gap, (∀ x ∈ g, x.Ok) → '\x00' ∉ renderGap g := by
    intro g hg hm
    simp only [renderGap, List.mem_flatMap] at hm
    obtain ⟨x, hx, hm⟩ := hm
    have := hg x hx
    cases x with
    | ws c => simp [GapItem.render] at hm; subst hm; simp [GapItem.Ok] at this; revert this; decide
    | quote => simp [GapItem.render] at hm
    | comment t => simp [GapItem.Ok] at this; simp [GapItem.render, this.2] at hm
  have hword : ∀ w, Word w → '\x00' ∉ w := fun w hw hm => (hw.2 _ hm).2.2.2.2 rfl
  intro hm
  simp only [File.render, List.mem_append] at hm
  rcases hm with (hm | hm) | hm
  · exact hgap _ hf.lead hm
  · simp only [List.mem_flatMap] at hm
    obtain ⟨e, he, hm⟩ := hm
    have heo := hf.entries e he
    simp only [Entry.render, List.mem_append, List.mem_cons, List.mem_flatMap] at hm
    rcases hm with ((hm | hm) | hm | hm) | ⟨v, hv, hm⟩
    · exact hword _ heo.name hm
    · exact hgap _ heo.g1 hm
    · revert hm; decide
    · exact hgap _ heo.g2 hm
    · rcases hm with hm | hm
      · exact hword _ (heo.vals v hv).1 hm
      · exact hgap _ (heo.vals v hv).2 hm
  · split at hm
    · simp at hm
    · rename_i t ht
      simp [(hf.tail t ht).2] at hm

/-- **C03**. Every file laid out as described in `Spec/ParFile.lean` (arbitrary white space,
line breaks, quotes and comments between tokens, with or without gaps around '=', also
entries without values) is read as exactly the listed name/value pairs, in file order. -/
theorem C03_parse_layout (f : File) (hf : f.Ok) (hsize : f.render.length < 1000997) :
    parsePairs f.render = .ok f.pairs := by
  unfold parsePairs padFile
  rw [if_neg (by omega)]
  simp only [Res.bind_ok]
  have htw : (' ' :: f.render ++ [' ']).takeWhile (fun c => decide (c ≠ '\x00')) =
      ' ' :: f.render ++ [' '] := by
    have gen : ∀ (p : Char → Bool) (l : CStr), (∀ c ∈ l, p c = true) → l.takeWhile p = l := by
      intro p l
      induction l with
      | nil => simp
      | cons c t ih =>
        intro h
        rw [List.takeWhile_cons, h c (by simp), ih fun x hx => h x (by simp [hx])]
        simp
    refine gen _ _ ?_
    intro c hc
    simp only [List.cons_append, List.mem_cons, List.mem_append, List.not_mem_nil,
      or_false] at hc
    simp only [decide_eq_true_eq]
    rintro rfl
    rcases hc with h | h | h
    · revert h; decide
    · exact render_noNul f hf h
    · revert h; decide
  rw [htw]
  -- white space passes
  have h2 : collapse (whiteout false (' ' :: f.render ++ [' '])) =
      ' ' :: f.entries.flatMap fun e => cHead e ++ [' '] := by
    have e1 : whiteout false (' ' :: f.render ++ [' ']) =
        ' ' :: whiteout false (f.render ++ [' ']) := by simp [whiteout]
    rw [e1]
    have e2 : collapse (' ' :: whiteout false (f.render ++ [' '])) =
        ' ' :: cw true (f.render ++ [' ']) := by simp [collapse, cw, isSpace]
    rw [e2]
    congr 1
    have e3 : f.render ++ [' '] = renderGap f.lead ++
        (f.entries.flatMap Entry.render ++ tailStr f) := by
      simp only [File.render, tailStr, List.append_assoc]
      cases f.tail <;> rfl
    rw [e3, cw_gap true f.lead hf.lead, cw_entries f hf f.entries hf.entries hf.sep]
    split <;> simp
  simp only [h2]
  by_cases hne : f.entries = []
  · simp [hne, File.pairs]
    rw [markLoop]
    simp [unblank, dropAroundEq, nulls]
    rw [pairsFrom]
    simp
  · have h3 := mark_entries f.entries hf.entries hne []
      (' ' :: f.entries.flatMap fun e => cHead e ++ [' ']).length
    simp only [List.nil_append, List.length_nil] at h3
    rw [h3, unblank_entries f.entries hf.entries hne, nulls_flat f.entries hf.entries]
    have hnul : ∀ p ∈ f.pairs, '\x00' ∉ p.1 ∧ '\x00' ∉ p.2 := by
      intro p hp
      simp only [File.pairs, List.mem_map] at hp
      obtain ⟨e, he, rfl⟩ := hp
      have heo := hf.entries e he
      refine ⟨fun h => (heo.name.2 _ h).2.2.2.2 rfl, fun h => ?_⟩
      refine (joinBlank_chars _ ?_ _ h).2.2 rfl
      intro v hv
      obtain ⟨x, hx, rfl⟩ := List.mem_map.1 hv
      exact (heo.vals x hx).1
    have := pairsFrom_spec f.pairs hnul []
    simpa [File.pairs] using this

/-- Reading a file stores the pairs exactly like one AddOrModifyPar call per pair. -/
theorem storePairs_eq {ν : Type} (C : Conv ν) (ps : List (CStr × CStr)) (db : PDB ν)
    (hi : db.Inv C) :
    storePairs C db ps =
      db.run C (ps.map fun p => .addOrModify p.1 p.2 "not in libs".toList) := by
  induction ps generalizing db with
  | nil => rfl
  | cons p t ih =>
    obtain ⟨par, val⟩ := p
    have getsOk : ∀ {d : PDB ν} {n : CStr} {p : Par ν}, d.find n = some p →
        d.gets n = .ok p.value := by
      intro d n p h; unfold PDB.gets; rw [h]
    simp only [storePairs, List.map_cons, PDB.run, PDB.step, PDB.addOrModify]
    cases hf : db.find par with
    | none =>
      have hx : db.findIdx par = none := by
        rw [findIdx_none, ← assoc_eq_none, ← find_eq_assoc hi.nodup]; exact hf
      rw [hx]
      simp only
      rw [PDB.make_new hi hf]
      by_cases hr : db.pars.length + 1 ≥ npdbmax
      · rw [if_pos hr]; rfl
      · rw [if_neg hr]
        have hfa := PDB.find_append (v := val) (d := "not in libs".toList) hi hf hr
        simp only [Res.bind_ok]
        rw [getsOk (p := mkPar C par val "not in libs".toList) (by rw [hfa]; simp)]
        exact ih _ (PDB.new_inv hi hf hr)
    | some q =>
      obtain ⟨i, hx⟩ : ∃ i, db.findIdx par = some i := by
        cases hx : db.findIdx par with
        | none => unfold PDB.find at hf; rw [hx] at hf; simp at hf
        | some i => exact ⟨i, rfl⟩
      rw [hx]
      simp only
      obtain ⟨db', h1, h2, h3, h4⟩ := PDB.set_spec (v := val) hi hf
      rw [h1]
      simp only [Res.bind_ok]
      rw [getsOk (p := mkPar C par val q.descr) (by rw [h4]; simp)]
      exact ih _ h2

/-- **C03**, effect on the data base: reading a well laid out file after any history of
calls is the same as setting (or adding) the listed parameters one after the other, so that
afterwards everything in `C01_param_map` applies to the history extended by these. -/
theorem C03_parse_database {ν : Type} (C : Conv ν) (ops : List ParOp) (db : PDB ν)
    (h : (PDB.init ν).run C ops = .ok db) (f : File) (hf : f.Ok)
    (hsize : f.render.length < 1000997) :
    parseParameterFile C db f.render = (PDB.init ν).run C
      (ops ++ f.pairs.map fun p => .addOrModify p.1 p.2 "not in libs".toList) := by
  unfold parseParameterFile
  rw [C03_parse_layout f hf hsize, Res.bind_ok]
  have hs := run_sim C ops (init_sim C)
  rw [h] at hs
  cases h2 : ParSpec.empty.run getv ops with
  | none => rw [h2] at hs; exact hs.elim
  | some m =>
    rw [h2] at hs
    rw [storePairs_eq C f.pairs db hs.1]
    have happ : ∀ (ops1 ops2 : List ParOp) (d : PDB ν),
        d.run C (ops1 ++ ops2) = (d.run C ops1).bind fun d' => d'.run C ops2 := by
      intro ops1 ops2
      induction ops1 with
      | nil => intro d; rfl
      | cons op t ih =>
        intro d
        simp only [List.cons_append, PDB.run]
        cases d.step C op <;> simp [ih]
    rw [happ, h, Res.bind_ok]

/-- Example layout. -/
def exFile : File :=
  { lead := [.comment "my run".toList, .ws '\n']
    entries := [⟨"a".toList, [.ws ' '], [], [("1".toList, [.ws '\t', .quote]),
        ("x".toList, [.comment "c = 7".toList])]⟩,
      ⟨"bb".toList, [], [.ws ' '], []⟩,
      ⟨"c".toList, [], [.ws ' '], [("3".toList, [])]⟩]
    tail := some "end".toList }

example : String.ofList exFile.render =
    "#my run\n\na =1\t\"x#c = 7\nbb= c= 3#end" := by decide

example : parsePairs exFile.render = .ok
    [("a".toList, "1 x".toList), ("bb".toList, []), ("c".toList, "3".toList)] := by
  decide +kernel

example : exFile.Ok := by
  refine ⟨?_, ?_, ?_, ?_⟩
  · simp [exFile, GapItem.Ok]; decide
  · intro e he
    simp only [exFile, List.mem_cons, List.not_mem_nil, or_false] at he
    rcases he with rfl | rfl | rfl <;> refine ⟨?_, ?_, ?_, ?_, ?_⟩ <;>
      simp [Word, GapItem.Ok, List.dropLast] <;> decide
  · simp [exFile, List.dropLast, Entry.lastGap]
  · intro t ht; simp [exFile] at ht; subst ht; decide

/-- A file with a word but no '=': the reader looks for the value behind the end of its
buffer. -/
theorem C03_no_equal_sign : parsePairs "foo".toList = .ub := by decide +kernel

end Sgrid
