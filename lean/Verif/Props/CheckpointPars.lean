import Verif.Model.Checkpoint
import Verif.Lemmas.Wolfio
import Verif.Props.Params

/-! C25: parameters, time and iteration survive a checkpoint. -/

namespace Sgrid
open Wolfio Checkpoint

/-- A parameter as it can stand on a line of the file. -/
structure Spec.Writable {ν : Type} (p : Par ν) : Prop where
  name : IsWord p.name
  noEq : '=' ∉ p.name
  noNul : Char.ofNat 0 ∉ p.name ++ p.value
  noNl : '\n' ∉ p.value
  short : p.name.length + 3 + p.value.length < bufSize

/-- The value the file gives to a name. -/
def Spec.inFile {ν : Type} (pars : List (Par ν)) (n : CStr) : Option CStr :=
  (pars.find? fun p => decide (p.name = n)).map (·.value)

/-- What a parameter should be after reading: parameters that exist and are not on the list `L`
of parameters to keep get the value of the file. -/
def Spec.afterRead {ν : Type} (L : CStr) (pars : List (Par ν)) (n : CStr) (old : Option CStr) :
    Option CStr :=
  old.map fun v => match Spec.inFile pars n with
    | none => v
    | some w => if getv L n then v else w

open Spec

/-- The list parameter. -/
abbrev keepList : CStr := "checkpoint_no_read_parlist".toList

/-- The line of such a parameter. -/
theorem Spec.Writable.line {ν : Type} {p : Par ν} (hw : Spec.Writable p) :
    '\n' ∉ p.name ++ " = ".toList ++ p.value ∧
    Char.ofNat 0 ∉ p.name ++ " = ".toList ++ p.value ∧
    (p.name ++ " = ".toList ++ p.value).length = p.name.length + 3 + p.value.length := by
  refine ⟨?_, ?_, by simp; omega⟩
  · simp only [List.mem_append, not_or]
    refine ⟨⟨fun h => ?_, by decide⟩, hw.noNl⟩
    have := hw.name.2 _ h
    revert this; decide
  · have := hw.noNul
    simp only [List.mem_append, not_or] at this ⊢
    exact ⟨⟨this.1, by decide⟩, this.2⟩

theorem inv_of_run {ν : Type} {C : Conv ν} {ops : List ParOp} {db : PDB ν}
    (h : (PDB.init ν).run C ops = .ok db) : db.Inv C := by
  have hs := run_sim C ops (init_sim C)
  rw [h] at hs
  cases h2 : ParSpec.empty.run getv ops with
  | none => rw [h2] at hs; exact hs.elim
  | some m => rw [h2] at hs; exact hs.1

theorem beforeAfterEQ_line {name value : CStr} (h : '=' ∉ name) :
    beforeAfterEQ (name ++ " = ".toList ++ value) = (name ++ [' '], ' ' :: value) := by
  have e : name ++ " = ".toList ++ value = (name ++ [' ']) ++ '=' :: (' ' :: value) := by
    simp
  have hn : ∀ c ∈ name ++ [' '], decide (c ≠ '=') = true := by
    intro c hc
    simp only [List.mem_append, List.mem_singleton] at hc
    rcases hc with hc | rfl
    · simp; rintro rfl; exact h hc
    · decide
  obtain ⟨h1, h2⟩ := takeWhile_word (p := fun c => decide (c ≠ '=')) hn (c := '=') (by simp)
    (' ' :: value)
  unfold beforeAfterEQ
  rw [e, h1, h2]
  rfl

theorem sscanWord_name {name : CStr} (h : IsWord name) (buf : CStr) :
    sscanWord (name ++ [' ']) buf = name := by
  have := word_eq (sp := []) (by simp [IsBlank]) h (c := ' ') (by decide) []
  rw [List.nil_append] at this
  rw [sscanWord, this]

theorem translate_idem (v : CStr) : translate (translate v) = translate v := by
  by_cases h : v = "pi".toList ∨ v = "-pi".toList ∨ v = "pi/2".toList ∨ v = "-pi/2".toList ∨
      v = "2*pi".toList ∨ v = "-2*pi".toList
  · rcases h with rfl | rfl | rfl | rfl | rfl | rfl <;> decide
  · simp only [not_or] at h
    obtain ⟨h1, h2, h3, h4, h5, h6⟩ := h
    have : translate v = v := by simp only [translate, h1, h2, h3, h4, h5, h6, if_false]
    rw [this, this]

/-- In a reachable data base all values are translated. -/
theorem reachable_translated {ν : Type} (C : Conv ν) (ops : List ParOp) (db : PDB ν)
    (h : (PDB.init ν).run C ops = .ok db) : ∀ p ∈ db.pars, translate p.value = p.value := by
  suffices ∀ (ops : List ParOp) (db0 : PDB ν), (∀ p ∈ db0.pars, translate p.value = p.value) →
      db0.run C ops = .ok db → ∀ p ∈ db.pars, translate p.value = p.value from
    this ops _ (by simp [PDB.init]) h
  have hset : ∀ (db0 : PDB ν) n v db1, (∀ p ∈ db0.pars, translate p.value = p.value) →
      db0.set C n v = .ok db1 → ∀ p ∈ db1.pars, translate p.value = p.value := by
    intro db0 n v db1 h0 h1
    unfold PDB.set at h1
    split at h1
    · cases h1
    · cases h1
      intro p hp
      rcases mem_modify hp with hp | ⟨q, _, rfl⟩
      · exact h0 p hp
      · exact translate_idem _
  have hmake : ∀ (db0 : PDB ν) n v d db1, (∀ p ∈ db0.pars, translate p.value = p.value) →
      db0.make C n v d = .ok db1 → ∀ p ∈ db1.pars, translate p.value = p.value := by
    intro db0 n v d db1 h0 h1
    unfold PDB.make at h1
    simp only at h1
    split at h1 <;> split at h1
    · cases h1
    · cases h1
      intro p hp
      simp only [List.mem_append, List.mem_singleton] at hp
      rcases hp with hp | rfl
      · exact h0 p hp
      · exact translate_idem _
    · cases h1
    · cases h1
      intro p hp
      rcases mem_modify hp with hp | ⟨q, hq, rfl⟩
      · exact h0 p hp
      · exact h0 q hq
  have hstep : ∀ (op : ParOp) (db0 db1 : PDB ν), (∀ p ∈ db0.pars, translate p.value = p.value) →
      db0.step C op = .ok db1 → ∀ p ∈ db1.pars, translate p.value = p.value := by
    intro op db0 db1 h0 h1
    cases op with
    | addPar n v d =>
      simp only [PDB.step, PDB.addPar, Res.bind_eq_ok] at h1
      obtain ⟨a, ha, b, hb, hc⟩ := h1
      cases hc
      exact hmake _ _ _ _ _ h0 ha
    | addOrModify n v d =>
      simp only [PDB.step, PDB.addOrModify, Res.bind_eq_ok] at h1
      obtain ⟨a, ha, b, hb, hc⟩ := h1
      cases hc
      split at ha
      · exact hmake _ _ _ _ _ h0 ha
      · exact hset _ _ _ _ h0 ha
    | sets n v => exact hset _ _ _ _ h0 h1
    | appends n v =>
      simp only [PDB.step, PDB.appends, Res.bind_eq_ok] at h1
      obtain ⟨a, ha, hb⟩ := h1
      split at hb
      · cases hb; exact h0
      · exact hset _ _ _ _ h0 hb
    | setStart n =>
      simp only [PDB.step, PDB.setStart] at h1
      split at h1
      · cases h1
      · cases h1; exact h0
  intro ops
  induction ops with
  | nil => intro db0 h0 h1; cases h1; exact h0
  | cons op ops ih =>
    intro db0 h0 h1
    simp only [PDB.run, Res.bind_eq_ok] at h1
    obtain ⟨db1, h2, h3⟩ := h1
    exact ih db1 (hstep op _ _ h0 h2) h3

/-- Reading one line of the parameter section. -/
theorem readParLine_spec {ν : Type} {C : Conv ν} {db : PDB ν} (hi : db.Inv C) {L : CStr}
    (hL : db.getsLax keepList = some L) {p : Par ν} (hp : Writable p)
    (ht : translate p.value = p.value) :
    ∃ db', readParLine C db (p.name ++ " = ".toList ++ p.value) = .ok db' ∧ db'.Inv C ∧
      ∀ n, db'.getsLax n = if n = p.name ∧ (db.getsLax n).isSome ∧ getv L n = false
        then some p.value else db.getsLax n := by
  unfold readParLine
  simp only [beforeAfterEQ_line hp.noEq, sscanWord_name hp.name]
  cases hc : db.getsLax p.name with
  | none =>
    refine ⟨db, rfl, hi, fun n => ?_⟩
    by_cases hn : n = p.name
    · subst hn; simp [hc]
    · simp [hn]
  | some cur =>
    simp only
    by_cases hv : p.value = cur
    · rw [if_neg (by simpa using hv)]
      refine ⟨db, rfl, hi, fun n => ?_⟩
      by_cases hn : n = p.name
      · subst hn; simp [hc, hv]
      · simp [hn]
    · rw [if_pos (by simpa using hv)]
      have hg : db.getv keepList p.name = .ok (getv L p.name) := by
        unfold PDB.getv PDB.gets
        unfold PDB.getsLax at hL
        cases hf : db.find keepList with
        | none => rw [hf] at hL; cases hL
        | some q => rw [hf] at hL; cases hL; rfl
      rw [hg, Res.bind_ok]
      cases hk : getv L p.name with
      | true =>
        refine ⟨db, rfl, hi, fun n => ?_⟩
        by_cases hn : n = p.name
        · subst hn; simp [hk]
        · simp [hn]
      | false =>
        unfold PDB.getsLax at hc
        cases hf : db.find p.name with
        | none => rw [hf] at hc; cases hc
        | some q =>
          obtain ⟨db', h1, h2, -, h4⟩ := PDB.set_spec (v := p.value) hi hf
          refine ⟨db', h1, h2, fun n => ?_⟩
          unfold PDB.getsLax
          rw [h4 n]
          by_cases hn : n = p.name
          · subst hn; simp [hf, hk, mkPar, ht]
          · simp [hn]

theorem inFile_cons {ν : Type} (p : Par ν) (ps : List (Par ν)) (n : CStr) :
    inFile (p :: ps) n = if p.name = n then some p.value else inFile ps n := by
  by_cases h : p.name = n <;> simp [inFile, h]

theorem inFile_none {ν : Type} {ps : List (Par ν)} {n : CStr} (h : n ∉ ps.map (·.name)) :
    inFile ps n = none := by
  induction ps with
  | nil => rfl
  | cons p ps ih =>
    simp only [List.map_cons, List.mem_cons, not_or] at h
    rw [inFile_cons, if_neg (fun e => h.1 e.symm), ih h.2]

/-- Reading the parameter section. -/
theorem readParLines_spec {ν : Type} {C : Conv ν} (pars : List (Par ν)) {db : PDB ν}
    (hi : db.Inv C) {L : CStr} (hL : db.getsLax keepList = some L)
    (hself : getv L keepList = true) (hnd : (pars.map (·.name)).Nodup)
    (hp : ∀ p ∈ pars, Writable p ∧ translate p.value = p.value) (rest : CStr) {fuel : Nat}
    (hf : pars.length < fuel) :
    ∃ db', readParLines C fuel db (pars.flatMap parLine ++ ("$END_parameter_database\n".toList ++ rest)) =
        .ok (db', rest) ∧ db'.Inv C ∧
      ∀ n, db'.getsLax n = afterRead L pars n (db.getsLax n) := by
  induction pars generalizing db fuel with
  | nil =>
    obtain ⟨fuel, rfl⟩ : ∃ k, fuel = k + 1 := ⟨fuel - 1, by simp at hf; omega⟩
    have e : ([] : List (Par ν)).flatMap parLine ++ ("$END_parameter_database\n".toList ++ rest) =
        "$END_parameter_database".toList ++ '\n' :: rest := rfl
    refine ⟨db, ?_, hi, fun n => ?_⟩
    · rw [e, readParLines, fscanline_eq (by decide) (by decide) (by decide), Res.bind_ok]
      rfl
    · cases h : db.getsLax n <;> simp [afterRead, inFile]
  | cons p pars ih =>
    obtain ⟨fuel, rfl⟩ : ∃ k, fuel = k + 1 := ⟨fuel - 1, by simp at hf; omega⟩
    obtain ⟨hw, ht⟩ := hp p List.mem_cons_self
    have e : (p :: pars).flatMap parLine ++ ("$END_parameter_database\n".toList ++ rest) =
        (p.name ++ " = ".toList ++ p.value) ++
          '\n' :: (pars.flatMap parLine ++ ("$END_parameter_database\n".toList ++ rest)) := by
      simp [parLine]
    obtain ⟨hnl, hnul, hlen⟩ := hw.line
    obtain ⟨db1, h1, h2, h3⟩ := readParLine_spec hi hL hw ht
    have hL1 : db1.getsLax keepList = some L := by
      rw [h3, if_neg, hL]
      rintro ⟨-, -, h⟩
      rw [hself] at h; cases h
    rw [List.map_cons, List.nodup_cons] at hnd
    obtain ⟨db2, h4, h5, h6⟩ := ih h2 hL1 hnd.2 (fun q hq => hp q (List.mem_cons_of_mem _ hq))
      (fuel := fuel) (by simp at hf; omega)
    refine ⟨db2, ?_, h5, fun n => ?_⟩
    · rw [e, readParLines, fscanline_eq hnl hnul (by rw [hlen]; exact hw.short), Res.bind_ok]
      obtain ⟨k, hk⟩ : ∃ k, (p.name ++ " = ".toList ++ p.value).length = k + 1 :=
        ⟨p.name.length + 2 + p.value.length, by rw [hlen]; omega⟩
      simp only [hk]
      rw [if_neg, h1, Res.bind_ok, h4]
      intro heq
      have : '=' ∈ "$END_parameter_database".toList := by rw [← heq]; simp
      revert this; decide
    · rw [h6, h3]
      by_cases hn : n = p.name
      · subst hn
        cases hg : db.getsLax p.name with
        | none => simp [afterRead]
        | some v =>
          cases hk : getv L p.name <;>
            simp [afterRead, inFile_cons, inFile_none hnd.1, hk]
      · rw [if_neg (fun h => hn h.1)]
        cases db.getsLax n with
        | none => rfl
        | some v => simp only [afterRead, inFile_cons, if_neg (fun h => hn (Eq.symm h))]

theorem header_text {ν T : Type} (F : TimeFmt T) (nboxes : Int) (time : T) (it : Int)
    (pars : List (Par ν)) (tail lines : CStr)
    (hlines : lines = pars.flatMap parLine ++ ("$END_parameter_database\n".toList ++ '\n' :: tail)) :
    writeHeader F nboxes time it ++ writePars pars ++ tail =
    [] ++ ("$BEGIN_checkpoint_header:".toList ++ ' ' :: ([' '] ++ ("$bmin".toList ++ (" = ".toList ++
    (fmtInt 0 ++ ' ' :: ([',', ' '] ++ ("$bmax".toList ++ (" = ".toList ++ (fmtInt (nboxes - 1) ++
    ' ' :: ([',', ' '] ++ ("$time".toList ++ (" = ".toList ++ (F.fmtG time ++ ' ' :: ([',', ' '] ++
    ("$iteration".toList ++ (" = ".toList ++ (fmtInt it ++ '\n' :: (
    "$END_checkpoint_header".toList ++ '\n' :: (['\n'] ++ ("$BEGIN_parameter_database:".toList ++
    ' ' :: ([' '] ++ ("$number_of_parameters".toList ++ (" = ".toList ++
    (fmtInt pars.length ++ '\n' :: lines)))))))))))))))))))))))) := by
  have l1 : "$BEGIN_checkpoint_header:  ".toList =
    "$BEGIN_checkpoint_header:".toList ++ [' ', ' '] := by decide +kernel
  have l2 : "$bmin = ".toList = "$bmin".toList ++ " = ".toList := by decide +kernel
  have l3 : " , $bmax = ".toList = [' ', ',', ' '] ++ ("$bmax".toList ++ " = ".toList) := by decide +kernel
  have l4 : "$time = ".toList = "$time".toList ++ " = ".toList := by decide +kernel
  have l5 : "$iteration = ".toList = "$iteration".toList ++ " = ".toList := by decide +kernel
  have l6 : "$END_checkpoint_header\n\n".toList = "$END_checkpoint_header".toList ++ ['\n', '\n'] := by
    decide +kernel
  have l7 : "$BEGIN_parameter_database:  ".toList =
    "$BEGIN_parameter_database:".toList ++ [' ', ' '] := by decide +kernel
  have l8 : "$number_of_parameters = ".toList =
    "$number_of_parameters".toList ++ " = ".toList := by decide +kernel
  have l9 : "$END_parameter_database\n\n".toList = "$END_parameter_database\n".toList ++ ['\n'] := by
    decide +kernel
  have l10 : " , ".toList = [' ', ',', ' '] := by decide +kernel
  have l11 : "\n".toList = ['\n'] := by decide +kernel
  unfold writeHeader writePars
  rw [hlines, l1, l2, l3, l4, l5, l6, l7, l8, l9, l10, l11]
  clear l1 l2 l3 l4 l5 l6 l7 l8 l9 l10 l11 hlines
  generalize "$BEGIN_checkpoint_header:".toList = g0
  generalize "$bmin".toList = g1
  generalize " = ".toList = g2
  generalize "$bmax".toList = g3
  generalize "$time".toList = g4
  generalize "$iteration".toList = g5
  generalize "$END_checkpoint_header".toList = g6
  generalize "$BEGIN_parameter_database:".toList = g7
  generalize "$number_of_parameters".toList = g8
  generalize "$END_parameter_database\n".toList = g9
  simp only [List.append_assoc, List.cons_append, List.nil_append]

/-- C25: after writing a checkpoint and reading it into another data base, every parameter known
there that is in the file has the value of the file, unless it is on the list of parameters not
to be read; all other parameters are unchanged. Iteration number and time are what `atoi` and
`atof` make of the printed numbers. `tail` is the rest of the file. Both data bases are
reachable ones; the list names itself (it does by default). -/
theorem C25_roundtrip {ν T : Type} (C : Conv ν) (F : TimeFmt T) (opsW opsR : List ParOp)
    (dbW dbR : PDB ν) (hW : (PDB.init ν).run C opsW = .ok dbW)
    (hR : (PDB.init ν).run C opsR = .ok dbR) {L : CStr}
    (hL : dbR.getsLax keepList = some L) (hself : getv L keepList = true)
    (hp : ∀ p ∈ dbW.pars, Writable p) (nboxes : Int) (time : T) (it : Int)
    (hF : IsWord (F.fmtG time)) (tail : CStr) :
    ∃ db', readPars C F dbR (writeHeader F nboxes time it ++ writePars dbW.pars ++ tail) =
        .ok (db', F.atof (F.fmtG time), it, '\n' :: tail) ∧
      ∀ n, db'.getsLax n = afterRead L dbW.pars n (dbR.getsLax n) := by
  have iW := inv_of_run hW
  have iR := inv_of_run hR
  set lines := dbW.pars.flatMap parLine ++ ("$END_parameter_database\n".toList ++ '\n' :: tail) with hlines
  have e1 := header_text F nboxes time it dbW.pars tail lines hlines
  have skipComma : ∀ (par X : CStr), par.isPrefixOf [','] = false →
      fgetparameter (' ' :: ([',', ' '] ++ X)) par = fgetparameter (' ' :: X) par := by
    intro par X h
    exact fgetparameter_skip (sp := [' ']) (by decide) (w := [',']) (by decide) (c := ' ')
      (by decide) X h
  have hit : ∀ (par v X : CStr) (c : Char), IsWord par → IsWord v → isSpace c = true →
      fgetparameter (' ' :: (par ++ (" = ".toList ++ (v ++ c :: X)))) par = some (v, c :: X) := by
    intro par v X c h1 h2 h3
    exact fgetparameter_hit (sp := [' ']) (by decide) h1 h2 h3 X
  have hit2 : ∀ (par v X : CStr) (c : Char), IsWord par → IsWord v → isSpace c = true →
      fgetparameter (' ' :: ([' '] ++ (par ++ (" = ".toList ++ (v ++ c :: X))))) par =
        some (v, c :: X) := by
    intro par v X c h1 h2 h3
    exact fgetparameter_hit (sp := [' ', ' ']) (by decide) h1 h2 h3 X
  have wi := fmtInt_word
  have hgot : ∀ X : CStr, fgotonext ('\n' :: ("$END_checkpoint_header".toList ++ '\n' :: (['\n'] ++
      ("$BEGIN_parameter_database:".toList ++ ' ' :: X)))) "$BEGIN_parameter_database:".toList =
      some (' ' :: X) := by
    intro X
    have h1 := fgotonext_skip (sp := ['\n']) (by decide) (w := "$END_checkpoint_header".toList)
      (l := "$BEGIN_parameter_database:".toList) (by decide) (c := '\n') (by decide)
      (['\n'] ++ ("$BEGIN_parameter_database:".toList ++ ' ' :: X)) (by decide)
    rw [List.singleton_append] at h1
    rw [h1]
    exact fgotonext_hit (sp := ['\n', '\n']) (by decide) (w := "$BEGIN_parameter_database:".toList)
      (by decide) (c := ' ') (by decide) X
  obtain ⟨db', h1, -, h3⟩ := readParLines_spec dbW.pars iR hL hself iW.nodup
    (fun p hp' => ⟨hp p hp', reachable_translated C opsW dbW hW p hp'⟩) ('\n' :: tail)
    (fuel := ('\n' :: lines).length) (by
      have : ∀ l : List (Par ν), l.length ≤ (l.flatMap parLine).length := by
        intro l
        induction l with
        | nil => simp
        | cons p l ih => simp [parLine] at ih ⊢; omega
      have := this dbW.pars
      simp only [hlines, List.length_cons, List.length_append]; omega)
  refine ⟨db', ?_, h3⟩
  have hlast : readParLines C (('\n' :: lines).length + 1) dbR ('\n' :: lines) =
      .ok (db', '\n' :: tail) := by
    rw [readParLines]
    have := fscanline_eq (size := bufSize) (l := []) (by simp) (by simp) (by decide) lines
    rw [List.nil_append] at this
    rw [this, Res.bind_ok]
    exact h1
  rw [e1, readPars, fgotonext_hit (by decide) (by decide) (by decide)]
  simp only
  rw [hit2 "$bmin".toList (fmtInt 0) _ ' ' (by decide) (wi 0) (by decide)]
  simp only [Option.getD_some]
  rw [skipComma "$bmax".toList _ (by decide),
    hit "$bmax".toList (fmtInt (nboxes - 1)) _ ' ' (by decide) (wi _) (by decide)]
  simp only [Option.getD_some]
  rw [skipComma "$time".toList _ (by decide),
    hit "$time".toList (F.fmtG time) _ ' ' (by decide) hF (by decide)]
  simp only [Option.getD_some]
  rw [skipComma "$iteration".toList _ (by decide),
    hit "$iteration".toList (fmtInt it) _ '\n' (by decide) (wi _) (by decide)]
  simp only [Option.getD_some]
  rw [hgot]
  simp only
  rw [hit2 "$number_of_parameters".toList (fmtInt dbW.pars.length) _ '\n' (by decide) (wi _)
    (by decide)]
  simp only [Option.getD_some]
  rw [hlast, Res.bind_ok, atoi_fmtInt]

theorem updateLine_spec {ν : Type} {C : Conv ν} {db : PDB ν} (hi : db.Inv C) {p : Par ν}
    (hp : Writable p) (ht : translate p.value = p.value) :
    ∃ db', updateLine C db (p.name ++ " = ".toList ++ p.value) = .ok db' ∧ db'.Inv C ∧
      ∀ n, db'.getsLax n = if n = p.name ∧ (db.getsLax n).isSome
        then some p.value else db.getsLax n := by
  unfold updateLine
  simp only [beforeAfterEQ_line hp.noEq, sscanWord_name hp.name]
  cases hc : db.getsLax p.name with
  | none =>
    refine ⟨db, rfl, hi, fun n => ?_⟩
    by_cases hn : n = p.name
    · subst hn; simp [hc]
    · simp [hn]
  | some cur =>
    simp only
    by_cases hv : p.value = cur
    · rw [if_neg (by simpa using hv)]
      refine ⟨db, rfl, hi, fun n => ?_⟩
      by_cases hn : n = p.name
      · subst hn; simp [hc, hv]
      · simp [hn]
    · rw [if_pos (by simpa using hv)]
      unfold PDB.getsLax at hc
      cases hf : db.find p.name with
      | none => rw [hf] at hc; cases hc
      | some q =>
        obtain ⟨db', h1, h2, -, h4⟩ := PDB.set_spec (v := p.value) hi hf
        refine ⟨db', h1, h2, fun n => ?_⟩
        unfold PDB.getsLax
        rw [h4 n]
        by_cases hn : n = p.name
        · subst hn; simp [hf, mkPar, ht]
        · simp [hn]

theorem updatePars_spec {ν : Type} {C : Conv ν} (pars : List (Par ν)) {db : PDB ν}
    (hi : db.Inv C) (hnd : (pars.map (·.name)).Nodup)
    (hp : ∀ p ∈ pars, Writable p ∧ translate p.value = p.value) {fuel : Nat}
    (hf : pars.length < fuel) :
    ∃ db', updatePars C fuel db (writeCurrentPars pars) = .ok db' ∧
      ∀ n, db'.getsLax n = (db.getsLax n).map fun v => (inFile pars n).getD v := by
  induction pars generalizing db fuel with
  | nil =>
    obtain ⟨fuel, rfl⟩ : ∃ k, fuel = k + 1 := ⟨fuel - 1, by simp at hf; omega⟩
    refine ⟨db, rfl, fun n => ?_⟩
    cases db.getsLax n <;> rfl
  | cons p pars ih =>
    obtain ⟨fuel, rfl⟩ : ∃ k, fuel = k + 1 := ⟨fuel - 1, by simp at hf; omega⟩
    obtain ⟨hw, ht⟩ := hp p List.mem_cons_self
    have e : writeCurrentPars (p :: pars) =
        (p.name ++ " = ".toList ++ p.value) ++ '\n' :: writeCurrentPars pars := by
      simp [parLine, writeCurrentPars]
    obtain ⟨hnl, hnul, hlen⟩ := hw.line
    obtain ⟨db1, h1, h2, h3⟩ := updateLine_spec hi hw ht
    rw [List.map_cons, List.nodup_cons] at hnd
    obtain ⟨db2, h4, h6⟩ := ih h2 hnd.2 (fun q hq => hp q (List.mem_cons_of_mem _ hq))
      (fuel := fuel) (by simp at hf; omega)
    refine ⟨db2, ?_, fun n => ?_⟩
    · rw [e, updatePars, fscanline_eq hnl hnul (by rw [hlen]; exact hw.short), Res.bind_ok]
      obtain ⟨k, hk⟩ : ∃ k, (p.name ++ " = ".toList ++ p.value).length = k + 1 :=
        ⟨p.name.length + 2 + p.value.length, by rw [hlen]; omega⟩
      simp only [hk]
      rw [h1, Res.bind_ok, h4]
    · rw [h6, h3]
      by_cases hn : n = p.name
      · subst hn
        cases hg : db.getsLax p.name with
        | none => simp
        | some v => simp [inFile_cons, inFile_none hnd.1]
      · rw [if_neg (fun h => hn h.1), inFile_cons, if_neg (fun h => hn (Eq.symm h))]

/-- C25 for parameterio: reading the file written by parameterio_write_current_pars into another
data base sets every parameter known there to its value in the file. -/
theorem C25_update {ν : Type} (C : Conv ν) (opsW opsR : List ParOp)
    (dbW dbR : PDB ν) (hW : (PDB.init ν).run C opsW = .ok dbW)
    (hR : (PDB.init ν).run C opsR = .ok dbR) (hp : ∀ p ∈ dbW.pars, Writable p)
    {fuel : Nat} (hf : (writeCurrentPars dbW.pars).length < fuel) :
    ∃ db', updatePars C fuel dbR (writeCurrentPars dbW.pars) = .ok db' ∧
      ∀ n, db'.getsLax n = (dbR.getsLax n).map fun v => (inFile dbW.pars n).getD v := by
  have hl : ∀ l : List (Par ν), l.length ≤ (l.flatMap parLine).length := by
    intro l
    induction l with
    | nil => simp
    | cons p l ih => simp [parLine] at ih ⊢; omega
  have := hl dbW.pars
  unfold writeCurrentPars at hf
  exact updatePars_spec dbW.pars (inv_of_run hR) (inv_of_run hW).nodup
    (fun p hp' => ⟨hp p hp', reachable_translated C opsW dbW hW p hp'⟩) (by omega)

/-- C25 fails if the list of parameters not to be read does not name itself: the list is then
replaced while the file is being read, and a parameter on the new list is overwritten. -/
theorem C25_list_not_listed_counterexample :
    let wr := [mkPar exConv keepList "".toList [], mkPar exConv "finaltime".toList "10".toList []]
    let rd : PDB Int := ⟨[mkPar exConv keepList "finaltime".toList [],
      mkPar exConv "finaltime".toList "20".toList []], 0⟩
    getv "finaltime".toList "finaltime".toList = true ∧
    (readParLines exConv 9 rd (wr.flatMap parLine ++ "$END_parameter_database\n".toList)).map
      (fun r => r.1.getsLax "finaltime".toList) = .ok (some "10".toList) := by
  decide +kernel

example : (updatePars exConv 30 ⟨[mkPar exConv "outdir".toList "new".toList [],
      mkPar exConv "dt".toList "0.1".toList []], 0⟩
    (writeCurrentPars [mkPar exConv "dt".toList " a = b ".toList [],
      mkPar exConv "gone".toList "1".toList []])).map
    (fun d => (d.getsLax "outdir".toList, d.getsLax "dt".toList)) =
    .ok (some "new".toList, some " a = b ".toList) := by decide +kernel

/-- A data base and a file for an example. -/
def exRead : Res (PDB Int × Nat × Int × CStr) :=
  readPars exConv ⟨fun _ => "0.5".toList, fun s => s.length⟩
    ⟨[mkPar exConv keepList (keepList ++ " outdir".toList) [],
      mkPar exConv "outdir".toList "new".toList [],
      mkPar exConv "dt".toList "0.1".toList []], 0⟩
    (writeHeader ⟨fun _ : Nat => "0.5".toList, fun s => s.length⟩ 3 7 12 ++
      writePars [mkPar exConv "outdir".toList "old".toList [],
        mkPar exConv "dt".toList " a = b ".toList [],
        mkPar exConv "gone".toList "1".toList []] ++ "tail".toList)

example : exRead.map (fun r => (r.1.getsLax "outdir".toList, r.1.getsLax "dt".toList,
    r.1.getsLax "gone".toList)) =
    .ok (some "new".toList, some " a = b ".toList, none) := by decide +kernel
example : exRead.map (fun r => (r.2.1, r.2.2)) = .ok (3, 12, "\ntail".toList) := by decide +kernel

end Sgrid
