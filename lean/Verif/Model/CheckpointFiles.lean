import Verif.Model.Basic

/-!
# Files and directories during checkpointing

The file system as far as checkpointing uses it: the output directory `outdir` and
`outdir_previous`. Every system call is one atomic step; a crash stops the program between two
steps. Not modelled: the parameters `checkpoint_indir` and `checkpoint_outdir` (empty by default),
more than one MPI process, sub-directories, and file systems that lose data after a crash.
-/

namespace Sgrid

/-- Files in an output directory: the checkpoint `checkpoint.0`
(src/utility/checkpoint/checkpoint.c:121-123), the file `checkpoint.0_new` it is first written to
(src/utility/checkpoint/checkpoint_write.c:28-30), and any other file, by number. -/
inductive FName where
  | ckpt
  | ckptNew
  | other (n : Nat)
  deriving DecidableEq, Repr

/-- A directory: the content of every file in it. -/
abbrev Dir := FName → Option CStr

/-- The directory without files. -/
def Dir.empty : Dir := fun _ => none

/-- Set or remove a file. -/
def Dir.put (d : Dir) (f : FName) (c : Option CStr) : Dir := fun g => if g = f then c else d g

/-- `outdir` and `outdir_previous`. -/
structure FS where
  cur : Option Dir
  prev : Option Dir

/-- The system calls, each atomic.
`writeOpen`/`writeChunk`: src/utility/checkpoint/checkpoint_write.c:39,44;
`writeMove`: src/utility/checkpoint/checkpoint_write.c:55-60;
`rmFile`/`rmDir`: src/main/main/utilities.c:317-359;
`mvCurPrev`: src/main/main/main.c:306; `mkCur`: src/main/main/main.c:310;
`mvPrevCur`, `cpOpen`, `cpChunk`: src/utility/checkpoint/checkpoint.c:214-218;
`output`: output functions write other files into `outdir`. -/
inductive FOp where
  | writeOpen
  | writeChunk (s : CStr)
  | writeMove
  | rmFile (previous : Bool) (f : FName)
  | rmDir (previous : Bool)
  | mvCurPrev
  | mkCur
  | mvPrevCur
  | cpOpen (f : FName)
  | cpChunk (f : FName) (s : CStr)
  | output (n : Nat) (s : CStr)

/-- `rmdir` succeeds only on an empty directory. -/
noncomputable def rmEmpty (d : Option Dir) : Option Dir :=
  open Classical in
  match d with
  | none => none
  | some d => if ∀ f, d f = none then none else some d

/-- `rename(from, to)` of directories: fails, without effect, if `from` does not exist or `to` is a
directory with files. Result: new `(from, to)`. -/
noncomputable def renameDir (src dst : Option Dir) : Option Dir × Option Dir :=
  open Classical in
  match src with
  | none => (none, dst)
  | some d => if rmEmpty dst = none then (none, some d) else (some d, dst)

/-- Effect of a system call. A call that fails changes nothing: the code only prints a warning
(src/main/main/utilities.c:404). -/
noncomputable def FS.step (fs : FS) : FOp → FS
  | .writeOpen => { fs with cur := fs.cur.map fun d => d.put .ckptNew (some []) }
  | .writeChunk s =>
    { fs with cur := fs.cur.map fun d => d.put .ckptNew ((d .ckptNew).map (· ++ s)) }
  | .writeMove =>
    { fs with cur := fs.cur.map fun d =>
        match d .ckptNew with
        | none => d
        | some c => (d.put .ckpt (some c)).put .ckptNew none }
  | .rmFile false f => { fs with cur := fs.cur.map fun d => d.put f none }
  | .rmFile true f => { fs with prev := fs.prev.map fun d => d.put f none }
  | .rmDir false => { fs with cur := rmEmpty fs.cur }
  | .rmDir true => { fs with prev := rmEmpty fs.prev }
  | .mvCurPrev => ⟨(renameDir fs.cur fs.prev).1, (renameDir fs.cur fs.prev).2⟩
  | .mkCur => { fs with cur := some (fs.cur.getD Dir.empty) }
  | .mvPrevCur => ⟨(renameDir fs.prev fs.cur).2, (renameDir fs.prev fs.cur).1⟩
  | .cpOpen f => { fs with cur := some ((fs.cur.getD Dir.empty).put f (some [])) }
  | .cpChunk f s => { fs with cur := fs.cur.map fun d => d.put f ((d f).map (· ++ s)) }
  | .output n s => { fs with cur := fs.cur.map fun d => d.put (.other n) (some s) }

/-- A sequence of system calls. -/
noncomputable def FS.run (fs : FS) (ops : List FOp) : FS := ops.foldl FS.step fs

/-- Content of a file in a directory that may be missing. -/
def fileIn (d : Option Dir) (f : FName) : Option CStr := d.bind fun d => d f

/-- System calls of `checkpoint_write` (src/utility/checkpoint/checkpoint_write.c:21-67): open the
new file, write the text in pieces, and move the new file over the old one. Simplified: the
results of `fprintf`, `fwrite` and `fclose` are not checked by the code, and here they succeed (see
`C24_disk_full_counterexample`). -/
def writeOps (chunks : List CStr) : List FOp :=
  .writeOpen :: chunks.map FOp.writeChunk ++ [.writeMove]

/-- System calls of `remove_dir` (src/main/main/utilities.c:317-359); `ord`: the files in the order
in which `readdir` returns them. -/
def removeOps (previous : Bool) (ord : List FName) : List FOp :=
  ord.map (FOp.rmFile previous) ++ [.rmDir previous]

/-- System calls of `make_output_directory` without the option `--keep_previous`
(src/main/main/main.c:265-312). The code aborts, without a system call, if there is a checkpoint in
`outdir_previous` but not in `outdir` (lines 296-301). -/
def startOps (fs : FS) (ord : List FName) : List FOp :=
  if (fileIn fs.prev .ckpt).isSome ∧ (fileIn fs.cur .ckpt).isNone then []
  else removeOps true ord ++ [.mvCurPrev, .mkCur]

/-- `checkpoint_copy_output` (src/utility/checkpoint/checkpoint.c:194-220) if `checkpoint_previous`
is `no` and `--keep_previous` is not given. -/
def moveBackOps (ord : List FName) : List FOp := removeOps false ord ++ [.mvPrevCur]

/-- `checkpoint_copy_output` (src/utility/checkpoint/checkpoint.c:194-220) if `checkpoint_previous`
is not `no`: `files` are the files of `outdir_previous` with the pieces in which `cp -pr` copies
them. -/
def copyBackOps (ord : List FName) (files : List (FName × List CStr)) : List FOp :=
  removeOps false ord ++
    files.flatMap fun fc => .cpOpen fc.1 :: fc.2.map (FOp.cpChunk fc.1)

/-- What a run does after the restart or, if there is nothing to restart from, from the beginning:
checkpoints and other output. -/
inductive Work where
  | checkpoint (chunks : List CStr)
  | output (n : Nat) (s : CStr)

/-- System calls of `Work`. -/
def workOps : Work → List FOp
  | .checkpoint chunks => writeOps chunks
  | .output n s => [.output n s]

/-- Everything about a run that is not determined by the file system: the order in which the
directories are read when they are removed, the output before the restart, the work afterwards, and
the number of system calls after which the run crashes (a large number: it does not crash). -/
structure RunData where
  ord1 : List FName
  ord2 : List FName
  before : List (Nat × CStr)
  work : List Work
  crash : Nat

/-- System calls of a run of the program with checkpointing on, `checkpoint_previous` `no` and
without `--keep_previous`: `make_output_directory` (src/main/main/main.c:265-312; nothing follows if
it aborts), `checkpoint_checkifrestart` (src/utility/checkpoint/checkpoint.c:177-190): if there is
a checkpoint in `outdir_previous`, no checkpoint is written until `checkpoint`
(src/utility/checkpoint/checkpoint.c:35-66) has moved the old output back. -/
noncomputable def runOps (fs : FS) (r : RunData) : List FOp :=
  if (fileIn fs.prev .ckpt).isSome ∧ (fileIn fs.cur .ckpt).isNone then []
  else
    startOps fs r.ord1 ++
      if (fileIn (fs.run (startOps fs r.ord1)).prev .ckpt).isSome then
        r.before.map (fun o => FOp.output o.1 o.2) ++ moveBackOps r.ord2 ++
          r.work.flatMap workOps
      else r.work.flatMap workOps

/-- The file system after a run. -/
noncomputable def FS.afterRun (fs : FS) (r : RunData) : FS :=
  fs.run ((runOps fs r).take r.crash)

end Sgrid
